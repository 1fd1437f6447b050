import Verif.Proofs.Drain

/-! C124: programs can empty an order group. -/

namespace Ecs.Props
open Ecs Ecs.Spec

variable {U : Universe} {dbg : Bool} {cap : Nat} {h : List Event} {s : Store} {g : Nat}

/-- **C124**: taking the first member out of a group as long as there is one, and walking along the group and taking every member out (asking
for the next one before), both return, after any history, with the same store: the group is empty and nothing else has changed. -/
theorem C124_take_out (hx : LooseExec U dbg cap h s) {fuel : Nat} (hf : (sequence g h).length ≤ fuel) :
    ∃ s', emptyOut (fun s e => s.removeOrder g e) g fuel s = .ok s' ∧
      (do emptyAlong (fun s e => s.removeOrder g e) g fuel (← s.getFirstOrdered g) s) = .ok s' ∧ Rearranged U dbg cap h s g [] s' := by
  obtain ⟨s', h1, h2, h3, h4⟩ := drain_unordered _ h s fuel rfl hf hx
  refine ⟨s', h1, ?_, rearranged_of hx h3 (unordered_alive g _ h) (drained_empty _ h rfl) (fun g' hg => unordered_other hg _ h) h4⟩
  rw [(C41_group_is_sequence hx g).2.2.1, ok_bind, h2]

/-- **C124**: moving the first member of a group to the end of another one, as long as there is one, returns after any history if the two
groups have no member in common. Afterwards the first group is empty, the second one has the members of the first one at its end, in the
same order, and nothing else has changed. -/
theorem C124_move_over (hx : LooseExec U dbg cap h s) {g' : Nat} (hg : g' ≠ g) (hn : ∀ e ∈ sequence g h, e ∉ sequence g' h) {fuel : Nat}
    (hf : (sequence g h).length ≤ fuel) :
    ∃ s', moveOver dbg g g' fuel s = .ok s' ∧
      HasGroups h s' (fun k => if k = g then [] else if k = g' then sequence g' h ++ sequence g h else sequence k h) ∧
      { s' with orders := s.orders } = s := by
  obtain ⟨s', h', h1, h2, h3, h4, h5, h6, h7⟩ := moveOver_run hg _ h s fuel rfl hn hf hx
  refine ⟨s', h1, fun k => ?_, h7⟩
  have hk : sequence k h' = if k = g then [] else if k = g' then sequence g' h ++ sequence g h else sequence k h := by
    by_cases e1 : k = g
    · rw [if_pos e1, e1, h4]
    · rw [if_neg e1]
      by_cases e2 : k = g'
      · rw [if_pos e2, e2, h5]
      · rw [if_neg e2, h6 k e1 e2]
  obtain ⟨-, -, k1, k2, k3, k4⟩ := C41_group_is_sequence h2 k
  rw [hk] at k1 k2 k3 k4
  rw [h3] at k3 k4
  exact ⟨k1, k2, fun e he => ⟨k3 e he, k4 e he⟩⟩

/-- **C124**, for `Exec`: destroying the first member of a group as long as there is one, and walking along the group and destroying every
member (asking for the next one before), both return with the same store, in which exactly the members are dead. (Missing: as for C123.) -/
theorem C124_destroy_members_partial (hx : Exec U dbg cap h s) {fuel : Nat} (hf : (sequence g h).length ≤ fuel) :
    ∃ s', emptyOut (fun s e => s.destroyEntity dbg e) g fuel s = .ok s' ∧
      (do emptyAlong (fun s e => s.destroyEntity dbg e) g fuel (← s.getFirstOrdered g) s) = .ok s' ∧
      Without U dbg h s (sequence g h) s' := by
  obtain ⟨s', h1, h2, h3⟩ := drain_destroyed _ h s fuel rfl hf hx
  refine ⟨s', h1, ?_, without_of hx h3⟩
  rw [(C41_group_is_sequence hx.loose g).2.2.1, ok_bind, h2]

/-- **C124**, after any history: if one of the two programs that destroy the members returns, exactly the members are dead, the tags of the
others are unchanged, and the other groups are what is left of them. -/
theorem C124_destroy_members_returned (hx : LooseExec U dbg cap h s) {fuel : Nat} (hf : (sequence g h).length ≤ fuel) {s' : Store}
    (hs : emptyOut (fun s e => s.destroyEntity dbg e) g fuel s = .ok s' ∨
      (do emptyAlong (fun s e => s.destroyEntity dbg e) g fuel (← s.getFirstOrdered g) s) = .ok s') :
    Gone dbg h s (sequence g h) s' := by
  rw [(C41_group_is_sequence hx g).2.2.1, ok_bind] at hs
  exact gone_of hx (drain_loose _ h s s' fuel rfl hf hx hs)

/-- **C124**: a member that was taken out or destroyed has no next one, after any history; so a program that asks for the next member
after the call stops at the first member, whatever the length of the group. -/
theorem C124_asking_later (hx : LooseExec U dbg cap h s) {e : Entity} (he : e ∈ alive h) (fuel : Nat) :
    (∃ s', s.removeOrder g e = .ok s' ∧ emptyAsking (fun s e => s.removeOrder g e) g (fuel + 1) (some e) s = .ok s') ∧
    ∀ s', s.destroyEntity dbg e = .ok s' → emptyAsking (fun s e => s.destroyEntity dbg e) g (fuel + 1) (some e) s = .ok s' := by
  have hd : ∀ s', emptyAsking (fun s e => s.removeOrder g e) g fuel none s' = .ok s' := fun s' => by cases fuel <;> rfl
  have hd' : ∀ s', emptyAsking (fun s e => s.destroyEntity dbg e) g fuel none s' = .ok s' := fun s' => by cases fuel <;> rfl
  have hn := (C41_group_is_sequence hx g).1
  constructor
  · obtain ⟨s', h1, hx1⟩ := (C41_calls_return hx g he).2.2.2
    refine ⟨s', h1, ?_⟩
    have h2 := (C41_group_is_sequence hx1 g).2.2.2.2.1 e he
    rw [show sequence g (.unordered g e :: h) = (sequence g h).erase e from if_pos rfl,
      follower_none fun hm => ((List.Nodup.mem_erase_iff hn).1 hm).1 rfl] at h2
    simp only [emptyAsking, h1, ok_bind, h2, hd]
  · intro s' h1
    have hx1 : LooseExec U dbg cap (.destroyed e :: h) s' := .step _ hx (by rw [alive_eq] at he; exact he) h1
    have hh : e ∈ handles (.destroyed e :: h) := by
      rw [alive_eq] at he
      have := (loose_core hx).ents.sub e he
      rw [← handles_eq] at this
      exact this
    have h2 := (C64_groups_are_id_sequences (loose_is_stray hx1) g).2.2.2.2.1 e hh
    have hn := (C64_groups_are_id_sequences (loose_is_stray hx) g).1
    rw [show idSequence g (.destroyed e :: h) = (idSequence g h).erase e.id from rfl,
      follower_none fun hm => ((List.Nodup.mem_erase_iff hn).1 hm).1 rfl, Option.bind_none] at h2
    simp only [emptyAsking, h1, ok_bind, h2, hd']

/-! ### Examples -/

/-- A group of three and a fourth entity; two of the members are in another group together with it. -/
def family : List Event :=
  [.orderedLast 5 ⟨1, 1⟩, .orderedLast 5 ⟨3, 1⟩, .orderedLast 5 ⟨0, 1⟩, .orderedLast 3 ⟨2, 1⟩, .orderedLast 3 ⟨1, 1⟩, .orderedLast 3 ⟨0, 1⟩,
   .added ⟨3, 1⟩ [(4, [13])], .added ⟨1, 1⟩ [(4, [11])], .added ⟨0, 1⟩ [(4, [10])],
   .created ⟨3, 1⟩, .created ⟨2, 1⟩, .created ⟨1, 1⟩, .created ⟨0, 1⟩]

/-- The hypotheses of the theorems, and what the programs do; the last one leaves two of the three members. -/
example : ∃ s s' s'' t, Exec demo true 1 family s ∧ (sequence 3 family).length ≤ 3 ∧ ⟨0, 1⟩ ∈ alive family ∧
    emptyOut (fun s e => s.destroyEntity true e) 3 3 s = .ok s' ∧ s'.getFirstOrdered 3 = .ok none ∧ s'.getFirstOrdered 5 = .ok (some ⟨3, 1⟩) ∧
    s'.getLastOrdered 5 = .ok (some ⟨3, 1⟩) ∧ s'.getComponents demo true ⟨3, 1⟩ [4] = .ok (some [[some 13]]) ∧
    emptyOut (fun s e => s.removeOrder 3 e) 3 3 s = .ok s'' ∧ s''.getFirstOrdered 3 = .ok none ∧ s''.getFirstOrdered 5 = .ok (some ⟨0, 1⟩) ∧
    emptyAsking (fun s e => s.destroyEntity true e) 3 3 (some ⟨0, 1⟩) s = .ok t ∧ t.getFirstOrdered 3 = .ok (some ⟨1, 1⟩) := by
  have h : ((runExec demo true 1 family).any fun s => okAnd (emptyOut (fun s e => s.destroyEntity true e) 3 3 s) fun s' =>
      decide (s'.getFirstOrdered 3 = .ok none ∧ s'.getFirstOrdered 5 = .ok (some ⟨3, 1⟩) ∧ s'.getLastOrdered 5 = .ok (some ⟨3, 1⟩) ∧
        s'.getComponents demo true ⟨3, 1⟩ [4] = .ok (some [[some 13]])) &&
      (okAnd (emptyOut (fun s e => s.removeOrder 3 e) 3 3 s) (fun s'' => decide (s''.getFirstOrdered 3 = .ok none ∧
        s''.getFirstOrdered 5 = .ok (some ⟨0, 1⟩))) &&
      okAnd (emptyAsking (fun s e => s.destroyEntity true e) 3 3 (some ⟨0, 1⟩) s) fun t =>
        decide (t.getFirstOrdered 3 = .ok (some ⟨1, 1⟩)))) = true := by decide
  obtain ⟨s, hs, h⟩ := any_some h
  obtain ⟨s', h1, h⟩ := okAnd_iff h
  simp only [Bool.and_eq_true, decide_eq_true_eq] at h
  obtain ⟨⟨h2, h3, h4, h5⟩, h6, h7⟩ := h
  obtain ⟨s'', h6, h8⟩ := okAnd_iff h6
  obtain ⟨t, h7, h9⟩ := okAnd_iff h7
  simp only [decide_eq_true_eq] at h8 h9
  exact ⟨s, s', s'', t, runExec_sound hs, by decide, by decide, h1, h2, h3, h4, h5, h6, h8.1, h8.2, h7, h9⟩

/-- The hypotheses of `C124_move_over`, with another group of the same members, and what the program does. -/
example : ∃ s s', LooseExec demo true 1 (.orderedLast 9 ⟨3, 1⟩ :: family) s ∧ (3 : Nat) ≠ 9 ∧
    (∀ e ∈ sequence 3 (.orderedLast 9 ⟨3, 1⟩ :: family), e ∉ sequence 9 (.orderedLast 9 ⟨3, 1⟩ :: family)) ∧
    moveOver true 3 9 3 s = .ok s' ∧ s'.getFirstOrdered 3 = .ok none ∧ s'.getFirstOrdered 9 = .ok (some ⟨3, 1⟩) ∧
    s'.getNextOrdered 9 ⟨3, 1⟩ = .ok (some ⟨0, 1⟩) ∧ s'.getLastOrdered 9 = .ok (some ⟨2, 1⟩) := by
  have h : ((runExec demo true 1 (.orderedLast 9 ⟨3, 1⟩ :: family)).any fun s => okAnd (moveOver true 3 9 3 s) fun s' =>
      decide (s'.getFirstOrdered 3 = .ok none ∧ s'.getFirstOrdered 9 = .ok (some ⟨3, 1⟩) ∧ s'.getNextOrdered 9 ⟨3, 1⟩ = .ok (some ⟨0, 1⟩) ∧
        s'.getLastOrdered 9 = .ok (some ⟨2, 1⟩))) = true := by decide
  obtain ⟨s, hs, h⟩ := any_some h
  obtain ⟨s', h1, h⟩ := okAnd_iff h
  simp only [decide_eq_true_eq] at h
  exact ⟨s, s', (runExec_sound hs).loose, by decide, by decide, h1, h⟩

end Ecs.Props
