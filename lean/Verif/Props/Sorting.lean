import Verif.Proofs.Sorting
import Verif.Spec.Run

/-! C122: programs can bring order groups into any order and keep them sorted. -/

namespace Ecs.Props
open Ecs Ecs.Spec

variable {U : Universe} {dbg : Bool} {cap : Nat} {h : List Event} {s : Store} {g : Nat}

/-- **C122**: after any history, for every sequence of different live entities, taking each in turn out of a group and putting it at the
end always returns; afterwards the group consists of its other members, in their order, and then of the sequence. Nothing else has
changed. -/
theorem C122_rearrange (hx : LooseExec U dbg cap h s) {l : List Entity} (hn : l.Nodup) (hl : ∀ e ∈ l, e ∈ alive h) :
    ∃ s', rearrange dbg g l s = .ok s' ∧ Rearranged U dbg cap h s g ((sequence g h).filter (· ∉ l) ++ l) s' := by
  obtain ⟨s', h1, h2, h3⟩ := rearrange_run (g := g) l h s hx hl
  exact ⟨s', h1, rearranged_of hx h2 (moves_alive l h) (moves_sequence l hn h (C41_group_is_sequence hx g).1)
    (fun g' hg => moves_other hg l h) h3⟩

/-- **C122**: so the members of a group can be brought into every order. -/
theorem C122_any_order (hx : LooseExec U dbg cap h s) {l : List Entity} (hl : l.Perm (sequence g h)) :
    ∃ s', rearrange dbg g l s = .ok s' ∧ Rearranged U dbg cap h s g l s' := by
  obtain ⟨h1, h2, -⟩ := C41_group_is_sequence hx g
  obtain ⟨s', h3, h4⟩ := C122_rearrange (g := g) hx (hl.nodup_iff.2 h1) fun e he => h2 e (hl.mem_iff.1 he)
  have : (sequence g h).filter (· ∉ l) = [] := List.filter_eq_nil_iff.2 fun e he => by simp [hl.mem_iff, he]
  rw [this] at h4
  exact ⟨s', h3, h4⟩

/-- **C122**: looking for the place of a new member along the links always returns, if as many steps are allowed as there are members and
one more. The new member comes after all members in front of the first one with a larger key, whether or not the group was sorted. -/
theorem C122_insert (hx : LooseExec U dbg cap h s) (key : Entity → Nat) {e : Entity} (he : e ∈ alive h) (hn : e ∉ sequence g h) {fuel : Nat}
    (hf : (sequence g h).length < fuel) :
    ∃ s', insertSorted dbg s g key e fuel = .ok s' ∧
      Rearranged U dbg cap h s g ((sequence g h).takeWhile (fun x => decide (key x ≤ key e)) ++
        e :: (sequence g h).dropWhile fun x => decide (key x ≤ key e)) s' := by
  obtain ⟨h1, h2, h3, _, h5, _⟩ := C41_group_is_sequence hx g
  have hfind := findLarger_run (fun a ha => h5 a (h2 a ha)) h1 key (key e) (sequence g h) [] fuel rfl hf
  obtain ⟨c1, _, c3, _⟩ := C41_calls_return hx g he
  generalize hd : (sequence g h).dropWhile (fun x => decide (key x ≤ key e)) = d at hfind ⊢
  have hsplit : sequence g h = (sequence g h).takeWhile (fun x => decide (key x ≤ key e)) ++ d := by
    rw [← hd, List.takeWhile_append_dropWhile]
  cases d with
  | nil =>
    obtain ⟨s', hc, hx'⟩ := c1 hn
    refine ⟨s', ?_, rearranged_of hx hx' rfl ?_ (fun g' hg => ?_) ?_⟩
    · unfold insertSorted
      simp only [h3, ok_bind, hfind, List.head?_nil, hc]
    · simp only [sequence, if_true]
      rw [List.append_nil] at hsplit
      rw [← hsplit]
    · simp [sequence, Ne.symm hg]
    · unfold Store.addOrder at hc
      obtain ⟨o, _, hc⟩ := bind_eq_ok.1 hc
      cases hc
      rfl
  | cons x d =>
    have hxm : x ∈ sequence g h := by rw [hsplit]; simp
    obtain ⟨s', hc, hx'⟩ := c3 x hxm hn
    refine ⟨s', ?_, rearranged_of hx hx' rfl ?_ (fun g' hg => ?_) ?_⟩
    · unfold insertSorted
      simp only [h3, ok_bind, hfind, List.head?_cons, hc]
    · simp only [sequence, if_true]
      refine insertBefore_at hsplit fun hm => ?_
      rw [hsplit, List.nodup_append] at h1
      exact h1.2.2 x hm x List.mem_cons_self rfl
    · simp [sequence, Ne.symm hg]
    · unfold Store.addOrderPreviousTo at hc
      obtain ⟨o, _, hc⟩ := bind_eq_ok.1 hc
      cases hc
      rfl

/-- **C122**: so a sorted group stays sorted, and has just the new member in addition. -/
theorem C122_stays_sorted (hx : LooseExec U dbg cap h s) (key : Entity → Nat) {e : Entity} (he : e ∈ alive h) (hn : e ∉ sequence g h)
    {fuel : Nat} (hf : (sequence g h).length < fuel) (hs : SortedBy key (sequence g h)) :
    ∃ s' l, insertSorted dbg s g key e fuel = .ok s' ∧ Rearranged U dbg cap h s g l s' ∧ SortedBy key l ∧ l.Perm (e :: sequence g h) := by
  obtain ⟨s', h1, h2⟩ := C122_insert hx key he hn hf
  refine ⟨s', _, h1, h2, sorted_insert hs, ?_⟩
  refine List.perm_middle.trans (List.Perm.cons e ?_)
  rw [List.takeWhile_append_dropWhile]

/-! ### Examples -/

/-- Three entities, two of them in group 7; group 8 has another order. -/
def queue : List Event :=
  [.orderedLast 8 ⟨0, 1⟩, .orderedLast 8 ⟨2, 1⟩, .orderedLast 7 ⟨2, 1⟩, .orderedLast 7 ⟨0, 1⟩, .created ⟨2, 1⟩, .created ⟨1, 1⟩, .created ⟨0, 1⟩]

/-- The hypotheses of `C122_any_order` and `C122_stays_sorted`. -/
example : ∃ s, LooseExec demo true 1 queue s ∧ [⟨2, 1⟩, ⟨0, 1⟩].Perm (sequence 7 queue) ∧ ⟨1, 1⟩ ∈ alive queue ∧ ⟨1, 1⟩ ∉ sequence 7 queue ∧
    SortedBy (fun e => e.id) (sequence 7 queue) := by
  obtain ⟨s, hs⟩ := Option.isSome_iff_exists.1 (show (runLoose demo true 1 queue).isSome = true by decide)
  exact ⟨s, runLoose_sound hs, by decide, by decide, by decide, by unfold SortedBy; decide⟩

/-- And what the programs do there. -/
example : ∃ s s' s'', LooseExec demo true 1 queue s ∧ insertSorted true s 7 (fun e => e.id) ⟨1, 1⟩ 3 = .ok s' ∧
    s'.getNextOrdered 7 ⟨0, 1⟩ = .ok (some ⟨1, 1⟩) ∧ s'.getNextOrdered 7 ⟨1, 1⟩ = .ok (some ⟨2, 1⟩) ∧
    rearrange true 7 [⟨2, 1⟩, ⟨1, 1⟩, ⟨0, 1⟩] s' = .ok s'' ∧
    s''.getFirstOrdered 7 = .ok (some ⟨2, 1⟩) ∧ s''.getNextOrdered 7 ⟨2, 1⟩ = .ok (some ⟨1, 1⟩) := by
  have h : ((runLoose demo true 1 queue).any fun s => okAnd (insertSorted true s 7 (fun e => e.id) ⟨1, 1⟩ 3) fun s' =>
      decide (s'.getNextOrdered 7 ⟨0, 1⟩ = .ok (some ⟨1, 1⟩)) && (decide (s'.getNextOrdered 7 ⟨1, 1⟩ = .ok (some ⟨2, 1⟩)) &&
      okAnd (rearrange true 7 [⟨2, 1⟩, ⟨1, 1⟩, ⟨0, 1⟩] s') fun s'' => decide (s''.getFirstOrdered 7 = .ok (some ⟨2, 1⟩)) &&
        decide (s''.getNextOrdered 7 ⟨2, 1⟩ = .ok (some ⟨1, 1⟩)))) = true := by decide
  obtain ⟨s, hs, h⟩ := any_some h
  obtain ⟨s', h1, h⟩ := okAnd_iff h
  simp only [Bool.and_eq_true, decide_eq_true_eq] at h
  obtain ⟨h2, h3, h⟩ := h
  obtain ⟨s'', h4, h⟩ := okAnd_iff h
  simp only [Bool.and_eq_true, decide_eq_true_eq] at h
  exact ⟨s, s', s'', runLoose_sound hs, h1, h2, h3, h4, h.1, h.2⟩

end Ecs.Props
