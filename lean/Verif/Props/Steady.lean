import Verif.Proofs.Steady
import Verif.Props.Alloc
import Verif.Props.Pages
import Verif.Props.Slots
import Verif.Props.MarkCost
import Verif.Props.ResOpaque

/-! C125: a store that is used for ever needs a bounded amount of memory. -/

namespace Ecs.Props
open Ecs Spec

variable {U : Universe} {dbg : Bool} {cap : Nat} {h : List Event} {s : Store}

private theorem sum_const {α : Type} (l : List α) (n : Nat) : (l.map fun _ => n).sum = n * l.length := by
  induction l with
  | nil => rfl
  | cons a l ih => simp only [List.map_cons, List.sum_cons, List.length_cons, ih, Nat.mul_succ]; omega

private theorem sum_flat {α : Type} (l : List α) (f : α → List Nat) (n : Nat) (hf : ∀ a ∈ l, (f a).sum ≤ n) :
    (l.flatMap f).sum ≤ n * l.length := by
  induction l with
  | nil => exact Nat.zero_le _
  | cons a l ih =>
    have h1 := hf a List.mem_cons_self
    have h2 := ih fun b hb => hf b (List.mem_cons_of_mem _ hb)
    simp only [List.flatMap_cons, List.sum_append, List.length_cons, Nat.mul_succ]
    omega

/-- **C125** Every type of a registered archetype is one that some entity was given: there are only as many as the program names. -/
theorem C125_types (hx : LooseExec U dbg cap h s) (hd : DistinctAdds h) {N : Nat} (hN : Count (typeNamed h) N) :
    ∀ a ∈ s.archs.archetypes, (∀ t ∈ a.ids, typeNamed h t) ∧ a.ids.length ≤ N := by
  intro a ha
  have h1 := loose_types hx hd a ha
  obtain ⟨l, _, rfl, k⟩ := hN
  exact ⟨h1, ((loose_known hx hd).wf a ha).incr.nodup.length_le_of_subset fun t ht => (k t).2 (h1 t ht)⟩

/-- **C125** However many calls a program makes, the blocks that its store owns have together at most `steadyBytes` bytes: a bound that
depends only on how many entities were alive at the same time, how many types, tags and groups were named, and the capacity at the
creation. -/
theorem C125_bounded_memory (hx : LooseExec U dbg cap h s) (hd : DistinctAdds h) (hc : cap < u32Size) {L N T G : Nat}
    (hL : ∀ h', h' <:+ h → (alive h').length ≤ L) (hm : L < 2147483648) (hN : Count (typeNamed h) N) (hT : Count (tagNamed h) T)
    (hG : Count (groupNamed h) G) : (ownedBlocks s).sum ≤ steadyBytes cap L N T G := by
  have hp := peak_le hL
  have hcap := (C05_store_ids_and_capacity hx hc (Nat.lt_of_le_of_lt hp hm)).2
  have hroom : s.entitiesCapacity ≤ max cap (2 * L) := by omega
  have hpages := C61_pages_bounded hx hL
  have harch := C68_slots_bounded hx hL
  have et := count_unique (count_tags hx) hT
  have eg := count_unique (count_groups hx) hG
  have b1 : bitWords s.entitiesCapacity ≤ bitWords (max cap (2 * L)) := Nat.succ_le_succ (Nat.div_le_div_right hroom)
  have a1 := sum_flat s.archs.archetypes (fun a => archetypeBlocks a.ids.length) (56 * N) fun a ha => by
    have := (C125_types hx hd hN a ha).2
    simp only [archetypeBlocks, typeIdSize, strSize, List.sum_cons, List.sum_nil]
    omega
  have g1 := sum_flat s.orders.groups (fun _ => [4 * s.entitiesCapacity, 4 * s.entitiesCapacity]) (8 * s.entitiesCapacity) fun a ha => by
    simp only [List.sum_cons, List.sum_nil]
    omega
  have a2 : 56 * N * s.archs.archetypes.length ≤ 56 * N * (L + 2) := Nat.mul_le_mul_left _ harch
  have g2 : 8 * s.entitiesCapacity * s.orders.groups.length ≤ 8 * G * max cap (2 * L) := by
    rw [eg, Nat.mul_right_comm]; exact Nat.mul_le_mul_left _ hroom
  have t2 : 4 * bitWords s.entitiesCapacity * s.tags.bitvecs.length ≤ 4 * T * bitWords (max cap (2 * L)) := by
    rw [et, Nat.mul_right_comm]; exact Nat.mul_le_mul_left _ b1
  have e1 : 4 * (2 + T) * bitWords (max cap (2 * L)) = 8 * bitWords (max cap (2 * L)) + 4 * T * bitWords (max cap (2 * L)) := by
    rw [Nat.mul_add, Nat.add_mul]
  unfold ownedBlocks steadyBytes
  simp only [List.sum_append, sum_const, List.sum_cons, List.sum_nil]
  rw [e1]
  omega

private theorem sum_flat_const {α : Type} (l : List α) (n : Nat) : (l.flatMap fun _ => [n, n]).sum = 2 * n * l.length := by
  induction l with
  | nil => rfl
  | cons a l ih =>
    simp only [List.flatMap_cons, List.sum_append, List.length_cons, Nat.mul_succ, ih, List.sum_cons, List.sum_nil]
    omega

/-- **C125** The names are never given back: a store owns bits for every tag and links for every group that was ever used, for all the
entities it has room for, whether or not any entity still has them. -/
theorem C125_names_cost (hx : LooseExec U dbg cap h s) {T G : Nat} (hT : Count (tagNamed h) T) (hG : Count (groupNamed h) G) :
    4 * T * bitWords s.entitiesCapacity + 8 * G * s.entitiesCapacity ≤ (ownedBlocks s).sum := by
  have et := count_unique (count_tags hx) hT
  have eg := count_unique (count_groups hx) hG
  unfold ownedBlocks
  simp only [List.sum_append, sum_const, sum_flat_const]
  rw [et, eg, Nat.mul_right_comm 4 T, ← Nat.mul_assoc 2 4, Nat.mul_right_comm 8 G, show 2 * 4 = 8 from rfl]
  omega

private theorem res_peak {α : Type} {L : Nat} {h : List (ResEvent α)} (hL : ∀ h', h' <:+ h → (live (resEntHistory h')).length ≤ L) :
    peak (resEntHistory h) ≤ L := by
  induction h with
  | nil => exact Nat.zero_le _
  | cons ev h ih =>
    have i := ih fun h' hh => hL h' (hh.trans (List.suffix_cons _ _))
    have hl := hL (ev :: h) (List.suffix_refl _)
    cases ev <;> first | exact i | exact Nat.max_le.2 ⟨hl, i⟩

/-- **C125**, resource stores: however many values are created and released, a store has at most twice as many cells as it had values
at the same time, or as many as it was created with. -/
theorem C125_resource_store {α : Type} {h : List (ResEvent α)} {r : ResStore α} (hx : ResExec dbg cap h r)
    (hb : dbg = true ∨ (resIssued h).length < u32Size) (hc : cap < u32Size) {L : Nat}
    (hL : ∀ h', h' <:+ h → (live (resEntHistory h')).length ≤ L) (hm : L < 2147483648) :
    r.elements.length = r.ents.capacity ∧ r.ents.capacity ≤ max cap (2 * L) := by
  have hp := res_peak hL
  have h1 := res_ents hx hb
  have h2 : (issued (resEntHistory h)).length = (resIssued h).length := by
    clear hx hb hL hp h1
    induction h with
    | nil => rfl
    | cons ev h ih => cases ev <;> simp [resEntHistory, issued, resIssued, ih]
  have h3 := exec_capacity h1.1 (hb.imp id fun h => by omega) hc (Nat.lt_of_le_of_lt hp hm)
  exact ⟨(res_exec_inv hx hb).1.elen, by omega⟩

/-- The hypotheses of C125 for a resource store: two values, one after the other, in a store that has one cell. -/
example : ∃ r : ResStore String, ResExec true 1 [.created ⟨0, 2⟩ "b", .released ⟨0, 1⟩ "a", .created ⟨0, 1⟩ "a"] r ∧
    r.elements.length = 1 :=
  ⟨_, .create "b" (.release ⟨0, 1⟩ (.create "a" .init rfl) rfl (.inl rfl)) rfl, rfl⟩

/-- Two entities, one after the other, that both have components, a tag and a place in a group. -/
def oneAtATime : List Event :=
  [.destroyed ⟨0, 2⟩, .orderedLast 6 ⟨0, 2⟩, .tagged 3 ⟨0, 2⟩, .added ⟨0, 2⟩ [(4, [9]), (5, [8])], .created ⟨0, 2⟩,
    .destroyed ⟨0, 1⟩, .orderedLast 6 ⟨0, 1⟩, .tagged 3 ⟨0, 1⟩, .added ⟨0, 1⟩ [(4, [7])], .created ⟨0, 1⟩]

/-- The hypotheses of C125: one entity at a time, two types, one tag and one group; the store has some of the bytes it may have. -/
example : ∃ s, LooseExec demo true 1 oneAtATime s ∧ DistinctAdds oneAtATime ∧ (∀ h', h' <:+ oneAtATime → (alive h').length ≤ 1) ∧
    Count (typeNamed oneAtATime) 2 ∧ Count (tagNamed oneAtATime) 1 ∧ Count (groupNamed oneAtATime) 1 ∧
    (ownedBlocks s).sum = 12 + 4 * 3 + 8 + 56 * 3 + 16384 * 5 ∧ steadyBytes 1 1 2 1 1 = 24 + 4 * 3 + 16 + 56 * 6 + 16384 * 7 := by
  have h : ((runLoose demo true 1 oneAtATime).any fun s => decide ((ownedBlocks s).sum = 12 + 4 * 3 + 8 + 56 * 3 + 16384 * 5)) = true := by
    decide
  obtain ⟨s, hs, h⟩ := any_some h
  have key : ∀ n ≤ 10, (alive (oneAtATime.drop n)).length ≤ 1 := by decide
  refine ⟨s, runLoose_sound hs, fun e vals hm => ?_, fun h' hh => ?_, ⟨[4, 5], by decide, rfl, fun t => ?_⟩, ⟨[3], by decide, rfl, fun t => ?_⟩,
    ⟨[6], by decide, rfl, fun t => ?_⟩, of_decide_eq_true h, rfl⟩
  · simp only [oneAtATime, List.mem_cons, Event.added.injEq, reduceCtorEq, false_or, List.not_mem_nil, or_false] at hm
    rcases hm with ⟨_, rfl⟩ | ⟨_, rfl⟩ <;> decide
  · rw [List.suffix_iff_eq_drop.1 hh]; exact key _ (Nat.sub_le _ _)
  · simp [typeNamed, oneAtATime, or_and_right, exists_or]
    omega
  · simp [tagNamed, oneAtATime, exists_or]
  · simp [groupNamed, oneAtATime, exists_or]

end Ecs.Props
