import Verif.Proofs.QueryRows
import Verif.Props.Queries
import Verif.Props.QueryDefects

/-! Properties C31, C32 and C33 for component queries in every state reached by calls that returned (`LooseExec`, see
`Spec/World.lean`: no assumption that components fit in a page, or that the code's other defects were avoided), for
arbitrary tuples of types. `coveredRows` and `PlaceOf` are in `Spec/Query.lean`. -/

namespace Ecs.Props
open Spec

section
variable {U : Universe} {dbg : Bool} {cap : Nat} {h : List Event} {s : Store}

/-- **C31**, what the code does in every state: a component query does not fail. It returns one item for each row of the
pages listed for the archetypes that satisfy the access: the id in that row with the current version of the id, and for
every queried type the place of its component in the row. -/
theorem C31_visits_rows (hx : LooseExec U dbg cap h s) (acc : Access) (old : List IterView) {fuel : Nat}
    (hf : (alive h).length < fuel) :
    ∃ items, runComponentQueryWithEntities U dbg s acc old fuel = .ok items ∧
      runComponentQuery U s acc old fuel = .ok (items.map (·.2)) ∧
      List.Forall₂ (fun row x => x.1.id = row.id ∧ s.ents.versions[row.id]? = some (some x.1.version) ∧
        List.Forall₂ (PlaceOf U row) acc.types x.2) (coveredRows s acc) items := by
  obtain ⟨it, items, h1, h2, h3, h4, h5, h6, h7, h8⟩ := component_any hx acc old (Nat.lt_of_le_of_lt (coveredRows_le hx acc) hf)
  refine ⟨_, h7, ?_, ?_⟩
  · rw [List.map_map]; exact h8
  · rw [List.forall₂_map_right_iff, List.forall₂_iff_get]
    obtain ⟨hlen, hall⟩ := List.forall₂_iff_get.1 h6
    refine ⟨hlen, fun k hk1 hk2 => ?_⟩
    obtain ⟨k1, k2, _⟩ := hall k hk1 hk2
    obtain ⟨v, hv⟩ := h2.2 _ (List.get_mem items ⟨k, hk2⟩)
    refine ⟨k1, ?_, k2⟩
    have hver : (s.entOf (items.get ⟨k, hk2⟩).1).version = v := by
      unfold Store.entOf
      rw [hv]
      rfl
    rw [← k1, hv, hver]

/-- **C32**, for component queries in every state: the length of a fresh iterator is the number of items it returns. (It is
not the number of remaining items later; see `C32_len_right_iff_fresh`.) -/
theorem C32_fresh_len (hx : LooseExec U dbg cap h s) (acc : Access) (old : List IterView) {fuel : Nat}
    (hf : (alive h).length < fuel) :
    ∃ it items, componentQueryIter U s acc old = .ok it ∧ runComponentQuery U s acc old fuel = .ok items ∧
      it.len = items.length := by
  obtain ⟨it, items, h1, h2, h3, h4, h5, h6, h7, h8⟩ := component_any hx acc old (Nat.lt_of_le_of_lt (coveredRows_le hx acc) hf)
  exact ⟨it, _, h1, h8, by simp [h4]⟩

/-- **C33**, in every state, for a tag that was given to some entity before: `filter_tag` returns the items of the query
whose entity has the tag, in the same order. -/
theorem C33_filter_tag_partial (hx : LooseExec U dbg cap h s) (acc : Access) (old : List IterView)
    {fuel : Nat} (hf : (alive h).length < fuel) {tag : Nat} (ht : ∃ e, .tagged tag e ∈ h) :
    ∃ items, runComponentQueryWithEntities U dbg s acc old fuel = .ok items ∧
      runComponentQueryFilterTag U dbg s acc tag old fuel =
        .ok (items.filter fun x => decide (s.hasTag tag x.1 = .ok true)) := by
  have hc := loose_core hx
  obtain ⟨it, items, h1, h2, h3, h4, h5, h6, h7, h8⟩ := component_any hx acc old (Nat.lt_of_le_of_lt (coveredRows_le hx acc) hf)
  refine ⟨_, h7, ?_⟩
  obtain ⟨bv, b1, b2, b3⟩ := Tags.hasTagBitvec_spec hc.tags ((registered_iff hx tag).2 ht)
  unfold runComponentQueryFilterTag
  simp only [h1, ok_bind, b1]
  have hbv : ∀ x ∈ items, bv.isOn x.1 = .ok (s.tags.on tag x.1) := by
    intro x hx
    rw [Words.isOn_of_lt, b3]
    rw [b2, hc.tcap]
    exact Words.div_lt_getLen (h5 x hx)
  rw [CompIter.Pending.drain_filtered hbv h2 h3, List.filter_map]
  refine congrArg _ (congrArg _ (List.filter_congr fun x hx => ?_))
  have : s.hasTag tag (s.entOf x.1) = .ok (s.tags.on tag x.1) :=
    Tags.hasTag_spec hc.tags tag (by rw [hc.tcap]; exact h5 x hx)
  simp only [Function.comp_apply, this]
  cases s.tags.on tag x.1 <;> decide

/-- **C33** is false for any other tag: if no entity was ever given the tag, `filter_tag` panics. -/
theorem C33_unused_tag_panics (hx : LooseExec U dbg cap h s) (acc : Access) (old : List IterView)
    (fuel : Nat) {tag : Nat} (ht : ¬ ∃ e, .tagged tag e ∈ h) :
    runComponentQueryFilterTag U dbg s acc tag old fuel = .error (.panic .missingTag) := by
  obtain ⟨it, items, h1, _⟩ := component_any hx acc old (Nat.lt_succ_self _)
  unfold runComponentQueryFilterTag
  simp only [h1, ok_bind, Tags.hasTagBitvec_missing (fun h0 => ht ((registered_iff hx tag).1 h0))]
  rfl

/-- The current entity in a row whose id is that of a live entity is this entity. -/
theorem C31_row_entity (hx : LooseExec U dbg cap h s) {e : Entity} (he : e ∈ alive h) {v : Nat}
    (hv : s.ents.versions[e.id]? = some (some v)) : e.version = v := by
  rw [alive_eq] at he
  have := (loose_core hx).ents.lver e he
  rw [hv] at this
  simpa using this.symm

end

/-! ### Examples -/

/-- In a state with overfull pages a component query returns the entities of all rows. -/
example : ∃ s items, LooseExec demo true 1 overflowing s ∧ (coveredRows s (.readonly [4, 4])).length < 10 ∧
    runComponentQueryWithEntities demo true s (.readonly [4, 4]) [] 10 = .ok items ∧
    items.map (·.1) = [⟨0, 1⟩, ⟨1, 1⟩, ⟨2, 1⟩, ⟨3, 1⟩] := by
  have h : ((runLoose demo true 1 overflowing).any fun s => decide ((coveredRows s (.readonly [4, 4])).length < 10) &&
      okAnd (runComponentQueryWithEntities demo true s (.readonly [4, 4]) [] 10) fun items =>
        decide (items.map (·.1) = [⟨0, 1⟩, ⟨1, 1⟩, ⟨2, 1⟩, ⟨3, 1⟩])) = true := by decide
  obtain ⟨s, hs, h⟩ := any_some h
  rw [Bool.and_eq_true, decide_eq_true_eq] at h
  obtain ⟨items, h1, h2⟩ := okAnd_iff h.2
  exact ⟨s, items, runLoose_sound hs, h.1, h1, of_decide_eq_true h2⟩

end Ecs.Props
