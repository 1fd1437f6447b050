import Verif.Proofs.QueryOrd
import Verif.Proofs.QueryRun
import Verif.Proofs.History
import Verif.Proofs.Records
import Verif.Props.Queries

/-! Properties C32 and C34–C37 for queries over a list of entities and over an order group. `Exec` is explained in
`Props/Components.lean`, the functions `run…` in `Props/Queries.lean`. -/

namespace Ecs.Props
open Spec

section
variable {U : Universe} {dbg : Bool} {cap : Nat} {h : List Event} {s : Store}

private theorem nodupTypes {acc : Access} (hd : acc.types.Nodup) : DistinctTypes acc := by
  cases acc with
  | readonly r => exact hd
  | write w => exact hd
  | readWrite r w => exact ⟨(List.nodup_append.1 hd).1, (List.nodup_append.1 hd).2.1⟩

private theorem matches_eq (acc : Access) (L : List Entity) :
    (L.filter fun e => decide (Rel.Matches (world h) acc e)) = L.filter fun e => decide (Eligible h acc e) := by
  unfold Rel.Matches Eligible
  simp only [alive_eq]

private theorem eligible {acc : Access} {L : List Entity} {e : Entity}
    (he : e ∈ L.filter fun e => decide (Eligible h acc e)) : Rel.Matches (world h) acc e := by
  rw [← matches_eq] at he
  simpa using (List.mem_filter.1 he).2

private theorem askable (hx : Exec U dbg cap h s) {L : List Entity} (hL : Askable cap h L) :
    ∀ e ∈ L, Rel.Askable s (world h) e := by
  intro e he
  obtain ⟨h1, h2, h3⟩ := hL e he
  rw [handles_eq] at h1
  rw [alive_eq] at h2
  exact ⟨h1, ((hasRow hx.loose).1 _ h3).1, h2⟩

/-- **C35**, for `Exec`, tuples of distinct types, and lists without live entities that have no
components and without dead ones whose id never had any: an entity query returns, in the order of the list, exactly
the entities of the list (as often as they occur) that are alive and have all the queried components,
each with the references to its own components. Without the entities it returns the same references. -/
theorem C35_entity_query_partial (hx : Exec U dbg cap h s) {acc : Access} (hd : DistinctTypes acc) {L : List Entity}
    (hL : Askable cap h L) (old : List (Range × IterView)) {fuel : Nat} (hf : L.length < fuel) :
    ∃ items, runEntityQueryWithEntities U dbg s L acc old fuel = .ok items ∧
      runEntityQuery U dbg s L acc old fuel = .ok (items.map (·.2)) ∧
      items.map (·.1) = (L.filter fun e => decide (Eligible h acc e)) ∧
      ∀ x ∈ items, s.getComponentsRefs U dbg x.1 acc.types = .ok (some x.2) := by
  have hr := exec_rel hx
  obtain ⟨h1, h2⟩ := hr.entity_query hd (askable hx hL) old hf
  rw [matches_eq] at h1 h2
  refine ⟨_, h1, ?_, ?_, fun x hx => ?_⟩
  · rw [h2, List.map_map]; rfl
  · rw [List.map_map]; exact List.map_id _
  · obtain ⟨e, he, rfl⟩ := List.mem_map.1 hx
    exact hr.refsOf_eq (eligible he)

/-- **C34**, for entity queries under the hypotheses of C35: if the list has no duplicates and no type is
queried twice, no two references returned during one iteration share a byte. -/
theorem C34_entity_query_partial (hx : Exec U dbg cap h s) {acc : Access} (hd : acc.types.Nodup) {L : List Entity}
    (hL : Askable cap h L) (hn : L.Nodup) (old : List (Range × IterView)) {fuel : Nat} (hf : L.length < fuel) :
    ∃ items, runEntityQuery U dbg s L acc old fuel = .ok items ∧ items.flatten.Pairwise Apart := by
  have hr := exec_rel hx
  obtain ⟨items, _, h2, h3, h4⟩ := C35_entity_query_partial hx (nodupTypes hd) hL old hf
  refine ⟨_, h2, hr.refs_pairwise hd (fun x hx => ⟨?_, h4 x hx⟩) (by rw [h3]; exact hn.filter _)⟩
  have : x.1 ∈ L.filter fun e => decide (Eligible h acc e) := by rw [← h3]; exact List.mem_map_of_mem hx
  exact hr.ents.id_lt (eligible this).1

/-- **C36**, for `Exec`, tuples of distinct types, and groups whose members all have components: an
ordered query returns the references to the components of exactly the members of the group that have
all the queried components, in the order of the group. -/
theorem C36_ordered_query_partial (hx : Exec U dbg cap h s) {acc : Access} (hd : DistinctTypes acc) {g : Nat}
    (hL : ∀ e ∈ sequence g h, (world h).types e ≠ []) (old : List (Range × IterView)) {fuel : Nat}
    (hf : (sequence g h).length < fuel) :
    ∃ items, runOrderedQuery U dbg s g acc old fuel = .ok items ∧
      List.Forall₂ (fun e refs => s.getComponentsRefs U dbg e acc.types = .ok (some refs))
        ((sequence g h).filter fun e => decide (Eligible h acc e)) items := by
  have hr := exec_rel hx
  have hs : sequence g h = (world h).order g := sequence_eq g h
  rw [hs] at hL hf ⊢
  have h1 := hr.ordered_query hd hL old hf
  rw [matches_eq] at h1
  refine ⟨_, h1, ?_⟩
  rw [List.forall₂_map_right_iff, List.forall₂_same]
  exact fun e he => hr.refsOf_eq (eligible he)

/-- **C34**, for ordered queries under the hypotheses of C36: if no type is queried twice, no two
references returned during one iteration share a byte. -/
theorem C34_ordered_query_partial (hx : Exec U dbg cap h s) {acc : Access} (hd : acc.types.Nodup) {g : Nat}
    (hL : ∀ e ∈ sequence g h, (world h).types e ≠ []) (old : List (Range × IterView)) {fuel : Nat}
    (hf : (sequence g h).length < fuel) :
    ∃ items, runOrderedQuery U dbg s g acc old fuel = .ok items ∧ items.flatten.Pairwise Apart := by
  have hr := exec_rel hx
  have hs : sequence g h = (world h).order g := sequence_eq g h
  rw [hs] at hL hf
  have h1 := hr.ordered_query (nodupTypes hd) hL old hf
  refine ⟨_, h1, ?_⟩
  have := hr.refs_pairwise hd
    (items := ((world h).order g).filter (fun e => decide (Rel.Matches (world h) acc e)) |>.map
      fun e => (e, Rel.refsOf U dbg s acc e)) ?_ ?_
  · rw [List.map_map] at this; exact this
  · intro x hx
    obtain ⟨e, he, rfl⟩ := List.mem_map.1 hx
    rw [matches_eq] at he
    have := eligible he
    exact ⟨hr.ents.id_lt this.1, hr.refsOf_eq this⟩
  · rw [List.map_map]
    have := (hr.core.order_nodup g).filter fun e => decide (Rel.Matches (world h) acc e)
    exact (List.map_id _).symm ▸ this

/-- **C37**, for `Exec`, tuples of distinct types, and groups whose members are all stored in one page:
`with_entities` returns each member that has all the queried components, in the order of the group, with
the references to its own components. -/
theorem C37_ordered_with_entities_partial (hx : Exec U dbg cap h s) {acc : Access} (hd : DistinctTypes acc) {g q : Nat}
    (hL : ∀ e ∈ sequence g h, (world h).types e ≠ [] ∧ s.toPage[e.id]? = some (some q))
    (old : List (Range × IterView)) {fuel : Nat} (hf : (sequence g h).length < fuel) :
    ∃ items, runOrderedQueryWithEntities U dbg s g acc old fuel = .ok items ∧
      items.map (·.1) = ((sequence g h).filter fun e => decide (Eligible h acc e)) ∧
      ∀ x ∈ items, s.getComponentsRefs U dbg x.1 acc.types = .ok (some x.2) := by
  have hr := exec_rel hx
  have hs : sequence g h = (world h).order g := sequence_eq g h
  rw [hs] at hL hf ⊢
  have h1 := hr.ordered_withEntities hd (fun e he => (hL e he).1) (fun e he => (hL e he).2) old hf
  rw [matches_eq] at h1
  refine ⟨_, h1, ?_, fun x hx => ?_⟩
  · rw [List.map_map]; exact List.map_id _
  · obtain ⟨e, he, rfl⟩ := List.mem_map.1 hx
    exact hr.refsOf_eq (eligible he)

end

/-- The hypotheses of C35 are met by a list with duplicates, a stale handle and an entity without the queried
component. -/
example : ∃ s, Exec demo true 1 queryHistory s ∧ DistinctTypes (.write [4]) ∧
    Askable 1 queryHistory [⟨0, 1⟩, ⟨2, 1⟩, ⟨1, 1⟩, ⟨1, 2⟩, ⟨2, 1⟩, ⟨3, 1⟩, ⟨0, 1⟩] ∧
    runEntityQueryWithEntities demo true s [⟨0, 1⟩, ⟨2, 1⟩, ⟨1, 1⟩, ⟨1, 2⟩, ⟨2, 1⟩, ⟨3, 1⟩, ⟨0, 1⟩] (.write [4]) [] 10 =
      .ok [(⟨0, 1⟩, [⟨2, 6820, 1⟩]), (⟨2, 1⟩, [⟨3, 1, 1⟩]), (⟨1, 2⟩, [⟨3, 0, 1⟩]), (⟨2, 1⟩, [⟨3, 1, 1⟩]),
        (⟨0, 1⟩, [⟨2, 6820, 1⟩])] := by
  have h : ((runExec demo true 1 queryHistory).any fun s =>
      decide (runEntityQueryWithEntities demo true s [⟨0, 1⟩, ⟨2, 1⟩, ⟨1, 1⟩, ⟨1, 2⟩, ⟨2, 1⟩, ⟨3, 1⟩, ⟨0, 1⟩]
        (.write [4]) [] 10 =
      .ok [(⟨0, 1⟩, [⟨2, 6820, 1⟩]), (⟨2, 1⟩, [⟨3, 1, 1⟩]), (⟨1, 2⟩, [⟨3, 0, 1⟩]), (⟨2, 1⟩, [⟨3, 1, 1⟩]),
        (⟨0, 1⟩, [⟨2, 6820, 1⟩])])) = true := by decide
  obtain ⟨s, hs, h⟩ := any_some h
  exact ⟨s, runExec_sound hs, by decide, by decide, of_decide_eq_true h⟩

/-- The hypotheses of C36 are met by a group over three pages with a member that lacks the queried component, and
those of C37 by a group in one page, in an order other than that of the page. -/
example : ∃ s, Exec demo true 1 queryHistory s ∧ DistinctTypes (.write [4]) ∧
    sequence 9 queryHistory = [⟨2, 1⟩, ⟨1, 2⟩, ⟨3, 1⟩, ⟨0, 1⟩] ∧
    (∀ e ∈ sequence 9 queryHistory, (world queryHistory).types e ≠ []) ∧
    runOrderedQuery demo true s 9 (.write [4]) [] 10 = .ok [[⟨3, 1, 1⟩], [⟨3, 0, 1⟩], [⟨2, 6820, 1⟩]] ∧
    sequence 10 queryHistory = [⟨2, 1⟩, ⟨1, 2⟩] ∧
    (∀ e ∈ sequence 10 queryHistory, (world queryHistory).types e ≠ [] ∧ s.toPage[e.id]? = some (some 3)) ∧
    runOrderedQueryWithEntities demo true s 10 (.write [4]) [] 10 =
      .ok [(⟨2, 1⟩, [⟨3, 1, 1⟩]), (⟨1, 2⟩, [⟨3, 0, 1⟩])] := by
  have h : ((runExec demo true 1 queryHistory).any fun s =>
      decide (runOrderedQuery demo true s 9 (.write [4]) [] 10 = .ok [[⟨3, 1, 1⟩], [⟨3, 0, 1⟩], [⟨2, 6820, 1⟩]]) &&
      (decide (∀ e ∈ sequence 10 queryHistory, (world queryHistory).types e ≠ [] ∧ s.toPage[e.id]? = some (some 3)) &&
      decide (runOrderedQueryWithEntities demo true s 10 (.write [4]) [] 10 =
        .ok [(⟨2, 1⟩, [⟨3, 1, 1⟩]), (⟨1, 2⟩, [⟨3, 0, 1⟩])]))) = true := by decide
  obtain ⟨s, hs, h⟩ := any_some h
  rw [Bool.and_eq_true, Bool.and_eq_true, decide_eq_true_eq, decide_eq_true_eq, decide_eq_true_eq] at h
  exact ⟨s, runExec_sound hs, by decide, by decide, by decide, h.1, by decide, h.2.1, h.2.2⟩

end Ecs.Props
