import Verif.Props.Queries
import Verif.Props.Defects
import Verif.Spec.Query

/-! Counterexamples: executions, in most cases with room for every component (`Exec`), for which the properties
C31–C37 of queries fail. Each is a computation of the model on a concrete history. The theorems in
`Props/Queries.lean` and `Props/ListQueries.lean` prove these properties for the remaining cases.

Defects of the code shown here:
* `Archetype::include_ids` compares the lengths of the lists of ids first, so a tuple that names a type
  twice does not match an archetype that has the type and no other.
* `len` of the iterators does not count down.
* `filter_tag` unwraps the bit vector of a tag which no entity has had.
* `entity_component_query_iter` does not check, for the second and later entities of a range, that the
  entity has an archetype, and reads the record of its page before.
* `ordered_query_iter` does not check at all that the members of the group have an archetype.
* `with_entities` of an ordered query takes the entity from the page of the previous range, except for
  the last item of a range. -/

namespace Ecs.Props
open Spec

/-- **C31 is false of the code** for tuples with a repeated type: entity 2 has component 4, but a query for
`(4, 4)` does not return it (while it returns entity 0, which has other components as well). -/
theorem C31_counterexample : ∃ s, Exec demo true 1 queryHistory s ∧
    s.getComponents demo true ⟨2, 1⟩ [4, 4] = .ok (some [[some 9], [some 9]]) ∧
    ∃ items, runComponentQueryWithEntities demo true s (.readonly [4, 4]) [] 10 = .ok items ∧
      items.map (·.1) = [⟨0, 1⟩] := by
  have h : ((runExec demo true 1 queryHistory).any fun s =>
      decide (s.getComponents demo true ⟨2, 1⟩ [4, 4] = .ok (some [[some 9], [some 9]])) &&
      okAnd (runComponentQueryWithEntities demo true s (.readonly [4, 4]) [] 10) fun items =>
        decide (items.map (·.1) = [⟨0, 1⟩])) = true := by decide
  obtain ⟨s, hs, h⟩ := any_some h
  rw [Bool.and_eq_true, decide_eq_true_eq] at h
  obtain ⟨items, h1, h2⟩ := okAnd_iff h.2
  exact ⟨s, runExec_sound hs, h.1, items, h1, of_decide_eq_true h2⟩

/-- **C31 is false of the code** in executions other than `Exec` also for single types: after the calls of
`C28_counterexample` the query for component 5, which only entity 1 has, returns nothing, and the query for
component 8 returns entity 1. -/
theorem C31_counterexample_lost : ∃ s, WellExec demo true 1 (.added ⟨4, 1⟩ [(8, [80])] :: refilled) s ∧
    (⟨1, 2⟩ : Entity) ∈ alive (.added ⟨4, 1⟩ [(8, [80])] :: refilled) ∧
    (world (.added ⟨4, 1⟩ [(8, [80])] :: refilled)).types ⟨1, 2⟩ = [5] ∧
    runComponentQueryWithEntities demo true s (.readonly [5]) [] 10 = .ok [] ∧
    ∃ items, runComponentQueryWithEntities demo true s (.readonly [8]) [] 10 = .ok items ∧
      (⟨1, 2⟩ : Entity) ∈ items.map (·.1) := by
  have h : ((runWell demo true 1 (.added ⟨4, 1⟩ [(8, [80])] :: refilled)).any fun s =>
      decide (runComponentQueryWithEntities demo true s (.readonly [5]) [] 10 = .ok []) &&
      okAnd (runComponentQueryWithEntities demo true s (.readonly [8]) [] 10) fun items =>
        decide ((⟨1, 2⟩ : Entity) ∈ items.map (·.1))) = true := by decide
  obtain ⟨s, hs, h⟩ := any_some h
  rw [Bool.and_eq_true, decide_eq_true_eq] at h
  obtain ⟨items, h1, h2⟩ := okAnd_iff h.2
  exact ⟨s, runWell_sound hs, by decide, by decide, h.1, items, h1, of_decide_eq_true h2⟩

/-- **C32 is false of the code**: after one call of `next` two of the three items remain, but `len` is
still 3. -/
theorem C32_counterexample : ∃ s it refs it' rest, Exec demo true 1 queryHistory s ∧
    componentQueryIter demo s (.readonly [4]) [] = .ok it ∧ it.len = 3 ∧
    it.next = .ok (some refs, it') ∧ it'.len = 3 ∧
    drain CompIter.next 10 it' = .ok rest ∧ rest.length = 2 := by
  have h : ((runExec demo true 1 queryHistory).any fun s =>
      okAnd (componentQueryIter demo s (.readonly [4]) []) fun it => decide (it.len = 3) &&
      okAnd it.next fun r => r.1.any fun _ => decide (r.2.len = 3) &&
      okAnd (drain CompIter.next 10 r.2) fun rest => decide (rest.length = 2)) = true := by decide
  obtain ⟨s, hs, h⟩ := any_some h
  obtain ⟨it, h1, h⟩ := okAnd_iff h
  rw [Bool.and_eq_true, decide_eq_true_eq] at h
  obtain ⟨h2, h⟩ := h
  obtain ⟨⟨r, it'⟩, h3, h⟩ := okAnd_iff h
  obtain ⟨refs, rfl, h⟩ := any_some h
  rw [Bool.and_eq_true, decide_eq_true_eq] at h
  obtain ⟨rest, h5, h6⟩ := okAnd_iff h.2
  exact ⟨s, it, refs, it', rest, runExec_sound hs, h1, h2, h3, h.1, h5, of_decide_eq_true h6⟩

/-- **C32 is false of the code** for ordered queries too. -/
theorem C32_counterexample_ordered : ∃ s it refs it' rest, Exec demo true 1 queryHistory s ∧
    orderedQueryIter demo s 9 (.readonly [4]) [] 10 = .ok it ∧ it.len = 3 ∧
    it.next true = .ok (some refs, it') ∧ it'.len = 3 ∧
    drain (OrdIter.next true) 10 it' = .ok rest ∧ rest.length = 2 := by
  have h : ((runExec demo true 1 queryHistory).any fun s =>
      okAnd (orderedQueryIter demo s 9 (.readonly [4]) [] 10) fun it => decide (it.len = 3) &&
      okAnd (it.next true) fun r => r.1.any fun _ => decide (r.2.len = 3) &&
      okAnd (drain (OrdIter.next true) 10 r.2) fun rest => decide (rest.length = 2)) = true := by decide
  obtain ⟨s, hs, h⟩ := any_some h
  obtain ⟨it, h1, h⟩ := okAnd_iff h
  rw [Bool.and_eq_true, decide_eq_true_eq] at h
  obtain ⟨h2, h⟩ := h
  obtain ⟨⟨r, it'⟩, h3, h⟩ := okAnd_iff h
  obtain ⟨refs, rfl, h⟩ := any_some h
  rw [Bool.and_eq_true, decide_eq_true_eq] at h
  obtain ⟨rest, h5, h6⟩ := okAnd_iff h.2
  exact ⟨s, it, refs, it', rest, runExec_sound hs, h1, h2, h3, h.1, h5, of_decide_eq_true h6⟩

/-- **C33 is false of the code**: nobody has had tag 8, and filtering by it panics. -/
theorem C33_counterexample : ∃ s, Exec demo true 1 queryHistory s ∧
    (∃ items, runComponentQueryWithEntities demo true s (.readonly [4]) [] 10 = .ok items ∧ items.length = 3) ∧
    (∀ e ∈ alive queryHistory, s.hasTag 8 e = .ok false) ∧
    runComponentQueryFilterTag demo true s (.readonly [4]) 8 [] 10 = .error (.panic .missingTag) := by
  have h : ((runExec demo true 1 queryHistory).any fun s =>
      (okAnd (runComponentQueryWithEntities demo true s (.readonly [4]) [] 10) fun items => decide (items.length = 3)) &&
      (((alive queryHistory).all fun e => decide (s.hasTag 8 e = .ok false)) &&
      decide (runComponentQueryFilterTag demo true s (.readonly [4]) 8 [] 10 = .error (.panic .missingTag)))) = true := by
    decide
  obtain ⟨s, hs, h⟩ := any_some h
  rw [Bool.and_eq_true, Bool.and_eq_true, List.all_eq_true, decide_eq_true_eq] at h
  obtain ⟨items, h1, h2⟩ := okAnd_iff h.1
  exact ⟨s, runExec_sound hs, ⟨items, h1, of_decide_eq_true h2⟩, fun e he => of_decide_eq_true (h.2.1 e he), h.2.2⟩

/-- **C34 is false of the code** in executions other than `Exec`: with more rows in a page than fit, mutable
references to distinct components overlap, and one leaves the page. -/
theorem C34_counterexample : ∃ s items r r', WellExec demo true 1 overflowing s ∧
    runComponentQuery demo s (.write [3, 4]) [] 10 = .ok items ∧ r ∈ items.flatten ∧ r' ∈ items.flatten ∧ r ≠ r' ∧
    ¬ Apart r r' ∧ ∃ x ∈ items.flatten, x.off + x.size > PAGE_SIZE := by
  have h : ((runWell demo true 1 overflowing).any fun s =>
      okAnd (runComponentQuery demo s (.write [3, 4]) [] 10) fun items =>
      items.flatten.any fun r => items.flatten.any fun r' =>
        decide (r ≠ r' ∧ ¬ Apart r r' ∧ ∃ x ∈ items.flatten, x.off + x.size > PAGE_SIZE)) = true := by decide
  obtain ⟨s, hs, h⟩ := any_some h
  obtain ⟨items, h1, h⟩ := okAnd_iff h
  obtain ⟨r, hr, h⟩ := List.any_eq_true.1 h
  obtain ⟨r', hr', h⟩ := List.any_eq_true.1 h
  have := of_decide_eq_true h
  exact ⟨s, items, r, r', runWell_sound hs, h1, hr, hr', this.1, this.2.1, this.2.2⟩

/-- **C34 is false of the code** for entity queries: an entity that occurs twice in the list gives two equal
mutable references. -/
theorem C34_counterexample_duplicate : ∃ s r, Exec demo true 1 queryHistory s ∧
    runEntityQuery demo true s [⟨2, 1⟩, ⟨2, 1⟩] (.write [4]) [] 10 = .ok [[r], [r]] ∧ r.size = 1 := by
  have h : ((runExec demo true 1 queryHistory).any fun s =>
      decide (runEntityQuery demo true s [⟨2, 1⟩, ⟨2, 1⟩] (.write [4]) [] 10 = .ok [[⟨3, 1, 1⟩], [⟨3, 1, 1⟩]])) = true := by
    decide
  obtain ⟨s, hs, h⟩ := any_some h
  exact ⟨s, ⟨3, 1, 1⟩, runExec_sound hs, of_decide_eq_true h, rfl⟩

/-- **C34 is false of the code** for read-write queries that name a type in both tuples: each item has a shared and
a mutable reference to the same component. -/
theorem C34_counterexample_read_write : ∃ s r, Exec demo true 1 queryHistory s ∧ DistinctTypes (.readWrite [4] [4]) ∧
    runEntityQuery demo true s [⟨2, 1⟩] (.readWrite [4] [4]) [] 10 = .ok [[r, r]] ∧ r.size = 1 := by
  have h : ((runExec demo true 1 queryHistory).any fun s =>
      decide (runEntityQuery demo true s [⟨2, 1⟩] (.readWrite [4] [4]) [] 10 = .ok [[⟨3, 1, 1⟩, ⟨3, 1, 1⟩]])) = true := by
    decide
  obtain ⟨s, hs, h⟩ := any_some h
  exact ⟨s, ⟨3, 1, 1⟩, runExec_sound hs, by decide, of_decide_eq_true h, rfl⟩

/-- Two entities with component 1; the second one is destroyed, and its id reused for an entity without
components, which joins group 9. -/
def reborn : List Event :=
  [.orderedLast 9 ⟨1, 2⟩, .created ⟨1, 2⟩, .destroyed ⟨1, 1⟩, .added ⟨1, 1⟩ [(1, [2])], .added ⟨0, 1⟩ [(1, [1])],
   .created ⟨1, 1⟩, .created ⟨0, 1⟩]

/-- Two entities of which only the first has a component; the second one joins group 9. -/
def bare : List Event :=
  [.orderedLast 9 ⟨1, 1⟩, .added ⟨0, 1⟩ [(1, [1])], .created ⟨1, 1⟩, .created ⟨0, 1⟩]

/-- **C35 is false of the code**: a query over the two entities returns the one without components, with a
reference to the row that the destroyed entity had. -/
theorem C35_counterexample : ∃ s items, Exec demo true 1 reborn s ∧
    s.getComponentsRefs demo true ⟨1, 2⟩ [1] = .ok none ∧
    runEntityQueryWithEntities demo true s [⟨0, 1⟩, ⟨1, 2⟩] (.write [1]) [] 10 = .ok items ∧
    items.map (·.1) = [⟨0, 1⟩, ⟨1, 2⟩] := by
  have h : ((runExec demo true 1 reborn).any fun s =>
      decide (s.getComponentsRefs demo true ⟨1, 2⟩ [1] = .ok none) &&
      okAnd (runEntityQueryWithEntities demo true s [⟨0, 1⟩, ⟨1, 2⟩] (.write [1]) [] 10) fun items =>
        decide (items.map (·.1) = [⟨0, 1⟩, ⟨1, 2⟩])) = true := by decide
  obtain ⟨s, hs, h⟩ := any_some h
  rw [Bool.and_eq_true, decide_eq_true_eq] at h
  obtain ⟨items, h1, h2⟩ := okAnd_iff h.2
  exact ⟨s, items, runExec_sound hs, h.1, h1, of_decide_eq_true h2⟩

/-- **C35 is false of the code**: if the id never had components, its record is read uninitialised. -/
theorem C35_counterexample_uninit : ∃ s, Exec demo true 1 bare s ∧
    s.getComponentsRefs demo true ⟨1, 1⟩ [1] = .ok none ∧
    runEntityQueryWithEntities demo true s [⟨0, 1⟩, ⟨1, 1⟩] (.readonly [1]) [] 10 = .error (.ub .uninit) := by
  have h : ((runExec demo true 1 bare).any fun s =>
      decide (s.getComponentsRefs demo true ⟨1, 1⟩ [1] = .ok none) &&
      decide (runEntityQueryWithEntities demo true s [⟨0, 1⟩, ⟨1, 1⟩] (.readonly [1]) [] 10 = .error (.ub .uninit))) =
      true := by decide
  obtain ⟨s, hs, h⟩ := any_some h
  rw [Bool.and_eq_true, decide_eq_true_eq, decide_eq_true_eq] at h
  exact ⟨s, runExec_sound hs, h.1, h.2⟩

/-- **C36 is false of the code**: the only member of the group has no components, but the query returns a
reference to the row of the destroyed entity. -/
theorem C36_counterexample : ∃ s r, Exec demo true 1 reborn s ∧ sequence 9 reborn = [⟨1, 2⟩] ∧
    s.getComponentsRefs demo true ⟨1, 2⟩ [1] = .ok none ∧
    runOrderedQuery demo true s 9 (.write [1]) [] 10 = .ok [[r]] := by
  have h : ((runExec demo true 1 reborn).any fun s =>
      decide (s.getComponentsRefs demo true ⟨1, 2⟩ [1] = .ok none) &&
      decide (runOrderedQuery demo true s 9 (.write [1]) [] 10 = .ok [[⟨4, 1, 1⟩]])) = true := by decide
  obtain ⟨s, hs, h⟩ := any_some h
  rw [Bool.and_eq_true, decide_eq_true_eq, decide_eq_true_eq] at h
  exact ⟨s, _, runExec_sound hs, by decide, h.1, h.2⟩

/-- **C36 is false of the code**: if the id of a member never had components, its record is read
uninitialised. -/
theorem C36_counterexample_uninit : ∃ s, Exec demo true 1 bare s ∧ sequence 9 bare = [⟨1, 1⟩] ∧
    runOrderedQuery demo true s 9 (.readonly [1]) [] 10 = .error (.ub .uninit) := by
  have h : ((runExec demo true 1 bare).any fun s =>
      decide (runOrderedQuery demo true s 9 (.readonly [1]) [] 10 = .error (.ub .uninit))) = true := by decide
  obtain ⟨s, hs, h⟩ := any_some h
  exact ⟨s, runExec_sound hs, by decide, of_decide_eq_true h⟩

/-- **C37 is false of the code**: group 11 is the sequence of entities 0, 1 and 2, but with its second item,
the component of entity 1, `with_entities` returns entity 0 again. -/
theorem C37_counterexample : ∃ s r0 r1 r2, Exec demo true 1 queryHistory s ∧
    sequence 11 queryHistory = [⟨0, 1⟩, ⟨1, 2⟩, ⟨2, 1⟩] ∧
    s.getComponentsRefs demo true ⟨1, 2⟩ [4] = .ok (some r1) ∧
    s.getComponentsRefs demo true ⟨0, 1⟩ [4] = .ok (some r0) ∧ r0 ≠ r1 ∧
    runOrderedQueryWithEntities demo true s 11 (.readonly [4]) [] 10 =
      .ok [(⟨0, 1⟩, r0), (⟨0, 1⟩, r1), (⟨2, 1⟩, r2)] := by
  have h : ((runExec demo true 1 queryHistory).any fun s =>
      decide (s.getComponentsRefs demo true ⟨1, 2⟩ [4] = .ok (some [⟨3, 0, 1⟩])) &&
      (decide (s.getComponentsRefs demo true ⟨0, 1⟩ [4] = .ok (some [⟨2, 6820, 1⟩])) &&
      decide (runOrderedQueryWithEntities demo true s 11 (.readonly [4]) [] 10 =
        .ok [(⟨0, 1⟩, [⟨2, 6820, 1⟩]), (⟨0, 1⟩, [⟨3, 0, 1⟩]), (⟨2, 1⟩, [⟨3, 1, 1⟩])]))) = true := by decide
  obtain ⟨s, hs, h⟩ := any_some h
  rw [Bool.and_eq_true, Bool.and_eq_true, decide_eq_true_eq, decide_eq_true_eq, decide_eq_true_eq] at h
  exact ⟨s, _, _, _, runExec_sound hs, by decide, h.1, h.2.1, by decide, h.2.2⟩

end Ecs.Props
