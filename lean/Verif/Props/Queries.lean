import Verif.Proofs.QueryRows
import Verif.Proofs.History
import Verif.Spec.Run
import Verif.Props.Components

/-! Properties C31–C34, C38 and C50 for component queries.

`Exec` is explained in `Props/Components.lean`. The functions `run…` collect everything an iterator
returns; their last argument bounds the number of calls (a larger bound changes nothing), `old` is what the
reused query object contained. -/

namespace Ecs.Props
open Spec

section
variable {U : Universe} {dbg : Bool} {cap : Nat} {h : List Event} {s : Store}

/-- **C31**, in every state reached by calls that returned, for arbitrary tuples: a component query returns every live entity whose archetype covers the access
(see `Spec/Query.lean`: has all the types, and no fewer types than a tuple names) exactly once, and no other, together with
references to its components. Without the entities it returns the same references. -/
theorem C31_visits_covered (hx : LooseExec U dbg cap h s) (acc : Access) (old : List IterView)
    {fuel : Nat} (hf : (alive h).length < fuel) :
    ∃ items, runComponentQueryWithEntities U dbg s acc old fuel = .ok items ∧
      runComponentQuery U s acc old fuel = .ok (items.map (·.2)) ∧
      (items.map (·.1)).Nodup ∧
      (∀ e, e ∈ items.map (·.1) ↔
        e ∈ alive h ∧ ∃ a, s.getEntityArchetype dbg e = .ok (some a) ∧ Covers a.ids acc) ∧
      ∀ x ∈ items, s.getComponentsRefs U dbg x.1 acc.types = .ok (some x.2) := by
  obtain ⟨it, items, h1, h2, h3, h4, h5, h6, h7, h8, h9⟩ := component_selected hx acc old hf
  have hm : (items.map fun x => (s.entOf x.1, x.2)).map (·.1) = items.map fun x => s.entOf x.1 := by
    rw [List.map_map]; rfl
  refine ⟨_, h8, ?_, ?_, fun e => ?_, fun x hx => ?_⟩
  · rw [List.map_map]; exact h9
  · rw [hm]; exact h6
  · rw [hm, h7 e]
  · obtain ⟨y, hy, rfl⟩ := List.mem_map.1 hx
    exact (h5 y hy).2

/-- **C31**, in every state reached by calls that returned, for tuples of distinct types: a component query returns every live entity whose
archetype contains the queried types exactly once, and no other, together with references to its
components. Without the entities it returns the same references. -/
theorem C31_visits_once_partial (hx : LooseExec U dbg cap h s) {acc : Access} (hd : DistinctTypes acc) (old : List IterView)
    {fuel : Nat} (hf : (alive h).length < fuel) :
    ∃ items, runComponentQueryWithEntities U dbg s acc old fuel = .ok items ∧
      runComponentQuery U s acc old fuel = .ok (items.map (·.2)) ∧
      (items.map (·.1)).Nodup ∧
      (∀ e, e ∈ items.map (·.1) ↔
        e ∈ alive h ∧ ∃ a, s.getEntityArchetype dbg e = .ok (some a) ∧ ∀ t ∈ acc.types, t ∈ a.ids) ∧
      ∀ x ∈ items, s.getComponentsRefs U dbg x.1 acc.types = .ok (some x.2) := by
  have := C31_visits_covered hx acc old hf
  simp only [covers_iff hd] at this
  exact this

/-- **C34**, for component queries in `Exec`: if no component type is queried twice, no two references
returned during one iteration, mutable or not, share a byte. -/
theorem C34_refs_apart_partial (hx : Exec U dbg cap h s) {acc : Access} (hd : acc.types.Nodup) (old : List IterView)
    {fuel : Nat} (hf : (alive h).length < fuel) :
    ∃ items, runComponentQuery U s acc old fuel = .ok items ∧ items.flatten.Pairwise Apart := by
  have hr := exec_rel hx
  obtain ⟨it, items, h1, h2, h3, h4, h5, h6, h7, h8, h9⟩ := component_selected hx.loose acc old hf
  refine ⟨_, h9, ?_⟩
  have := hr.refs_pairwise hd (items := items.map fun x => (s.entOf x.1, x.2)) ?_ ?_
  · rw [List.map_map] at this; exact this
  · intro x hx
    obtain ⟨y, hy, rfl⟩ := List.mem_map.1 hx
    exact ⟨hr.ents.id_lt (alive_eq h ▸ (h5 y hy).1), (h5 y hy).2⟩
  · rw [List.map_map]; exact h6

/-- `componentHistory`, where entities 0, 1 and 2 have component 4, entity 3 does not, and only entities 1
and 2 share a page; then tags and three groups. -/
def queryHistory : List Event :=
  [.orderedLast 10 ⟨1, 2⟩, .orderedLast 10 ⟨2, 1⟩,
   .orderedLast 9 ⟨0, 1⟩, .orderedLast 9 ⟨3, 1⟩, .orderedLast 9 ⟨1, 2⟩, .orderedLast 9 ⟨2, 1⟩,
   .orderedLast 11 ⟨2, 1⟩, .orderedLast 11 ⟨1, 2⟩, .orderedLast 11 ⟨0, 1⟩,
   .tagged 7 ⟨0, 1⟩, .untagged 7 ⟨3, 1⟩, .tagged 7 ⟨3, 1⟩, .tagged 7 ⟨2, 1⟩] ++ componentHistory

/-- The hypotheses of C31–C34 are met: the component query for type 4 returns entities 1, 2 and 0, of which
2 and 0 have tag 7. -/
example : ∃ s, Exec demo true 1 queryHistory s ∧ DistinctTypes (.readonly [4]) ∧ (alive queryHistory).length < 10 ∧
    (∃ e, .tagged 7 e ∈ queryHistory) ∧
    (∃ items, runComponentQueryWithEntities demo true s (.readonly [4]) [] 10 = .ok items ∧
      items.map (·.1) = [⟨1, 2⟩, ⟨2, 1⟩, ⟨0, 1⟩]) ∧
    ∃ items, runComponentQueryFilterTag demo true s (.readonly [4]) 7 [] 10 = .ok items ∧
      items.map (·.1) = [⟨2, 1⟩, ⟨0, 1⟩] := by
  have h : ((runExec demo true 1 queryHistory).any fun s =>
      (okAnd (runComponentQueryWithEntities demo true s (.readonly [4]) [] 10) fun items =>
        decide (items.map (·.1) = [⟨1, 2⟩, ⟨2, 1⟩, ⟨0, 1⟩])) &&
      (okAnd (runComponentQueryFilterTag demo true s (.readonly [4]) 7 [] 10) fun items =>
        decide (items.map (·.1) = [⟨2, 1⟩, ⟨0, 1⟩]))) = true := by decide
  obtain ⟨s, hs, h⟩ := any_some h
  rw [Bool.and_eq_true] at h
  obtain ⟨items, h1, h2⟩ := okAnd_iff h.1
  obtain ⟨items', h3, h4⟩ := okAnd_iff h.2
  exact ⟨s, runExec_sound hs, by decide, by decide, ⟨⟨0, 1⟩, by simp [queryHistory]⟩,
    ⟨items, h1, of_decide_eq_true h2⟩, items', h3, of_decide_eq_true h4⟩

/-- A write query for two types, and a read-write query, with disjoint references. -/
example : ∃ s, Exec demo true 1 queryHistory s ∧ (Access.readWrite [4] [2, 1]).types.Nodup ∧
    runComponentQuery demo s (.readWrite [4] [2, 1]) [] 10 = .ok [[⟨2, 6820, 1⟩, ⟨2, 1364, 4⟩, ⟨2, 0, 1⟩]] := by
  have h : ((runExec demo true 1 queryHistory).any fun s =>
      decide (runComponentQuery demo s (.readWrite [4] [2, 1]) [] 10 =
        .ok [[⟨2, 6820, 1⟩, ⟨2, 1364, 4⟩, ⟨2, 0, 1⟩]])) = true := by decide
  obtain ⟨s, hs, h⟩ := any_some h
  exact ⟨s, runExec_sound hs, by decide, of_decide_eq_true h⟩

end

/-! ### All states -/

section
variable {U : Universe} {dbg : Bool} {s : Store}

/-- **C38**: what a component query returns does not depend on what the query object was used for. -/
theorem C38_component (acc : Access) (old old' : List IterView) :
    componentQueryIter U s acc old = componentQueryIter U s acc old' := rfl

/-- **C38**, for entity queries. -/
theorem C38_entity (entities : List Entity) (acc : Access) (old old' : List (Range × IterView)) :
    entityQueryIter U dbg s entities acc old = entityQueryIter U dbg s entities acc old' := rfl

/-- **C38**, for ordered queries. -/
theorem C38_ordered (group : Nat) (acc : Access) (old old' : List (Range × IterView)) (fuel : Nat) :
    orderedQueryIter U s group acc old fuel = orderedQueryIter U s group acc old' fuel := rfl

/-- **C50**: the iterator of a component query, of any state of the store, is fused; so is the one with
entities and the one filtered by a tag. -/
theorem C50_component {acc : Access} {old : List IterView} {it : CompIter} (h : componentQueryIter U s acc old = .ok it) :
    Fused CompIter.next it ∧ Fused (CompIter.nextWithEntity dbg s) it ∧
    ∀ bv fuel, Fused (CompIter.nextFiltered dbg s bv fuel) it := by
  have hn := componentQueryIter_nonempty h
  have keep : ∀ {it it' : CompIter}, it.NonEmpty → it'.pageViews = it.pageViews → it'.NonEmpty := by
    intro it it' h1 h2
    unfold CompIter.NonEmpty
    rw [h2]
    exact h1
  refine ⟨?_, ?_, fun bv fuel => ?_⟩
  · exact fused_of CompIter.NonEmpty CompIter.Done (fun it o it' h1 h2 => keep h1 (CompIter.next_views h2))
      (fun it it' h1 h2 => CompIter.next_none_done h1 h2) (fun it h1 => CompIter.done_next h1) hn
  · exact fused_of CompIter.NonEmpty CompIter.Done (fun it o it' h1 h2 => keep h1 (CompIter.nextWithEntity_views h2).1)
      (fun it it' h1 h2 => CompIter.next_none_done h1 ((CompIter.nextWithEntity_views h2).2 rfl))
      (fun it h1 => CompIter.done_nextWithEntity h1) hn
  · cases fuel with
    | zero =>
      intro n rs it1 it2 _ h2
      cases h2
    | succ n =>
      refine fused_of CompIter.NonEmpty CompIter.Done (fun it o it' h1 h2 => keep h1 (CompIter.nextFiltered_views h2).1)
        (fun it it' h1 h2 => (CompIter.nextFiltered_views h2).2 rfl h1) (fun it h1 => ?_) hn
      obtain ⟨it', h2, h3⟩ := CompIter.done_nextWithEntity (dbg := dbg) (s := s) h1
      refine ⟨it', ?_, h3⟩
      unfold CompIter.nextFiltered
      simp only [h2, ok_bind, pure_ok]

/-- **C50**, for entity queries: every iterator is fused. -/
theorem C50_entity (it : EntIter) : Fused (EntIter.next dbg s) it ∧ Fused (EntIter.nextWithEntity dbg s) it := by
  have none_done : ∀ {it it' : EntIter}, it.next dbg s = .ok (none, it') → it'.ranges.length ≤ it'.nextRangeIndex := by
    intro it it' h
    unfold EntIter.next at h
    split at h
    · next hge => cases h; exact hge
    · obtain ⟨⟨r, v⟩, _, h⟩ := bind_eq_ok.1 h
      obtain ⟨e, _, h⟩ := bind_eq_ok.1 h
      obtain ⟨i, _, h⟩ := bind_eq_ok.1 h
      obtain ⟨l, _, h⟩ := bind_eq_ok.1 h
      cases h
  have done_next : ∀ {it : EntIter}, it.ranges.length ≤ it.nextRangeIndex → it.next dbg s = .ok (none, it) := by
    intro it h
    unfold EntIter.next
    rw [if_pos h]
    rfl
  constructor
  · exact fused_of (fun _ => True) (fun it => it.ranges.length ≤ it.nextRangeIndex) (fun _ _ _ _ _ => trivial)
      (fun it it' _ h => none_done h) (fun it h => ⟨it, done_next h, h⟩) trivial
  · refine fused_of (fun _ => True) (fun it => it.ranges.length ≤ it.nextRangeIndex) (fun _ _ _ _ _ => trivial)
      (fun it it' _ h => ?_) (fun it h => ⟨it, ?_, h⟩) trivial
    · unfold EntIter.nextWithEntity at h
      obtain ⟨⟨r, it1⟩, h1, h⟩ := bind_eq_ok.1 h
      split at h
      · next heq => cases heq; cases h; exact none_done h1
      · obtain ⟨e, _, h⟩ := bind_eq_ok.1 h
        cases h
    · unfold EntIter.nextWithEntity
      rw [done_next h]
      rfl

/-- **C50**, for ordered queries: every iterator is fused. -/
theorem C50_ordered (it : OrdIter) : Fused (OrdIter.next dbg) it ∧ Fused (OrdIter.nextWithEntity dbg s) it := by
  have none_done : ∀ {it it' : OrdIter}, it.next dbg = .ok (none, it') → it'.ranges.length ≤ it'.nextRangeIndex := by
    intro it it' h
    unfold OrdIter.next at h
    split at h
    · next hge => cases h; exact hge
    · obtain ⟨⟨r, v⟩, _, h⟩ := bind_eq_ok.1 h
      obtain ⟨l, _, h⟩ := bind_eq_ok.1 h
      cases h
  have done_next : ∀ {it : OrdIter}, it.ranges.length ≤ it.nextRangeIndex → it.next dbg = .ok (none, it) := by
    intro it h
    unfold OrdIter.next
    rw [if_pos h]
    rfl
  constructor
  · exact fused_of (fun _ => True) (fun it => it.ranges.length ≤ it.nextRangeIndex) (fun _ _ _ _ _ => trivial)
      (fun it it' _ h => none_done h) (fun it h => ⟨it, done_next h, h⟩) trivial
  · refine fused_of (fun _ => True) (fun it => it.ranges.length ≤ it.nextRangeIndex) (fun _ _ _ _ _ => trivial)
      (fun it it' _ h => ?_) (fun it h => ⟨it, ?_, h⟩) trivial
    · unfold OrdIter.nextWithEntity at h
      obtain ⟨⟨r, it1⟩, h1, h⟩ := bind_eq_ok.1 h
      split at h
      · next heq => cases heq; cases h; exact none_done h1
      · obtain ⟨e, _, h⟩ := bind_eq_ok.1 h
        obtain ⟨e, _, h⟩ := bind_eq_ok.1 h
        obtain ⟨e, _, h⟩ := bind_eq_ok.1 h
        cases h
    · unfold OrdIter.nextWithEntity
      rw [done_next h]
      rfl

end
/-- C50 is about iterators that do return something. -/
example : ∃ s it, Exec demo true 1 queryHistory s ∧ componentQueryIter demo s (.readonly [4]) [] = .ok it ∧
    ∃ rs it', calls CompIter.next 4 it = .ok (rs, it') ∧ rs.map (·.isSome) = [true, true, true, false] := by
  have h : ((runExec demo true 1 queryHistory).any fun s =>
      okAnd (componentQueryIter demo s (.readonly [4]) []) fun it =>
      okAnd (calls CompIter.next 4 it) fun r => decide (r.1.map (·.isSome) = [true, true, true, false])) = true := by
    decide
  obtain ⟨s, hs, h⟩ := any_some h
  obtain ⟨it, h1, h⟩ := okAnd_iff h
  obtain ⟨⟨rs, it'⟩, h2, h⟩ := okAnd_iff h
  exact ⟨s, it, runExec_sound hs, h1, rs, it', h2, of_decide_eq_true h⟩

end Ecs.Props
