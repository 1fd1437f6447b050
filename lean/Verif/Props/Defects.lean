import Verif.Spec.Run
import Verif.Spec.Tags

/-! Counterexamples: executions of well-behaved programs (`WellExec`) for which properties C20–C29, C46
and C49 fail, and stale handles for which C30 fails. Each is a computation of the model on a concrete
history. The theorems in `Props/Components.lean` prove these properties for the remaining executions.

Defects of the code shown here:
* `ArchetypeDataPage::has_free_space` compares with the capacity of the vector of ids, which
  `Vec::reserve_exact` and `push` may make larger than the capacity of the layout.
* `ArchetypesContainer` keeps `free_archetypes` in order of freeing, but looks slots up in it by binary
  search.
* `ArchetypeLayout::new` may compute columns that do not fit in the page, and panics.
* `Store::destroy_entity` removes the row of the entity id before it validates the handle. -/

namespace Ecs.Props
open Spec

private def noInit : TypeId → List Cell := fun _ => []

/-- Two entities with a large component (type 3) and two small ones (types 4 and 5). -/
def overfull : List Event :=
  [.assigned ⟨0, 1⟩ [(5, [2])], .createdWith ⟨1, 1⟩ [3, 4, 5] noInit, .createdWith ⟨0, 1⟩ [3, 4, 5] noInit]

/-- Four entities with a large component and a small one. -/
def overflowing : List Event :=
  [.createdWith ⟨3, 1⟩ [3, 4] noInit, .createdWith ⟨2, 1⟩ [3, 4] noInit,
   .createdWith ⟨1, 1⟩ [3, 4] noInit, .createdWith ⟨0, 1⟩ [3, 4] noInit]

/-- **C20 is false of the code**: two entities in a page whose layout has room for one. -/
theorem C20_counterexample : ∃ s, WellExec demo true 1 overfull s ∧
    ∃ (p ai : Nat) (pg : Page) (l : Layout), s.archs.pages[p]? = some pg ∧ s.archs.pageToArch[p]? = some ai ∧
      s.archs.layouts[ai]? = some l ∧ pg.ids.items.length = 2 ∧ l.entitiesCapacity = 1 := by
  have h : ((runWell demo true 1 overfull).any fun s =>
      (s.archs.pages[4]?).any (fun pg => decide (pg.ids.items.length = 2)) &&
      (decide (s.archs.pageToArch[4]? = some 0) &&
      (s.archs.layouts[0]?).any (fun l => decide (l.entitiesCapacity = 1)))) = true := by decide
  obtain ⟨s, hs, h⟩ := any_some h
  simp only [Bool.and_eq_true, decide_eq_true_eq] at h
  obtain ⟨h1, h2, h3⟩ := h
  obtain ⟨pg, h1, h1'⟩ := any_some h1
  obtain ⟨l, h3, h3'⟩ := any_some h3
  exact ⟨s, runWell_sound hs, 4, 0, pg, l, h1, h2, h3, of_decide_eq_true h1', of_decide_eq_true h3'⟩

/-- **C22 is false of the code**: adding component 4 to entity 1 changes component 5 of entity 0. -/
theorem C22_counterexample : ∃ s s', WellExec demo true 1 overfull s ∧
    s.addComponents demo true ⟨1, 1⟩ [(4, [7])] = .ok s' ∧
    s.getComponents demo true ⟨0, 1⟩ [5] = .ok (some [[some 2]]) ∧
    s'.getComponents demo true ⟨0, 1⟩ [5] = .ok (some [[some 7]]) := by
  have h : ((runWell demo true 1 overfull).any fun s =>
      okAnd (s.addComponents demo true ⟨1, 1⟩ [(4, [7])]) fun s' =>
      decide (s.getComponents demo true ⟨0, 1⟩ [5] = .ok (some [[some 2]])) &&
      decide (s'.getComponents demo true ⟨0, 1⟩ [5] = .ok (some [[some 7]]))) = true := by decide
  obtain ⟨s, hs, h⟩ := any_some h
  obtain ⟨s', hs', h⟩ := okAnd_iff h
  simp only [Bool.and_eq_true, decide_eq_true_eq] at h
  exact ⟨s, s', runWell_sound hs, hs', h.1, h.2⟩

/-- **C26 is false of the code**: writing component 4 of entity 1 through a reference changes component 5
of entity 0. -/
theorem C26_counterexample : ∃ s s', WellExec demo true 1 overfull s ∧
    s.setComponents demo true ⟨1, 1⟩ [(4, [7])] = .ok (s', true) ∧
    s.getComponents demo true ⟨0, 1⟩ [5] = .ok (some [[some 2]]) ∧
    s'.getComponents demo true ⟨0, 1⟩ [5] = .ok (some [[some 7]]) := by
  have h : ((runWell demo true 1 overfull).any fun s =>
      okAnd (s.setComponents demo true ⟨1, 1⟩ [(4, [7])]) fun r =>
      r.2 && (decide (s.getComponents demo true ⟨0, 1⟩ [5] = .ok (some [[some 2]])) &&
      decide (r.1.getComponents demo true ⟨0, 1⟩ [5] = .ok (some [[some 7]])))) = true := by decide
  obtain ⟨s, hs, h⟩ := any_some h
  obtain ⟨⟨s', b⟩, hs', h⟩ := okAnd_iff h
  simp only [Bool.and_eq_true, decide_eq_true_eq] at h
  obtain ⟨rfl, h1, h2⟩ := h
  exact ⟨s, s', runWell_sound hs, hs', h1, h2⟩

/-- **C21, C23, C24 and C46 are false of the code**: with four entities in one page the fourth row leaves
the page. Reading its large component, adding a component to it, removing one from it, and destroying the
first entity are all out-of-bounds accesses. -/
theorem C46_counterexample : ∃ s, WellExec demo true 1 overflowing s ∧
    s.getComponents demo true ⟨3, 1⟩ [3] = .error (.ub .oob) ∧
    (∀ s', s.addComponents demo true ⟨3, 1⟩ [(5, [0])] ≠ .ok s') ∧
    (∀ s', s.removeComponents demo true ⟨3, 1⟩ [4] ≠ .ok s') ∧
    (∀ s', s.destroyEntity true ⟨0, 1⟩ ≠ .ok s') := by
  have h : ((runWell demo true 1 overflowing).any fun s =>
      decide (s.getComponents demo true ⟨3, 1⟩ [3] = .error (.ub .oob)) &&
      (decide ((s.addComponents demo true ⟨3, 1⟩ [(5, [0])]).toOption.isNone = true) &&
      (decide ((s.removeComponents demo true ⟨3, 1⟩ [4]).toOption.isNone = true) &&
      decide ((s.destroyEntity true ⟨0, 1⟩).toOption.isNone = true)))) = true := by decide
  obtain ⟨s, hs, h⟩ := any_some h
  simp only [Bool.and_eq_true, decide_eq_true_eq] at h
  obtain ⟨h1, h2, h3, h4⟩ := h
  refine ⟨s, runWell_sound hs, h1, fun s' h => ?_, fun s' h => ?_, fun s' h => ?_⟩
  · rw [h] at h2; cases h2
  · rw [h] at h3; cases h3
  · rw [h] at h4; cases h4

/-- The calls of `C46_counterexample` fail with an out-of-bounds access. -/
theorem C21_counterexample : ∃ s, WellExec demo true 1 overflowing s ∧
    (⟨3, 1⟩ : Entity) ∈ alive overflowing ∧
    (match s.addComponents demo true ⟨3, 1⟩ [(5, [0])] with
      | .error f => f = .ub .oob
      | .ok _ => False) := by
  have h : ((runWell demo true 1 overflowing).any fun s =>
      match s.addComponents demo true ⟨3, 1⟩ [(5, [0])] with
      | .error f => decide (f = .ub .oob)
      | .ok _ => false) = true := by decide
  obtain ⟨s, hs, h⟩ := any_some h
  refine ⟨s, runWell_sound hs, by decide, ?_⟩
  split at h
  · exact of_decide_eq_true h
  · cases h

/-- `remove_components` of one of the two components of a live entity is an out-of-bounds access. -/
theorem C23_counterexample : ∃ s, WellExec demo true 1 overflowing s ∧
    (⟨3, 1⟩ : Entity) ∈ alive overflowing ∧
    (match s.removeComponents demo true ⟨3, 1⟩ [4] with
      | .error f => f = .ub .oob
      | .ok _ => False) := by
  have h : ((runWell demo true 1 overflowing).any fun s =>
      match s.removeComponents demo true ⟨3, 1⟩ [4] with
      | .error f => decide (f = .ub .oob)
      | .ok _ => false) = true := by decide
  obtain ⟨s, hs, h⟩ := any_some h
  refine ⟨s, runWell_sound hs, by decide, ?_⟩
  split at h
  · exact of_decide_eq_true h
  · cases h

/-- `destroy_entity` of a live entity is an out-of-bounds access. -/
theorem C24_counterexample : ∃ s, WellExec demo true 1 overflowing s ∧
    (⟨0, 1⟩ : Entity) ∈ alive overflowing ∧
    (match s.destroyEntity true ⟨0, 1⟩ with
      | .error f => f = .ub .oob
      | .ok _ => False) := by
  have h : ((runWell demo true 1 overflowing).any fun s =>
      match s.destroyEntity true ⟨0, 1⟩ with
      | .error f => decide (f = .ub .oob)
      | .ok _ => false) = true := by decide
  obtain ⟨s, hs, h⟩ := any_some h
  refine ⟨s, runWell_sound hs, by decide, ?_⟩
  split at h
  · exact of_decide_eq_true h
  · cases h

/-- Entities with component types 9, 1, 4 and 5; those with types 5 and 1 are destroyed in this order, so
their archetype slots 3 and 1 are freed in this order. Then an entity gets component 5 with value 50 and
so uses slot 3 again. -/
def refilled : List Event :=
  [.created ⟨4, 1⟩, .added ⟨3, 2⟩ [(7, [70])], .created ⟨3, 2⟩,
   .added ⟨1, 2⟩ [(5, [50])], .created ⟨1, 2⟩, .destroyed ⟨1, 1⟩, .destroyed ⟨3, 1⟩,
   .added ⟨3, 1⟩ [(5, [6])], .added ⟨2, 1⟩ [(4, [4])], .added ⟨1, 1⟩ [(1, [1])], .added ⟨0, 1⟩ [(9, [9])],
   .created ⟨3, 1⟩, .created ⟨2, 1⟩, .created ⟨1, 1⟩, .created ⟨0, 1⟩]

/-- **C28, C27, C22 and C49 are false of the code**: adding a component of type 8 to entity 4 turns
component 5 of entity 1, with its value, into a component of type 8. No component is large here. -/
theorem C28_counterexample : ∃ s s' a', WellExec demo true 1 refilled s ∧
    s.addComponents demo true ⟨4, 1⟩ [(8, [80])] = .ok s' ∧
    s.getComponents demo true ⟨1, 2⟩ [5] = .ok (some [[some 50]]) ∧
    s'.getComponents demo true ⟨1, 2⟩ [5] = .ok none ∧
    s'.getComponents demo true ⟨1, 2⟩ [8] = .ok (some [[some 50]]) ∧
    s'.getEntityArchetype true ⟨1, 2⟩ = .ok (some a') ∧ a'.ids = [8] := by
  have h : ((runWell demo true 1 refilled).any fun s =>
      okAnd (s.addComponents demo true ⟨4, 1⟩ [(8, [80])]) fun s' =>
      decide (s.getComponents demo true ⟨1, 2⟩ [5] = .ok (some [[some 50]])) &&
      (decide (s'.getComponents demo true ⟨1, 2⟩ [5] = .ok none) &&
      (decide (s'.getComponents demo true ⟨1, 2⟩ [8] = .ok (some [[some 50]])) &&
      okAnd (s'.getEntityArchetype true ⟨1, 2⟩) fun o => o.any fun a => decide (a.ids = [8])))) = true := by
    decide
  obtain ⟨s, hs, h⟩ := any_some h
  obtain ⟨s', hs', h⟩ := okAnd_iff h
  simp only [Bool.and_eq_true, decide_eq_true_eq] at h
  obtain ⟨h1, h2, h3, h4⟩ := h
  obtain ⟨o, h4, h5⟩ := okAnd_iff h4
  obtain ⟨a', rfl, h5⟩ := any_some h5
  exact ⟨s, s', a', runWell_sound hs, hs', h1, h2, h3, h4, of_decide_eq_true h5⟩

/-- The history of `C28_counterexample` together with the last call, as an execution: the entity's current
type set is 5, but `get_entity_archetype` reports 8. -/
theorem C27_counterexample : ∃ s a, WellExec demo true 1 (.added ⟨4, 1⟩ [(8, [80])] :: refilled) s ∧
    (world (.added ⟨4, 1⟩ [(8, [80])] :: refilled)).types ⟨1, 2⟩ = [5] ∧
    s.getEntityArchetype true ⟨1, 2⟩ = .ok (some a) ∧ a.ids = [8] := by
  have h : ((runWell demo true 1 (.added ⟨4, 1⟩ [(8, [80])] :: refilled)).any fun s =>
      okAnd (s.getEntityArchetype true ⟨1, 2⟩) fun o => o.any fun a => decide (a.ids = [8])) = true := by
    decide
  obtain ⟨s, hs, h⟩ := any_some h
  obtain ⟨o, h4, h5⟩ := okAnd_iff h
  obtain ⟨a', rfl, h5⟩ := any_some h5
  exact ⟨s, a', runWell_sound hs, by decide, h4, of_decide_eq_true h5⟩

/-- Component types with even number have 1092 bytes; those with odd number 1024 bytes, aligned to 1024. -/
def coarse : Universe where
  size := fun t => if t % 2 = 0 then 1092 else 1024
  align := fun t => if t % 2 = 0 then 1 else 1024
  align_pos := by intro t; split <;> omega
  align_dvd := by intro t; split <;> simp

/-- **C29 is false of the code**: an entity with six components; removing one of them panics, because the
layout for the other five does not fit in a page. -/
theorem C29_counterexample : ∃ s, WellExec coarse true 1 [.createdWith ⟨0, 1⟩ [0, 1, 2, 3, 4, 5] noInit] s ∧
    (match s.removeComponents coarse true ⟨0, 1⟩ [5] with
      | .error f => f = .panic .assertFailed
      | .ok _ => False) := by
  have h : ((runWell coarse true 1 [.createdWith ⟨0, 1⟩ [0, 1, 2, 3, 4, 5] noInit]).any fun s =>
      match s.removeComponents coarse true ⟨0, 1⟩ [5] with
      | .error f => decide (f = .panic .assertFailed)
      | .ok _ => false) = true := by decide
  obtain ⟨s, hs, h⟩ := any_some h
  refine ⟨s, runWell_sound hs, ?_⟩
  split at h
  · exact of_decide_eq_true h
  · cases h

/-- A type of size zero: no archetype containing it is accepted (division by zero), in any build. -/
theorem C46_counterexample_zero_size (dbg : Bool) : ∃ s, WellExec demo dbg 1 [.created ⟨0, 1⟩] s ∧
    (match s.addComponents demo dbg ⟨0, 1⟩ [(6, [])] with
      | .error f => f = .panic .divByZero
      | .ok _ => False) := by
  have h : ((runWell demo dbg 1 [.created ⟨0, 1⟩]).any fun s =>
      match s.addComponents demo dbg ⟨0, 1⟩ [(6, [])] with
      | .error f => decide (f = .panic .divByZero)
      | .ok _ => false) = true := by cases dbg <;> decide
  obtain ⟨s, hs, h⟩ := any_some h
  refine ⟨s, runWell_sound hs, ?_⟩
  split at h
  · exact of_decide_eq_true h
  · cases h

/-- Three entities with component 1, the first one destroyed. -/
def oneDestroyed : List Event :=
  [.destroyed ⟨0, 1⟩, .added ⟨2, 1⟩ [(1, [3])], .added ⟨1, 1⟩ [(1, [2])], .added ⟨0, 1⟩ [(1, [1])],
   .created ⟨2, 1⟩, .created ⟨1, 1⟩, .created ⟨0, 1⟩]

/-- **C30 is false of the code** (release build): destroying entity 0 a second time makes entity 2 read the
component of entity 1, and makes the destroyed handle alive again. -/
theorem C30_counterexample : ∃ s s', WellExec demo false 1 oneDestroyed s ∧
    s.isAlive false ⟨0, 1⟩ = .ok false ∧ s.destroyEntity false ⟨0, 1⟩ = .ok s' ∧
    s.getComponents demo false ⟨2, 1⟩ [1] = .ok (some [[some 3]]) ∧
    s'.getComponents demo false ⟨2, 1⟩ [1] = .ok (some [[some 2]]) := by
  have h : ((runWell demo false 1 oneDestroyed).any fun s =>
      okAnd (s.destroyEntity false ⟨0, 1⟩) fun s' =>
      decide (s.isAlive false ⟨0, 1⟩ = .ok false) &&
      (decide (s.getComponents demo false ⟨2, 1⟩ [1] = .ok (some [[some 3]])) &&
      decide (s'.getComponents demo false ⟨2, 1⟩ [1] = .ok (some [[some 2]])))) = true := by decide
  obtain ⟨s, hs, h⟩ := any_some h
  obtain ⟨s', hs', h⟩ := okAnd_iff h
  simp only [Bool.and_eq_true, decide_eq_true_eq] at h
  exact ⟨s, s', runWell_sound hs, h.1, hs', h.2.1, h.2.2⟩

/-- **C30** in a debug build: the call panics, but only after the row has been removed (`destroyRow` is the
part of `destroy_entity` before the check), so a program that survives the panic finds the component of
entity 2 changed. -/
theorem C30_counterexample_debug : ∃ s s', WellExec demo true 1 oneDestroyed s ∧
    (match s.destroyEntity true ⟨0, 1⟩ with
      | .error f => f = .panic .debugAssert
      | .ok _ => False) ∧
    s.destroyRow ⟨0, 1⟩ = .ok s' ∧
    s.getComponents demo true ⟨2, 1⟩ [1] = .ok (some [[some 3]]) ∧
    s'.getComponents demo true ⟨2, 1⟩ [1] = .ok (some [[some 2]]) := by
  have h : ((runWell demo true 1 oneDestroyed).any fun s =>
      okAnd (s.destroyRow ⟨0, 1⟩) fun s' =>
      (match s.destroyEntity true ⟨0, 1⟩ with
        | .error f => decide (f = .panic .debugAssert)
        | .ok _ => false) &&
      (decide (s.getComponents demo true ⟨2, 1⟩ [1] = .ok (some [[some 3]])) &&
      decide (s'.getComponents demo true ⟨2, 1⟩ [1] = .ok (some [[some 2]])))) = true := by decide
  obtain ⟨s, hs, h⟩ := any_some h
  obtain ⟨s', hs', h⟩ := okAnd_iff h
  simp only [Bool.and_eq_true, decide_eq_true_eq] at h
  refine ⟨s, s', runWell_sound hs, ?_, hs', h.2.1, h.2.2⟩
  have := h.1
  split at this
  · exact of_decide_eq_true this
  · cases this

end Ecs.Props
