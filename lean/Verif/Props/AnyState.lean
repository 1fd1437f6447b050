import Verif.Proofs.Shape
import Verif.Props.Defects

/-! Properties C25 and (first half) C27, in every state that calls which returned can lead to: programs may
use components in any way, and the defects of the archetype container may have shown. -/

namespace Ecs.Props
open Spec

section
variable {U : Universe} {dbg : Bool} {cap : Nat} {h : List Event} {s : Store}

/-- **C25.** `get_components_refs` never fails, and returns references iff the entity is alive and its
archetype contains every type. (The model of `get_components_refs_mut` is the same function.) -/
theorem C25_get_some_iff (hx : LooseExec U dbg cap h s) {e : Entity} (he : e ∈ handles h) (ts : List TypeId) :
    ∃ o, s.getComponentsRefs U dbg e ts = .ok o ∧
      (o.isSome = true ↔ e ∈ alive h ∧
        ∃ a, s.getEntityArchetype dbg e = .ok (some a) ∧ ∀ t ∈ ts, t ∈ a.ids) := by
  rw [handles_eq] at he
  rw [alive_eq]
  exact (loose_get hx he).2 ts

/-- **C27**, first half: `get_entity_archetype` never fails, and is nothing iff the entity is dead or was
never given components. -/
theorem C27_none_iff (hx : LooseExec U dbg cap h s) {e : Entity} (he : e ∈ handles h) :
    ∃ o, s.getEntityArchetype dbg e = .ok o ∧ (o = none ↔ e ∉ alive h ∨ e ∉ given h) := by
  rw [handles_eq] at he
  obtain ⟨o, h1, h2⟩ := (loose_get (U := U) (dbg := dbg) hx he).1
  refine ⟨o, h1, ?_⟩
  have hg := (given_bit hx).2 e
  rw [← alive_eq] at h2
  rw [← Option.not_isSome_iff_eq_none, h2]
  by_cases hl : e ∈ alive h
  · simp [hl, hg hl]
  · simp [hl]

end

/-- The theorems apply to the state of `C27_counterexample`, where the store has mixed up two archetypes:
references are returned for type 8, which is in the archetype reported, and not for type 5, which is not. -/
example : ∃ s, LooseExec demo true 1 (.added ⟨4, 1⟩ [(8, [80])] :: refilled) s ∧
    ⟨1, 2⟩ ∈ handles (.added ⟨4, 1⟩ [(8, [80])] :: refilled) ∧
    okAnd (s.getComponentsRefs demo true ⟨1, 2⟩ [8]) (fun o => o.isSome) = true ∧
    okAnd (s.getComponentsRefs demo true ⟨1, 2⟩ [5]) (fun o => o.isNone) = true ∧
    okAnd (s.getEntityArchetype true ⟨1, 2⟩) (fun o => o.isSome) = true := by
  have h : ((runLoose demo true 1 (.added ⟨4, 1⟩ [(8, [80])] :: refilled)).any fun s =>
      okAnd (s.getComponentsRefs demo true ⟨1, 2⟩ [8]) (fun o => o.isSome) &&
      (okAnd (s.getComponentsRefs demo true ⟨1, 2⟩ [5]) (fun o => o.isNone) &&
      okAnd (s.getEntityArchetype true ⟨1, 2⟩) (fun o => o.isSome))) = true := by decide
  obtain ⟨s, hs, h⟩ := any_some h
  simp only [Bool.and_eq_true] at h
  exact ⟨s, runLoose_sound hs, by decide, h.1, h.2.1, h.2.2⟩

/-- An entity without components, a dead one, and one with components. -/
example : ∃ s, LooseExec demo true 1 [.added ⟨1, 1⟩ [(5, [50])], .destroyed ⟨0, 1⟩, .created ⟨1, 1⟩, .added ⟨0, 1⟩ [(5, [1])],
      .created ⟨0, 1⟩] s ∧
    okAnd (s.getEntityArchetype true ⟨0, 1⟩) (fun o => o.isNone) = true ∧
    okAnd (s.getEntityArchetype true ⟨1, 1⟩) (fun o => o.isSome) = true := by
  have h : ((runLoose demo true 1 [.added ⟨1, 1⟩ [(5, [50])], .destroyed ⟨0, 1⟩, .created ⟨1, 1⟩, .added ⟨0, 1⟩ [(5, [1])],
      .created ⟨0, 1⟩]).any fun s =>
      okAnd (s.getEntityArchetype true ⟨0, 1⟩) (fun o => o.isNone) &&
      okAnd (s.getEntityArchetype true ⟨1, 1⟩) (fun o => o.isSome)) = true := by decide
  obtain ⟨s, hs, h⟩ := any_some h
  simp only [Bool.and_eq_true] at h
  exact ⟨s, runLoose_sound hs, h.1, h.2⟩

end Ecs.Props
