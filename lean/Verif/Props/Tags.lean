import Verif.Proofs.History
import Verif.Spec.Run

/-! Properties C39 and C40: tags. Component calls are arbitrary in these executions. -/

namespace Ecs.Props
open Spec

section
variable {U : Universe} {dbg : Bool} {cap : Nat} {h : List Event} {s : Store}

/-- What `alive` means: created, and not destroyed. -/
theorem alive_meaning (hx : LooseExec U dbg cap h s) (e : Entity) :
    e ∈ alive h ↔ (.created e ∈ h ∨ ∃ ts init, .createdWith e ts init ∈ h) ∧ Event.destroyed e ∉ h :=
  alive_iff hx e

/-- **C39.** `has_tag` of a live entity never fails, and is true iff the last call that added or
removed this tag on this very entity (same id and version) was an addition; by the definition of
`lastTag`, no other call of the history matters. -/
theorem C39_has_tag_is_last_change (hx : LooseExec U dbg cap h s) (tag : Nat) {e : Entity} (he : e ∈ alive h) :
    s.hasTag tag e = .ok (lastTag tag e h) := by
  rw [alive_eq] at he
  rw [lastTag_eq hx tag he]
  exact (loose_core hx).hasTag he tag

/-- **C39**, the tag calls themselves: on a live entity they return, and change this tag on this entity
only. -/
theorem C39_tag_calls (hx : LooseExec U dbg cap h s) (tag : Nat) {e : Entity} (he : e ∈ alive h) :
    (∃ s', s.addTag tag e = .ok s' ∧ s'.hasTag tag e = .ok true ∧
      ∀ tag', ∀ x ∈ alive h, (tag', x) ≠ (tag, e) → s'.hasTag tag' x = s.hasTag tag' x) ∧
    (∃ s', s.removeTag tag e = .ok s' ∧ s'.hasTag tag e = .ok false ∧
      ∀ tag', ∀ x ∈ alive h, (tag', x) ≠ (tag, e) → s'.hasTag tag' x = s.hasTag tag' x) := by
  have he' := he
  rw [alive_eq] at he'
  have hc := loose_core hx
  refine ⟨?_, ?_⟩
  · obtain ⟨s', hr, -⟩ := hc.tagged tag he'
    have hx' : LooseExec U dbg cap (.tagged tag e :: h) s' := .step _ hx he' hr
    refine ⟨s', hr, ?_, ?_⟩
    · rw [C39_has_tag_is_last_change hx' tag (e := e) he]; simp [lastTag]
    · intro tag' x hx1 hne
      rw [C39_has_tag_is_last_change hx' tag' (e := x) hx1, C39_has_tag_is_last_change hx tag' hx1]
      simp only [lastTag]
      rw [if_neg (by rintro ⟨rfl, rfl⟩; exact hne rfl)]
  · obtain ⟨s', hr, -⟩ := hc.untagged tag he'
    have hx' : LooseExec U dbg cap (.untagged tag e :: h) s' := .step _ hx he' hr
    refine ⟨s', hr, ?_, ?_⟩
    · rw [C39_has_tag_is_last_change hx' tag (e := e) he]; simp [lastTag]
    · intro tag' x hx1 hne
      rw [C39_has_tag_is_last_change hx' tag' (e := x) hx1, C39_has_tag_is_last_change hx tag' hx1]
      simp only [lastTag]
      rw [if_neg (by rintro ⟨rfl, rfl⟩; exact hne rfl)]

/-- **C40.** A newly created entity has no tag, whichever of the two creation calls returned it, and
whatever happened before to earlier entities with the same id. -/
theorem C40_new_entity_has_no_tag (hx : LooseExec U dbg cap h s) {e : Entity} {s' : Store}
    (hb : (handles h).length + 1 < u32Size)
    (hr : s.createEntity dbg = .ok (s', e) ∨
      ∃ a, Built U a ∧ s.createEntityWithArchetype dbg a = .ok (s', e)) (tag : Nat) :
    s'.hasTag tag e = .ok false := by
  rw [handles_eq] at hb
  rcases hr with hr | ⟨a, ha, hr⟩
  · have hx' : LooseExec U dbg cap (.created e :: h) s' := .step (.created e) hx hb hr
    rw [(loose_core hx').hasTag (e := e) List.mem_cons_self]
    exact congrArg _ (Core.at'_self _ _ _)
  · have hx' : LooseExec U dbg cap (.createdWith e a.ids (fun _ => []) :: h) s' :=
      .step (.createdWith e a.ids _) hx hb ⟨a, ha, rfl, hr⟩
    rw [(loose_core hx').hasTag (e := e) List.mem_cons_self]
    exact congrArg _ (Core.at'_self _ _ _)

end

/-- A history with a recycled id: handle `⟨0, 1⟩` is tagged and destroyed, `⟨0, 2⟩` takes its id. -/
def tagHistory : List Event :=
  [.untagged 9 ⟨1, 1⟩, .tagged 5 ⟨0, 2⟩, .added ⟨0, 2⟩ [(1, [77])], .tagged 9 ⟨1, 1⟩, .created ⟨0, 2⟩, .destroyed ⟨0, 1⟩,
   .tagged 9 ⟨0, 1⟩, .tagged 5 ⟨0, 1⟩, .created ⟨1, 1⟩, .created ⟨0, 1⟩]

/-- The hypotheses are met, with tags present before and after recycling. -/
example : ∃ s, LooseExec demo true 1 tagHistory s ∧ ⟨0, 2⟩ ∈ alive tagHistory ∧
    lastTag 5 ⟨0, 2⟩ tagHistory = true ∧ lastTag 9 ⟨0, 2⟩ tagHistory = false ∧
    lastTag 9 ⟨1, 1⟩ tagHistory = false := by
  have h : (runLoose demo true 1 tagHistory).isSome = true := by decide
  obtain ⟨s, hs⟩ := Option.isSome_iff_exists.1 h
  exact ⟨s, runLoose_sound hs, by decide, by decide, by decide, by decide⟩

end Ecs.Props
