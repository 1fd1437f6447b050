import Verif.Proofs.Stale
import Verif.Proofs.History
import Verif.Proofs.EntsOf
import Verif.Proofs.NullCalls
import Verif.Spec.Run

/-! Property C52: the null handle. `LooseExec` (`Spec/World.lean`) are executions of programs that may do
anything with components. -/

namespace Ecs.Props
open Spec

section
variable {U : Universe} {dbg : Bool} {cap : Nat} {h : List Event} {s : Store}

/-- **C52**, first half: no creation returns a handle with the id of `Entity::null()`, so none returns
`Entity::null()`. -/
theorem C52_null_never_issued (hx : LooseExec U dbg cap h s) {e : Entity} (he : e ∈ handles h) :
    e.id ≠ Entity.null.id ∧ e ≠ Entity.null :=
  have h1 := issued_ne_null hx e he
  ⟨h1, fun h0 => h1 (by rw [h0]; rfl)⟩

/-- **C52**, second half: `is_alive(Entity::null())` never returns `true`, and neither components nor an
archetype are returned for it. (It does not return `false` either, see `C52_counterexample`.) -/
theorem C52_null_never_alive_partial (hx : LooseExec U dbg cap h s) :
    s.isAlive dbg Entity.null ≠ .ok true ∧ (∀ a, s.getEntityArchetype dbg Entity.null ≠ .ok (some a)) ∧
    ∀ ts refs, s.getComponentsRefs U dbg Entity.null ts ≠ .ok (some refs) := by
  have hc := loose_core hx
  have key : s.isAlive dbg Entity.null ≠ .ok true := by
    intro h1
    have hlt := hc.isAlive_lt h1
    rw [hc.isAlive hlt] at h1
    have h2 : Entity.null ∈ (world h).live := by simpa using h1
    have := hc.ents.sub _ h2
    rw [← handles_eq] at this
    exact (C52_null_never_issued hx this).2 rfl
  have hv : s.isValidEntityWithArchetype dbg Entity.null ≠ .ok true := by
    intro h1
    unfold Store.isValidEntityWithArchetype at h1
    obtain ⟨b, h2, h1⟩ := bind_eq_ok.1 h1
    cases b with
    | true => exact key h2
    | false => cases h1
  refine ⟨key, fun a h1 => ?_, fun ts refs h1 => ?_⟩
  · unfold Store.getEntityArchetype at h1
    obtain ⟨b, h2, h1⟩ := bind_eq_ok.1 h1
    cases b with
    | true => exact hv h2
    | false => cases h1
  · unfold Store.getComponentsRefs at h1
    obtain ⟨b, h2, h1⟩ := bind_eq_ok.1 h1
    cases b with
    | true => exact hv h2
    | false => cases h1

/-- **C52**, what the code does: in every reachable state (fewer than 2^31 creations, initial capacity below 2^32)
asking whether the null handle is alive panics in a debug build and reads out of bounds in a release build, and so do
the calls that ask for its archetype and its components. -/
theorem C52_asking_about_null_fails (hx : LooseExec U dbg cap h s) (hc : cap < u32Size) (hn : (handles h).length < 2147483648)
    (ts : List TypeId) :
    let f : Fault := if dbg then .panic .debugAssert else .ub .oob
    s.isAlive dbg Entity.null = .error f ∧ s.getEntityArchetype dbg Entity.null = .error f ∧
      s.getComponentsRefs U dbg Entity.null ts = .error f := by
  have hb : dbg = true ∨ (issued (entHistory h)).length < u32Size := Or.inr (by rw [issued_entHistory]; omega)
  have hinv := exec_inv (loose_ents hx) hb
  have hpk : peak (entHistory h) ≤ (handles h).length := by
    rw [← issued_entHistory]; exact peak_le_issued _
  have hcap := exec_capacity (loose_ents hx) hb hc (by omega)
  have hlt : ¬ Entity.null.id < s.ents.capacity := by
    show ¬ NULL_ID < _
    omega
  have key : s.isAlive dbg Entity.null = .error (if dbg then .panic .debugAssert else .ub .oob) := by
    unfold Store.isAlive
    cases dbg
    · exact hinv.isAlive_release_oob hlt
    · exact EntInv.isAlive_debug_oob hlt
  refine ⟨key, ?_, ?_⟩
  · unfold Store.getEntityArchetype Store.isValidEntityWithArchetype; rw [key]; rfl
  · unfold Store.getComponentsRefs Store.isValidEntityWithArchetype; rw [key]; rfl

/-- **C52**, all calls, with the null handle or any handle whose id is beyond the memory of the store (for instance one
of another store). Component calls panic in debug builds and read out of bounds in release builds. `destroy_entity`,
`add_tag` and both `add_entity_*_to_order_by` access memory out of bounds in both builds; `has_tag` and `remove_tag` do
so iff the tag was ever used, and the remaining order calls do so at least while the group has members. Appending it to a
group without members returns: with the null id the group stays without members, with any other id the group is then
broken (asking for its first or last entity reads out of bounds). -/
theorem C52_calls_out_of_range (hx : LooseExec U dbg cap h s) {e : Entity} (hf : s.ents.capacity / 32 < e.id / 32) :
    let f : Fault := if dbg then .panic .debugAssert else .ub .oob
    s.isAlive dbg e = .error f ∧
    (∀ vals, s.addComponents U dbg e vals = .error f) ∧ (∀ ts, s.removeComponents U dbg e ts = .error f) ∧
    (∀ ts, s.getComponents U dbg e ts = .error f) ∧ (∀ vals, s.setComponents U dbg e vals = .error f) ∧
    s.destroyEntity dbg e = .error (.ub .oob) ∧
    (∀ t, s.addTag t e = .error (.ub .oob)) ∧
    (∀ t x, .tagged t x ∈ h → s.hasTag t e = .error (.ub .oob) ∧ s.removeTag t e = .error (.ub .oob)) ∧
    (∀ t, (∀ x, .tagged t x ∉ h) → s.hasTag t e = .ok false ∧ s.removeTag t e = .ok s) ∧
    (∀ g x, s.addOrderNextTo dbg g e x = .error (.ub .oob) ∧ s.addOrderPreviousTo dbg g e x = .error (.ub .oob)) ∧
    (∀ g, sequence g h ≠ [] → s.addOrder dbg g e = .error (.ub .oob) ∧ s.removeOrder g e = .error (.ub .oob) ∧
      s.getNextOrdered g e = .error (.ub .oob) ∧ s.getPreviousOrdered g e = .error (.ub .oob)) ∧
    (∀ g, sequence g h = [] → ∃ s', s.addOrder dbg g e = .ok s' ∧
      (e.id = Entity.null.id → s'.getFirstOrdered g = .ok none ∧ s'.getLastOrdered g = .ok none) ∧
      (e.id ≠ Entity.null.id → s'.getFirstOrdered g = .error (.ub .oob) ∧ s'.getLastOrdered g = .error (.ub .oob))) := by
  have hc := loose_core hx
  have hf' : s.ents.capacity ≤ e.id := by omega
  obtain ⟨k1, k2, k3, k4⟩ := hc.foreign_calls (U := U) (dbg := dbg) hf'
  refine ⟨hc.foreign_isAlive hf', k1, k2, k3, k4, hc.foreign_destroy hf, fun t => (hc.foreign_tags hf t).1,
    fun t x ht => (hc.foreign_tags hf t).2.1 ((registered_iff hx t).2 ⟨x, ht⟩),
    fun t ht => (hc.foreign_tags hf t).2.2 fun k => ((registered_iff hx t).1 k).elim ht,
    fun g => (hc.foreign_orders hf' g).1, fun g hg => (hc.foreign_orders hf' g).2.1 (by rw [← sequence_eq]; exact hg),
    fun g hg => (hc.foreign_orders hf' g).2.2 (by rw [← sequence_eq]; exact hg)⟩

/-- The null handle is out of range in this sense in every state reached with fewer than 2^30 creations from an initial
capacity of at most 2^31. -/
theorem C52_null_out_of_range (hx : LooseExec U dbg cap h s) (hc : cap ≤ 2147483648) (hn : (handles h).length < 1073741824) :
    s.ents.capacity / 32 < Entity.null.id / 32 := by
  have hb : dbg = true ∨ (issued (entHistory h)).length < u32Size := Or.inr (by rw [issued_entHistory]; omega)
  have hpk : peak (entHistory h) ≤ (handles h).length := by
    rw [← issued_entHistory]; exact peak_le_issued _
  have hcap := exec_capacity (loose_ents hx) hb (by omega) (by omega)
  show _ < NULL_ID / 32
  omega

end

/-- **C52** is false as stated: asking a store with one entity whether `Entity::null()` is alive panics in
a debug build, and reads out of bounds in a release build. -/
theorem C52_counterexample :
    (∃ s, LooseExec demo true 1 [.created ⟨0, 1⟩] s ∧ s.isAlive true Entity.null = .error (.panic .debugAssert)) ∧
    (∃ s, LooseExec demo false 1 [.created ⟨0, 1⟩] s ∧ s.isAlive false Entity.null = .error (.ub .oob)) := by
  constructor
  · have h : ((runLoose demo true 1 [.created ⟨0, 1⟩]).any fun s =>
        decide (s.isAlive true Entity.null = .error (.panic .debugAssert))) = true := by decide
    obtain ⟨s, hs, h⟩ := any_some h
    exact ⟨s, runLoose_sound hs, of_decide_eq_true h⟩
  · have h : ((runLoose demo false 1 [.created ⟨0, 1⟩]).any fun s =>
        decide (s.isAlive false Entity.null = .error (.ub .oob))) = true := by decide
    obtain ⟨s, hs, h⟩ := any_some h
    exact ⟨s, runLoose_sound hs, of_decide_eq_true h⟩

/-- An execution that reuses an id, for the hypotheses of C52. -/
example : ∃ s, LooseExec demo true 1 [.created ⟨0, 2⟩, .destroyed ⟨0, 1⟩, .created ⟨0, 1⟩] s ∧
    handles [.created ⟨0, 2⟩, .destroyed ⟨0, 1⟩, .created ⟨0, 1⟩] = [⟨0, 2⟩, ⟨0, 1⟩] := by
  have h : ((runLoose demo true 1 [.created ⟨0, 2⟩, .destroyed ⟨0, 1⟩, .created ⟨0, 1⟩]).any fun _ => true) = true := by decide
  obtain ⟨s, hs, _⟩ := any_some h
  exact ⟨s, runLoose_sound hs, by decide⟩

/-- A store with a tag in use and a group with a member, for the hypotheses of `C52_calls_out_of_range`. -/
example : ∃ s, LooseExec demo false 1 [.orderedLast 3 ⟨0, 1⟩, .tagged 7 ⟨0, 1⟩, .created ⟨0, 1⟩] s ∧
    s.ents.capacity / 32 < Entity.null.id / 32 ∧ s.hasTag 7 Entity.null = .error (.ub .oob) ∧
    s.hasTag 8 Entity.null = .ok false := by
  have h : ((runLoose demo false 1 [.orderedLast 3 ⟨0, 1⟩, .tagged 7 ⟨0, 1⟩, .created ⟨0, 1⟩]).any fun _ => true) = true := by
    decide
  obtain ⟨s, hs, _⟩ := any_some h
  have hx := runLoose_sound hs
  have hf := C52_null_out_of_range hx (by decide) (by decide)
  obtain ⟨_, _, _, _, _, _, _, k1, k2, _⟩ := C52_calls_out_of_range hx hf
  exact ⟨s, hx, hf, (k1 7 ⟨0, 1⟩ (by simp)).1, (k2 8 (by simp)).1⟩

end Ecs.Props
