import Verif.Proofs.History
import Verif.Spec.Run
import Verif.Spec.Observe

/-! Properties C06 (growing the store) and C47 (deallocation sizes). -/

namespace Ecs

namespace Props
open Spec

section
variable {U : Universe} {dbg : Bool} {cap : Nat} {h : List Event} {s : Store}

/-- **C06.** `create_entity` (whether it enlarges the buffers or not) returns, and leaves liveness,
archetype, references and component values of every previously issued handle, tags and order positions
of every live entity, and the ends of every group as they were. There is no restriction on the
component calls made before. -/
theorem C06_growth_loses_nothing (hx : LooseExec U dbg cap h s) (hb : (handles h).length + 1 < u32Size) :
    ∃ s' e, s.createEntity dbg = .ok (s', e) ∧ e ∉ handles h ∧
      (∀ x ∈ handles h, SameComponents U dbg s s' x) ∧
      (∀ x ∈ alive h, SameTagsAndOrder s s' x) ∧
      (∀ g, s'.getFirstOrdered g = s.getFirstOrdered g ∧ s'.getLastOrdered g = s.getLastOrdered g) := by
  have hc := loose_core hx
  rw [handles_eq] at *
  obtain ⟨s1, e, h1, h2, h3, hid, h5, hcap, h7, h8, h9, h10, h11, h12, -⟩ := hc.register (dbg := dbg) hb
  have hlt : e.id < s1.ents.capacity := h2.id_lt List.mem_cons_self
  obtain ⟨b, k1, k2, k3⟩ := Words.setOff_of_lt (w := s1.hasArch) (i := e.id) (by rw [h9]; exact Words.div_lt_getLen hlt)
  have hr : s.createEntity dbg = .ok ({ s1 with hasArch := b }, e) := by
    unfold Store.createEntity
    simp only [h1, ok_bind, k1, pure_ok]
  have hc' : Core { s1 with hasArch := b } (world (.created e :: h)) := (hc.created hb hr).2
  refine ⟨_, e, hr, h3, ?_, ?_, ?_⟩
  · intro x hxi
    have hxcap : x.id < s.ents.capacity := hc.ents.issued_id_lt hxi
    have hal : Store.isAlive dbg { s1 with hasArch := b } x = s.isAlive dbg x := by
      rw [hc.isAlive hxcap, hc'.isAlive (dbg := dbg) (e := x) (Nat.lt_of_lt_of_le hxcap hcap)]
      have : x ≠ e := by rintro rfl; exact h3 hxi
      simp [world, World.apply, World.birth, this]
    have hval : Store.isValidEntityWithArchetype dbg { s1 with hasArch := b } x = s.isValidEntityWithArchetype dbg x := by
      unfold Store.isValidEntityWithArchetype
      rw [hal, hc.isAlive hxcap]
      by_cases hl : x ∈ (world h).live
      · simp only [hl, decide_true, ok_bind, if_true]
        rw [Words.isOn_of_lt (by rw [k2, h9]; exact Words.div_lt_getLen (Nat.lt_of_lt_of_le hxcap hcap)),
          Words.isOn_of_lt (by rw [hc.blen]; exact Words.div_lt_getLen hxcap), k3, h12]
        simp [hid x hl]
      · simp [hl]
    have hp : Raw.read s1.toPage x.id = Raw.read s.toPage x.id := by
      unfold Raw.read; rw [h10 _ hxcap]
    have hi : Raw.read s1.toIndex x.id = Raw.read s.toIndex x.id := by
      unfold Raw.read; rw [h11 _ hxcap]
    have hrefs : ∀ ts, Store.getComponentsRefs U dbg { s1 with hasArch := b } x ts = s.getComponentsRefs U dbg x ts := by
      intro ts
      unfold Store.getComponentsRefs Store.getPageViewUnchecked
      rw [hval]
      simp only [hp, hi, h5]
    refine ⟨hal, ?_, hrefs, fun ts => ?_⟩
    · unfold Store.getEntityArchetype
      rw [hval]
      simp only [hp, h5]
    · unfold Store.getComponents
      rw [hrefs]
      simp only [h5]
  · intro x hxl
    rw [alive_eq] at hxl
    have hne : x ≠ e := by rintro rfl; exact hid x hxl rfl
    have hxl' : x ∈ (world (.created e :: h)).live := List.mem_cons_of_mem _ hxl
    refine ⟨fun tag => ?_, fun g => ⟨?_, ?_⟩⟩
    · rw [hc.hasTag hxl, hc'.hasTag hxl']
      exact congrArg _ (Core.at'_ne _ _ hne)
    · rw [hc.getNext g hxl, hc'.getNext g hxl']; rfl
    · rw [hc.getPrevious g hxl, hc'.getPrevious g hxl']; rfl
  · intro g
    rw [hc.getFirst, hc'.getFirst, hc.getLast, hc'.getLast]
    exact ⟨rfl, rfl⟩

/-- **C47.** Every deallocation in `drop` has the size of its buffer, and so has every one made by the
growth step of a creation (a deallocation of another size is a `badDealloc` fault in the model, so that
the calls would not return). Other calls do not deallocate. -/
theorem C47_deallocation_sizes (hx : LooseExec U dbg cap h s) :
    s.drop = .ok () ∧
    ((handles h).length + 1 < u32Size → ∃ s' e, s.registerNewEntity dbg = .ok (s', e) ∧ s'.drop = .ok ()) := by
  have hc := loose_core hx
  rw [handles_eq]
  refine ⟨hc.drop, fun hb => ?_⟩
  obtain ⟨s1, e, h1, _, h3⟩ := hc.born (dbg := dbg) hb
  exact ⟨s1, e, h1, h3.drop⟩

end

/-- A store of capacity 1 with one entity carrying a component, a tag and an order position: the next
creation has to grow all buffers. -/
def growHistory : List Event :=
  [.orderedLast 7 ⟨0, 1⟩, .tagged 9 ⟨0, 1⟩, .added ⟨0, 1⟩ [(2, [1, 2, 3, 4])], .created ⟨0, 1⟩]

set_option maxRecDepth 20000 in
example : ∃ s, LooseExec demo true 1 growHistory s ∧ s.ents.capacity = 1 ∧
    s.getComponents demo true ⟨0, 1⟩ [2] = .ok (some [[some 1, some 2, some 3, some 4]]) ∧
    okAnd (s.createEntity true) (fun p => decide (p.1.ents.capacity > 1)) = true := by
  have h : ((runLoose demo true 1 growHistory).any fun s => decide (s.ents.capacity = 1 ∧
    s.getComponents demo true ⟨0, 1⟩ [2] = .ok (some [[some 1, some 2, some 3, some 4]]) ∧
    okAnd (s.createEntity true) (fun p => decide (p.1.ents.capacity > 1)) = true)) = true := by decide
  obtain ⟨s, hs, h⟩ := any_some h
  exact ⟨s, runLoose_sound hs, of_decide_eq_true h⟩

end Props
end Ecs
