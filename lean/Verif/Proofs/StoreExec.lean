import Verif.Proofs.StoreMove

/-! Tags, order groups, and executions. -/

namespace Ecs
open Spec

namespace Rel

open Core (at'_self at'_ne)

variable {U : Universe} {dbg : Bool} {s : Store} {w : World}

theorem tagged (h : Rel U dbg s w) {e : Entity} (tag : Nat) (he : e ∈ w.live) :
    ∃ s', s.addTag tag e = .ok s' ∧ Rel U dbg s' (w.apply (.tagged tag e)) := by
  obtain ⟨s', h1, h2⟩ := h.core.tagged tag he
  refine ⟨s', h1, ?_⟩
  unfold Store.addTag at h1
  obtain ⟨c, _, h1⟩ := bind_eq_ok.1 h1
  cases h1
  exact h.ofCore h2 rfl rfl rfl rfl rfl rfl rfl rfl rfl rfl

theorem untagged (h : Rel U dbg s w) {e : Entity} (tag : Nat) (he : e ∈ w.live) :
    ∃ s', s.removeTag tag e = .ok s' ∧ Rel U dbg s' (w.apply (.untagged tag e)) := by
  obtain ⟨s', h1, h2⟩ := h.core.untagged tag he
  refine ⟨s', h1, ?_⟩
  unfold Store.removeTag at h1
  obtain ⟨c, _, h1⟩ := bind_eq_ok.1 h1
  cases h1
  exact h.ofCore h2 rfl rfl rfl rfl rfl rfl rfl rfl rfl rfl

theorem orderedLast (h : Rel U dbg s w) {e : Entity} {g : Nat} (he : e ∈ w.live) (hn : e ∉ w.order g) :
    ∃ s', s.addOrder dbg g e = .ok s' ∧ Rel U dbg s' (w.apply (.orderedLast g e)) := by
  obtain ⟨s', h1, h2⟩ := h.core.orderedLast (dbg := dbg) he hn
  refine ⟨s', h1, ?_⟩
  unfold Store.addOrder at h1
  obtain ⟨c, _, h1⟩ := bind_eq_ok.1 h1
  cases h1
  exact h.ofCore h2 rfl rfl rfl rfl rfl rfl rfl rfl rfl rfl

theorem orderedAfter (h : Rel U dbg s w) {e x : Entity} {g : Nat} (he : e ∈ w.live) (hn : e ∉ w.order g) (hx : x ∈ w.order g) :
    ∃ s', s.addOrderNextTo dbg g e x = .ok s' ∧ Rel U dbg s' (w.apply (.orderedAfter g e x)) := by
  obtain ⟨s', h1, h2⟩ := h.core.orderedAfter (dbg := dbg) he hn hx
  refine ⟨s', h1, ?_⟩
  unfold Store.addOrderNextTo at h1
  obtain ⟨c, _, h1⟩ := bind_eq_ok.1 h1
  cases h1
  exact h.ofCore h2 rfl rfl rfl rfl rfl rfl rfl rfl rfl rfl

theorem orderedBefore (h : Rel U dbg s w) {e x : Entity} {g : Nat} (he : e ∈ w.live) (hn : e ∉ w.order g) (hx : x ∈ w.order g) :
    ∃ s', s.addOrderPreviousTo dbg g e x = .ok s' ∧ Rel U dbg s' (w.apply (.orderedBefore g e x)) := by
  obtain ⟨s', h1, h2⟩ := h.core.orderedBefore (dbg := dbg) he hn hx
  refine ⟨s', h1, ?_⟩
  unfold Store.addOrderPreviousTo at h1
  obtain ⟨c, _, h1⟩ := bind_eq_ok.1 h1
  cases h1
  exact h.ofCore h2 rfl rfl rfl rfl rfl rfl rfl rfl rfl rfl

theorem unordered (h : Rel U dbg s w) {e : Entity} {g : Nat} (he : e ∈ w.live) :
    ∃ s', s.removeOrder g e = .ok s' ∧ Rel U dbg s' (w.apply (.unordered g e)) := by
  obtain ⟨s', h1, h2⟩ := h.core.unordered (g := g) he
  refine ⟨s', h1, ?_⟩
  unfold Store.removeOrder at h1
  obtain ⟨c, _, h1⟩ := bind_eq_ok.1 h1
  cases h1
  exact h.ofCore h2 rfl rfl rfl rfl rfl rfl rfl rfl rfl rfl

/-- A call that returned related results preserves the relation. -/
theorem step (h : Rel U dbg s w) {ev : Event} {s' : Store} (ha : Allowed U w ev)
    (hn : ∀ T, needs w ev = some T → s.archs.CanHold U dbg T) (hd : Does U dbg s ev s') :
    Rel U dbg s' (w.apply ev) := by
  cases ev with
  | created e =>
    obtain ⟨s1, e1, h1, _, h3⟩ := h.created ha
    have hd := hd.1
    simp only [Returns] at hd
    rw [h1] at hd; cases hd
    exact h3
  | createdWith e ts init =>
    obtain ⟨⟨a, hb, rfl, hc⟩, hi⟩ := hd
    dsimp only at hi
    obtain ⟨s1, e1, v, h1, _, h3⟩ := h.createdWith ha hb.wf ((hn _ rfl).fits hb.wf (fun _ => Iff.rfl))
    rw [h1] at hc; cases hc
    have hl : e ∈ (w.apply (.createdWith e a.ids v)).live := by simp [World.apply, World.setTypes, World.birth]
    have hT : (w.apply (.createdWith e a.ids v)).types e = a.ids := by simp [World.apply, World.setTypes]
    refine h3.value_congr (V := at' w.value e init) ?_
    intro x hx t ht
    by_cases hxe : x = e
    · subst hxe
      rw [hT] at ht
      have := hi t ht
      rw [h3.getComponents (h3.ents.id_lt hl), hT, if_pos] at this
      · rw [at'_self]
        simpa using this.symm
      · exact ⟨hl, hb.wf.ne, fun t' ht' => by rw [List.mem_singleton.1 ht']; exact ht⟩
    · simp only [World.apply]
      rw [at'_ne _ _ hxe, at'_ne _ _ hxe]
  | destroyed e =>
    obtain ⟨s1, h1, h2⟩ := h.destroyed ha
    have hd := hd.1
    simp only [Returns] at hd
    rw [h1] at hd; cases hd; exact h2
  | added e vals =>
    obtain ⟨s1, h1, h2⟩ := h.added ha.1 ha.2.1 ha.2.2 (fun h1 h2 => hn _ (if_pos ⟨h1, h2⟩))
    have hd := hd.1
    simp only [Returns] at hd
    rw [h1] at hd; cases hd; exact h2
  | removed e ts =>
    obtain ⟨s1, h1, h2⟩ := h.removed ha.1 (fun h1 h2 => hn _ (if_pos ⟨h1, h2⟩))
    have hd := hd.1
    simp only [Returns] at hd
    rw [h1] at hd; cases hd; exact h2
  | assigned e vals =>
    obtain ⟨s1, h1, h2⟩ := h.assigned ha.1 ha.2
    obtain ⟨⟨b, hd⟩, _⟩ := hd
    rw [h1] at hd; cases hd; exact h2
  | tagged tag e =>
    obtain ⟨s1, h1, h2⟩ := h.tagged tag ha
    have hd := hd.1
    simp only [Returns] at hd
    rw [h1] at hd; cases hd; exact h2
  | untagged tag e =>
    obtain ⟨s1, h1, h2⟩ := h.untagged tag ha
    have hd := hd.1
    simp only [Returns] at hd
    rw [h1] at hd; cases hd; exact h2
  | orderedLast g e =>
    obtain ⟨s1, h1, h2⟩ := h.orderedLast ha.1 ha.2
    have hd := hd.1
    simp only [Returns] at hd
    rw [h1] at hd; cases hd; exact h2
  | orderedAfter g e x =>
    obtain ⟨s1, h1, h2⟩ := h.orderedAfter ha.1 ha.2.1 ha.2.2
    have hd := hd.1
    simp only [Returns] at hd
    rw [h1] at hd; cases hd; exact h2
  | orderedBefore g e x =>
    obtain ⟨s1, h1, h2⟩ := h.orderedBefore ha.1 ha.2.1 ha.2.2
    have hd := hd.1
    simp only [Returns] at hd
    rw [h1] at hd; cases hd; exact h2
  | unordered g e =>
    obtain ⟨s1, h1, h2⟩ := h.unordered (g := g) ha
    have hd := hd.1
    simp only [Returns] at hd
    rw [h1] at hd; cases hd; exact h2

end Rel

/-- The world of the history is the world stored. -/
theorem exec_rel {U : Universe} {dbg : Bool} {cap : Nat} {h : List Event} {s : Store} (hx : Exec U dbg cap h s) :
    Rel U dbg s (world h) := by
  induction hx with
  | init hs => exact Rel.init hs
  | step ev _ ha hn hd ih => exact ih.step ha hn hd

/-- Executions restricted by the world only are executions. -/
theorem Spec.SafeExec.exec {U : Universe} {dbg : Bool} {cap : Nat} {h : List Event} {s : Store} (hx : SafeExec U dbg cap h s) :
    Exec U dbg cap h s := by
  induction hx with
  | init hs => exact .init hs
  | step ev _ ha hn hd ih =>
    have hr := exec_rel ih
    exact .step ev ih ha (fun T hT => target_canHold hr.places hr.regs (hn T hT)) hd

end Ecs
