import Verif.Proofs.Shape
import Verif.Proofs.StoreAgrees

/-! `destroy_entity` on handles that are not alive. -/

namespace Ecs
open Spec

/-- Archetype bits only are on for ids of entities that were given components. -/
theorem bit_given {U : Universe} {dbg : Bool} {cap : Nat} {h : List Event} {s : Store} (hx : LooseExec U dbg cap h s) :
    ∀ i, s.hasArch.bit i = true → ∃ x ∈ given h, x.id = i := by
  induction hx with
  | init hs =>
    unfold Store.withCapacity at hs
    obtain ⟨_, _, hs⟩ := bind_eq_ok.1 hs
    cases hs
    intro i hi
    rw [Words.bit_alloc] at hi
    cases hi
  | @step h s s' ev hx hl hr ih =>
    have hc := loose_core hx
    cases ev with
    | created e =>
      simp only [Returns, Store.createEntity] at hr
      obtain ⟨⟨s1, e1⟩, h1, hr⟩ := bind_eq_ok.1 hr
      obtain ⟨b, h2, hr⟩ := bind_eq_ok.1 hr
      cases hr
      obtain ⟨s2, e2, k1, _, _, _, _, _, _, _, _, _, _, k12, _⟩ := hc.register (dbg := dbg) hl
      rw [h1] at k1
      cases k1
      have hlt : e1.id / 32 < s1.hasArch.length := by
        dsimp only at h2
        unfold Words.setOff at h2
        split at h2
        · next h => exact (List.getElem?_eq_some_iff.1 h).1
        · cases h2
      obtain ⟨c', j1, _, j3⟩ := Words.setOff_of_lt hlt
      dsimp only at h2
      rw [j1] at h2
      cases h2
      intro i hi
      simp only [j3, Bool.and_eq_true] at hi
      exact ih i (by rw [← k12]; exact hi.2)
    | createdWith e ts init =>
      obtain ⟨a, _, _, hr⟩ := hr
      unfold Store.createEntityWithArchetype at hr
      obtain ⟨⟨s1, e1⟩, h1, hr⟩ := bind_eq_ok.1 hr
      obtain ⟨⟨c, q⟩, _, hr⟩ := bind_eq_ok.1 hr
      dsimp only at hr
      obtain ⟨s2, h2, hr⟩ := bind_eq_ok.1 hr
      cases hr
      obtain ⟨s3, e3, k1, _, _, _, _, _, _, _, _, _, _, k12, _⟩ := hc.register (dbg := dbg) hl
      rw [h1] at k1
      cases k1
      intro i hi
      rw [hasArch_recordRow h2] at hi
      simp only [Bool.or_eq_true, decide_eq_true_eq, k12] at hi
      rcases hi with rfl | hi
      · exact ⟨e, List.mem_cons_self, rfl⟩
      · obtain ⟨x, hx, hxi⟩ := ih i hi
        exact ⟨x, List.mem_cons_of_mem _ hx, hxi⟩
    | destroyed e =>
      simp only [Returns, Store.destroyEntity] at hr
      obtain ⟨s1, h1, hr⟩ := bind_eq_ok.1 hr
      obtain ⟨_, _, hr⟩ := bind_eq_ok.1 hr
      obtain ⟨tg, h2, hr⟩ := bind_eq_ok.1 hr
      obtain ⟨_, _, hr⟩ := bind_eq_ok.1 hr
      cases hr
      intro i hi
      dsimp only at hi
      rw [hasArch_destroyRow h1] at hi
      exact ih i hi
    | added e vals =>
      unfold Returns Store.addComponents at hr
      obtain ⟨b, h1, hr⟩ := bind_eq_ok.1 hr
      have hmono : ∀ x, x ∈ given h → x ∈ given (.added e vals :: h) := by
        intro x hx
        simp only [given]
        split
        · exact List.mem_cons_of_mem _ hx
        · exact hx
      split at hr
      · cases hr
        intro i hi
        obtain ⟨x, hx, hxi⟩ := ih i hi
        exact ⟨x, hmono x hx, hxi⟩
      · next hb =>
        obtain ⟨⟨s1, q⟩, h2, hr⟩ := bind_eq_ok.1 hr
        dsimp only at hr
        obtain ⟨v, h3, hr⟩ := bind_eq_ok.1 hr
        obtain ⟨o, h4, hr⟩ := bind_eq_ok.1 hr
        obtain ⟨pg, h5, hr⟩ := bind_eq_ok.1 hr
        cases hr
        have hd : e ∈ alive h := by
          have hlt := hc.isAlive_lt h1
          rw [hc.isAlive hlt] at h1
          cases h1
          rw [alive_eq]
          simpa using hb
        intro i hi
        dsimp only at hi
        rw [hasArch_ensure h2] at hi
        simp only [Bool.or_eq_true, decide_eq_true_eq] at hi
        rcases hi with rfl | hi
        · exact ⟨e, by simp [given, hd], rfl⟩
        · obtain ⟨x, hx, hxi⟩ := ih i hi
          exact ⟨x, hmono x hx, hxi⟩
    | removed e ts => have := hasArch_removed hr; rw [this]; exact ih
    | assigned e vals =>
      obtain ⟨b, hr⟩ := hr
      have := hasArch_assigned hr
      rw [this]; exact ih
    | tagged t e => obtain ⟨_, _, hr⟩ := bind_eq_ok.1 hr; cases hr; exact ih
    | untagged t e => obtain ⟨_, _, hr⟩ := bind_eq_ok.1 hr; cases hr; exact ih
    | orderedLast g e => obtain ⟨_, _, hr⟩ := bind_eq_ok.1 hr; cases hr; exact ih
    | orderedAfter g e x => obtain ⟨_, _, hr⟩ := bind_eq_ok.1 hr; cases hr; exact ih
    | orderedBefore g e x => obtain ⟨_, _, hr⟩ := bind_eq_ok.1 hr; cases hr; exact ih
    | unordered g e => obtain ⟨_, _, hr⟩ := bind_eq_ok.1 hr; cases hr; exact ih

/-- Removing a recorded row never is undefined behaviour: it returns or panics. -/
theorem Rel.destroyRow_defined {U : Universe} {dbg : Bool} {s : Store} {w : World} (h : Rel U dbg s w)
    (hs : s.Shape) {e : Entity} (hlt : e.id < s.ents.capacity)
    (hr : s.hasArch.bit e.id = true → s.HasRow e.id) :
    (∃ s', s.destroyRow e = .ok s' ∧ s'.ents = s.ents) ∨ ∃ p, s.destroyRow e = .error (.panic p) := by
  have hon : s.hasArch.isOn e.id = .ok (s.hasArch.bit e.id) :=
    Words.isOn_of_lt (by rw [h.places.blen]; exact Words.div_lt_getLen hlt)
  unfold Store.destroyRow
  rw [hon]
  by_cases hb : s.hasArch.bit e.id = true
  · simp only [hb, ok_bind, if_true]
    obtain ⟨p, x, ai, a, l, pg, h1, h2, h3, h4, h5, h6, h7, h8⟩ := hs.found hb (hr hb)
    have hq : s.getLocUnchecked e.id = .ok ⟨p, x⟩ := by
      unfold Store.getLocUnchecked; simp [h1, h2]
    rw [hq]
    simp only [ok_bind]
    by_cases hrow : s.archs.row ⟨p, x⟩ = none
    · right
      refine ⟨.indexOutOfBounds, ?_⟩
      have hx : ¬ x < pg.ids.items.length := by
        intro hx
        simp [Archs.row, h6, hx] at hrow
      have hsr : pg.ids.swapRemove x = .error (.panic .indexOutOfBounds) := by
        unfold CapVec.swapRemove
        cases pg.ids.items.getLast? with
        | none => rfl
        | some y => simp [hx]
      unfold Store.swapRemoveInternal Archs.swapRemoveEntity Page.swapRemoveEntityAtIndex
      simp [idx_of_some h3, idx_of_some h4, idx_of_some h5, idx_of_some h6, hsr]
    · left
      obtain ⟨c', info, last, k1, _, _, k4, k5, _⟩ := h.places.inv.swapRemove_spec hrow
      unfold Store.swapRemoveInternal
      rw [k1]
      simp only [ok_bind]
      cases info with
      | none => exact ⟨_, rfl, rfl⟩
      | some i =>
        have hi : s.archs.row last = some i := by
          split at k5
          · cases k5
          · exact k5.symm
        have hil : i < s.toIndex.length := by
          rw [h.places.ilen]
          rcases h.places.rows last i hi with h0 | ⟨y, hy, rfl, _⟩
          · cases h0
          · exact h.places.lt y hy
        dsimp only
        rw [Raw.write_ok.2 ⟨hil, rfl⟩]
        exact ⟨_, rfl, rfl⟩
  · simp only [Bool.not_eq_true] at hb
    rw [hb]
    exact .inl ⟨s, rfl, rfl⟩

/-- No issued handle has the null id. -/
theorem issued_ne_null {U : Universe} {dbg : Bool} {cap : Nat} {h : List Event} {s : Store} (hx : LooseExec U dbg cap h s) :
    ∀ e ∈ handles h, e.id ≠ NULL_ID := by
  induction hx with
  | init hs => intro e he; cases he
  | @step h s s' ev hx hl hr ih =>
    have hc := loose_core (hx.step ev hl hr)
    cases ev with
    | created e =>
      intro x hm
      rcases List.mem_cons.1 hm with rfl | hm
      · exact hc.ne_null (by rw [← alive_eq]; exact List.mem_cons_self)
      · exact ih x hm
    | createdWith e ts init =>
      intro x hm
      rcases List.mem_cons.1 hm with rfl | hm
      · exact hc.ne_null (by rw [← alive_eq]; exact List.mem_cons_self)
      · exact ih x hm
    | _ => exact ih

/-- Releasing an id in a release build, whatever its state: the alive bit is toggled. -/
theorem EntInv.destroy_release {c : Ents} {I L : List Entity} (h : EntInv c I L) {e : Entity} (he : e.id < c.capacity) :
    ∃ c', c.destroy false e = .ok c' ∧ c'.versions = c.versions ∧ c'.capacity = c.capacity ∧
      c'.aliveBits.length = c.aliveBits.length ∧ ∀ i, c'.aliveBits.bit i = (decide (i = e.id) ^^ c.aliveBits.bit i) := by
  obtain ⟨w', h1, h2, h3⟩ := Words.toggle_of_lt (w := c.aliveBits) (i := e.id)
    (by rw [h.blen]; exact Words.div_lt_getLen he)
  unfold Ents.destroy Ents.validateVersionWithPanic
  simp only [Bool.false_eq_true, if_false, h1, ok_bind, pure_ok]
  obtain ⟨n, hn⟩ : ∃ n, subU32 false c.nextFreeId 1 = .ok n := by
    unfold subU32
    split
    · exact ⟨_, rfl⟩
    · exact ⟨_, rfl⟩
  rw [hn]
  simp only [ok_bind]
  split
  · exact ⟨_, rfl, rfl, rfl, h2, h3⟩
  · exact ⟨_, rfl, rfl, rfl, h2, h3⟩

/-- Reading components only depends on these parts of the state. -/
theorem SameComponents.of {U : Universe} {dbg : Bool} {s s' : Store} {x : Entity} (h1 : s'.isAlive dbg x = s.isAlive dbg x)
    (h2 : s'.archs = s.archs) (h3 : s'.toPage = s.toPage) (h4 : s'.toIndex = s.toIndex) (h5 : s'.hasArch = s.hasArch) :
    SameComponents U dbg s s' x := by
  have hv : s'.isValidEntityWithArchetype dbg x = s.isValidEntityWithArchetype dbg x := by
    unfold Store.isValidEntityWithArchetype; rw [h1, h5]
  have hr : ∀ ts, s'.getComponentsRefs U dbg x ts = s.getComponentsRefs U dbg x ts := by
    intro ts
    unfold Store.getComponentsRefs Store.getPageViewUnchecked
    rw [hv, h2, h3, h4]
  refine ⟨h1, ?_, hr, fun ts => ?_⟩
  · unfold Store.getEntityArchetype; rw [hv, h2, h3]
  · unfold Store.getComponents; rw [hr, h2]

end Ecs
