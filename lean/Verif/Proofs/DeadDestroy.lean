import Verif.Proofs.Stale
import Verif.Proofs.ResourceStale
import Verif.Proofs.UnwindCalm

/-! `destroy_entity` with a handle that is not alive: what happens to the rows and to the handles. -/

namespace Ecs
open Spec

section
variable {U : Universe} {dbg : Bool} {cap : Nat} {h : List Event} {s s' : Store}

/-- The three things that can happen to the row recorded for an id. -/
theorem deadRow (hx : LooseExec U dbg cap h s) {e : Entity} (hlt : e.id < s.ents.capacity) :
    (s.hasArch.isOn e.id = .ok false ∧ s.destroyRow e = .ok s) ∨
    (∃ q, s.hasArch.isOn e.id = .ok true ∧ s.getLocUnchecked e.id = .ok q ∧
      s.swapRemoveInternal q = .error (.panic .indexOutOfBounds) ∧ (Store.swapRemoveInternalU q).OnPanic s (· = s)) ∨
    ∃ q y, s.hasArch.isOn e.id = .ok true ∧ s.getLocUnchecked e.id = .ok q ∧ y ∈ alive h ∧ y ∈ given h ∧
      SamePlace s y.id e.id ∧ s.archs.row q = some y.id ∧ s.destroyRow y = s.destroyRow e := by
  have hs := loose_shape hx
  have hr := loose_rows hx
  have hc := loose_core hx
  have hon : s.hasArch.isOn e.id = .ok (s.hasArch.bit e.id) :=
    Words.isOn_of_lt (by rw [hc.blen]; exact Words.div_lt_getLen hlt)
  by_cases hb : s.hasArch.bit e.id = true
  · rw [hb] at hon
    obtain ⟨p, x, ai, a, l, pg, h1, h2, h3, h4, h5, h6, h7, h8⟩ := hs.found hb ((hasRow hx).2 _ hb)
    have hq : s.getLocUnchecked e.id = .ok ⟨p, x⟩ := by
      unfold Store.getLocUnchecked; simp [h1, h2]
    cases hrow : s.archs.row ⟨p, x⟩ with
    | none =>
      refine .inr (.inl ⟨⟨p, x⟩, hon, hq, ?_, ?_⟩)
      all_goals
        have hx : ¬ x < pg.ids.items.length := by
          intro hx
          simp [Archs.row, h6, hx] at hrow
        have hsr : pg.ids.swapRemove x = .error (.panic .indexOutOfBounds) := by
          unfold CapVec.swapRemove
          cases pg.ids.items.getLast? with
          | none => rfl
          | some y => simp [hx]
      · unfold Store.swapRemoveInternal Archs.swapRemoveEntity Page.swapRemoveEntityAtIndex
        simp [idx_of_some h3, idx_of_some h4, idx_of_some h5, idx_of_some h6, hsr]
      · unfold Store.swapRemoveInternalU
        refine .bind (.on (R := fun c => c = s.archs) ?_ ?_) fun s1 o h9 => ?_
        · unfold Archs.swapRemoveEntityU
          refine .get (.bind (.lift (.inr rfl)) fun c1 y h9 => ?_)
          rw [Unw.result_lift, idx_of_some h3] at h9
          cases h9
          refine .bind (.lift (.inr rfl)) fun c1 y h9 => ?_
          rw [Unw.result_lift, idx_of_some h6] at h9
          cases h9
          refine .bind (.lift (.inr rfl)) fun c1 y h9 => ?_
          rw [Unw.result_lift, idx_of_some h4] at h9
          cases h9
          refine .bind (.lift (.inr rfl)) fun c1 y h9 => ?_
          rw [Unw.result_lift, idx_of_some h5] at h9
          cases h9
          refine .bind (.step' (.inr rfl)) fun c1 y h9 => ?_
          exfalso
          rw [Unw.result_step'] at h9
          simp [Page.swapRemoveEntityAtIndex, hsr] at h9
        · rintro t rfl; rfl
        · exfalso
          rw [Store.onArchs_result, Archs.swapRemoveEntityU_result] at h9
          simp [Archs.swapRemoveEntity, Page.swapRemoveEntityAtIndex, idx_of_some h3, idx_of_some h4, idx_of_some h5,
            idx_of_some h6, hsr] at h9
    | some i =>
      obtain ⟨⟨y, hy, hg, rfl⟩, hpos⟩ := (hr.rows _ _ hrow).resolve_left (by simp)
      refine .inr (.inr ⟨⟨p, x⟩, y, hon, hq, hy, hg, ⟨?_, ?_⟩, hrow, ?_⟩)
      · rw [hpos.1, (Store.Rows.getLoc hq).1]
      · rw [hpos.2, (Store.Rows.getLoc hq).2]
      · have hyb := ((given_bit hx).2 y hy).2 hg
        have hy' := hy
        rw [alive_eq] at hy'
        have hony : s.hasArch.isOn y.id = .ok true := by
          rw [Words.isOn_of_lt (by rw [hc.blen]; exact Words.div_lt_getLen (hc.ents.id_lt hy')), hyb]
        have hqy : s.getLocUnchecked y.id = .ok ⟨p, x⟩ := by
          unfold Store.getLocUnchecked
          rw [Raw.read_of_some hpos.1, ok_bind, Raw.read_of_some hpos.2]
          rfl
        unfold Store.destroyRow
        rw [hon, hony, ok_bind, ok_bind, hq, hqy]
  · simp only [Bool.not_eq_true] at hb
    rw [hb] at hon
    left
    refine ⟨hon, ?_⟩
    unfold Store.destroyRow
    rw [hon]
    rfl

/-- The rest of `destroy_entity` of a live entity returns. -/
theorem destroy_of_row (hx : LooseExec U dbg cap h s) {y : Entity} (hy : y ∈ alive h) {s1 : Store}
    (hr : s.destroyRow y = .ok s1) :
    ∃ s2, s.destroyEntity dbg y = .ok s2 ∧ s2.archs = s1.archs ∧ s2.toIndex = s1.toIndex ∧ s2.toPage = s1.toPage ∧
      s2.hasArch = s1.hasArch := by
  rw [alive_eq] at hy
  have hc := (loose_core hx).same (w' := world h) (SameCore.destroyRow hr) rfl rfl rfl rfl
  have hlt := hc.ents.id_lt hy
  obtain ⟨ents, e1, _⟩ := hc.ents.destroy_live (dbg := dbg) hy
  obtain ⟨tg, t1, _⟩ := Tags.removeAll_spec hc.tags (id := y.id) (by rw [hc.tcap]; exact hlt)
  obtain ⟨od, o1, _⟩ := hc.orders.removeAll (e := y.id) (by rw [hc.ocap]; exact hlt) (hc.ne_null hy)
  refine ⟨{ s1 with ents := ents, tags := tg, orders := od }, ?_, rfl, rfl, rfl, rfl⟩
  unfold Store.destroyEntity
  simp only [hr, e1, t1, o1, ok_bind, pure_ok]

theorem swapRemoveInternal_eq {q : Loc} {s1 : Store} (hr : s.swapRemoveInternal q = .ok s1) :
    s1 = { s with archs := s1.archs, toIndex := s1.toIndex } := by
  unfold Store.swapRemoveInternal at hr
  obtain ⟨⟨c, info⟩, h1, hr⟩ := bind_eq_ok.1 hr
  dsimp only at hr
  split at hr
  · obtain ⟨b, h2, hr⟩ := bind_eq_ok.1 hr
    cases hr; rfl
  · cases hr; rfl

theorem destroyRow_eq {e : Entity} {s1 : Store} (hr : s.destroyRow e = .ok s1) :
    s1 = { s with archs := s1.archs, toIndex := s1.toIndex } := by
  unfold Store.destroyRow at hr
  obtain ⟨b, h1, hr⟩ := bind_eq_ok.1 hr
  split at hr
  · obtain ⟨q, h2, hr⟩ := bind_eq_ok.1 hr
    exact swapRemoveInternal_eq hr
  · cases hr; rfl

/-- A debug build destroying a dead handle: the state the panic leaves. -/
theorem deadDestroyU (hx : LooseExec U true cap h s) {e : Entity} (he : e ∈ handles h) (hd : e ∉ alive h) :
    (Store.destroyEntityU true e).OnPanic s fun s' => s' = s ∨
      ∃ y s2, y ∈ alive h ∧ y ∈ given h ∧ SamePlace s y.id e.id ∧ s.destroyEntity true y = .ok s2 ∧
        s' = { s with archs := s2.archs, toIndex := s2.toIndex } := by
  have hs := loose_shape hx
  have hr := loose_rows hx
  have hc := loose_core hx
  rw [handles_eq] at he
  rw [alive_eq] at hd
  have hlt := hc.ents.issued_id_lt he
  have hrest : ∀ (s1 : Store) (Q : Store → Prop), s1.ents = s.ents → Q s1 → (do
      Store.onEnts (Ents.destroyU true e)
      Unw.step fun s => do
        let tags ← s.tags.removeAllTagsForEntity e.id
        return { s with tags := tags }
      Unw.step fun s => do
        let orders ← s.orders.removeAll e.id
        return { s with orders := orders } : Unw Store Unit).OnPanic s1 Q := by
    intro s1 Q h1 hQ
    refine .bind ?_ fun s2 _ h2 => ?_
    · refine .on (R := fun t => t = s1.ents) ?_ ?_
      · unfold Ents.destroyU
        refine .get (.bind (.lift (.inr rfl)) fun c1 _ h2 => ?_)
        rw [Unw.result_lift] at h2
        obtain ⟨_, _, h2⟩ := bind_eq_ok.1 h2
        cases h2
        simp only [if_true]
        refine .bind (.lift (.inr rfl)) fun c1 b h2 => ?_
        rw [Unw.result_lift, h1, hc.ents.isAlive_of_lt hlt, decide_eq_false hd] at h2
        cases h2
        refine .bind (.lift (.inr h1.symm)) fun c1 _ h2 => ?_
        rw [Unw.result_lift] at h2
        cases h2
      · rintro t rfl; exact hQ
    · exfalso
      rw [Store.onEnts_result, Ents.destroyU_result, h1, hc.ents.destroy_debug_dead hd] at h2
      cases h2
  unfold Store.destroyEntityU
  refine .get (.bind (.lift (.inr (.inl rfl))) fun s1 b h1 => ?_)
  rw [Unw.result_lift] at h1
  obtain ⟨_, h0, h1⟩ := bind_eq_ok.1 h1
  cases h1
  rcases deadRow hx hlt with ⟨k1, _⟩ | ⟨q, k1, k2, k3, k4⟩ | ⟨q, y, k1, k2, k3, k4, k5, k6, k7⟩
  · rw [k1] at h0
    cases h0
    exact hrest _ _ rfl (.inl rfl)
  · rw [k1] at h0
    cases h0
    refine .bind (.lift (.inr (.inl rfl))) fun s1 q' h1 => ?_
    rw [Unw.result_lift, k2] at h1
    cases h1
    refine .bind (k4.mono fun _ h => .inl h) fun s1 _ h3 => ?_
    rw [Store.swapRemoveInternalU_result, k3] at h3
    cases h3
  · rw [k1] at h0
    cases h0
    refine .bind (.lift (.inr (.inl rfl))) fun s1 q' h1 => ?_
    rw [Unw.result_lift, k2] at h1
    cases h1
    refine .bind (Store.swapRemoveInternalU_onPanic hs.archs hr.use k6) fun s1 _ h3 => ?_
    rw [Store.swapRemoveInternalU_result] at h3
    obtain ⟨_, h4, h5⟩ := bind_eq_ok.1 h3
    cases h5
    have hrow : s.destroyRow e = .ok s1 := by
      unfold Store.destroyRow
      rw [k1, ok_bind, if_pos rfl, k2, ok_bind, h4]
    obtain ⟨s2, j1, j2, j3, _⟩ := destroy_of_row hx k3 (k7.trans hrow)
    refine hrest _ _ (SameCore.swapRemove h4).ents (.inr ⟨y, s2, k3, k4, k5, j1, ?_⟩)
    rw [j2, j3]
    exact swapRemoveInternal_eq h4

/-- A release build destroying any handle that was returned: a panic leaves the store as it was. -/
theorem releaseDestroyU (hx : LooseExec U false cap h s) {e : Entity} (he : e ∈ handles h) :
    (Store.destroyEntityU false e).OnPanic s (· = s) := by
  have hs := loose_shape hx
  have hr := loose_rows hx
  have hc := loose_core hx
  rw [handles_eq] at he
  have hlt := hc.ents.issued_id_lt he
  have hrest : ∀ (s1 : Store) (Q : Store → Prop), s1.ents = s.ents → (do
      Store.onEnts (Ents.destroyU false e)
      Unw.step fun s => do
        let tags ← s.tags.removeAllTagsForEntity e.id
        return { s with tags := tags }
      Unw.step fun s => do
        let orders ← s.orders.removeAll e.id
        return { s with orders := orders } : Unw Store Unit).OnPanic s1 Q := by
    intro s1 Q h1
    refine .bind ?_ fun _ _ _ => .bind (.step (.inl ((Calm.removeAllTags _ _).bind fun _ _ => .pure _))) fun _ _ _ =>
      .step (.inl ((Calm.removeAllOrders _ _).bind fun _ _ => .pure _))
    obtain ⟨c', k1, _⟩ := hc.ents.destroy_release hlt
    refine .of_ok (s1 := { s1 with ents := c' }) (a := ()) ?_
    rw [Store.onEnts_result, Ents.destroyU_result, h1, k1]
    rfl
  unfold Store.destroyEntityU
  refine .get (.bind (.lift (.inr rfl)) fun s1 b h1 => ?_)
  rw [Unw.result_lift] at h1
  obtain ⟨_, h0, h1⟩ := bind_eq_ok.1 h1
  cases h1
  rcases deadRow hx hlt with ⟨k1, _⟩ | ⟨q, k1, k2, k3, k4⟩ | ⟨q, y, k1, k2, k3, k4, k5, k6, k7⟩
  · rw [k1] at h0
    cases h0
    exact hrest _ _ rfl
  · rw [k1] at h0
    cases h0
    refine .bind (.lift (.inr rfl)) fun s1 q' h1 => ?_
    rw [Unw.result_lift, k2] at h1
    cases h1
    refine .bind k4 fun s1 _ h3 => ?_
    rw [Store.swapRemoveInternalU_result, k3] at h3
    cases h3
  · rw [k1] at h0
    cases h0
    refine .bind (.lift (.inr rfl)) fun s1 q' h1 => ?_
    rw [Unw.result_lift, k2] at h1
    cases h1
    refine .bind (Store.swapRemoveInternalU_onPanic hs.archs hr.use k6) fun s1 _ h3 => ?_
    rw [Store.swapRemoveInternalU_result] at h3
    obtain ⟨_, h4, h5⟩ := bind_eq_ok.1 h3
    cases h5
    exact hrest _ _ (SameCore.swapRemove h4).ents

theorem ents_register {e : Entity} (hr : s.registerNewEntity dbg = .ok (s', e)) :
    ∃ cr, s.ents.create dbg = .ok (s'.ents, cr) ∧ cr.entity = e := by
  unfold Store.registerNewEntity at hr
  obtain ⟨⟨c, cr⟩, h1, hr⟩ := bind_eq_ok.1 hr
  dsimp only at hr
  refine ⟨cr, ?_, ?_⟩
  all_goals
    split at hr
    · obtain ⟨s1, h2, hr⟩ := bind_eq_ok.1 hr
      cases hr
      unfold Store.growEntitiesInternal at h2
      obtain ⟨_, _, h2⟩ := bind_eq_ok.1 h2
      obtain ⟨_, _, h2⟩ := bind_eq_ok.1 h2
      obtain ⟨_, _, h2⟩ := bind_eq_ok.1 h2
      obtain ⟨_, _, h2⟩ := bind_eq_ok.1 h2
      obtain ⟨_, _, h2⟩ := bind_eq_ok.1 h2
      cases h2
      first | exact h1 | rfl
    · cases hr
      first | exact h1 | rfl

/-- The version recorded for the id of a handle is the version of a handle with this id. -/
theorem version_handle (hx : LooseExec U dbg cap h s) :
    ∀ x ∈ handles h, ∃ v, s.ents.versions[x.id]? = some (some v) ∧ (⟨x.id, v⟩ : Entity) ∈ handles h := by
  induction hx with
  | init hs => intro e he; cases he
  | @step h s s' ev hx hl hr ih =>
    have hc := loose_core hx
    have hc' := loose_core (hx.step ev hl hr)
    have new : ∀ {s1 : Store} {e : Entity}, s.registerNewEntity dbg = .ok (s1, e) → (handles h).length + 1 < u32Size →
        s1.ents.versions[e.id]? = some (some e.version) →
        ∀ x ∈ e :: handles h, ∃ v, s1.ents.versions[x.id]? = some (some v) ∧ (⟨x.id, v⟩ : Entity) ∈ e :: handles h := by
      intro s1 e h1 hb h2 x hx'
      obtain ⟨cr, h3, rfl⟩ := ents_register h1
      have hb' := hb
      rw [handles_eq] at hb'
      obtain ⟨_, _, _, _, _, _, _, k8⟩ := hc.ents.create_spec h3 (.inr hb')
      by_cases hid : x.id = cr.entity.id
      · exact ⟨_, by rw [hid]; exact h2, by rw [hid]; exact List.mem_cons_self⟩
      · rcases List.mem_cons.1 hx' with rfl | hx'
        · exact absurd rfl hid
        · obtain ⟨v, h4, h5⟩ := ih x hx'
          rw [handles_eq] at hx'
          exact ⟨v, by rw [k8 _ (hc.ents.issued_id_lt hx') hid]; exact h4, List.mem_cons_of_mem _ h5⟩
    have same : s'.ents.versions = s.ents.versions → ∀ x ∈ handles h, ∃ v, s'.ents.versions[x.id]? = some (some v) ∧
        (⟨x.id, v⟩ : Entity) ∈ handles h := fun k x hx' => by rw [k]; exact ih x hx'
    cases ev with
    | created e =>
      have hv := hc'.ents.lver e (by rw [← alive_eq]; exact List.mem_cons_self)
      simp only [Returns, Store.createEntity] at hr
      obtain ⟨⟨s1, e1⟩, h1, hr⟩ := bind_eq_ok.1 hr
      obtain ⟨b, h2, hr⟩ := bind_eq_ok.1 hr
      cases hr
      exact new (s1 := s1) h1 (by rw [handles_eq]; exact hl) hv
    | createdWith e ts init =>
      have hv := hc'.ents.lver e (by rw [← alive_eq]; exact List.mem_cons_self)
      obtain ⟨a, _, _, hr⟩ := hr
      unfold Store.createEntityWithArchetype at hr
      obtain ⟨⟨s1, e1⟩, h1, hr⟩ := bind_eq_ok.1 hr
      obtain ⟨⟨c, q⟩, _, hr⟩ := bind_eq_ok.1 hr
      dsimp only at hr
      obtain ⟨s2, h2, hr⟩ := bind_eq_ok.1 hr
      cases hr
      have h3 := (SameCore.recordRow h2).ents
      dsimp only at h3
      rw [h3] at hv ⊢
      exact new h1 (by rw [handles_eq]; exact hl) hv
    | destroyed e =>
      refine same ?_
      simp only [Returns, Store.destroyEntity] at hr
      obtain ⟨s1, h1, hr⟩ := bind_eq_ok.1 hr
      obtain ⟨c, h2, hr⟩ := bind_eq_ok.1 hr
      obtain ⟨tg, _, hr⟩ := bind_eq_ok.1 hr
      obtain ⟨_, _, hr⟩ := bind_eq_ok.1 hr
      cases hr
      rw [(SameCore.destroyRow h1).ents] at h2
      exact (hc.ents.destroy_spec h2 (.inr hl)).2.2.2
    | added e vals => exact same (by rw [(SameCore.added hr).ents])
    | removed e ts => exact same (by rw [(SameCore.removed hr).ents])
    | assigned e vals => obtain ⟨b, hr⟩ := hr; exact same (by rw [(SameCore.assigned hr).ents])
    | tagged t e => obtain ⟨_, _, hr⟩ := bind_eq_ok.1 hr; cases hr; exact same rfl
    | untagged t e => obtain ⟨_, _, hr⟩ := bind_eq_ok.1 hr; cases hr; exact same rfl
    | orderedLast g e => obtain ⟨_, _, hr⟩ := bind_eq_ok.1 hr; cases hr; exact same rfl
    | orderedAfter g e x => obtain ⟨_, _, hr⟩ := bind_eq_ok.1 hr; cases hr; exact same rfl
    | orderedBefore g e x => obtain ⟨_, _, hr⟩ := bind_eq_ok.1 hr; cases hr; exact same rfl
    | unordered g e => obtain ⟨_, _, hr⟩ := bind_eq_ok.1 hr; cases hr; exact same rfl

/-- A release build destroying a handle, dead or alive: what becomes of the handles. -/
theorem deadDestroy_handles (hx : LooseExec U false cap h s) {e : Entity} (he : e ∈ handles h)
    (hr : s.destroyEntity false e = .ok s') :
    ∀ x ∈ handles h, ∃ b, s'.isAlive false x = .ok b ∧
      (b = true ↔ if x.id = e.id then x ∉ alive h ∧ ∀ z ∈ handles h, z.id = x.id → z.version ≤ x.version else x ∈ alive h) := by
  have hc := loose_core hx
  have he' := he
  rw [handles_eq] at he'
  unfold Store.destroyEntity at hr
  obtain ⟨s1, h1, hr⟩ := bind_eq_ok.1 hr
  obtain ⟨c, h2, hr⟩ := bind_eq_ok.1 hr
  obtain ⟨tg, _, hr⟩ := bind_eq_ok.1 hr
  obtain ⟨_, _, hr⟩ := bind_eq_ok.1 hr
  cases hr
  rw [(SameCore.destroyRow h1).ents] at h2
  obtain ⟨c', k1, k2, k3, k4, k5⟩ := hc.ents.destroy_release (hc.ents.issued_id_lt he')
  rw [h2] at k1
  cases k1
  intro x hxm
  obtain ⟨v, hv, hvh⟩ := version_handle hx x hxm
  have hxm' := hxm
  rw [handles_eq] at hxm'
  have hxl := hc.ents.issued_id_lt hxm'
  have hw : x.id / 32 < s.ents.aliveBits.length := by rw [hc.ents.blen]; exact Words.div_lt_getLen hxl
  have hal : Ents.isAlive false c x = .ok (v == x.version && c.aliveBits.bit x.id) := by
    unfold Ents.isAlive Ents.validateVersion
    rw [Words.isOn_of_lt (by rw [k4]; exact hw), k2, Raw.read_of_some hv]
    rfl
  refine ⟨_, hal, ?_⟩
  have hlast : v = x.version ↔ ∀ z ∈ handles h, z.id = x.id → z.version ≤ x.version := by
    constructor
    · rintro rfl z hz hzi
      rw [handles_eq] at hz
      obtain ⟨_, w, hw', hle⟩ := hc.ents.iver z hz
      rw [hzi, hv] at hw'
      cases hw'
      exact hle
    · intro hz
      obtain ⟨_, w, hw', hle⟩ := hc.ents.iver x hxm'
      rw [hv] at hw'
      cases hw'
      exact Nat.le_antisymm (hz _ hvh rfl) hle
  have hold : x ∈ alive h ↔ v = x.version ∧ s.ents.aliveBits.bit x.id = true := by
    rw [alive_eq, hc.ents.mem_iff, hv]
    simp
  rw [Bool.and_eq_true, beq_iff_eq, k5, ← hlast, hold]
  split
  · next hid => rw [decide_eq_true hid]; cases s.ents.aliveBits.bit x.id <;> simp
  · next hid => rw [decide_eq_false hid, Bool.false_xor]

end
end Ecs
