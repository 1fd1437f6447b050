import Verif.Proofs.Aside

/-! Calls about entities whose rows are the last of their pages leave the other rows where they are. -/

namespace Ecs
open Spec

variable {U : Universe} {dbg : Bool} {s s' : Store} {T : Nat → Bool}

theorem aside_swapRemove {q : Loc} {id : Nat} (h : s.archs.Aside T) (ht : T id = true) (hr : s.swapRemoveInternal q = .ok s') (hq : s.archs.row q = some id) :
    s'.archs.Aside T ∧ s'.archs.others T = s.archs.others T := by
  unfold Store.swapRemoveInternal at hr
  obtain ⟨⟨c, info⟩, h1, hr⟩ := bind_eq_ok.1 hr
  have key := h.swapRemove ht h1 hq
  dsimp only at hr
  split at hr
  · obtain ⟨_, _, hr⟩ := bind_eq_ok.1 hr
    cases hr; exact key
  · cases hr; exact key

theorem recordRow_archs {id : Nat} {q : Loc} (h : s.recordRow id q = .ok s') : s'.archs = s.archs := by
  unfold Store.recordRow at h
  obtain ⟨_, _, h⟩ := bind_eq_ok.1 h
  obtain ⟨_, _, h⟩ := bind_eq_ok.1 h
  obtain ⟨_, _, h⟩ := bind_eq_ok.1 h
  cases h; rfl

namespace Store.Rows
variable {A : Nat → Prop}

theorem aside_destroyRow {e : Entity} (h : s.Rows A none) (hA : s.hasArch.bit e.id = true ↔ A e.id) (ha : s.archs.Aside T) (ht : T e.id = true)
    (hr : s.destroyRow e = .ok s') : s'.archs.Aside T ∧ s'.archs.others T = s.archs.others T := by
  unfold Store.destroyRow at hr
  obtain ⟨b, h1, hr⟩ := bind_eq_ok.1 hr
  have hb := (Words.isOn_ok.1 h1).2
  split at hr
  · next hbt =>
    obtain ⟨q, h2, hr⟩ := bind_eq_ok.1 hr
    have hAe := hA.1 (hb.symm.trans hbt)
    exact aside_swapRemove ha ht hr (h.forget hAe (getLoc h2)).2
  · cases hr
    exact ⟨ha, rfl⟩

theorem aside_move {e : Entity} {a : Archetype} {q : Loc} (h : s.Rows A none) (hs : s.Shape) (hev : a.Even) (hA : A e.id)
    (ha : s.archs.Aside T) (ht : T e.id = true) (hr : s.moveEntityToOtherArchetype dbg e a = .ok (s', q)) :
    s'.archs.Aside T ∧ s'.archs.others T = s.archs.others T := by
  unfold Store.moveEntityToOtherArchetype at hr
  obtain ⟨p, h1, hr⟩ := bind_eq_ok.1 hr
  obtain ⟨ai, h2, hr⟩ := bind_eq_ok.1 hr
  obtain ⟨⟨c, q'⟩, h3, hr⟩ := bind_eq_ok.1 hr
  dsimp only at hr
  obtain ⟨x, h4, hr⟩ := bind_eq_ok.1 hr
  obtain ⟨y, h5, hr⟩ := bind_eq_ok.1 hr
  obtain ⟨s1, h6, hr⟩ := bind_eq_ok.1 hr
  cases hr
  obtain ⟨k0, krow⟩ := h.forget hA (getLoc h1)
  obtain ⟨k1, k2, k3⟩ := h.use.move hs.archs hev h3
  have hne : p ≠ q := by
    rintro rfl
    rw [k2] at krow; cases krow
  obtain ⟨m1, m2⟩ := ha.move ht h.use hs.archs hev h3
  obtain ⟨n1, n2⟩ := aside_swapRemove (s := { s with archs := c, toPage := x, toIndex := y }) m1 ht h6 (by
    show c.row p = _
    rw [k3, if_neg hne, krow])
  exact ⟨n1, n2.trans m2⟩

theorem aside_ensure {e : Entity} {ts : List TypeId} {q : Loc} (h : s.Rows A none) (hs : s.Shape)
    (hA : s.hasArch.bit e.id = true ↔ A e.id) (ha : s.archs.Aside T) (ht : T e.id = true)
    (hr : s.ensureComponents U dbg e ts = .ok (s', q)) : s'.archs.Aside T ∧ s'.archs.others T = s.archs.others T := by
  unfold Store.ensureComponents at hr
  obtain ⟨b, h1, hr⟩ := bind_eq_ok.1 hr
  have hb := (Words.isOn_ok.1 h1).2
  split at hr
  · next hbt =>
    have hAe := hA.1 (hb.symm.trans hbt)
    obtain ⟨p, h2, hr⟩ := bind_eq_ok.1 hr
    obtain ⟨ai, h3, hr⟩ := bind_eq_ok.1 hr
    obtain ⟨a, h4, hr⟩ := bind_eq_ok.1 hr
    split at hr
    · cases hr; exact ⟨ha, rfl⟩
    · obtain ⟨⟨na, bb⟩, h5, hr⟩ := bind_eq_ok.1 hr
      exact h.aside_move hs (ArchetypeBuilder.build_even h5) hAe ha ht hr
  · obtain ⟨a, h2, hr⟩ := bind_eq_ok.1 hr
    obtain ⟨⟨c, q'⟩, h3, hr⟩ := bind_eq_ok.1 hr
    dsimp only at hr
    obtain ⟨s1, h4, hr⟩ := bind_eq_ok.1 hr
    cases hr
    rw [recordRow_archs h4]
    exact ha.addEntity ht h.use hs.archs (Archetype.withComponents_even h2) h3

end Store.Rows

section step
variable {cap : Nat} {h : List Event} {ev : Event}

/-- A call leaves the rows with ids outside `T` where they are, if it is about an entity with an id in `T`, or moves nothing. -/
theorem aside_step (hx : LooseExec U dbg cap h s) (hl : Loose (world h) ev) (hr : Returns U dbg s ev s')
    (ha : s.archs.Aside T) (hT : movesNothing ev = false → (subject ev ∈ alive h ∨ subject ev ∈ alive (ev :: h)) → T (subject ev).id = true) :
    s'.archs.Aside T ∧ s'.archs.others T = s.archs.others T := by
  have hc := loose_core hx
  have hs := loose_shape hx
  have ih := loose_rows hx
  obtain ⟨hg1, hg2⟩ := given_bit hx
  have hinj : ∀ e ∈ alive h, ∀ x ∈ alive h, e.id = x.id → e = x := by
    rw [alive_eq]; exact hc.inj
  have hlt : ∀ i, Holder h i → i < s.ents.capacity := by
    rintro i ⟨e, he, _, rfl⟩
    rw [alive_eq] at he
    exact hc.ents.id_lt he
  have hbit : ∀ e ∈ alive h, (s.hasArch.bit e.id = true ↔ Holder h e.id) := by
    intro e he
    rw [hg2 e he]
    exact ⟨fun hg => ⟨e, he, hg, rfl⟩, fun ⟨x, hx, hxg, hid⟩ => hinj x hx e he hid ▸ hxg⟩
  cases ev with
  | created e =>
    simp only [Returns, Store.createEntity] at hr
    obtain ⟨⟨s1, e1⟩, h1, hr⟩ := bind_eq_ok.1 hr
    obtain ⟨b, h2, hr⟩ := bind_eq_ok.1 hr
    cases hr
    obtain ⟨s2, e2, k1, _, k3, k4, k5, _⟩ := hc.register (dbg := dbg) hl
    rw [h1] at k1
    cases k1
    show s1.archs.Aside _ ∧ s1.archs.others _ = _
    rw [k5]
    exact ⟨ha, rfl⟩
  | assigned e vals =>
    obtain ⟨b, hr⟩ := hr
    unfold Store.setComponents at hr
    obtain ⟨o, h1, hr⟩ := bind_eq_ok.1 hr
    split at hr
    · cases hr; exact ⟨ha, rfl⟩
    · obtain ⟨pg, h2, hr⟩ := bind_eq_ok.1 hr
      cases hr
      exact ha.setPages (SameIds.assign _ h2)
  | createdWith e ts init =>
    obtain ⟨a, hba, _, hr⟩ := hr
    unfold Store.createEntityWithArchetype at hr
    obtain ⟨⟨s1, e1⟩, h1, hr⟩ := bind_eq_ok.1 hr
    obtain ⟨⟨c, q⟩, h3, hr⟩ := bind_eq_ok.1 hr
    dsimp only at hr h3
    obtain ⟨s2, h2, hr⟩ := bind_eq_ok.1 hr
    cases hr
    obtain ⟨hs1, _⟩ := Store.Shape.register hc hs hl h1
    obtain ⟨s3, e3, k1, _, k3, k4, k5, _, _, _, k9, k10, k11, k12, _⟩ := hc.register (dbg := dbg) hl
    rw [h1] at k1
    cases k1
    rw [recordRow_archs h2, ← k5]
    have h0 : s1.Rows (Holder h) none := ih.grow hlt k5 k10 k11
    rw [← k5] at ha
    exact ha.addEntity (hT rfl (.inr List.mem_cons_self)) h0.use hs1.archs hba.wf.even h3
  | destroyed e =>
    have hle : e ∈ alive h := by rw [alive_eq]; exact hl
    simp only [Returns, Store.destroyEntity] at hr
    obtain ⟨s1, h1, hr⟩ := bind_eq_ok.1 hr
    obtain ⟨_, _, hr⟩ := bind_eq_ok.1 hr
    obtain ⟨tg, h2, hr⟩ := bind_eq_ok.1 hr
    obtain ⟨_, _, hr⟩ := bind_eq_ok.1 hr
    cases hr
    have := ih.aside_destroyRow (hbit e hle) ha (hT rfl (.inl hle)) h1
    exact this
  | added e vals =>
    simp only [Returns, Store.addComponents] at hr
    obtain ⟨b, h1, hr⟩ := bind_eq_ok.1 hr
    have hlt1 := hc.isAlive_lt h1
    rw [hc.isAlive hlt1, ← alive_eq] at h1
    cases h1
    split at hr
    · cases hr; exact ⟨ha, rfl⟩
    · next hb =>
      have hle : e ∈ alive h := by simpa using hb
      obtain ⟨⟨s1, q⟩, h2, hr⟩ := bind_eq_ok.1 hr
      dsimp only at hr
      obtain ⟨v, h3, hr⟩ := bind_eq_ok.1 hr
      obtain ⟨o, h4, hr⟩ := bind_eq_ok.1 hr
      obtain ⟨pg, h5, hr⟩ := bind_eq_ok.1 hr
      cases hr
      obtain ⟨k1, k2⟩ := ih.aside_ensure hs (hbit e hle) ha (hT rfl (.inl hle)) h2
      obtain ⟨m1, m2⟩ := k1.setPages (SameIds.assign _ h5)
      exact ⟨m1, m2.trans k2⟩
  | removed e ts =>
    simp only [Returns, Store.removeComponents] at hr
    obtain ⟨b, h1, hr⟩ := bind_eq_ok.1 hr
    cases b with
    | false => cases hr; exact ⟨ha, rfl⟩
    | true =>
      have hA : e ∈ alive h ∧ Holder h e.id := by
        unfold Store.isValidEntityWithArchetype at h1
        obtain ⟨b, h2, h1⟩ := bind_eq_ok.1 h1
        cases b with
        | false => simp at h1
        | true =>
          have hlt1 := hc.isAlive_lt h2
          rw [hc.isAlive hlt1, ← alive_eq] at h2
          have hle : e ∈ alive h := by simpa using h2
          exact ⟨hle, (hbit e hle).1 (Words.isOn_ok.1 h1).2.symm⟩
      obtain ⟨p, h2, hr⟩ := bind_eq_ok.1 hr
      obtain ⟨ai, h3, hr⟩ := bind_eq_ok.1 hr
      obtain ⟨a, h4, hr⟩ := bind_eq_ok.1 hr
      obtain ⟨⟨na, bb⟩, h5, hr⟩ := bind_eq_ok.1 hr
      obtain ⟨⟨s1, q⟩, h6, hr⟩ := bind_eq_ok.1 hr
      cases hr
      exact ih.aside_move hs (ArchetypeBuilder.build_even h5) hA.2 ha (hT rfl (.inl hA.1)) h6
  | tagged t e => obtain ⟨_, _, hr⟩ := bind_eq_ok.1 hr; cases hr; exact ⟨ha, rfl⟩
  | untagged t e => obtain ⟨_, _, hr⟩ := bind_eq_ok.1 hr; cases hr; exact ⟨ha, rfl⟩
  | orderedLast g e => obtain ⟨_, _, hr⟩ := bind_eq_ok.1 hr; cases hr; exact ⟨ha, rfl⟩
  | orderedAfter g e x => obtain ⟨_, _, hr⟩ := bind_eq_ok.1 hr; cases hr; exact ⟨ha, rfl⟩
  | orderedBefore g e x => obtain ⟨_, _, hr⟩ := bind_eq_ok.1 hr; cases hr; exact ⟨ha, rfl⟩
  | unordered g e => obtain ⟨_, _, hr⟩ := bind_eq_ok.1 hr; cases hr; exact ⟨ha, rfl⟩

/-- At the start: no row has an id in `T`, and no archetype with rows is free. -/
theorem aside_start (hx : LooseExec U dbg cap h s) (hn : ∀ i, T i = true → ¬ Holder h i) (hu : UsedNotFree s) : s.archs.Aside T := by
  have ih := loose_rows hx
  refine ⟨fun p => ⟨s.archs.idsOf p, [], by simp, fun j hj => ?_, by simp⟩, fun i hi ps hps p hp j hj => ?_⟩
  · obtain ⟨i, hi⟩ := List.mem_iff_getElem?.1 hj
    rw [Archs.idsOf_getElem] at hi
    rcases ih.rows _ _ hi with h0 | ⟨h0, _⟩
    · cases h0
    · cases hTj : T j with
      | false => rfl
      | true => exact absurd h0 (hn j hTj)
  · rw [freeEmpty_of ih.use hu i hi ps hps p hp] at hj
    cases hj

/-- The rows a query visits, without those with ids in `T`. -/
theorem coveredRows_but (s : Store) (acc : Access) (T : Nat → Bool) :
    (coveredRows s acc).filter (fun r => !T r.id) = (s.archs.others T).filter fun r => decide (Covers r.arch.ids acc) := by
  unfold coveredRows Archs.others Archs.tour
  rw [List.filter_flatMap, List.filter_flatMap]
  refine List.flatMap_congr fun x _ => ?_
  rw [List.filter_flatMap]
  have hpg : ∀ p, (rowsOfPage s x.1.1 x.1.2 p).filter (fun r => !T r.id) = s.archs.pageBut T x.1 p := by
    intro p
    unfold rowsOfPage Archs.pageBut Archs.idsOf
    cases s.archs.pages[p]? with
    | none => rfl
    | some pg =>
      dsimp only [Option.elim]
      rw [List.filter_map]
      rfl
  split
  · next hc =>
    rw [List.filter_flatMap]
    refine List.flatMap_congr fun p _ => ?_
    rw [hpg]
    refine (List.filter_eq_self.2 fun r hr => ?_).symm
    unfold Archs.pageBut at hr
    obtain ⟨y, _, rfl⟩ := List.mem_map.1 hr
    exact decide_eq_true hc
  · next hc =>
    symm
    rw [List.filter_nil, List.flatMap_eq_nil_iff]
    intro p _
    rw [List.filter_eq_nil_iff]
    intro r hr
    unfold Archs.pageBut at hr
    obtain ⟨y, _, rfl⟩ := List.mem_map.1 hr
    simpa using hc

end step

end Ecs
