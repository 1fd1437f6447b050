import Verif.Proofs.StoreCore

/-! Handles, tags and groups along executions with arbitrary component calls. -/

namespace Ecs
open Spec

/-- `s'` differs from `s` at most in what concerns components. -/
structure SameCore (s s' : Store) : Prop where
  ents : s'.ents = s.ents
  tags : s'.tags = s.tags
  orders : s'.orders = s.orders
  plen : s'.toPage.length = s.toPage.length
  ilen : s'.toIndex.length = s.toIndex.length
  blen : s'.hasArch.length = s.hasArch.length

namespace SameCore

variable {U : Universe} {dbg : Bool} {s s' s'' : Store}

theorem refl (s : Store) : SameCore s s := ⟨rfl, rfl, rfl, rfl, rfl, rfl⟩

theorem trans (h : SameCore s s') (h' : SameCore s' s'') : SameCore s s'' :=
  ⟨h'.ents.trans h.ents, h'.tags.trans h.tags, h'.orders.trans h.orders, h'.plen.trans h.plen, h'.ilen.trans h.ilen,
    h'.blen.trans h.blen⟩

theorem write_length {a b : Raw Nat} {i v : Nat} (h : Raw.write a i v = .ok b) : b.length = a.length := by
  unfold Raw.write at h
  split at h
  · cases h; exact List.length_set
  · cases h

theorem setOn_length {a b : Words} {i : Nat} (h : a.setOn i = .ok b) : b.length = a.length := by
  unfold Words.setOn at h
  split at h
  · cases h; exact List.length_set
  · cases h

theorem recordRow {id : Nat} {q : Loc} (h : s.recordRow id q = .ok s') : SameCore s s' := by
  unfold Store.recordRow at h
  obtain ⟨a, h1, h⟩ := bind_eq_ok.1 h
  obtain ⟨b, h2, h⟩ := bind_eq_ok.1 h
  obtain ⟨c, h3, h⟩ := bind_eq_ok.1 h
  cases h
  exact ⟨rfl, rfl, rfl, write_length h1, write_length h2, setOn_length h3⟩

theorem swapRemove {q : Loc} (h : s.swapRemoveInternal q = .ok s') : SameCore s s' := by
  unfold Store.swapRemoveInternal at h
  obtain ⟨⟨c, info⟩, h1, h⟩ := bind_eq_ok.1 h
  dsimp only at h
  split at h
  · obtain ⟨b, h2, h⟩ := bind_eq_ok.1 h
    cases h
    exact ⟨rfl, rfl, rfl, rfl, write_length h2, rfl⟩
  · cases h
    exact ⟨rfl, rfl, rfl, rfl, rfl, rfl⟩

theorem destroyRow {e : Entity} (h : s.destroyRow e = .ok s') : SameCore s s' := by
  unfold Store.destroyRow at h
  obtain ⟨b, h1, h⟩ := bind_eq_ok.1 h
  split at h
  · obtain ⟨q, h2, h⟩ := bind_eq_ok.1 h
    exact swapRemove h
  · cases h; exact refl s

theorem move {e : Entity} {a : Archetype} {q : Loc} (h : s.moveEntityToOtherArchetype dbg e a = .ok (s', q)) :
    SameCore s s' := by
  unfold Store.moveEntityToOtherArchetype at h
  obtain ⟨p, h1, h⟩ := bind_eq_ok.1 h
  obtain ⟨ai, h2, h⟩ := bind_eq_ok.1 h
  obtain ⟨⟨c, q'⟩, h3, h⟩ := bind_eq_ok.1 h
  dsimp only at h
  obtain ⟨x, h4, h⟩ := bind_eq_ok.1 h
  obtain ⟨y, h5, h⟩ := bind_eq_ok.1 h
  obtain ⟨s1, h6, h⟩ := bind_eq_ok.1 h
  cases h
  refine trans (s' := { s with archs := c, toPage := x, toIndex := y }) ?_ (swapRemove h6)
  exact ⟨rfl, rfl, rfl, write_length h4, write_length h5, rfl⟩

theorem ensure {e : Entity} {ts : List TypeId} {q : Loc} (h : s.ensureComponents U dbg e ts = .ok (s', q)) :
    SameCore s s' := by
  unfold Store.ensureComponents at h
  obtain ⟨b, h1, h⟩ := bind_eq_ok.1 h
  split at h
  · obtain ⟨p, h2, h⟩ := bind_eq_ok.1 h
    obtain ⟨ai, h3, h⟩ := bind_eq_ok.1 h
    obtain ⟨a, h4, h⟩ := bind_eq_ok.1 h
    split at h
    · cases h; exact refl s
    · obtain ⟨⟨na, bb⟩, h5, h⟩ := bind_eq_ok.1 h
      exact move h
  · obtain ⟨a, h2, h⟩ := bind_eq_ok.1 h
    obtain ⟨⟨c, q'⟩, h3, h⟩ := bind_eq_ok.1 h
    dsimp only at h
    obtain ⟨s1, h4, h⟩ := bind_eq_ok.1 h
    cases h
    exact trans (s' := { s with archs := c }) ⟨rfl, rfl, rfl, rfl, rfl, rfl⟩ (recordRow h4)

theorem added {e : Entity} {vals : TupleVal} (h : s.addComponents U dbg e vals = .ok s') : SameCore s s' := by
  unfold Store.addComponents at h
  obtain ⟨b, h1, h⟩ := bind_eq_ok.1 h
  split at h
  · cases h; exact refl s
  · obtain ⟨⟨s1, q⟩, h2, h⟩ := bind_eq_ok.1 h
    dsimp only at h
    obtain ⟨v, h3, h⟩ := bind_eq_ok.1 h
    obtain ⟨o, h4, h⟩ := bind_eq_ok.1 h
    obtain ⟨pg, h5, h⟩ := bind_eq_ok.1 h
    cases h
    exact trans (ensure h2) ⟨rfl, rfl, rfl, rfl, rfl, rfl⟩

theorem removed {e : Entity} {ts : List TypeId} (h : s.removeComponents U dbg e ts = .ok s') : SameCore s s' := by
  unfold Store.removeComponents at h
  obtain ⟨b, h1, h⟩ := bind_eq_ok.1 h
  split at h
  · cases h; exact refl s
  · obtain ⟨p, h2, h⟩ := bind_eq_ok.1 h
    obtain ⟨ai, h3, h⟩ := bind_eq_ok.1 h
    obtain ⟨a, h4, h⟩ := bind_eq_ok.1 h
    obtain ⟨⟨na, bb⟩, h5, h⟩ := bind_eq_ok.1 h
    obtain ⟨⟨s1, q⟩, h6, h⟩ := bind_eq_ok.1 h
    cases h
    exact move h6

theorem assigned {e : Entity} {vals : TupleVal} {b : Bool} (h : s.setComponents U dbg e vals = .ok (s', b)) :
    SameCore s s' := by
  unfold Store.setComponents at h
  obtain ⟨o, h1, h⟩ := bind_eq_ok.1 h
  split at h
  · cases h; exact refl s
  · obtain ⟨pg, h2, h⟩ := bind_eq_ok.1 h
    cases h
    exact ⟨rfl, rfl, rfl, rfl, rfl, rfl⟩

end SameCore

namespace Core

variable {U : Universe} {dbg : Bool} {s s' : Store} {w w' : World}

theorem same (h : Core s w) (hs : SameCore s s') (hi : w'.issued = w.issued) (hl : w'.live = w.live)
    (ht : w'.tags = w.tags) (ho : w'.order = w.order) : Core s' w' :=
  ⟨by rw [hs.ents, hi, hl]; exact h.ents, by rw [hs.plen, hs.ents]; exact h.plen, by rw [hs.ilen, hs.ents]; exact h.ilen,
    by rw [hs.blen, hs.ents]; exact h.blen, by rw [hs.tags]; exact h.tags, by rw [hs.tags, hs.ents]; exact h.tcap,
    by rw [hs.tags, hl, ht]; exact h.tagOn, by rw [hs.orders, ho]; exact h.orders, by rw [hs.orders, hs.ents]; exact h.ocap,
    by rw [ho, hl]; exact h.ordLive⟩

theorem init {cap : Nat} (hs : Store.withCapacity dbg cap = .ok s) : Core s World.empty := by
  unfold Store.withCapacity at hs
  obtain ⟨_, _, hs⟩ := bind_eq_ok.1 hs
  cases hs
  refine ⟨EntInv.new cap, ?_, ?_, ?_, Tags.Inv.new cap, rfl, ?_, Orders.Rep.new cap, rfl, ?_⟩
  · simp [Raw.allocZeroed, Ents.new]
  · simp [Raw.allocZeroed, Ents.new]
  · simp [Words.length_alloc, Ents.new]
  · intro tag i
    simp only
    rw [Tags.on_new]
    simp [World.empty]
  · intro g e he; simp [World.empty] at he

/-- A new entity. -/
theorem born (h : Core s w) (hb : w.issued.length + 1 < u32Size) :
    ∃ s1 e, s.registerNewEntity dbg = .ok (s1, e) ∧ e ∉ w.issued ∧ Core s1 (w.birth e) := by
  obtain ⟨s1, e, h1, h2, h3, h4, _, _, h7, h8, h9, _, _, _, h13, h14, h15, h16, h17⟩ := h.register (dbg := dbg) hb
  refine ⟨s1, e, h1, h3, h2, h7, h8, h9, h13, h14, ?_, h16, h17, ?_⟩
  · intro tag i
    rw [h15]
    exact h.birth_tagOn h4 tag i
  · exact fun g x hx => List.mem_cons_of_mem _ (h.ordLive g x hx)

theorem created (h : Core s w) (hb : w.issued.length + 1 < u32Size) {e : Entity} (hr : s.createEntity dbg = .ok (s', e)) :
    e ∉ w.issued ∧ Core s' (w.birth e) := by
  obtain ⟨s1, e1, h1, h2, h3⟩ := h.born (dbg := dbg) hb
  unfold Store.createEntity at hr
  rw [h1] at hr
  simp only [ok_bind] at hr
  obtain ⟨b, h4, hr⟩ := bind_eq_ok.1 hr
  cases hr
  have hlt : e.id < s1.ents.capacity := h3.ents.id_lt (by simp [World.birth])
  obtain ⟨hw', k1, k2, _⟩ := Words.setOff_of_lt (w := s1.hasArch) (i := e.id) (by rw [h3.blen]; exact Words.div_lt_getLen hlt)
  rw [k1] at h4
  cases h4
  exact ⟨h2, h3.same ⟨rfl, rfl, rfl, rfl, rfl, k2⟩ rfl rfl rfl rfl⟩

theorem createdWith (h : Core s w) (hb : w.issued.length + 1 < u32Size) {e : Entity} {a : Archetype}
    (hr : s.createEntityWithArchetype dbg a = .ok (s', e)) : e ∉ w.issued ∧ Core s' (w.birth e) := by
  obtain ⟨s1, e1, h1, h2, h3⟩ := h.born (dbg := dbg) hb
  unfold Store.createEntityWithArchetype at hr
  rw [h1] at hr
  simp only [ok_bind] at hr
  obtain ⟨⟨c, q⟩, h4, hr⟩ := bind_eq_ok.1 hr
  dsimp only at hr
  obtain ⟨s2, h5, hr⟩ := bind_eq_ok.1 hr
  cases hr
  exact ⟨h2, h3.same (SameCore.trans (s' := { s1 with archs := c }) ⟨rfl, rfl, rfl, rfl, rfl, rfl⟩ (SameCore.recordRow h5))
    rfl rfl rfl rfl⟩

theorem destroyed (h : Core s w) {e : Entity} (he : e ∈ w.live) (hr : s.destroyEntity dbg e = .ok s') :
    Core s' (w.apply (.destroyed e)) := by
  have hn := h.ents.nodup_live
  unfold Store.destroyEntity at hr
  obtain ⟨s1, r1, hr⟩ := bind_eq_ok.1 hr
  have h := h.same (w' := w) (SameCore.destroyRow r1) rfl rfl rfl rfl
  have hlt := h.ents.id_lt he
  obtain ⟨ents, e1, e2, e3, _⟩ := h.ents.destroy_live (dbg := dbg) he
  obtain ⟨tg, t1, t2, t3, t4⟩ := Tags.removeAll_spec h.tags (id := e.id) (by rw [h.tcap]; exact hlt)
  obtain ⟨od, o1, o2, o3⟩ := h.orders.removeAll (e := e.id) (by rw [h.ocap]; exact hlt) (h.ne_null he)
  simp only [e1, t1, o1, ok_bind] at hr
  cases hr
  refine ⟨e2, ?_, ?_, ?_, t2, ?_, ?_, ?_, ?_, ?_⟩
  · simp only [e3]; exact h.plen
  · simp only [e3]; exact h.ilen
  · simp only [e3]; exact h.blen
  · simp only [t3, e3, h.tcap]
  · intro tag i
    simp only [t4, World.apply]
    constructor
    · intro hi
      simp only [Bool.and_eq_true, Bool.not_eq_true', decide_eq_false_iff_not] at hi
      obtain ⟨x, hx, hxi, hxt⟩ := (h.tagOn tag i).1 hi.2
      have hxe : x ≠ e := fun hxe => hi.1 (by rw [← hxi, hxe])
      exact ⟨x, (mem_erase hn e x).2 ⟨hx, hxe⟩, hxi, by rw [at'_ne _ _ hxe]; exact hxt⟩
    · rintro ⟨x, hx, hxi, hxt⟩
      obtain ⟨hx, hxe⟩ := (mem_erase hn e x).1 hx
      rw [at'_ne _ _ hxe] at hxt
      have h2 := (h.tagOn tag i).2 ⟨x, hx, hxi, hxt⟩
      have : i ≠ e.id := fun hi => hxe (h.ents.eq_of_id hx he (by rw [hxi, hi]))
      simp [h2, this]
  · have : (fun g => ((w.order g).map (·.id)).erase e.id) = fun g => ((w.order g).erase e).map (·.id) := by
      funext g
      exact erase_map h.inj (h.ordLive g) he
    rw [this] at o2
    exact o2
  · simp only [o3, e3, h.ocap]
  · intro g x hx
    have := (mem_erase (h.order_nodup g) e x).1 hx
    exact (mem_erase hn e x).2 ⟨h.ordLive g x this.1, this.2⟩

theorem step (h : Core s w) {ev : Event} (hl : Loose w ev) (hr : Returns U dbg s ev s') : Core s' (w.apply ev) := by
  cases ev with
  | created e => exact (h.created hl hr).2
  | createdWith e ts init =>
    obtain ⟨a, _, _, hr⟩ := hr
    exact (h.createdWith hl hr).2.same (SameCore.refl _) rfl rfl rfl rfl
  | destroyed e => exact h.destroyed hl hr
  | added e vals =>
    refine h.same (SameCore.added hr) ?_ ?_ ?_ ?_ <;>
    · simp only [World.apply]
      split <;> [skip; rfl]
      dsimp only
      split <;> rfl
  | removed e ts =>
    refine h.same (SameCore.removed hr) ?_ ?_ ?_ ?_ <;>
    · simp only [World.apply]
      split <;> rfl
  | assigned e vals =>
    obtain ⟨b, hr⟩ := hr
    refine h.same (SameCore.assigned hr) ?_ ?_ ?_ ?_ <;>
    · simp only [World.apply]
      split <;> rfl
  | tagged tag e =>
    obtain ⟨s1, h1, h2⟩ := h.tagged tag hl
    simp only [Returns] at hr
    rw [h1] at hr; cases hr; exact h2
  | untagged tag e =>
    obtain ⟨s1, h1, h2⟩ := h.untagged tag hl
    simp only [Returns] at hr
    rw [h1] at hr; cases hr; exact h2
  | orderedLast g e =>
    obtain ⟨s1, h1, h2⟩ := h.orderedLast (dbg := dbg) hl.1 hl.2
    simp only [Returns] at hr
    rw [h1] at hr; cases hr; exact h2
  | orderedAfter g e x =>
    obtain ⟨s1, h1, h2⟩ := h.orderedAfter (dbg := dbg) hl.1 hl.2.1 hl.2.2
    simp only [Returns] at hr
    rw [h1] at hr; cases hr; exact h2
  | orderedBefore g e x =>
    obtain ⟨s1, h1, h2⟩ := h.orderedBefore (dbg := dbg) hl.1 hl.2.1 hl.2.2
    simp only [Returns] at hr
    rw [h1] at hr; cases hr; exact h2
  | unordered g e =>
    obtain ⟨s1, h1, h2⟩ := h.unordered (g := g) hl
    simp only [Returns] at hr
    rw [h1] at hr; cases hr; exact h2

end Core

/-- Every execution, whatever it does with components, keeps handles, tags and groups. -/
theorem loose_core {U : Universe} {dbg : Bool} {cap : Nat} {h : List Event} {s : Store} (hx : LooseExec U dbg cap h s) :
    Core s (world h) := by
  induction hx with
  | init hs => exact Core.init hs
  | step ev _ hl hr ih => exact ih.step hl hr

/-- Well-behaved executions are executions. -/
theorem Spec.Exec.loose {U : Universe} {dbg : Bool} {cap : Nat} {h : List Event} {s : Store} (hx : Exec U dbg cap h s) :
    LooseExec U dbg cap h s := by
  induction hx with
  | init hs => exact .init hs
  | step ev _ ha _ hd ih =>
    refine .step ev ih ?_ hd.1
    cases ev <;> first | exact ha | trivial

end Ecs
