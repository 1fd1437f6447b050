import Verif.Proofs.Regs
import Verif.Proofs.StoreCore

/-! The relation between a store and an abstract world, and reading the store under it. -/

namespace Ecs
open Spec

/-- `s` stores the world `w`. -/
structure Rel (U : Universe) (dbg : Bool) (s : Store) (w : World) : Prop where
  ents : EntInv s.ents w.issued w.live
  places : Places U s.archs s.toPage s.toIndex s.hasArch s.ents.capacity w.live w.types w.value none
  regs : Regs U dbg s.archs w.used w.left
  tags : s.tags.Inv
  tcap : s.tags.entityCapacity = s.ents.capacity
  tagOn : ∀ tag i, s.tags.on tag i = true ↔ ∃ e ∈ w.live, e.id = i ∧ w.tags tag e = true
  orders : s.orders.Rep (fun g => (w.order g).map (·.id))
  ocap : s.orders.entityCapacity = s.ents.capacity
  ordLive : ∀ g, ∀ e ∈ w.order g, e ∈ w.live

namespace Rel

variable {U : Universe} {dbg : Bool} {s : Store} {w : World}

/-- Forgetting the components. -/
theorem core (h : Rel U dbg s w) : Core s w :=
  ⟨h.ents, h.places.plen, h.places.ilen, h.places.blen, h.tags, h.tcap, h.tagOn, h.orders, h.ocap, h.ordLive⟩

/-- A change that does not involve components. -/
theorem ofCore {s' : Store} {w' : World} (h : Rel U dbg s w) (hc : Core s' w') (he : s'.ents = s.ents)
    (ha : s'.archs = s.archs) (hp : s'.toPage = s.toPage) (hi : s'.toIndex = s.toIndex) (hb : s'.hasArch = s.hasArch)
    (hl : w'.live = w.live) (ht : w'.types = w.types) (hv : w'.value = w.value) (hu : w'.used = w.used)
    (hle : w'.left = w.left) : Rel U dbg s' w' :=
  ⟨hc.ents, by rw [he, ha, hp, hi, hb, hl, ht, hv]; exact h.places, by rw [ha, hu, hle]; exact h.regs, hc.tags, hc.tcap,
    hc.tagOn, hc.orders, hc.ocap, hc.ordLive⟩

theorem ne_null (h : Rel U dbg s w) {e : Entity} (he : e ∈ w.live) : e.id ≠ NULL_ID := h.core.ne_null he

theorem init {cap : Nat} (hs : Store.withCapacity dbg cap = .ok s) : Rel U dbg s World.empty := by
  unfold Store.withCapacity at hs
  obtain ⟨_, _, hs⟩ := bind_eq_ok.1 hs
  cases hs
  refine ⟨EntInv.new cap, ⟨?_, ?_, ?_, ?_, ?_, ?_, ?_, ?_, ?_, ?_⟩, Regs.new, Tags.Inv.new cap, rfl, ?_, Orders.Rep.new cap, rfl, ?_⟩
  · refine ⟨rfl, rfl, by simp [Archs.new], by simp [Archs.new], by simp [Archs.new], by simp [Archs.new], by simp [Archs.new],
      by simp [Archs.new], by simp [Archs.new, List.nodup_range], by simp [Archs.new], ?_, ?_, ?_, by simp [Archs.new],
      by simp [Archs.new], by simp [Archs.new], by simp [Archs.new]⟩
    · intro p hp; simpa [Archs.new] using hp
    · intro p hp; left; simpa [Archs.new] using hp
    · intro p _ pg hpg
      have := List.mem_of_getElem? hpg
      simp only [Archs.new, List.mem_replicate] at this
      rw [this.2]; rfl
  · simp [Raw.allocZeroed, Ents.new]
  · simp [Raw.allocZeroed, Ents.new]
  · simp [Words.length_alloc, Ents.new]
  · intro e he; cases he
  · intro e he; cases he
  · intro e he; cases he
  · intro e he; cases he
  · intro q i hq
    unfold Archs.row at hq
    cases hp : Archs.new.pages[q.page]? with
    | none => simp only at hq; rw [hp] at hq; cases hq
    | some pg =>
      simp only at hq
      rw [hp] at hq
      have := List.mem_of_getElem? hp
      simp only [Archs.new, List.mem_replicate] at this
      rw [this.2] at hq
      simp [Page.new, CapVec.new] at hq
  · intro q hq; cases hq
  · intro tag i
    simp only
    rw [Tags.on_new]
    simp [World.empty]
  · intro g e he; simp [World.empty] at he

theorem isAlive (h : Rel U dbg s w) {e : Entity} (he : e.id < s.ents.capacity) :
    s.isAlive dbg e = .ok (decide (e ∈ w.live)) := h.ents.isAlive_of_lt he

theorem isValid (h : Rel U dbg s w) {e : Entity} (he : e.id < s.ents.capacity) :
    s.isValidEntityWithArchetype dbg e = .ok (decide (e ∈ w.live ∧ w.types e ≠ [])) := by
  unfold Store.isValidEntityWithArchetype
  simp only [h.isAlive he, ok_bind]
  by_cases hl : e ∈ w.live
  · simp only [hl, decide_true, if_true, true_and]
    rw [Words.isOn_of_lt (by rw [h.places.blen]; exact Words.div_lt_getLen he)]
    by_cases ht : w.types e = []
    · rw [h.places.off e hl ht]; simp [ht]
    · rw [(h.places.on e hl ht).1]; simp [ht]
  · simp [hl]

/-- Everything about the row of a live entity with components. -/
theorem row (h : Rel U dbg s w) {e : Entity} (he : e ∈ w.live) (ht : w.types e ≠ []) :
    ∃ q ai a l ps pg, Pos s.toPage s.toIndex e.id q ∧ s.archs.row q = some e.id ∧ s.archs.At q.page ai a l ps pg ∧
      a.WF U ∧ l.Good U a ∧ HasSet a (w.types e) ∧ (∀ t ∈ w.types e, s.archs.val U q t = some (w.value e t)) ∧
      s.getLocUnchecked e.id = .ok q ∧ s.getPageViewUnchecked q.page = .ok ⟨a, l, q.page⟩ := by
  obtain ⟨_, q, a, h1, h2, _, h4, h5, h6⟩ := h.places.on e he ht
  obtain ⟨ai, a', l, ps, pg, hat, _⟩ := h.places.inv.at_of_row h2
  have := hat.archAt
  rw [h4] at this
  cases this
  obtain ⟨hw, hg, _⟩ := h.places.inv.at_wf hat
  refine ⟨q, ai, a, l, ps, pg, h1, h2, hat, hw, hg, h5, h6, ?_, ?_⟩
  · unfold Store.getLocUnchecked
    simp only [Raw.read_of_some h1.page, Raw.read_of_some h1.index, ok_bind, pure_ok]
  · unfold Store.getPageViewUnchecked
    simp only [idxUnchecked_of_some hat.hto, idxUnchecked_of_some hat.ha, idxUnchecked_of_some hat.hl,
      idxUnchecked_of_some hat.hpg, ok_bind, pure_ok]

theorem getRefs_some (h : Rel U dbg s w) {e : Entity} {ts : List Nat} (he : e ∈ w.live) (hn : w.types e ≠ [])
    (ht : ∀ t ∈ ts, t ∈ w.types e) : ∃ q ai a l ps pg offs, Pos s.toPage s.toIndex e.id q ∧ s.archs.row q = some e.id ∧
      s.archs.At q.page ai a l ps pg ∧ HasSet a (w.types e) ∧
      (∀ t ∈ w.types e, s.archs.val U q t = some (w.value e t)) ∧
      s.getComponentsRefs U dbg e ts = .ok (some (getRefs U q.page q.index ts offs)) ∧
      List.Forall₂ (fun t o => ∃ k : Nat, a.ids[k]? = some t ∧ l.offsets[k]? = some o) ts offs := by
  obtain ⟨q, ai, a, l, ps, pg, h1, h2, hat, hw, hg, h5, h6, _, h8⟩ := h.row he hn
  obtain ⟨offs, g1, _, g3⟩ := getOffsets_present hw hg ts (fun t htt => (h5 t).2 (ht t htt))
  refine ⟨q, ai, a, l, ps, pg, offs, h1, h2, hat, h5, h6, ?_, g3⟩
  unfold Store.getComponentsRefs
  simp only [h.isValid (h.ents.id_lt he), ok_bind, he, hn, ne_eq, not_false_eq_true, and_self, decide_true, if_true,
    Raw.read_of_some h1.page, Raw.read_of_some h1.index, h8, g1, pure_ok]

theorem getRefs_none (h : Rel U dbg s w) {e : Entity} {ts : List Nat} (he : e.id < s.ents.capacity)
    (hn : ¬ (e ∈ w.live ∧ w.types e ≠ [] ∧ ∀ t ∈ ts, t ∈ w.types e)) :
    s.getComponentsRefs U dbg e ts = .ok none := by
  unfold Store.getComponentsRefs
  simp only [h.isValid he, ok_bind]
  by_cases hv : e ∈ w.live ∧ w.types e ≠ []
  · obtain ⟨q, ai, a, l, ps, pg, h1, h2, hat, hw, hg, h5, h6, _, h8⟩ := h.row hv.1 hv.2
    have hm : ∃ t ∈ ts, t ∉ a.ids := by
      by_contra hc
      refine hn ⟨hv.1, hv.2, fun t ht => (h5 t).1 ?_⟩
      by_contra hta
      exact hc ⟨t, ht, hta⟩
    simp only [hv, decide_true, if_true, Raw.read_of_some h1.page, Raw.read_of_some h1.index, h8, ok_bind,
      getOffsets_missing hw hg ts hm, pure_ok, ne_eq, not_false_eq_true, and_self]
  · simp [hv]

/-- Reading components. -/
theorem getComponents (h : Rel U dbg s w) {e : Entity} (he : e.id < s.ents.capacity) (ts : List Nat) :
    s.getComponents U dbg e ts =
      .ok (if e ∈ w.live ∧ w.types e ≠ [] ∧ ∀ t ∈ ts, t ∈ w.types e then some (ts.map (w.value e)) else none) := by
  unfold Store.getComponents
  by_cases hc : e ∈ w.live ∧ w.types e ≠ [] ∧ ∀ t ∈ ts, t ∈ w.types e
  · obtain ⟨q, ai, a, l, ps, pg, offs, h1, h2, hat, h5, h6, h7, h8⟩ := h.getRefs_some hc.1 hc.2.1 hc.2.2
    obtain ⟨vs, g1, g2⟩ := readRefs_spec h.places.inv hat (by rw [h2]; simp) h8
    simp only [h7, ok_bind, g1, pure_ok]
    rw [if_pos hc]
    congr 2
    have hts := hc.2.2
    clear h7 h8 g1 hc
    induction g2 with
    | nil => rfl
    | cons hv _ ih =>
      rw [h6 _ (hts _ (by simp))] at hv
      rw [List.map_cons, ih (fun t ht => hts t (List.mem_cons_of_mem _ ht))]
      rw [Option.some.inj hv]
  · rw [h.getRefs_none he hc, if_neg hc]; rfl

theorem getEntityArchetype_some (h : Rel U dbg s w) {e : Entity} (he : e ∈ w.live) (hn : w.types e ≠ []) :
    ∃ a, s.getEntityArchetype dbg e = .ok (some a) ∧ a.WF U ∧ HasSet a (w.types e) := by
  obtain ⟨q, ai, a, l, ps, pg, h1, h2, hat, hw, hg, h5, h6, _, h8⟩ := h.row he hn
  refine ⟨a, ?_, hw, h5⟩
  unfold Store.getEntityArchetype
  simp only [h.isValid (h.ents.id_lt he), ok_bind, he, hn, ne_eq, not_false_eq_true, and_self, decide_true, Bool.not_true,
    Bool.false_eq_true, if_false, Raw.read_of_some h1.page, idx_of_some hat.hto, idx_of_some hat.ha, pure_ok]

theorem getEntityArchetype_none (h : Rel U dbg s w) {e : Entity} (he : e.id < s.ents.capacity)
    (hn : ¬ (e ∈ w.live ∧ w.types e ≠ [])) : s.getEntityArchetype dbg e = .ok none := by
  unfold Store.getEntityArchetype
  rw [h.isValid he]
  simp [hn]

theorem order_nodup (h : Rel U dbg s w) (g : Nat) : (w.order g).Nodup := h.core.order_nodup g

end Rel
end Ecs
