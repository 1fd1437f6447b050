import Verif.Proofs.ArchsRemove
import Verif.Proofs.Entities
import Verif.Spec.World

/-! Where the store keeps the components of its entities: how the per-entity row records and the archetype
container fit together, and how the steps of the store operations preserve this. -/

namespace Ecs
open Spec

/-- The row recorded for id `id`. -/
structure Pos (tp ti : Raw Nat) (id : Nat) (q : Loc) : Prop where
  page : tp[id]? = some (some q.page)
  index : ti[id]? = some (some q.index)

theorem Pos.unique {tp ti : Raw Nat} {id : Nat} {q q' : Loc} (h : Pos tp ti id q) (h' : Pos tp ti id q') :
    q = q' := by
  have h1 := h.page.symm.trans h'.page
  have h2 := h.index.symm.trans h'.index
  cases q; cases q'; simp_all

/-- Entities `L` with type sets `T` and component values `V` are stored in `c`, with the row records
`tp`, `ti`, `hb`. A row `extra` may exist that belongs to nobody. -/
structure Places (U : Universe) (c : Archs) (tp ti : Raw Nat) (hb : Words) (cap : Nat) (L : List Entity)
    (T : Entity → List TypeId) (V : Entity → TypeId → List Cell) (extra : Option Loc) : Prop where
  inv : c.Inv U
  plen : tp.length = cap
  ilen : ti.length = cap
  blen : hb.length = Words.getLen cap
  lt : ∀ e ∈ L, e.id < cap
  inj : ∀ e ∈ L, ∀ e' ∈ L, e.id = e'.id → e = e'
  off : ∀ e ∈ L, T e = [] → hb.bit e.id = false
  on : ∀ e ∈ L, T e ≠ [] → hb.bit e.id = true ∧ ∃ q a, Pos tp ti e.id q ∧ c.row q = some e.id ∧ extra ≠ some q ∧
    c.archAt q.page = some a ∧ (∀ t, t ∈ a.ids ↔ t ∈ T e) ∧ ∀ t ∈ T e, c.val U q t = some (V e t)
  rows : ∀ q i, c.row q = some i → extra = some q ∨ ∃ e ∈ L, e.id = i ∧ T e ≠ [] ∧ Pos tp ti i q
  ext : ∀ q, extra = some q → c.row q ≠ none

namespace Places

variable {U : Universe} {c c' : Archs} {tp ti tp' ti' : Raw Nat} {hb hb' : Words} {cap : Nat} {L L' : List Entity}
  {T T' : Entity → List TypeId} {V V' : Entity → TypeId → List Cell} {extra extra' : Option Loc}

/-- The row of an entity. -/
theorem rowOf (h : Places U c tp ti hb cap L T V extra) {e : Entity} (he : e ∈ L) (hT : T e ≠ []) {q : Loc}
    (hq : Pos tp ti e.id q) : c.row q = some e.id ∧ extra ≠ some q ∧ ∃ a, c.archAt q.page = some a ∧
      (∀ t, t ∈ a.ids ↔ t ∈ T e) ∧ ∀ t ∈ T e, c.val U q t = some (V e t) := by
  obtain ⟨_, q', a, h1, h2, h3, h4, h5, h6⟩ := h.on e he hT
  have := hq.unique h1
  subst this
  exact ⟨h2, h3, a, h4, h5, h6⟩

/-- A new row `q` becomes the row of `e`; the previous row of `e`, if any, is left over. -/
theorem place {dbg : Bool} {a : Archetype} {q : Loc} {e : Entity} (h : Places U c tp ti hb cap L T V none)
    (he : e ∈ L) (hA : Archs.Added U dbg c c' e.id a q)
    (hp : ∀ i, tp'[i]? = if i = e.id then some (some q.page) else tp[i]?)
    (hi : ∀ i, ti'[i]? = if i = e.id then some (some q.index) else ti[i]?)
    (hpl : tp'.length = tp.length) (hil : ti'.length = ti.length) (hbl : hb'.length = hb.length)
    (hbt : ∀ i, hb'.bit i = (decide (i = e.id) || hb.bit i))
    (hT : ∀ x, x ≠ e → T' x = T x) (hTe : ∀ t, t ∈ T' e ↔ t ∈ a.ids)
    (hV : ∀ x, x ≠ e → V' x = V x) (hVe : ∀ t ∈ T' e, c'.val U q t = some (V' e t))
    (hx : ∀ p, extra' = some p ↔ T e ≠ [] ∧ Pos tp ti e.id p) :
    Places U c' tp' ti' hb' cap L T' V' extra' := by
  have hne : T' e ≠ [] := by
    have hq := hA.row q
    rw [if_pos rfl] at hq
    obtain ⟨ai, b, l, ps, pg, hat, _⟩ := hA.inv.at_of_row hq
    have h1 := hat.archAt
    rw [hA.archNew] at h1
    cases h1
    have := (hA.inv.at_wf hat).1.ne
    intro h0
    cases hids : a.ids with
    | nil => exact this hids
    | cons t ts =>
      have : t ∈ T' e := (hTe t).2 (by simp [hids])
      rw [h0] at this; cases this
  have hpos : ∀ i r, i ≠ e.id → (Pos tp' ti' i r ↔ Pos tp ti i r) := by
    intro i r hie
    constructor
    · rintro ⟨h1, h2⟩
      rw [hp, if_neg hie] at h1
      rw [hi, if_neg hie] at h2
      exact ⟨h1, h2⟩
    · rintro ⟨h1, h2⟩
      exact ⟨by rw [hp, if_neg hie]; exact h1, by rw [hi, if_neg hie]; exact h2⟩
  have hposq : Pos tp' ti' e.id q := ⟨by rw [hp, if_pos rfl], by rw [hi, if_pos rfl]⟩
  have hid : ∀ x ∈ L, x ≠ e → x.id ≠ e.id := fun x hx hxe hh => hxe (h.inj x hx e he hh)
  refine ⟨hA.inv, by rw [hpl, h.plen], by rw [hil, h.ilen], by rw [hbl, h.blen], h.lt, h.inj, ?_, ?_, ?_, ?_⟩
  · intro x hxL hx0
    by_cases hxe : x = e
    · subst hxe; exact absurd hx0 hne
    · rw [hbt, h.off x hxL (by rw [← hT x hxe]; exact hx0)]
      simp [hid x hxL hxe]
  · intro x hxL hx0
    by_cases hxe : x = e
    · subst hxe
      refine ⟨by rw [hbt]; simp, q, a, hposq, by rw [hA.row, if_pos rfl], ?_, hA.archNew, fun t => (hTe t).symm, hVe⟩
      intro hex
      obtain ⟨h1, h2⟩ := (hx q).1 hex
      have := (h.rowOf he h1 h2).1
      rw [hA.fresh] at this; cases this
    · rw [hT x hxe] at hx0
      obtain ⟨h1, r, b, h2, h3, h4, h5, h6, h7⟩ := h.on x hxL hx0
      have hrq : r ≠ q := by
        rintro rfl
        rw [hA.fresh] at h3; cases h3
      refine ⟨by rw [hbt, h1]; simp, r, b, (hpos _ _ (hid x hxL hxe)).2 h2, by rw [hA.row, if_neg hrq]; exact h3, ?_,
        by rw [hA.archOld r (by rw [h3]; simp)]; exact h5, by rw [hT x hxe]; exact h6, ?_⟩
      · intro hex
        obtain ⟨g1, g2⟩ := (hx r).1 hex
        have := (h.rowOf he g1 g2).1
        rw [h3] at this
        exact hid x hxL hxe (Option.some.inj this)
      · rw [hT x hxe, hV x hxe]
        intro t ht
        rw [hA.val r t (by rw [h3]; simp)]
        exact h7 t ht
  · intro r i hr
    rw [hA.row] at hr
    split at hr
    · rename_i hrq
      subst hrq
      cases hr
      exact Or.inr ⟨e, he, rfl, hne, hposq⟩
    · rcases h.rows r i hr with hn | ⟨x, hxL, rfl, hx0, hxp⟩
      · cases hn
      · by_cases hxe : x = e
        · subst hxe
          exact Or.inl ((hx r).2 ⟨hx0, hxp⟩)
        · exact Or.inr ⟨x, hxL, rfl, by rw [hT x hxe]; exact hx0, (hpos _ _ (hid x hxL hxe)).2 hxp⟩
  · intro p hpx
    obtain ⟨h1, h2⟩ := (hx p).1 hpx
    have h3 := (h.rowOf he h1 h2).1
    rw [hA.row]
    split
    · simp
    · rw [h3]; simp

/-- Forgetting an entity leaves its row over. -/
theorem forget {e : Entity} (h : Places U c tp ti hb cap L T V none) (he : e ∈ L)
    (hL : ∀ x, x ∈ L' ↔ x ∈ L ∧ x ≠ e) (hT : ∀ x, x ≠ e → T' x = T x)
    (hx : ∀ p, extra' = some p ↔ T e ≠ [] ∧ Pos tp ti e.id p) :
    Places U c tp ti hb cap L' T' V extra' := by
  refine ⟨h.inv, h.plen, h.ilen, h.blen, fun x hx => h.lt x ((hL x).1 hx).1,
    fun x hx y hy => h.inj x ((hL x).1 hx).1 y ((hL y).1 hy).1, ?_, ?_, ?_, ?_⟩
  · intro x hxL hx0
    obtain ⟨h1, h2⟩ := (hL x).1 hxL
    exact h.off x h1 (by rw [← hT x h2]; exact hx0)
  · intro x hxL hx0
    obtain ⟨h1, h2⟩ := (hL x).1 hxL
    rw [hT x h2] at hx0 ⊢
    obtain ⟨g1, r, b, g2, g3, g4, g5⟩ := h.on x h1 hx0
    refine ⟨g1, r, b, g2, g3, ?_, g5⟩
    intro hex
    obtain ⟨k1, k2⟩ := (hx r).1 hex
    have := (h.rowOf he k1 k2).1
    rw [g3] at this
    exact h2 (h.inj x h1 e he (Option.some.inj this))
  · intro r i hr
    rcases h.rows r i hr with hn | ⟨x, hxL, rfl, hx0, hxp⟩
    · cases hn
    · by_cases hxe : x = e
      · subst hxe
        exact Or.inl ((hx r).2 ⟨hx0, hxp⟩)
      · exact Or.inr ⟨x, (hL x).2 ⟨hxL, hxe⟩, rfl, by rw [hT x hxe]; exact hx0, hxp⟩
  · intro p hpx
    obtain ⟨h1, h2⟩ := (hx p).1 hpx
    rw [(h.rowOf he h1 h2).1]; simp

/-- A new entity without components. -/
theorem extend {e : Entity} {cap' : Nat} (h : Places U c tp ti hb cap L T V none) (hcap : e.id < cap')
    (hid : ∀ x ∈ L, x.id ≠ e.id) (hLlt : ∀ x ∈ L, x.id < cap')
    (hL : ∀ x, x ∈ L' ↔ x = e ∨ x ∈ L) (hT : ∀ x ∈ L, T' x = T x) (hTe : T' e = [])
    (hp : ∀ x ∈ L, tp'[x.id]? = tp[x.id]?) (hi : ∀ x ∈ L, ti'[x.id]? = ti[x.id]?)
    (hpl : tp'.length = cap') (hil : ti'.length = cap') (hbl : hb'.length = Words.getLen cap')
    (hbt : ∀ x ∈ L, hb'.bit x.id = hb.bit x.id) (hbe : hb'.bit e.id = false) :
    Places U c tp' ti' hb' cap' L' T' V none := by
  have hpos : ∀ x ∈ L, ∀ q, Pos tp' ti' x.id q ↔ Pos tp ti x.id q := by
    intro x hx q
    exact ⟨fun h => ⟨by rw [← hp x hx]; exact h.page, by rw [← hi x hx]; exact h.index⟩,
      fun h => ⟨by rw [hp x hx]; exact h.page, by rw [hi x hx]; exact h.index⟩⟩
  refine ⟨h.inv, hpl, hil, hbl, ?_, ?_, ?_, ?_, ?_, by simp⟩
  · intro x hx
    rcases (hL x).1 hx with rfl | hx
    · exact hcap
    · exact hLlt x hx
  · intro x hx y hy hxy
    rcases (hL x).1 hx with rfl | hx
    · rcases (hL y).1 hy with rfl | hy
      · rfl
      · exact absurd hxy.symm (hid y hy)
    · rcases (hL y).1 hy with rfl | hy
      · exact absurd hxy (hid x hx)
      · exact h.inj x hx y hy hxy
  · intro x hx hx0
    rcases (hL x).1 hx with rfl | hx
    · exact hbe
    · rw [hbt x hx]; exact h.off x hx (by rw [← hT x hx]; exact hx0)
  · intro x hx hx0
    rcases (hL x).1 hx with rfl | hx
    · exact absurd hTe hx0
    · rw [hT x hx] at hx0 ⊢
      obtain ⟨g1, r, b, g2, g3⟩ := h.on x hx hx0
      exact ⟨by rw [hbt x hx]; exact g1, r, b, (hpos x hx r).2 g2, g3⟩
  · intro r i hr
    rcases h.rows r i hr with hn | ⟨x, hxL, rfl, hx0, hxp⟩
    · cases hn
    · exact Or.inr ⟨x, (hL x).2 (Or.inr hxL), rfl, by rw [hT x hxL]; exact hx0, (hpos x hxL r).2 hxp⟩

/-- Only the archetype container changes, and only component values. -/
theorem revalue (h : Places U c tp ti hb cap L T V none) (hI : c'.Inv U) (hr : ∀ q, c'.row q = c.row q)
    (ha : ∀ p, c'.archAt p = c.archAt p)
    (hv : ∀ e ∈ L, T e ≠ [] → ∀ q, Pos tp ti e.id q → ∀ t ∈ T e, c'.val U q t = some (V' e t)) :
    Places U c' tp ti hb cap L T V' none := by
  refine ⟨hI, h.plen, h.ilen, h.blen, h.lt, h.inj, h.off, ?_, ?_, by simp⟩
  · intro x hx hx0
    obtain ⟨g1, r, b, g2, g3, g4, g5, g6, g7⟩ := h.on x hx hx0
    exact ⟨g1, r, b, g2, by rw [hr]; exact g3, g4, by rw [ha]; exact g5, g6, hv x hx hx0 r g2⟩
  · intro r i hri
    rw [hr] at hri
    exact h.rows r i hri

/-- `swap_remove_internal` of the left-over row. -/
theorem swapRemove {s : Store} {q : Loc}
    (h : Places U s.archs s.toPage s.toIndex s.hasArch cap L T V (some q)) :
    ∃ s', s.swapRemoveInternal q = .ok s' ∧
      Places U s'.archs s'.toPage s'.toIndex s'.hasArch cap L T V none ∧
      s'.ents = s.ents ∧ s'.tags = s.tags ∧ s'.orders = s.orders ∧
      s'.archs.archetypes = s.archs.archetypes ∧ s'.archs.layouts = s.archs.layouts ∧
      (∀ (F : Nat → Prop) (G : Layout → Nat → Prop),
        (∀ (i : Nat) l x, s.archs.pageToArch[q.page]? = some i → s.archs.layouts[i]? = some l → G l x → F x) →
        s.archs.Caps F G → s'.archs.Caps F G) ∧ s'.toPage = s.toPage ∧
      (∀ e ∈ L, ∀ r, Pos s.toPage s.toIndex e.id r → r.page ≠ q.page → Pos s'.toPage s'.toIndex e.id r) := by
  obtain ⟨c', info, last, h1, hI, hpg, hlr, hinfo, hrow, hval, harch, hA, hL, hC⟩ := h.inv.swapRemove_spec (h.ext q rfl)
  unfold Store.swapRemoveInternal
  simp only [h1, ok_bind]
  by_cases hql : q = last
  · subst hql
    rw [if_pos rfl] at hinfo
    subst hinfo
    refine ⟨_, rfl, ⟨hI, h.plen, h.ilen, h.blen, h.lt, h.inj, h.off, ?_, ?_, by simp⟩, rfl, rfl, rfl, hA, hL, hC, rfl,
      fun _ _ _ h _ => h⟩
    · intro x hx hx0
      obtain ⟨g1, r, b, g2, g3, g4, g5, g6, g7⟩ := h.on x hx hx0
      have hrq : r ≠ q := fun e => g4 (by rw [e])
      have hr' : c'.row r = some x.id := by rw [hrow, if_neg hrq, if_neg hrq]; exact g3
      refine ⟨g1, r, b, g2, hr', by simp, by rw [harch]; exact g5, g6, ?_⟩
      intro t ht
      rw [hval r t (by rw [hr']; simp), if_neg hrq]
      exact g7 t ht
    · intro r i hr
      simp only at hr
      rw [hrow] at hr
      split at hr
      · cases hr
      · rename_i hrq
        rcases h.rows r i hr with hn | hh
        · cases hn; exact absurd rfl hrq
        · exact Or.inr hh
  · rw [if_neg hql] at hinfo
    obtain ⟨j, hj⟩ := Option.ne_none_iff_exists'.1 hlr
    rw [hj] at hinfo
    subst hinfo
    have hlq : last ≠ q := fun e => hql e.symm
    obtain ⟨y, hyL, rfl, hy0, hyp⟩ : ∃ e ∈ L, e.id = j ∧ T e ≠ [] ∧ Pos s.toPage s.toIndex j last := by
      rcases h.rows last j hj with hn | hh
      · cases hn; exact absurd rfl hql
      · exact hh
    have hlt : y.id < s.toIndex.length := by rw [h.ilen]; exact h.lt y hyL
    dsimp only
    rw [Raw.write_of_lt _ hlt]
    have hti : ∀ i, (s.toIndex.set y.id (some q.index))[i]? = if i = y.id then some (some q.index) else s.toIndex[i]? :=
      Archs.getElem?_set_of (List.getElem?_eq_getElem hlt)
    have hposne : ∀ i r, i ≠ y.id →
        (Pos s.toPage (s.toIndex.set y.id (some q.index)) i r ↔ Pos s.toPage s.toIndex i r) := by
      intro i r hi
      constructor
      · rintro ⟨k1, k2⟩
        rw [hti, if_neg hi] at k2
        exact ⟨k1, k2⟩
      · rintro ⟨k1, k2⟩
        exact ⟨k1, by rw [hti, if_neg hi]; exact k2⟩
    have hposy : Pos s.toPage (s.toIndex.set y.id (some q.index)) y.id q :=
      ⟨by rw [← hpg]; exact hyp.page, by rw [hti, if_pos rfl]⟩
    have hrowq : c'.row q = some y.id := by rw [hrow, if_neg hql, if_pos rfl, hj]
    refine ⟨_, rfl, ⟨hI, h.plen, by simpa using h.ilen, h.blen, h.lt, h.inj, h.off, ?_, ?_, by simp⟩, rfl, rfl, rfl, hA, hL,
      hC, rfl, ?_⟩
    · intro x hx hx0
      obtain ⟨g1, r, b, g2, g3, g4, g5, g6, g7⟩ := h.on x hx hx0
      have hrq : r ≠ q := fun e => g4 (by rw [e])
      by_cases hxy : x = y
      · subst hxy
        have := g2.unique hyp
        subst this
        refine ⟨g1, q, b, hposy, hrowq, by simp, by rw [harch, ← hpg]; exact g5, g6, ?_⟩
        intro t ht
        rw [hval q t (by rw [hrowq]; simp), if_pos rfl]
        exact g7 t ht
      · have hid : x.id ≠ y.id := fun e => hxy (h.inj x hx y hyL e)
        have hrl : r ≠ last := by
          rintro rfl
          rw [hj] at g3
          exact hid (Option.some.inj g3).symm
        have hr' : c'.row r = some x.id := by rw [hrow, if_neg hrl, if_neg hrq]; exact g3
        refine ⟨g1, r, b, (hposne _ _ hid).2 g2, hr', by simp, by rw [harch]; exact g5, g6, ?_⟩
        intro t ht
        rw [hval r t (by rw [hr']; simp), if_neg hrq]
        exact g7 t ht
    · intro r i hr
      simp only at hr
      by_cases hrq : r = q
      · subst hrq
        rw [hrowq] at hr
        cases hr
        exact Or.inr ⟨y, hyL, rfl, hy0, hposy⟩
      · rw [hrow, if_neg hrq] at hr
        split at hr
        · cases hr
        · rename_i hrl
          rcases h.rows r i hr with hn | ⟨x, hxL, rfl, hx0, hxp⟩
          · cases hn; exact absurd rfl hrq
          · have hid : x.id ≠ y.id := by
              intro e
              have := h.inj x hxL y hyL e
              subst this
              exact hrl (hxp.unique hyp)
            exact Or.inr ⟨x, hxL, rfl, hx0, (hposne _ _ hid).2 hxp⟩
    · intro x hx r hxp hrp
      have hid : x.id ≠ y.id := by
        intro e
        have := h.inj x hx y hyL e
        subst this
        have := hxp.unique hyp
        subst this
        exact hrp hpg
      exact (hposne _ _ hid).2 hxp

end Places

/-! ### Component references -/

variable {U : Universe}

theorem getOffsets_missing {a : Archetype} {l : Layout} (hw : a.WF U) (hg : l.Good U a) (ts : List Nat)
    (h : ∃ t ∈ ts, t ∉ a.ids) : getOffsets a l ts = .ok none := by
  induction ts with
  | nil => obtain ⟨t, ht, _⟩ := h; cases ht
  | cons t ts ih =>
    unfold getOffsets
    by_cases ht : t ∈ a.ids
    · obtain ⟨k, hk⟩ := List.mem_iff_getElem?.1 ht
      rw [(Archetype.findComponentIndex_iff hw.incr).2 hk]
      have hlt : k < l.offsets.length := by rw [hg.len]; exact (List.getElem?_eq_some_iff.1 hk).1
      have : ∃ t ∈ ts, t ∉ a.ids := by
        obtain ⟨x, hx, hxn⟩ := h
        rcases List.mem_cons.1 hx with rfl | hx
        · exact absurd ht hxn
        · exact ⟨x, hx, hxn⟩
      simp only [idxUnchecked_of_some (List.getElem?_eq_getElem hlt), ok_bind, ih this, pure_ok]
    · rw [(Archetype.findComponentIndex_none_iff hw.incr).2 ht]

theorem getOffsets_present {a : Archetype} {l : Layout} (hw : a.WF U) (hg : l.Good U a) (ts : List Nat)
    (h : ∀ t ∈ ts, t ∈ a.ids) : ∃ offs, getOffsets a l ts = .ok (some offs) ∧ getOffsetsUnchecked a l ts = .ok offs ∧
      List.Forall₂ (fun t o => ∃ k : Nat, a.ids[k]? = some t ∧ l.offsets[k]? = some o) ts offs := by
  induction ts with
  | nil => exact ⟨[], rfl, rfl, .nil⟩
  | cons t ts ih =>
    obtain ⟨offs, h1, h2, h3⟩ := ih (fun x hx => h x (List.mem_cons_of_mem _ hx))
    obtain ⟨k, hk⟩ := List.mem_iff_getElem?.1 (h t (by simp))
    have hlt : k < l.offsets.length := by rw [hg.len]; exact (List.getElem?_eq_some_iff.1 hk).1
    have ho := List.getElem?_eq_getElem hlt
    refine ⟨l.offsets[k] :: offs, ?_, ?_, .cons ⟨k, hk, ho⟩ h3⟩
    · unfold getOffsets
      simp only [(Archetype.findComponentIndex_iff hw.incr).2 hk, idxUnchecked_of_some ho, ok_bind, h1, pure_ok]
    · unfold getOffsetsUnchecked
      simp only [(Archetype.findComponentIndex_iff hw.incr).2 hk, idxUnchecked_of_some ho, ok_bind, h2, pure_ok]

/-- Reading through references. -/
theorem readRefs_spec {c : Archs} {q : Loc} {ai : Nat} {a : Archetype} {l : Layout} {ps : List Nat} {pg : Page}
    (h : c.Inv U) (hat : c.At q.page ai a l ps pg) (hr : c.row q ≠ none) {ts offs : List Nat}
    (hf : List.Forall₂ (fun t o => ∃ k : Nat, a.ids[k]? = some t ∧ l.offsets[k]? = some o) ts offs) :
    ∃ vs, (getRefs U q.page q.index ts offs).mapM (readRef c.pages) = .ok vs ∧
      List.Forall₂ (fun t v => c.val U q t = some v) ts vs := by
  induction hf with
  | nil => exact ⟨[], rfl, .nil⟩
  | cons hto _ ih =>
    obtain ⟨k, hk, ho⟩ := hto
    obtain ⟨vs, h1, h2⟩ := ih
    obtain ⟨bs, g1, _, g3⟩ := h.read_slot hat (Archs.at_index_lt hat hr) hk ho
    refine ⟨bs :: vs, ?_, .cons g3 h2⟩
    unfold getRefs at h1 ⊢
    simp only [List.zip_cons_cons, List.map_cons, List.mapM_cons, readRef, idxUnchecked_of_some hat.hpg, ok_bind,
      Page.dataPtr, g1]
    simp only [Page.dataPtr] at h1
    rw [h1]; rfl

/-- Assigning through references. -/
theorem assign_spec {q : Loc} {ai : Nat} {a : Archetype} {l : Layout} {ps : List Nat} (vals : TupleVal) :
    ∀ {c : Archs} {pg : Page} {offs : List Nat}, c.Inv U → c.At q.page ai a l ps pg → c.row q ≠ none →
    (vals.map (·.1)).Nodup → (∀ p ∈ vals, p.2.length = U.size p.1) →
    List.Forall₂ (fun t o => ∃ k : Nat, a.ids[k]? = some t ∧ l.offsets[k]? = some o) (vals.map (·.1)) offs →
    ∃ pages', assignToRefs (getRefs U q.page q.index (vals.map (·.1)) offs) (vals.map (·.2)) c.pages = .ok pages' ∧
      ({ c with pages := pages' } : Archs).Inv U ∧
      (∀ x, ({ c with pages := pages' } : Archs).row x = c.row x) ∧
      (∀ x t, c.row x ≠ none → ({ c with pages := pages' } : Archs).val U x t =
        if x = q then (match TupleVal.find vals t with | some bs => some (bs.map some) | none => c.val U q t)
        else c.val U x t) ∧
      (∀ F G, c.Caps F G → ({ c with pages := pages' } : Archs).Caps F G) := by
  induction vals with
  | nil =>
    intro c pg offs h hat hr _ _ hf
    refine ⟨c.pages, ?_, h, fun _ => rfl, ?_, fun _ _ h => h⟩
    · simp [getRefs, assignToRefs]
    · intro x t _
      simp only [TupleVal.find, List.find?_nil, Option.map_none]
      split
      · rename_i hx; rw [hx]
      · rfl
  | cons p vals ih =>
    intro c pg offs h hat hr hn hl hf
    obtain ⟨t, bs⟩ := p
    simp only [List.map_cons] at hn hf ⊢
    cases hf with
    | cons hto hf =>
    rename_i o offs
    obtain ⟨k, hk, ho⟩ := hto
    rw [List.nodup_cons] at hn
    have hbs : (bs.map some).length = U.size t := by rw [List.length_map]; exact hl (t, bs) (by simp)
    have hi := Archs.at_index_lt hat hr
    have hw := h.write_slot hat hi hk ho hbs
    have hI := h.setData hat.hpg (Archs.patch pg.data (o + q.index * U.size t) (bs.map some))
    have hrow := Archs.row_setData (c := c) hat.hpg (Archs.patch pg.data (o + q.index * U.size t) (bs.map some))
    obtain ⟨pages', h1, h2, h3, h4, h5⟩ := ih hI (hat.setData _) (by rw [hrow]; exact hr) hn.2
      (fun p hp => hl p (List.mem_cons_of_mem _ hp)) hf
    refine ⟨pages', ?_, h2, fun x => by rw [← hrow x]; exact h3 x, ?_, fun F G hP => h5 F G (Archs.caps_setData hat.hpg _ hP)⟩
    · unfold getRefs at h1 ⊢
      simp only [List.zip_cons_cons, List.map_cons, assignToRefs, writeRef, idxUnchecked_of_some hat.hpg, ok_bind,
        Page.dataPtr, hw, pure_ok]
      exact h1
    · intro x t' hx
      have e1 := h4 x t' (by rw [hrow]; exact hx)
      have e2 : ∀ y, c.row y ≠ none → _ := fun y hy => h.val_patch (q := y) (t' := t') hat hi hk ho hbs hy
      refine e1.trans ?_
      have hfind : TupleVal.find ((t, bs) :: vals) t' = if t = t' then some bs else TupleVal.find vals t' := by
        unfold TupleVal.find
        by_cases htt : t = t'
        · simp [htt]
        · simp [htt]
      by_cases hxq : x = q
      · rw [if_pos hxq, if_pos hxq, hfind, e2 q hr]
        by_cases htt : t = t'
        · subst htt
          have : TupleVal.find vals t = none := by
            unfold TupleVal.find
            simp only [Option.map_eq_none_iff, List.find?_eq_none, decide_eq_true_eq]
            intro p hp he
            exact hn.1 (List.mem_map.2 ⟨p, hp, he⟩)
          simp [this]
        · rw [if_neg htt, if_neg (fun e => htt e.2.symm)]
      · rw [if_neg hxq, if_neg hxq, e2 x hx, if_neg (fun e => hxq e.1)]

end Ecs
