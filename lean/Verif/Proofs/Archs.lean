import Verif.Model.Archs
import Verif.Proofs.Layout

/-! Invariant of the archetypes container and pointwise effects of its operations. -/

namespace Ecs

/-- The bytes `[off, off + n)` of a page. -/
def Page.cells (pg : Page) (off n : Nat) : List Cell := (List.range n).map fun j => pg.data (off + j)

/-- The bytes of component `t` in row `i` of a page with archetype `a` and layout `l`. -/
def rowVal (U : Universe) (a : Archetype) (l : Layout) (pg : Page) (i : Nat) (t : TypeId) :
    Option (List Cell) :=
  (a.findComponentIndex t).bind fun k => (l.offsets[k]?).map fun o =>
    pg.cells (o + i * U.size t) (U.size t)

namespace Archs

/-- The id stored in a row. -/
def row (c : Archs) (q : Loc) : Option Nat := (c.pages[q.page]?).bind fun pg => pg.ids.items[q.index]?

/-- The archetype of a page. -/
def archAt (c : Archs) (p : Nat) : Option Archetype := (c.pageToArch[p]?).bind fun ai => c.archetypes[ai]?

/-- The bytes of component `t` in a row. -/
def val (U : Universe) (c : Archs) (q : Loc) (t : TypeId) : Option (List Cell) :=
  (c.pageToArch[q.page]?).bind fun ai => (c.archetypes[ai]?).bind fun a => (c.layouts[ai]?).bind fun l =>
    (c.pages[q.page]?).bind fun pg => rowVal U a l pg q.index t

structure Inv (U : Universe) (c : Archs) : Prop where
  llen : c.layouts.length = c.archetypes.length
  alen : c.archPages.length = c.archetypes.length
  tlen : c.pageToArch.length = c.pages.length
  wf : ∀ a ∈ c.archetypes, a.WF U
  good : ∀ (i : Nat) a l, c.archetypes[i]? = some a → c.layouts[i]? = some l →
    l.Good U a ∧ 1 ≤ l.entitiesCapacity
  distinct : ∀ (i j : Nat) a b, c.archetypes[i]? = some a → c.archetypes[j]? = some b → a.ids = b.ids → i = j
  psNodup : ∀ ps ∈ c.archPages, ps.Nodup
  owner : ∀ (i : Nat) ps p, c.archPages[i]? = some ps → p ∈ ps → c.pageToArch[p]? = some i
  freeNodup : c.freePages.Nodup
  freeDisj : ∀ p ∈ c.freePages, ∀ ps ∈ c.archPages, p ∉ ps
  freeLt : ∀ p ∈ c.freePages, p < c.pages.length
  covers : ∀ p < c.pages.length, p ∈ c.freePages ∨ ∃ (i : Nat) (ps : List Nat), c.archPages[i]? = some ps ∧ p ∈ ps
  freeEmpty : ∀ p ∈ c.freePages, ∀ pg, c.pages[p]? = some pg → pg.ids.items = []
  fits : ∀ (i : Nat) ps p pg l, c.archPages[i]? = some ps → p ∈ ps → c.pages[p]? = some pg →
    c.layouts[i]? = some l → pg.ids.items.length ≤ l.entitiesCapacity
  freeANodup : c.freeArchetypes.Nodup
  freeUnused : ∀ f ∈ c.freeArchetypes, c.archPages[f]? = some []
  freePos : ∀ f ∈ c.freeArchetypes, f ≠ 0

/-- Page `p` is in use by archetype number `ai`. -/
structure At (c : Archs) (p ai : Nat) (a : Archetype) (l : Layout) (ps : List Nat) (pg : Page) : Prop where
  hps : c.archPages[ai]? = some ps
  mem : p ∈ ps
  hto : c.pageToArch[p]? = some ai
  ha : c.archetypes[ai]? = some a
  hl : c.layouts[ai]? = some l
  hpg : c.pages[p]? = some pg

variable {U : Universe} {c : Archs}

theorem Inv.at_of_mem (h : c.Inv U) {i p : Nat} {ps : List Nat} (hi : c.archPages[i]? = some ps) (hp : p ∈ ps) :
    ∃ a l pg, c.At p i a l ps pg := by
  have h1 := h.owner i ps p hi hp
  have hlt : i < c.archetypes.length := by rw [← h.alen]; exact (List.getElem?_eq_some_iff.1 hi).1
  have hlt2 : i < c.layouts.length := by rw [h.llen]; exact hlt
  have hp' : p < c.pages.length := by rw [← h.tlen]; exact (List.getElem?_eq_some_iff.1 h1).1
  exact ⟨_, _, _, hi, hp, h1, List.getElem?_eq_getElem hlt, List.getElem?_eq_getElem hlt2,
    List.getElem?_eq_getElem hp'⟩

theorem Inv.at_of_row (h : c.Inv U) {q : Loc} {id : Nat} (hq : c.row q = some id) :
    ∃ ai a l ps pg, c.At q.page ai a l ps pg ∧ pg.ids.items[q.index]? = some id := by
  unfold row at hq
  cases hpg : c.pages[q.page]? with
  | none => rw [hpg] at hq; cases hq
  | some pg =>
    rw [hpg] at hq
    have hp : q.page < c.pages.length := (List.getElem?_eq_some_iff.1 hpg).1
    rcases h.covers _ hp with hf | ⟨i, ps, hi, hm⟩
    · have := h.freeEmpty _ hf pg hpg
      simp [this] at hq
    · obtain ⟨a, l, pg', hat⟩ := h.at_of_mem hi hm
      have : pg' = pg := by have := hat.hpg; rw [hpg] at this; exact (Option.some.inj this).symm
      subst this
      exact ⟨i, a, l, ps, pg', hat, hq⟩

theorem At.val {p ai : Nat} {a : Archetype} {l : Layout} {ps : List Nat} {pg : Page}
    (h : c.At p ai a l ps pg) (i t : Nat) : c.val U ⟨p, i⟩ t = rowVal U a l pg i t := by
  unfold Archs.val
  simp [h.hto, h.ha, h.hl, h.hpg]

theorem At.archAt {p ai : Nat} {a : Archetype} {l : Layout} {ps : List Nat} {pg : Page}
    (h : c.At p ai a l ps pg) : c.archAt p = some a := by
  unfold Archs.archAt
  simp [h.hto, h.ha]

theorem At.row {p ai : Nat} {a : Archetype} {l : Layout} {ps : List Nat} {pg : Page}
    (h : c.At p ai a l ps pg) (i : Nat) : c.row ⟨p, i⟩ = pg.ids.items[i]? := by
  unfold Archs.row
  simp [h.hpg]

theorem Inv.at_wf (h : c.Inv U) {p ai : Nat} {a : Archetype} {l : Layout} {ps : List Nat} {pg : Page}
    (hat : c.At p ai a l ps pg) : a.WF U ∧ l.Good U a ∧ 1 ≤ l.entitiesCapacity ∧
      pg.ids.items.length ≤ l.entitiesCapacity :=
  ⟨h.wf a (List.mem_of_getElem? hat.ha), (h.good _ _ _ hat.ha hat.hl).1, (h.good _ _ _ hat.ha hat.hl).2,
    h.fits _ _ _ _ _ hat.hps hat.mem hat.hpg hat.hl⟩

/-- The offset of a component column. -/
theorem offset_of_mem {a : Archetype} {l : Layout} (hw : a.WF U) (hg : l.Good U a) {t : Nat} (ht : t ∈ a.ids) :
    ∃ k o, a.findComponentIndex t = some k ∧ a.ids[k]? = some t ∧ l.offsets[k]? = some o := by
  obtain ⟨k, hk, hkt⟩ := List.getElem_of_mem ht
  have hk' : a.ids[k]? = some t := by rw [List.getElem?_eq_getElem hk, hkt]
  have hl : k < l.offsets.length := by rw [hg.len]; exact hk
  exact ⟨k, _, (Archetype.findComponentIndex_iff hw.incr).2 hk', hk', List.getElem?_eq_getElem hl⟩

theorem rowVal_of {a : Archetype} {l : Layout} {pg : Page} {i t k o : Nat} (hk : a.findComponentIndex t = some k)
    (ho : l.offsets[k]? = some o) : rowVal U a l pg i t = some (pg.cells (o + i * U.size t) (U.size t)) := by
  unfold rowVal; simp [hk, ho]

theorem rowVal_none {a : Archetype} {l : Layout} {pg : Page} {i t : Nat} (hw : a.WF U) (ht : t ∉ a.ids) :
    rowVal U a l pg i t = none := by
  unfold rowVal; rw [(Archetype.findComponentIndex_none_iff hw.incr).2 ht]; rfl

theorem rowVal_isSome {a : Archetype} {l : Layout} {pg : Page} {i t : Nat} (hw : a.WF U) (hg : l.Good U a) :
    (rowVal U a l pg i t).isSome = true ↔ t ∈ a.ids := by
  by_cases ht : t ∈ a.ids
  · obtain ⟨k, o, h1, _, h3⟩ := offset_of_mem hw hg ht
    rw [rowVal_of h1 h3]; simp [ht]
  · rw [rowVal_none hw ht]; simp [ht]

theorem mul_row {row cap z : Nat} (h : row < cap) : row * z + z ≤ z * cap := by
  have := Nat.mul_le_mul_left z h
  rw [Nat.mul_succ, Nat.mul_comm z row] at this
  exact this

/-- Slots lie inside the page. -/
theorem slot_inPage {a : Archetype} {l : Layout} (hg : l.Good U a) {k t o i : Nat} (hk : a.ids[k]? = some t)
    (ho : l.offsets[k]? = some o) (hi : i < l.entitiesCapacity) : o + i * U.size t + U.size t ≤ PAGE_SIZE := by
  have h1 := hg.inPage hk ho
  have h2 := mul_row (z := U.size t) hi
  omega

/-- Different slots are disjoint. -/
theorem slot_disj {a : Archetype} {l : Layout} (hw : a.WF U) (hg : l.Good U a) {k t o i k' t' o' i' : Nat}
    (hk : a.ids[k]? = some t) (ho : l.offsets[k]? = some o) (hi : i < l.entitiesCapacity)
    (hk' : a.ids[k']? = some t') (ho' : l.offsets[k']? = some o') (hi' : i' < l.entitiesCapacity)
    (hne : ¬ (i = i' ∧ t = t')) :
    o + i * U.size t + U.size t ≤ o' + i' * U.size t' ∨ o' + i' * U.size t' + U.size t' ≤ o + i * U.size t := by
  have h2 := mul_row (z := U.size t) hi
  have h2' := mul_row (z := U.size t') hi'
  rcases Nat.lt_trichotomy k k' with hij | rfl | hij
  · have h1 := hg.before hij hk ho ho'
    left; omega
  · rw [hk] at hk'; cases hk'
    rw [ho] at ho'; cases ho'
    have hrr : i ≠ i' := fun h => hne ⟨h, rfl⟩
    rcases Nat.lt_or_gt_of_ne hrr with h | h
    · have := Nat.mul_le_mul_right (U.size t) h
      rw [Nat.succ_mul] at this
      left; omega
    · have := Nat.mul_le_mul_right (U.size t) h
      rw [Nat.succ_mul] at this
      right; omega
  · have h1 := hg.before hij hk' ho' ho
    right; omega

/-! ### Byte-level reads and writes -/

theorem readBytes_of {d : Bytes} {a n : Nat} (h : a + n ≤ PAGE_SIZE) :
    readBytes d a n = .ok ((List.range n).map fun j => d (a + j)) := by
  unfold readBytes; rw [if_pos h]

/-- The buffer `d` after writing `bs` at `a`. -/
def patch (d : Bytes) (a : Nat) (bs : List Cell) : Bytes :=
  fun x => if a ≤ x ∧ x < a + bs.length then bs.getD (x - a) none else d x

theorem writeBytes_of {d : Bytes} {a : Nat} {bs : List Cell} (h : a + bs.length ≤ PAGE_SIZE) :
    writeBytes d a bs = .ok (patch d a bs) := by
  unfold writeBytes; rw [if_pos h]; rfl

theorem patch_same (d : Bytes) (a : Nat) (bs : List Cell) :
    ((List.range bs.length).map fun j => patch d a bs (a + j)) = bs := by
  apply List.ext_getElem
  · simp
  · intro i h1 h2
    simp only [List.getElem_map, List.getElem_range]
    unfold patch
    rw [if_pos ⟨by omega, by omega⟩]
    rw [Nat.add_sub_cancel_left]
    simp [List.getD, h2]

theorem patch_disj (d : Bytes) (a : Nat) (bs : List Cell) {b n : Nat} (h : b + n ≤ a ∨ a + bs.length ≤ b) :
    ((List.range n).map fun j => patch d a bs (b + j)) = (List.range n).map fun j => d (b + j) := by
  apply List.map_congr_left
  intro j hj
  have : j < n := List.mem_range.1 hj
  unfold patch
  rw [if_neg (by omega)]

/-! ### Replacing the data of one page -/

theorem getElem?_set_of {α : Type} {l : List α} {p : Nat} {x y : α} (h : l[p]? = some x) (j : Nat) :
    (l.set p y)[j]? = if j = p then some y else l[j]? := by
  have hp := (List.getElem?_eq_some_iff.1 h).1
  rw [List.getElem?_set]
  by_cases hj : p = j
  · subst hj; simp [hp]
  · rw [if_neg hj, if_neg (fun e => hj e.symm)]

/-- Replace the data of page `p`. -/
def setData (c : Archs) (p : Nat) (pg : Page) (d : Bytes) : Archs :=
  { c with pages := c.pages.set p { pg with data := d } }

theorem Inv.setData (h : c.Inv U) {p : Nat} {pg : Page} (hp : c.pages[p]? = some pg) (d : Bytes) :
    (c.setData p pg d).Inv U where
  llen := h.llen
  alen := h.alen
  tlen := by simp [Archs.setData, h.tlen]
  wf := h.wf
  good := h.good
  distinct := h.distinct
  psNodup := h.psNodup
  owner := h.owner
  freeNodup := h.freeNodup
  freeDisj := h.freeDisj
  freeLt := by simp only [Archs.setData, List.length_set]; exact h.freeLt
  covers := by simp only [Archs.setData, List.length_set]; exact h.covers
  freeEmpty := by
    intro x hx pg' hpg'
    simp only [Archs.setData] at hx hpg'
    rw [getElem?_set_of hp] at hpg'
    split at hpg'
    · cases hpg'; subst_vars; exact h.freeEmpty _ hx pg hp
    · exact h.freeEmpty _ hx pg' hpg'
  fits := by
    intro i ps x pg' l hi hx hpg' hl
    simp only [Archs.setData] at hi hpg' hl
    rw [getElem?_set_of hp] at hpg'
    split at hpg'
    · cases hpg'; subst_vars; exact h.fits i ps _ pg l hi hx hp hl
    · exact h.fits _ _ _ _ _ hi hx hpg' hl
  freeANodup := h.freeANodup
  freeUnused := h.freeUnused
  freePos := h.freePos

theorem row_setData {p : Nat} {pg : Page} (hp : c.pages[p]? = some pg) (d : Bytes) (q : Loc) :
    (c.setData p pg d).row q = c.row q := by
  unfold row Archs.setData
  simp only
  rw [getElem?_set_of hp]
  split
  · rename_i h; rw [h, hp]; rfl
  · rfl

/-- The vectors of free pages have a capacity in `F`, those of pages in use are related by `G` to their
layout. -/
def Caps (F : Nat → Prop) (G : Layout → Nat → Prop) (c : Archs) : Prop :=
  (∀ p ∈ c.freePages, ∀ pg, c.pages[p]? = some pg → F pg.ids.cap) ∧
  ∀ (i : Nat) (l : Layout) (ps : List Nat) (p : Nat) (pg : Page), c.layouts[i]? = some l → c.archPages[i]? = some ps →
    p ∈ ps → c.pages[p]? = some pg → G l pg.ids.cap

theorem Caps.mapPages {F : Nat → Prop} {G : Layout → Nat → Prop} (h : c.Caps F G) {pages' : List Page}
    (hp : ∀ (p : Nat) (pg' : Page), pages'[p]? = some pg' → ∃ pg, c.pages[p]? = some pg ∧ pg.ids.cap = pg'.ids.cap) :
    ({ c with pages := pages' } : Archs).Caps F G := by
  refine ⟨fun p hf pg' hpg' => ?_, fun i l ps p pg' hl hps hm hpg' => ?_⟩
  · obtain ⟨pg, h1, h2⟩ := hp p pg' hpg'
    rw [← h2]
    exact h.1 p hf pg h1
  · obtain ⟨pg, h1, h2⟩ := hp p pg' hpg'
    rw [← h2]
    exact h.2 i l ps p pg hl hps hm h1

theorem caps_setData {p : Nat} {pg : Page} (hp : c.pages[p]? = some pg) (d : Bytes) {F : Nat → Prop} {G : Layout → Nat → Prop}
    (h : c.Caps F G) : (c.setData p pg d).Caps F G := by
  refine h.mapPages (fun x pg' hpg' => ?_)
  rw [getElem?_set_of hp] at hpg'
  split at hpg'
  · rename_i hx
    cases hpg'
    exact ⟨pg, by rw [hx]; exact hp, rfl⟩
  · exact ⟨pg', hpg', rfl⟩

theorem archAt_setData {p : Nat} {pg : Page} (d : Bytes) (x : Nat) :
    (c.setData p pg d).archAt x = c.archAt x := rfl

theorem At.setData {p ai : Nat} {a : Archetype} {l : Layout} {ps : List Nat} {pg : Page}
    (h : c.At p ai a l ps pg) (d : Bytes) : (c.setData p pg d).At p ai a l ps { pg with data := d } :=
  ⟨h.hps, h.mem, h.hto, h.ha, h.hl, by simp only [Archs.setData]; rw [getElem?_set_of h.hpg]; simp⟩

/-- A page in use elsewhere is not touched. -/
theorem At.setData_ne {p ai p' ai' : Nat} {a a' : Archetype} {l l' : Layout} {ps ps' : List Nat} {pg pg' : Page}
    (h : c.At p ai a l ps pg) (h' : c.At p' ai' a' l' ps' pg') (hne : p' ≠ p) (d : Bytes) :
    (c.setData p pg d).At p' ai' a' l' ps' pg' :=
  ⟨h'.hps, h'.mem, h'.hto, h'.ha, h'.hl, by
    simp only [Archs.setData]; rw [getElem?_set_of h.hpg, if_neg hne]; exact h'.hpg⟩

theorem At.unique {p ai ai' : Nat} {a a' : Archetype} {l l' : Layout} {ps ps' : List Nat} {pg pg' : Page}
    (h : c.At p ai a l ps pg) (h' : c.At p ai' a' l' ps' pg') :
    ai = ai' ∧ a = a' ∧ l = l' ∧ ps = ps' ∧ pg = pg' := by
  have e1 : ai = ai' := Option.some.inj (h.hto.symm.trans h'.hto)
  subst e1
  exact ⟨rfl, Option.some.inj (h.ha.symm.trans h'.ha), Option.some.inj (h.hl.symm.trans h'.hl),
    Option.some.inj (h.hps.symm.trans h'.hps), Option.some.inj (h.hpg.symm.trans h'.hpg)⟩

theorem val_setData_ne {p : Nat} {pg : Page} (hp : c.pages[p]? = some pg) (d : Bytes) {q : Loc}
    (hq : q.page ≠ p) (t : Nat) : (c.setData p pg d).val U q t = c.val U q t := by
  unfold Archs.val Archs.setData
  simp only
  rw [getElem?_set_of hp, if_neg hq]

/-- Writing one slot changes that slot only. -/
theorem Inv.val_patch (h : c.Inv U) {p ai : Nat} {a : Archetype} {l : Layout} {ps : List Nat} {pg : Page}
    (hat : c.At p ai a l ps pg) {i k t o : Nat} (hi : i < pg.ids.items.length) (hk : a.ids[k]? = some t)
    (ho : l.offsets[k]? = some o) {bs : List Cell} (hbs : bs.length = U.size t) {q : Loc} {t' : Nat}
    (hq : c.row q ≠ none) :
    (c.setData p pg (patch pg.data (o + i * U.size t) bs)).val U q t' =
      if q = ⟨p, i⟩ ∧ t' = t then some bs else c.val U q t' := by
  obtain ⟨hw, hg, _, hcap⟩ := h.at_wf hat
  by_cases hqp : q.page = p
  · obtain ⟨qp, qi⟩ := q
    simp only at hqp
    subst hqp
    have hqi : qi < pg.ids.items.length := by
      rw [hat.row] at hq
      by_contra hc
      exact hq (List.getElem?_eq_none (by omega))
    rw [(hat.setData _).val, hat.val]
    by_cases ht' : t' ∈ a.ids
    · obtain ⟨k', o', h1, h2, h3⟩ := offset_of_mem hw hg ht'
      rw [rowVal_of h1 h3, rowVal_of h1 h3]
      by_cases hsame : qi = i ∧ t' = t
      · obtain ⟨rfl, rfl⟩ := hsame
        have hkk : k' = k := hw.incr.getElem?_inj h2 hk
        subst hkk
        rw [ho] at h3; cases h3
        rw [if_pos ⟨rfl, rfl⟩]
        unfold Page.cells
        simp only
        rw [← hbs, patch_same]
      · rw [if_neg (by rintro ⟨h4, h5⟩; cases h4; exact hsame ⟨rfl, h5⟩)]
        unfold Page.cells
        simp only
        rw [patch_disj]
        rw [hbs]
        rcases slot_disj hw hg h2 h3 (Nat.lt_of_lt_of_le hqi hcap) hk ho (Nat.lt_of_lt_of_le hi hcap) hsame with h | h
        · exact Or.inl h
        · exact Or.inr h
    · rw [rowVal_none hw ht', rowVal_none hw ht']
      have : t' ≠ t := fun e => ht' (e ▸ List.mem_of_getElem? hk)
      rw [if_neg (fun h => this h.2)]
  · rw [val_setData_ne hat.hpg _ hqp, if_neg]
    rintro ⟨rfl, _⟩
    exact hqp rfl

/-- Reading a slot. -/
theorem Inv.read_slot (h : c.Inv U) {p ai : Nat} {a : Archetype} {l : Layout} {ps : List Nat} {pg : Page}
    (hat : c.At p ai a l ps pg) {i k t o : Nat} (hi : i < pg.ids.items.length) (hk : a.ids[k]? = some t)
    (ho : l.offsets[k]? = some o) :
    ∃ bs, readBytes pg.data (o + i * U.size t) (U.size t) = .ok bs ∧ bs.length = U.size t ∧
      c.val U ⟨p, i⟩ t = some bs := by
  obtain ⟨hw, hg, _, hcap⟩ := h.at_wf hat
  refine ⟨_, readBytes_of (slot_inPage hg hk ho (Nat.lt_of_lt_of_le hi hcap)), by simp, ?_⟩
  rw [hat.val, rowVal_of ((Archetype.findComponentIndex_iff hw.incr).2 hk) ho]
  rfl

theorem Inv.write_slot (h : c.Inv U) {p ai : Nat} {a : Archetype} {l : Layout} {ps : List Nat} {pg : Page}
    (hat : c.At p ai a l ps pg) {i k t o : Nat} (hi : i < pg.ids.items.length) (hk : a.ids[k]? = some t)
    (ho : l.offsets[k]? = some o) {bs : List Cell} (hbs : bs.length = U.size t) :
    writeBytes pg.data (o + i * U.size t) bs = .ok (patch pg.data (o + i * U.size t) bs) := by
  obtain ⟨hw, hg, _, hcap⟩ := h.at_wf hat
  exact writeBytes_of (by rw [hbs]; exact slot_inPage hg hk ho (Nat.lt_of_lt_of_le hi hcap))

theorem at_index_lt {p ai : Nat} {a : Archetype} {l : Layout} {ps : List Nat} {pg : Page}
    (hat : c.At p ai a l ps pg) {i : Nat} (hr : c.row ⟨p, i⟩ ≠ none) : i < pg.ids.items.length := by
  rw [hat.row] at hr
  by_contra hc
  exact hr (List.getElem?_eq_none (by omega))

theorem sizes_get {a : Archetype} (hw : a.WF U) {k t : Nat} (hk : a.ids[k]? = some t) :
    a.sizes[k]? = some (U.size t) := by
  rw [hw.sizes]; simp [hk]

/-- What copying one component from row `q` to row `r` does. -/
theorem Inv.copyBetween_spec (h : c.Inv U) {q r : Loc} {ai ai' : Nat} {a a' : Archetype} {l l' : Layout}
    {ps ps' : List Nat} {pg pg' : Page}
    (hq : c.At q.page ai a l ps pg) (hr : c.At r.page ai' a' l' ps' pg')
    (hqr : c.row q ≠ none) (hrr : c.row r ≠ none) (hne : q ≠ r)
    {k k' t o o' : Nat} (hk : a.ids[k]? = some t) (ho : l.offsets[k]? = some o)
    (hk' : a'.ids[k']? = some t) (ho' : l'.offsets[k']? = some o') :
    ∃ d, copyBetween c.pages q.page (Page.dataPtr q.index o (U.size t)) r.page
        (Page.dataPtr r.index o' (U.size t)) (U.size t) = .ok (c.setData r.page pg' d).pages ∧
      (∀ x t', c.row x ≠ none →
        (c.setData r.page pg' d).val U x t' = if x = r ∧ t' = t then c.val U q t else c.val U x t') := by
  obtain ⟨qp, qi⟩ := q
  obtain ⟨rp, ri⟩ := r
  have hqi := at_index_lt hq hqr
  have hri := at_index_lt hr hrr
  obtain ⟨hw, hg, _, hcap⟩ := h.at_wf hq
  obtain ⟨bs, h1, h2, h3⟩ := h.read_slot hq hqi hk ho
  refine ⟨patch pg'.data (o' + ri * U.size t) bs, ?_, ?_⟩
  · unfold copyBetween Page.dataPtr
    simp only [idx_of_some hq.hpg, ok_bind, h1]
    have hov : (decide (qp = rp) && overlaps (o + qi * U.size t) (o' + ri * U.size t) (U.size t)) = false := by
      by_cases hp : qp = rp
      · subst hp
        obtain ⟨rfl, rfl, rfl, rfl, rfl⟩ := hq.unique hr
        have hkk : k = k' := hw.incr.getElem?_inj hk hk'
        subst hkk
        rw [ho] at ho'; cases ho'
        have hii : ¬ (qi = ri ∧ t = t) := fun hh => hne (by rw [hh.1])
        have := slot_disj hw hg hk ho (Nat.lt_of_lt_of_le hqi hcap) hk ho (Nat.lt_of_lt_of_le hri hcap) hii
        simp only [overlaps, decide_true, Bool.true_and, decide_eq_false_iff_not]
        omega
      · simp [hp]
    rw [hov]
    simp only [Bool.false_eq_true, if_false, pure_ok, ok_bind, idx_of_some hr.hpg,
      h.write_slot hr hri hk' ho' h2]
    rfl
  · intro x t' hx
    rw [h.val_patch hr hri hk' ho' h2 hx, h3]

open Classical in
/-- Copying several components from row `q` to row `r`. -/
theorem copyLoop_spec {q r : Loc} {ai ai' : Nat} {a a' : Archetype} {l l' : Layout} {ps ps' : List Nat}
    (pairs : List (Nat × Nat)) :
    ∀ {c : Archs} {pg pg' : Page}, c.Inv U → c.At q.page ai a l ps pg → c.At r.page ai' a' l' ps' pg' →
    c.row q ≠ none → c.row r ≠ none → q ≠ r →
    (∀ i j, (i, j) ∈ pairs → ∃ t, a.ids[i]? = some t ∧ a'.ids[j]? = some t) →
    ∃ pages', copyLoop q r a a' l l' pairs c.pages = .ok pages' ∧
      ({ c with pages := pages' } : Archs).Inv U ∧
      (∀ x, ({ c with pages := pages' } : Archs).row x = c.row x) ∧
      (∀ x t', c.row x ≠ none → ({ c with pages := pages' } : Archs).val U x t' =
        if x = r ∧ (∃ i j, (i, j) ∈ pairs ∧ a.ids[i]? = some t') then c.val U q t' else c.val U x t') ∧
      (∀ F G, c.Caps F G → ({ c with pages := pages' } : Archs).Caps F G) := by
  induction pairs with
  | nil =>
    intro c pg pg' h hq hr hqr hrr hne _
    exact ⟨c.pages, rfl, h, fun _ => rfl, fun x t' _ => by simp, fun _ _ hP => hP⟩
  | cons pr rest ih =>
    intro c pg pg' h hq hr hqr hrr hne hp
    obtain ⟨si, di⟩ := pr
    obtain ⟨t, hk, hk'⟩ := hp si di (by simp)
    obtain ⟨hw, hg, _, _⟩ := h.at_wf hq
    obtain ⟨hw', hg', _, _⟩ := h.at_wf hr
    have hsl : si < l.offsets.length := by rw [hg.len]; exact (List.getElem?_eq_some_iff.1 hk).1
    have hdl : di < l'.offsets.length := by rw [hg'.len]; exact (List.getElem?_eq_some_iff.1 hk').1
    have ho := List.getElem?_eq_getElem hsl
    have ho' := List.getElem?_eq_getElem hdl
    obtain ⟨d, hc1, hc2⟩ := h.copyBetween_spec hq hr hqr hrr hne hk ho hk' ho'
    have hI := h.setData hr.hpg d
    have hrows := row_setData (c := c) hr.hpg d
    have hr' := hr.setData d
    have hq' : ∃ pg1, (c.setData r.page pg' d).At q.page ai a l ps pg1 := by
      by_cases hpp : q.page = r.page
      · rw [← hpp] at hr
        obtain ⟨rfl, rfl, rfl, rfl, rfl⟩ := hq.unique hr
        rw [← hpp]
        exact ⟨_, hq.setData d⟩
      · exact ⟨_, hr.setData_ne hq hpp d⟩
    obtain ⟨pg1, hq'⟩ := hq'
    obtain ⟨pages', h1, h2, h3, h4, h5⟩ := ih hI hq' hr' (by rw [hrows]; exact hqr) (by rw [hrows]; exact hrr) hne
      (fun i j hij => hp i j (List.mem_cons_of_mem _ hij))
    refine ⟨pages', ?_, h2, fun x => by rw [← hrows x]; exact h3 x, ?_, fun F G hP => h5 F G (caps_setData hr.hpg d hP)⟩
    · unfold copyLoop
      simp only [idxUnchecked_of_some ho, idxUnchecked_of_some ho', idxUnchecked_of_some (sizes_get hw hk),
        idxUnchecked_of_some (sizes_get hw' hk'), ok_bind, hc1, h1]
    · intro x t' hx
      have h4' := h4 x t' (by rw [hrows]; exact hx)
      have e0 : ({ c.setData r.page pg' d with pages := pages' } : Archs) = { c with pages := pages' } := rfl
      rw [e0] at h4'
      have hq2 := hc2 q t' hqr
      rw [if_neg (fun hh => hne hh.1)] at hq2
      rw [h4', hq2, hc2 x t' hx]
      have hiff : t' ≠ t → ((∃ i j, (i, j) ∈ (si, di) :: rest ∧ a.ids[i]? = some t') ↔
          (∃ i j, (i, j) ∈ rest ∧ a.ids[i]? = some t')) := by
        intro ht
        constructor
        · rintro ⟨i, j, hm, hh⟩
          rcases List.mem_cons.1 hm with hm | hm
          · cases hm
            rw [hk] at hh
            exact absurd (Option.some.inj hh).symm ht
          · exact ⟨i, j, hm, hh⟩
        · rintro ⟨i, j, hm, hh⟩
          exact ⟨i, j, List.mem_cons_of_mem _ hm, hh⟩
      by_cases hxr : x = r
      · by_cases ht : t' = t
        · subst ht
          rw [if_pos (c := x = r ∧ t' = t') ⟨hxr, rfl⟩, ite_self,
            if_pos ⟨hxr, si, di, by simp, hk⟩]
        · rw [if_neg (c := x = r ∧ t' = t) (fun hh => ht hh.2)]
          by_cases hex : ∃ i j, (i, j) ∈ rest ∧ a.ids[i]? = some t'
          · rw [if_pos ⟨hxr, hex⟩, if_pos ⟨hxr, (hiff ht).2 hex⟩]
          · rw [if_neg (fun h => hex h.2), if_neg (fun h => hex ((hiff ht).1 h.2))]
      · rw [if_neg (fun h => hxr h.1), if_neg (fun h => hxr h.1), if_neg (fun h => hxr h.1)]

end Archs
end Ecs
