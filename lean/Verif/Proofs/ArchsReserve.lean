import Verif.Proofs.Archs
import Verif.Spec.Fits

/-! Effects of `reserve_archetype` and `reserve_page`. -/

namespace Ecs

theorem Archetype.isSameAs_iff {a b : Archetype} : a.isSameAs b = true ↔ a.ids = b.ids := by
  unfold Archetype.isSameAs Archetype.componentCount
  by_cases h : a.ids = b.ids
  · simp [h]
  · simp only [bne_iff_ne, ne_eq, ite_not, beq_iff_eq]
    split <;> simp [h]

namespace Archs

variable {U : Universe} {c : Archs}

theorem findSame_some {a : Archetype} (l : List Archetype) : ∀ {i k : Nat}, findSame a i l = some k →
    i ≤ k ∧ ∃ b, l[k - i]? = some b ∧ b.ids = a.ids := by
  induction l with
  | nil => intro i k h; cases h
  | cons b l ih =>
    intro i k h
    unfold findSame at h
    split at h
    · rename_i hs
      cases h
      exact ⟨Nat.le_refl _, b, by simp, Archetype.isSameAs_iff.1 hs⟩
    · obtain ⟨h1, b', h2, h3⟩ := ih h
      refine ⟨by omega, b', ?_, h3⟩
      have : k - i = (k - (i + 1)) + 1 := by omega
      rw [this, List.getElem?_cons_succ, h2]

theorem findSame_none {a : Archetype} (l : List Archetype) : ∀ {i : Nat}, findSame a i l = none →
    ∀ b ∈ l, b.ids ≠ a.ids := by
  induction l with
  | nil => intro i _ b hb; cases hb
  | cons x l ih =>
    intro i h b hb
    unfold findSame at h
    split at h
    · cases h
    · rename_i hs
      rcases List.mem_cons.1 hb with rfl | hb
      · exact fun e => hs (Archetype.isSameAs_iff.2 e)
      · exact ih h b hb

/-- `c'` has the same pages as `c`, used by the same archetypes. -/
structure SameUse (c c' : Archs) : Prop where
  pages : c'.pages = c.pages
  at_iff : ∀ p ai a l ps pg, c'.At p ai a l ps pg ↔ c.At p ai a l ps pg

theorem SameUse.refl (c : Archs) : SameUse c c := ⟨rfl, fun _ _ _ _ _ _ => Iff.rfl⟩

theorem SameUse.row {c' : Archs} (h : SameUse c c') (q : Loc) : c'.row q = c.row q := by
  unfold Archs.row; rw [h.pages]

theorem SameUse.val {c' : Archs} (h : SameUse c c') (hI : c.Inv U) {q : Loc} (hq : c.row q ≠ none) (t : Nat) :
    c'.val U q t = c.val U q t := by
  obtain ⟨id, hid⟩ := Option.ne_none_iff_exists'.1 hq
  obtain ⟨ai, a, l, ps, pg, hat, _⟩ := hI.at_of_row hid
  obtain ⟨qp, qi⟩ := q
  rw [hat.val, ((h.at_iff _ _ _ _ _ _).2 hat).val]

theorem SameUse.archAt {c' : Archs} (h : SameUse c c') (hI : c.Inv U) {q : Loc} (hq : c.row q ≠ none) :
    c'.archAt q.page = c.archAt q.page := by
  obtain ⟨id, hid⟩ := Option.ne_none_iff_exists'.1 hq
  obtain ⟨ai, a, l, ps, pg, hat, _⟩ := hI.at_of_row hid
  rw [hat.archAt, ((h.at_iff _ _ _ _ _ _).2 hat).archAt]

theorem mem_of_findFreePage {pages : List Page} {cand : List Nat} {p : Nat}
    (h : findFreePage pages cand = .ok (some p)) : p ∈ cand ∧ ∃ pg, pages[p]? = some pg ∧ pg.hasFreeSpace = true := by
  induction cand with
  | nil => cases h
  | cons x rest ih =>
    unfold findFreePage at h
    obtain ⟨pg, h1, h2⟩ := bind_eq_ok.1 h
    split at h2
    · rename_i hf
      cases h2
      exact ⟨by simp, pg, idx_ok.1 h1, hf⟩
    · obtain ⟨h3, h4⟩ := ih h2
      exact ⟨List.mem_cons_of_mem _ h3, h4⟩

theorem SameUse.roomy {c' : Archs} {a : Archetype} (h : SameUse c c') (hI : c'.Inv U) (hr : c.Roomy a) : c'.Roomy a := by
  intro ai l ps p pg ha hl hps hf hpg
  obtain ⟨hm, _⟩ := mem_of_findFreePage hf
  obtain ⟨a', l', pg', hat⟩ := hI.at_of_mem hps (List.mem_reverse.1 hm)
  have e1 := hat.ha; rw [ha] at e1; cases e1
  have e2 := hat.hl; rw [hl] at e2; cases e2
  have e3 := hat.hpg; rw [hpg] at e3; cases e3
  have hat' := (h.at_iff _ _ _ _ _ _).1 hat
  rw [h.pages] at hf
  exact hr ai l ps p pg hat'.ha hat'.hl hat'.hps hf hat'.hpg

theorem findable_of_incr {a : Archetype} (h : Incr c.freeArchetypes) : c.Findable a :=
  fun _ _ hm => (binarySearch_of_mem h.le hm).imp fun _ h => h.1

theorem idxSet_of_lt {α : Type} {v : List α} {i : Nat} (x : α) (h : i < v.length) :
    idxSet v i x = .ok (v.set i x) := by unfold idxSet; rw [if_pos h]

theorem not_mem_dropLast_of_nodup {l : List Nat} {x : Nat} (hn : l.Nodup) (hx : l.getLast? = some x) :
    x ∉ l.dropLast := by
  obtain ⟨ys, rfl⟩ := List.getLast?_eq_some_iff.1 hx
  simp only [List.dropLast_concat]
  intro hm
  exact (List.disjoint_of_nodup_append hn) hm (by simp)

theorem _root_.List.mem_of_mem_dropLast' {α : Type} {l : List α} {x : α} (h : x ∈ l.dropLast) : x ∈ l :=
  (List.dropLast_sublist l).subset h

/-- `reserve_archetype` when the search of the free list works. -/
theorem reserveArchetype_spec {dbg : Bool} {a : Archetype} {l : Layout} (h : c.Inv U)
    (hs : c.Findable a) (ha : a.WF U) (hl : Layout.new dbg a = .ok l) (hcap : 1 ≤ l.entitiesCapacity) :
    ∃ c' ai, c.reserveArchetype dbg a = .ok (c', ai) ∧ c'.Inv U ∧ c'.archetypes[ai]? = some a ∧
      ai ∉ c'.freeArchetypes ∧ SameUse c c' ∧ c'.freePages = c.freePages := by
  unfold reserveArchetype
  cases hf : findSame a 0 c.archetypes with
  | some i =>
    obtain ⟨_, b, hb, hids⟩ := findSame_some _ hf
    rw [Nat.sub_zero] at hb
    have hba : b = a := (h.wf b (List.mem_of_getElem? hb)).ext ha hids
    subst hba
    dsimp only
    cases hbs : binarySearch c.freeArchetypes i with
    | found k =>
      have hk := binarySearch_found hbs
      obtain ⟨hkl, hke⟩ := List.getElem?_eq_some_iff.1 hk
      have her : c.freeArchetypes.eraseIdx k = c.freeArchetypes.erase i := by
        rw [← h.freeANodup.erase_getElem k hkl, hke]
      refine ⟨_, _, rfl, ?_, hb, ?_, ⟨rfl, fun _ _ _ _ _ _ => ⟨fun x => ⟨x.hps, x.mem, x.hto, x.ha, x.hl, x.hpg⟩,
        fun x => ⟨x.hps, x.mem, x.hto, x.ha, x.hl, x.hpg⟩⟩⟩, rfl⟩
      · exact { h with
          freeANodup := by simp only [her]; exact h.freeANodup.erase _
          freeUnused := fun f hm => h.freeUnused f (by simp only [her] at hm; exact List.mem_of_mem_erase hm)
          freePos := fun f hm => h.freePos f (by simp only [her] at hm; exact List.mem_of_mem_erase hm) }
      · simp only [her]
        exact h.freeANodup.not_mem_erase
    | notFound k =>
      refine ⟨_, _, rfl, h, hb, fun hm => ?_, SameUse.refl c, rfl⟩
      obtain ⟨k', hk'⟩ := hs i hb hm
      rw [hbs] at hk'; cases hk'
  | none =>
    have hnew := findSame_none _ hf
    simp only [hl, ok_bind]
    cases hg : c.freeArchetypes.getLast? with
    | some f =>
      have hfm : f ∈ c.freeArchetypes := List.mem_of_getLast? hg
      have hfp := h.freeUnused f hfm
      have hfl : f < c.archPages.length := (List.getElem?_eq_some_iff.1 hfp).1
      have hfa : f < c.archetypes.length := h.alen ▸ hfl
      have hfy : f < c.layouts.length := h.llen ▸ hfa
      simp only [idxSet_of_lt _ hfa, idxSet_of_lt _ hfy, ok_bind, pure_ok]
      refine ⟨_, _, rfl, ?_, by simp [hfa], not_mem_dropLast_of_nodup h.freeANodup hg, ⟨rfl, ?_⟩, rfl⟩
      · refine { h with llen := ?_, alen := ?_, wf := ?_, good := ?_, distinct := ?_, fits := ?_, freeANodup := ?_, freeUnused := ?_, freePos := ?_ }
        · simp [h.llen]
        · simp [h.alen]
        · intro b hb
          rcases List.mem_or_eq_of_mem_set hb with hb | rfl
          · exact h.wf b hb
          · exact ha
        · intro i b y hb hy
          simp only [List.getElem?_set] at hb hy
          by_cases hfi : f = i
          · rw [if_pos hfi, if_pos hfa] at hb
            rw [if_pos hfi, if_pos hfy] at hy
            cases hb; cases hy
            exact ⟨Layout.good_of_new ha hl, hcap⟩
          · rw [if_neg hfi] at hb hy
            exact h.good i b y hb hy
        · intro i j b d hb hd hbd
          simp only [List.getElem?_set] at hb hd
          by_cases hfi : f = i
          · by_cases hfj : f = j
            · omega
            · rw [if_pos hfi, if_pos hfa] at hb
              rw [if_neg hfj] at hd
              cases hb
              exact absurd hbd.symm (hnew d (List.mem_of_getElem? hd))
          · by_cases hfj : f = j
            · rw [if_neg hfi] at hb
              rw [if_pos hfj, if_pos hfa] at hd
              cases hd
              exact absurd hbd (hnew b (List.mem_of_getElem? hb))
            · rw [if_neg hfi] at hb
              rw [if_neg hfj] at hd
              exact h.distinct i j b d hb hd hbd
        · intro i ps p pg y hi hp hpg hy
          have hfi : f ≠ i := by
            rintro rfl
            simp only at hi
            rw [hfp] at hi; cases hi; cases hp
          simp only [List.getElem?_set, if_neg hfi] at hy
          exact h.fits i ps p pg y hi hp hpg hy
        · exact h.freeANodup.sublist (List.dropLast_sublist _)
        · exact fun x hx => h.freeUnused x (List.mem_of_mem_dropLast' hx)
        · exact fun x hx => h.freePos x (List.mem_of_mem_dropLast' hx)
      · intro p ai b y ps pg
        constructor
        · intro x
          have hne : f ≠ ai := by
            rintro rfl
            have := x.hps; simp only at this
            rw [hfp] at this; cases this; cases x.mem
          have h1 := x.ha; have h2 := x.hl
          simp only [List.getElem?_set, if_neg hne] at h1 h2
          exact ⟨x.hps, x.mem, x.hto, h1, h2, x.hpg⟩
        · intro x
          have hne : f ≠ ai := by
            rintro rfl
            have := x.hps
            rw [hfp] at this; cases this; cases x.mem
          exact ⟨x.hps, x.mem, x.hto, by simp only [List.getElem?_set, if_neg hne]; exact x.ha,
            by simp only [List.getElem?_set, if_neg hne]; exact x.hl, x.hpg⟩
    | none =>
      have hfree : c.freeArchetypes = [] := List.getLast?_eq_none_iff.1 hg
      simp only [pure_ok]
      have happ : ∀ {α : Type} (v : List α) (n : Nat) (x : α) (i : Nat) y, v.length = n →
          ((v ++ [x])[i]? = some y ↔ v[i]? = some y ∨ (i = n ∧ y = x)) := by
        intro α v n x i y hv
        subst hv
        rcases Nat.lt_trichotomy i v.length with h1 | h1 | h1
        · rw [List.getElem?_append_left h1]
          constructor
          · exact Or.inl
          · rintro (h | ⟨rfl, _⟩)
            · exact h
            · omega
        · subst h1
          simp [eq_comm]
        · rw [List.getElem?_eq_none (by simp; omega), List.getElem?_eq_none (l := v) (by omega)]
          simp; omega
      refine ⟨_, _, rfl, ?_, by simp, by simp [hfree], ⟨rfl, ?_⟩, rfl⟩
      · refine { h with llen := ?_, alen := ?_, wf := ?_, good := ?_, distinct := ?_, psNodup := ?_, owner := ?_, freeDisj := ?_, covers := ?_, fits := ?_, freeUnused := ?_ }
        · simp [h.llen]
        · simp [h.alen]
        · intro b hb
          rcases List.mem_append.1 hb with hb' | hb'
          · exact h.wf b hb'
          · rw [List.mem_singleton.1 hb']; exact ha
        · intro i b y hb hy
          rcases (happ _ _ _ _ _ rfl).1 hb with hb' | ⟨rfl, rfl⟩
          · rcases (happ _ _ _ _ _ h.llen).1 hy with hy' | ⟨rfl, rfl⟩
            · exact h.good i b y hb' hy'
            · have := (List.getElem?_eq_some_iff.1 hb').1; omega
          · rcases (happ _ _ _ _ _ h.llen).1 hy with hy' | ⟨_, rfl⟩
            · have := (List.getElem?_eq_some_iff.1 hy').1
              rw [h.llen] at this; omega
            · exact ⟨Layout.good_of_new ha hl, hcap⟩
        · intro i j b d hb hd hbd
          rcases (happ _ _ _ _ _ rfl).1 hb with hb' | ⟨rfl, rfl⟩
          · rcases (happ _ _ _ _ _ rfl).1 hd with hd' | ⟨rfl, rfl⟩
            · exact h.distinct i j b d hb' hd' hbd
            · exact absurd hbd (hnew b (List.mem_of_getElem? hb'))
          · rcases (happ _ _ _ _ _ rfl).1 hd with hd' | ⟨rfl, rfl⟩
            · exact absurd hbd.symm (hnew d (List.mem_of_getElem? hd'))
            · rfl
        · intro ps hps
          rcases List.mem_append.1 hps with hps | hps
          · exact h.psNodup ps hps
          · rw [List.mem_singleton.1 hps]; exact List.nodup_nil
        · intro i ps p hi hp
          rcases (happ _ _ _ _ _ h.alen).1 hi with hi' | ⟨_, rfl⟩
          · exact h.owner i ps p hi' hp
          · cases hp
        · intro p hp ps hps
          rcases List.mem_append.1 hps with hps | hps
          · exact h.freeDisj p hp ps hps
          · rw [List.mem_singleton.1 hps]; simp
        · intro p hp
          rcases h.covers p hp with hf | ⟨i, ps, hi, hm⟩
          · exact Or.inl hf
          · exact Or.inr ⟨i, ps, (happ _ _ _ _ _ h.alen).2 (Or.inl hi), hm⟩
        · intro i ps p pg y hi hp hpg hy
          rcases (happ _ _ _ _ _ h.alen).1 hi with hi' | ⟨_, rfl⟩
          · rcases (happ _ _ _ _ _ h.llen).1 hy with hy' | ⟨rfl, rfl⟩
            · exact h.fits i ps p pg y hi' hp hpg hy'
            · have := (List.getElem?_eq_some_iff.1 hi').1
              rw [h.alen] at this; omega
          · cases hp
        · intro x hx
          simp only [hfree] at hx
          cases hx
      · intro p ai b y ps pg
        constructor
        · intro x
          have h1 := x.ha; have h2 := x.hl; have h3 := x.hps
          simp only at h1 h2 h3
          rcases (happ _ _ _ _ _ h.alen).1 h3 with h3 | ⟨_, rfl⟩
          · have hlt := (List.getElem?_eq_some_iff.1 h3).1
            rw [h.alen] at hlt
            rcases (happ _ _ _ _ _ rfl).1 h1 with h1 | ⟨rfl, rfl⟩
            · rcases (happ _ _ _ _ _ h.llen).1 h2 with h2 | ⟨rfl, rfl⟩
              · exact ⟨h3, x.mem, x.hto, h1, h2, x.hpg⟩
              · omega
            · omega
          · cases x.mem
        · intro x
          exact ⟨(happ _ _ _ _ _ h.alen).2 (Or.inl x.hps), x.mem, x.hto, (happ _ _ _ _ _ rfl).2 (Or.inl x.ha),
            (happ _ _ _ _ _ h.llen).2 (Or.inl x.hl), x.hpg⟩

/-- All stored layouts are the layouts computed for their archetypes. -/
def LayoutsOk (dbg : Bool) (c : Archs) : Prop :=
  ∀ (i : Nat) a l, c.archetypes[i]? = some a → c.layouts[i]? = some l → Layout.new dbg a = .ok l

theorem reserveArchetype_regs {dbg : Bool} {a : Archetype} {c' : Archs} {ai : Nat}
    (h : c.reserveArchetype dbg a = .ok (c', ai)) : ∀ b ∈ c'.archetypes, b = a ∨ b ∈ c.archetypes := by
  unfold reserveArchetype at h
  split at h
  · split at h <;> (cases h; exact fun b hb => Or.inr hb)
  · obtain ⟨l, hl, h⟩ := bind_eq_ok.1 h
    split at h
    · obtain ⟨as, h1, h⟩ := bind_eq_ok.1 h
      obtain ⟨ls, h2, h⟩ := bind_eq_ok.1 h
      cases h
      unfold idxSet at h1
      split at h1
      · cases h1
        intro b hb
        rcases List.mem_or_eq_of_mem_set hb with hb | hb
        · exact Or.inr hb
        · exact Or.inl hb
      · cases h1
    · cases h
      intro b hb
      rcases List.mem_append.1 hb with hb | hb
      · exact Or.inr hb
      · exact Or.inl (List.mem_singleton.1 hb)

theorem reserveArchetype_layouts {dbg : Bool} {a : Archetype} {c' : Archs} {ai : Nat}
    (h : c.reserveArchetype dbg a = .ok (c', ai)) (hlen : c.layouts.length = c.archetypes.length)
    (hok : c.LayoutsOk dbg) : c'.LayoutsOk dbg := by
  unfold reserveArchetype at h
  split at h
  · split at h <;> (cases h; exact hok)
  · obtain ⟨l, hl, h⟩ := bind_eq_ok.1 h
    split at h
    · obtain ⟨as, h1, h⟩ := bind_eq_ok.1 h
      obtain ⟨ls, h2, h⟩ := bind_eq_ok.1 h
      cases h
      unfold idxSet at h1 h2
      split at h1
      · split at h2
        · cases h1; cases h2
          intro i b y hb hy
          have hf1 : ai < c.archetypes.length := by assumption
          have hf2 : ai < c.layouts.length := by omega
          simp only [List.getElem?_set] at hb hy
          by_cases hfi : ai = i
          · rw [if_pos hfi, if_pos hf1] at hb
            rw [if_pos hfi, if_pos hf2] at hy
            cases hb; cases hy
            exact hl
          · rw [if_neg hfi] at hb hy
            exact hok i b y hb hy
        · cases h2
      · cases h1
    · cases h
      intro i b y hb hy
      simp only at hb hy
      rcases Nat.lt_trichotomy i c.archetypes.length with h1 | h1 | h1
      · rw [List.getElem?_append_left h1] at hb
        rw [List.getElem?_append_left (by omega)] at hy
        exact hok i b y hb hy
      · subst h1
        rw [List.getElem?_append_right (by omega)] at hb
        rw [List.getElem?_append_right (by omega)] at hy
        simp at hb
        simp [hlen] at hy
        subst hb; subst hy
        exact hl
      · rw [List.getElem?_eq_none (by simp; omega)] at hb
        cases hb

theorem reserveArchetype_zero {dbg : Bool} {a : Archetype} {c' : Archs} {ai : Nat} (hI : c.Inv U)
    (h : c.reserveArchetype dbg a = .ok (c', ai)) :
    c'.archetypes[0]? = some ((c.archetypes[0]?).getD a) := by
  unfold reserveArchetype at h
  have hkeep : ∀ (i : Nat) b, c.archetypes[i]? = some b → c.archetypes[0]? = some ((c.archetypes[0]?).getD a) := by
    intro i b hb
    have := (List.getElem?_eq_some_iff.1 hb).1
    rw [List.getElem?_eq_getElem (by omega)]; rfl
  split at h
  · rename_i i hf
    obtain ⟨_, b, hb, hids⟩ := findSame_some _ hf
    split at h <;> (cases h; exact hkeep _ _ hb)
  · obtain ⟨l, hl, h⟩ := bind_eq_ok.1 h
    split at h
    · rename_i f hf
      obtain ⟨as, h1, h⟩ := bind_eq_ok.1 h
      obtain ⟨ls, h2, h⟩ := bind_eq_ok.1 h
      cases h
      have hpos := hI.freePos _ (List.mem_of_getLast? hf)
      unfold idxSet at h1
      split at h1
      · cases h1
        have hlt : ai < c.archetypes.length := by assumption
        rw [List.getElem?_set, if_neg hpos]
        exact hkeep _ _ (List.getElem?_eq_getElem hlt)
      · cases h1
    · cases h
      cases hc : c.archetypes with
      | nil => rfl
      | cons b bs => rfl

/-- Capacity of the id vector of an empty page after `set_layout`. -/
def capAfter (x n : Nat) : Nat := if n ≤ x then x else CapVec.grownCap x n

/-- `c'` is `c` with the row `q` of archetype number `ai` added for `id`. -/
structure Grown (U : Universe) (c c' : Archs) (id ai : Nat) (a : Archetype) (q : Loc) : Prop where
  inv : c'.Inv U
  row : ∀ x, c'.row x = if x = q then some id else c.row x
  fresh : c.row q = none
  atNew : ∃ l ps pg, c'.At q.page ai a l ps pg
  atOld : ∀ p ai a l ps pg, c.At p ai a l ps pg → ∃ ps' pg', c'.At p ai a l ps' pg'
  val : ∀ x t, c.row x ≠ none → c'.val U x t = c.val U x t
  sameA : c'.archetypes = c.archetypes
  sameL : c'.layouts = c.layouts
  sameF : c'.freeArchetypes = c.freeArchetypes
  caps : ∀ (F : Nat → Prop) (G : Layout → Nat → Prop), F 0 →
    (∀ x l, c.layouts[ai]? = some l → F x → G l (capAfter x l.entitiesCapacity)) → c.Caps F G → c'.Caps F G

theorem findFreePage_spec (pages : List Page) (cand : List Nat) (h : ∀ p ∈ cand, p < pages.length) :
    findFreePage pages cand = .ok none ∨
    ∃ p pg, findFreePage pages cand = .ok (some p) ∧ p ∈ cand ∧ pages[p]? = some pg ∧ pg.hasFreeSpace = true := by
  induction cand with
  | nil => exact Or.inl rfl
  | cons p rest ih =>
    have hp := List.getElem?_eq_getElem (h p (by simp))
    unfold findFreePage
    rw [idx_of_some hp]
    simp only [ok_bind]
    by_cases hf : (pages[p]'(h p (by simp))).hasFreeSpace = true
    · right
      exact ⟨p, _, by simp [hf], by simp, hp, hf⟩
    · rw [if_neg hf]
      rcases ih (fun x hx => h x (by simp [hx])) with h1 | ⟨x, pg, h1, h2, h3⟩
      · exact Or.inl h1
      · exact Or.inr ⟨x, pg, h1, by simp [h2], h3⟩

/-- Adding a row to a page in use. -/
theorem Inv.push_row (h : c.Inv U) {p ai : Nat} {a : Archetype} {l : Layout} {ps : List Nat} {pg : Page}
    (hat : c.At p ai a l ps pg) (hfree : pg.hasFreeSpace = true)
    (hroom : pg.ids.items.length < l.entitiesCapacity) (id : Nat) :
    Grown U c { c with pages := c.pages.set p { pg with ids := pg.ids.push id } } id ai a ⟨p, pg.ids.items.length⟩ := by
  have hset : ∀ j, (c.pages.set p { pg with ids := pg.ids.push id })[j]? =
      if j = p then some { pg with ids := pg.ids.push id } else c.pages[j]? := getElem?_set_of hat.hpg
  have hmemA : ps ∈ c.archPages := List.mem_of_getElem? hat.hps
  constructor
  · refine { h with tlen := ?_, freeLt := ?_, covers := ?_, freeEmpty := ?_, fits := ?_ }
    · simp [h.tlen]
    · simpa using h.freeLt
    · simpa using h.covers
    · intro x hx pg' hpg'
      have hne : x ≠ p := by rintro rfl; exact h.freeDisj x hx ps hmemA hat.mem
      simp only [hset, if_neg hne] at hpg'
      exact h.freeEmpty x hx pg' hpg'
    · intro i ps' x pg' l' hi hx hpg' hl'
      simp only at hi hl'
      simp only [hset] at hpg'
      split at hpg'
      · rename_i hxp
        subst hxp
        cases hpg'
        have := h.owner i ps' x hi hx
        rw [hat.hto] at this; cases this
        rw [hat.hl] at hl'; cases hl'
        simp [CapVec.push]; omega
      · exact h.fits i ps' x pg' l' hi hx hpg' hl'
  · rintro ⟨xp, xi⟩
    unfold Archs.row
    simp only [hset]
    by_cases hxp : xp = p
    · subst hxp
      rw [if_pos rfl, hat.hpg]
      simp only [Option.bind_some, CapVec.push, Loc.mk.injEq, true_and]
      by_cases hxi : xi = pg.ids.items.length
      · subst hxi; simp
      · rw [if_neg hxi]
        rcases Nat.lt_or_gt_of_ne hxi with h1 | h1
        · rw [List.getElem?_append_left h1]
        · rw [List.getElem?_eq_none (by simp; omega), List.getElem?_eq_none (by omega)]
    · rw [if_neg hxp, if_neg (by intro e; cases e; exact hxp rfl)]
  · rw [hat.row]; simp
  · exact ⟨l, ps, { pg with ids := pg.ids.push id }, hat.hps, hat.mem, hat.hto, hat.ha, hat.hl, by simp only [hset, if_true]⟩
  · intro x ai' a' l' ps' pg' hx
    by_cases hxp : x = p
    · subst hxp
      obtain ⟨rfl, rfl, rfl, rfl, rfl⟩ := hat.unique hx
      exact ⟨_, { pg with ids := pg.ids.push id }, hx.hps, hx.mem, hx.hto, hx.ha, hx.hl, by simp only [hset, if_true]⟩
    · exact ⟨_, _, hx.hps, hx.mem, hx.hto, hx.ha, hx.hl, by simp only [hset, if_neg hxp]; exact hx.hpg⟩
  · rintro ⟨xp, xi⟩ t _
    unfold Archs.val
    simp only [hset]
    by_cases hxp : xp = p
    · subst hxp
      simp only [if_true, hat.hpg]
      rfl
    · simp only [if_neg hxp]
  · rfl
  · rfl
  · rfl
  · intro F G _ _ hC
    refine hC.mapPages (fun x pg' hpg' => ?_)
    rw [hset] at hpg'
    split at hpg'
    · rename_i hx
      cases hpg'
      refine ⟨pg, by rw [hx]; exact hat.hpg, ?_⟩
      unfold Page.hasFreeSpace Page.entityCount Page.entityCapacity at hfree
      have h2 : pg.ids.items.length < pg.ids.cap := by simpa using hfree
      unfold CapVec.push
      simp only
      rw [if_neg (by omega)]
    · exact ⟨pg', hpg', rfl⟩

/-- Giving an empty page to archetype number `ai` and adding a row to it. -/
theorem Inv.install (h : c.Inv U) {ai : Nat} {a : Archetype} (ha : c.archetypes[ai]? = some a)
    (hnf : ai ∉ c.freeArchetypes) {ps : List Nat} (hps : c.archPages[ai]? = some ps)
    {pf : Nat} {P : List Page} {T F : List Nat} {pg1 : Page} {id : Nat}
    (hlen : T.length = P.length) (hpf : pf < P.length)
    (hP : ∀ x, x ≠ pf → P[x]? = c.pages[x]?) (hT : ∀ x, x ≠ pf → T[x]? = c.pageToArch[x]?)
    (hF : ∀ x, x ∈ F ↔ x ∈ c.freePages ∧ x ≠ pf) (hFn : F.Nodup) (hun : ∀ ps ∈ c.archPages, pf ∉ ps)
    (hrow : ∀ i, c.row ⟨pf, i⟩ = none) (hitems : pg1.ids.items = [id])
    (hcap : ∀ (F : Nat → Prop) (G : Layout → Nat → Prop), F 0 →
      (∀ x l, c.layouts[ai]? = some l → F x → G l (capAfter x l.entitiesCapacity)) → c.Caps F G →
      ∀ l, c.layouts[ai]? = some l → G l pg1.ids.cap) :
    Grown U c { c with pages := P.set pf pg1, pageToArch := T.set pf ai,
                       archPages := c.archPages.set ai (ps ++ [pf]), freePages := F } id ai a ⟨pf, 0⟩ := by
  have hai : ai < c.archPages.length := (List.getElem?_eq_some_iff.1 hps).1
  have hpfT : pf < T.length := by omega
  have hsetP : ∀ j, (P.set pf pg1)[j]? = if j = pf then some pg1 else c.pages[j]? := by
    intro j
    rw [getElem?_set_of (List.getElem?_eq_getElem hpf)]
    by_cases hj : j = pf
    · simp [hj]
    · simp only [if_neg hj]; exact hP j hj
  have hsetT : ∀ j, (T.set pf ai)[j]? = if j = pf then some ai else c.pageToArch[j]? := by
    intro j
    rw [getElem?_set_of (List.getElem?_eq_getElem hpfT)]
    by_cases hj : j = pf
    · simp [hj]
    · simp only [if_neg hj]; exact hT j hj
  have hsetA : ∀ j, (c.archPages.set ai (ps ++ [pf]))[j]? = if j = ai then some (ps ++ [pf]) else c.archPages[j]? :=
    getElem?_set_of hps
  have hpsm : ps ∈ c.archPages := List.mem_of_getElem? hps
  have hlta : ai < c.layouts.length := by rw [h.llen, ← h.alen]; exact hai
  have hatO : ∀ p ai' a' l' ps' pg', c.At p ai' a' l' ps' pg' → p ≠ pf := by
    rintro p ai' a' l' ps' pg' hx rfl
    exact hun ps' (List.mem_of_getElem? hx.hps) hx.mem
  have hltP : ∀ x, x ≠ pf → (x < P.length ↔ x < c.pages.length) := by
    intro x hx
    have := hP x hx
    constructor
    · intro h1
      rw [List.getElem?_eq_getElem h1] at this
      exact (List.getElem?_eq_some_iff.1 this.symm).1
    · intro h1
      rw [List.getElem?_eq_getElem h1] at this
      exact (List.getElem?_eq_some_iff.1 this).1
  constructor
  · refine { h with alen := ?_, tlen := ?_, psNodup := ?_, owner := ?_, freeNodup := ?_, freeDisj := ?_,
                    freeLt := ?_, covers := ?_, freeEmpty := ?_, fits := ?_, freeUnused := ?_ }
    · simp [h.alen]
    · simp [hlen]
    · intro qs hqs
      rcases List.mem_or_eq_of_mem_set hqs with hqs | rfl
      · exact h.psNodup qs hqs
      · refine List.nodup_append.2 ⟨h.psNodup ps hpsm, List.nodup_singleton _, ?_⟩
        intro x hx y hy
        rw [List.mem_singleton.1 hy]
        rintro rfl
        exact hun ps hpsm hx
    · intro i qs x hi hx
      simp only [hsetA] at hi
      simp only [hsetT]
      split at hi
      · rename_i hia
        subst hia
        cases hi
        by_cases hxp : x = pf
        · rw [if_pos hxp]
        · rw [if_neg hxp]
          rcases List.mem_append.1 hx with hx | hx
          · exact h.owner _ ps x hps hx
          · exact absurd (List.mem_singleton.1 hx) hxp
      · have hxp : x ≠ pf := by rintro rfl; exact hun qs (List.mem_of_getElem? hi) hx
        rw [if_neg hxp]
        exact h.owner i qs x hi hx
    · exact hFn
    · intro x hx qs hqs
      obtain ⟨hx1, hx2⟩ := (hF x).1 hx
      rcases List.mem_or_eq_of_mem_set hqs with hqs | rfl
      · exact h.freeDisj x hx1 qs hqs
      · intro hm
        rcases List.mem_append.1 hm with hm | hm
        · exact h.freeDisj x hx1 ps hpsm hm
        · exact hx2 (List.mem_singleton.1 hm)
    · intro x hx
      obtain ⟨hx1, hx2⟩ := (hF x).1 hx
      simp only [List.length_set]
      exact (hltP x hx2).2 (h.freeLt x hx1)
    · intro x hx
      simp only [List.length_set] at hx
      by_cases hxp : x = pf
      · subst hxp
        exact Or.inr ⟨ai, ps ++ [x], by simp only [hsetA, if_true], by simp⟩
      · rcases h.covers x ((hltP x hxp).1 hx) with hf | ⟨i, qs, hi, hm⟩
        · exact Or.inl ((hF x).2 ⟨hf, hxp⟩)
        · right
          by_cases hia : i = ai
          · subst hia
            rw [hps] at hi; cases hi
            exact ⟨i, ps ++ [pf], by simp only [hsetA, if_true], by simp [hm]⟩
          · exact ⟨i, qs, by simp only [hsetA, if_neg hia]; exact hi, hm⟩
    · intro x hx pg' hpg'
      obtain ⟨hx1, hx2⟩ := (hF x).1 hx
      simp only [hsetP, if_neg hx2] at hpg'
      exact h.freeEmpty x hx1 pg' hpg'
    · intro i qs x pg' l' hi hx hpg' hl'
      simp only [hsetA] at hi
      simp only [hsetP] at hpg'
      simp only at hl'
      by_cases hxp : x = pf
      · subst hxp
        rw [if_pos rfl] at hpg'
        cases hpg'
        rw [hitems]
        have hlt : i < c.archetypes.length := by
          rw [← h.llen]; exact (List.getElem?_eq_some_iff.1 hl').1
        exact (h.good i _ l' (List.getElem?_eq_getElem hlt) hl').2
      · rw [if_neg hxp] at hpg'
        split at hi
        · rename_i hia
          subst hia
          cases hi
          rcases List.mem_append.1 hx with hx | hx
          · exact h.fits _ ps x pg' l' hps hx hpg' hl'
          · exact absurd (List.mem_singleton.1 hx) hxp
        · exact h.fits i qs x pg' l' hi hx hpg' hl'
    · intro f hf
      have hne : f ≠ ai := by rintro rfl; exact hnf hf
      simp only [hsetA, if_neg hne]
      exact h.freeUnused f hf
  · rintro ⟨xp, xi⟩
    by_cases hxp : xp = pf
    · subst hxp
      rw [hrow]
      unfold Archs.row
      simp only [hsetP, if_true, Option.bind_some, hitems, Loc.mk.injEq, true_and]
      cases xi with
      | zero => simp
      | succ n => simp
    · rw [if_neg (by intro e; cases e; exact hxp rfl)]
      unfold Archs.row
      simp only [hsetP, if_neg hxp]
  · exact hrow 0
  · exact ⟨_, ps ++ [pf], pg1, by simp only [hsetA, if_true], by simp, by simp only [hsetT, if_true], ha,
      List.getElem?_eq_getElem hlta, by simp only [hsetP, if_true]⟩
  · intro p ai' a' l' ps' pg' hx
    have hxp := hatO _ _ _ _ _ _ hx
    by_cases hia : ai' = ai
    · subst hia
      have := hx.hps
      rw [hps] at this; cases this
      exact ⟨ps ++ [pf], pg', by simp only [hsetA, if_true], by simp [hx.mem], by simp only [hsetT, if_neg hxp]; exact hx.hto,
        hx.ha, hx.hl, by simp only [hsetP, if_neg hxp]; exact hx.hpg⟩
    · exact ⟨_, _, by simp only [hsetA, if_neg hia]; exact hx.hps, hx.mem, by simp only [hsetT, if_neg hxp]; exact hx.hto,
        hx.ha, hx.hl, by simp only [hsetP, if_neg hxp]; exact hx.hpg⟩
  · rintro ⟨xp, xi⟩ t hx
    have hxp : xp ≠ pf := by rintro rfl; exact hx (hrow xi)
    unfold Archs.val
    simp only [hsetP, hsetT, if_neg hxp]
  · rfl
  · rfl
  · rfl
  · intro F' G h0 hcl hC
    refine ⟨fun x hx pg' hpg' => ?_, fun i l ps' x pg' hl hps' hm hpg' => ?_⟩
    · obtain ⟨hx1, hx2⟩ := (hF x).1 hx
      simp only [hsetP, if_neg hx2] at hpg'
      exact hC.1 x hx1 pg' hpg'
    · simp only [hsetA] at hps'
      simp only [hsetP] at hpg'
      simp only at hl
      by_cases hxp : x = pf
      · subst hxp
        rw [if_pos rfl] at hpg'
        cases hpg'
        split at hps'
        · rename_i hia
          subst hia
          exact hcap F' G h0 hcl hC l hl
        · exact absurd hm (hun ps' (List.mem_of_getElem? hps'))
      · rw [if_neg hxp] at hpg'
        split at hps'
        · rename_i hia
          subst hia
          cases hps'
          rcases List.mem_append.1 hm with hm | hm
          · exact hC.2 _ l ps x pg' hl hps hm hpg'
          · exact absurd (List.mem_singleton.1 hm) hxp
        · exact hC.2 i l ps' x pg' hl hps' hm hpg'

theorem Page.addEntityId_of {dbg : Bool} {pg : Page} {id : Nat} (h : pg.hasFreeSpace = true) :
    pg.addEntityId dbg id = .ok ({ pg with ids := pg.ids.push id }, pg.ids.items.length) := by
  unfold Page.addEntityId
  rw [h]
  simp [CapVec.push]

theorem setLayout_hasFree {pg : Page} {l : Layout} (hi : pg.ids.items = []) (hl : 1 ≤ l.entitiesCapacity) :
    (pg.setLayout l).hasFreeSpace = true ∧ (pg.setLayout l).ids.items = [] ∧
      ((pg.setLayout l).ids.push 0).cap = capAfter pg.ids.cap l.entitiesCapacity := by
  unfold Page.setLayout Page.hasFreeSpace Page.entityCount Page.entityCapacity CapVec.reserve CapVec.push capAfter
  simp only [hi, List.length_nil, Nat.sub_zero, decide_eq_true_eq]
  split
  · simp only [hi, List.length_nil]
    exact ⟨by omega, trivial, by rw [if_neg (by omega)]⟩
  · simp only [List.length_nil, CapVec.grownCap, Nat.zero_add]
    exact ⟨by omega, trivial, by rw [if_neg (by omega)]⟩

/-- `reserve_page` when the page it picks has room. -/
theorem reservePage_spec {dbg : Bool} {a : Archetype} {ai id : Nat} (h : c.Inv U) (hr : c.Roomy a)
    (ha : c.archetypes[ai]? = some a) (hnf : ai ∉ c.freeArchetypes) :
    ∃ c' q, c.reservePage dbg id ai = .ok (c', q) ∧ Grown U c c' id ai a q := by
  have hai : ai < c.archPages.length := by rw [h.alen]; exact (List.getElem?_eq_some_iff.1 ha).1
  have hal : ai < c.layouts.length := by rw [h.llen]; exact (List.getElem?_eq_some_iff.1 ha).1
  obtain ⟨ps, hps⟩ : ∃ ps, c.archPages[ai]? = some ps := ⟨_, List.getElem?_eq_getElem hai⟩
  obtain ⟨l, hl⟩ : ∃ l, c.layouts[ai]? = some l := ⟨_, List.getElem?_eq_getElem hal⟩
  have hlcap := (h.good ai a l ha hl).2
  have hlt : ∀ p ∈ ps.reverse, p < c.pages.length := by
    intro p hp
    have := h.owner ai ps p hps (List.mem_reverse.1 hp)
    rw [← h.tlen]
    exact (List.getElem?_eq_some_iff.1 this).1
  unfold reservePage
  rw [idx_of_some hps]
  simp only [ok_bind]
  rcases findFreePage_spec c.pages ps.reverse hlt with hn | ⟨p, pg, hp, hm, hpg, hfree⟩
  · rw [hn]
    simp only [ok_bind]
    cases hg : c.freePages.getLast? with
    | some pf =>
      have hpfm : pf ∈ c.freePages := List.mem_of_getLast? hg
      have hpfl := h.freeLt pf hpfm
      have hpft : pf < c.pageToArch.length := by rw [h.tlen]; exact hpfl
      obtain ⟨pg, hpg⟩ : ∃ pg, c.pages[pf]? = some pg := ⟨_, List.getElem?_eq_getElem hpfl⟩
      have hemp := h.freeEmpty pf hpfm pg hpg
      obtain ⟨hf1, hf2, hf3⟩ := setLayout_hasFree hemp hlcap
      simp only [pure_ok, ok_bind, idx_of_some hl, idx_of_some hpg, idx_of_some hps, idxSet_of_lt _ hpft,
        Page.addEntityId_of hf1, hf2, List.length_nil]
      refine ⟨_, _, rfl, h.install ha hnf hps h.tlen.symm.symm hpfl (fun _ _ => rfl) (fun _ _ => rfl) ?_ ?_ ?_ ?_ ?_ ?_⟩
      · intro x
        obtain ⟨ys, hys⟩ := List.getLast?_eq_some_iff.1 hg
        have hnd := h.freeNodup
        rw [hys] at hnd ⊢
        simp only [List.dropLast_concat, List.mem_append, List.mem_singleton]
        constructor
        · intro hx
          refine ⟨Or.inl hx, ?_⟩
          rintro rfl
          exact (List.disjoint_of_nodup_append hnd) hx (by simp)
        · rintro ⟨hx | hx, hne⟩
          · exact hx
          · exact absurd hx hne
      · exact h.freeNodup.sublist (List.dropLast_sublist _)
      · exact fun qs hqs => h.freeDisj pf hpfm qs hqs
      · intro i
        unfold Archs.row
        simp [hpg, hemp]
      · simp [CapVec.push, hf2]
      · intro F G _ hcl hC l' hl'
        rw [hl] at hl'
        cases hl'
        have := hcl pg.ids.cap l hl (hC.1 pf hpfm pg hpg)
        rw [← hf3] at this
        exact this
    | none =>
      have hfree : c.freePages = [] := List.getLast?_eq_none_iff.1 hg
      have hpl : (c.pages ++ [Page.new])[c.pages.length]? = some Page.new := by simp
      have hins : c.pages.insertIdx c.pages.length Page.new = c.pages ++ [Page.new] := List.insertIdx_length_self ..
      have hins2 : c.pageToArch.insertIdx c.pages.length ai = c.pageToArch ++ [ai] := by
        rw [← h.tlen]; exact List.insertIdx_length_self ..
      have hlt1 : c.pages.length ≤ c.pages.length := Nat.le_refl _
      have hlt2 : c.pages.length ≤ c.pageToArch.length := by rw [h.tlen]; exact hlt1
      have hpft : c.pages.length < (c.pageToArch ++ [ai]).length := by simp [h.tlen]
      obtain ⟨hf1, hf2, hf3⟩ := setLayout_hasFree (pg := Page.new) rfl hlcap
      simp only [vecInsert, if_pos hlt1, if_pos hlt2, hins, hins2, pure_ok, ok_bind, idx_of_some hl,
        idx_of_some hpl, idx_of_some hps, idxSet_of_lt _ hpft, Page.addEntityId_of hf1, hf2, List.length_nil]
      refine ⟨_, _, rfl, h.install ha hnf hps (by simp [h.tlen]) (by simp) ?_ ?_ ?_ ?_ ?_ ?_ ?_ ?_⟩
      · intro x hx
        rcases Nat.lt_or_gt_of_ne hx with h1 | h1
        · rw [List.getElem?_append_left h1]
        · rw [List.getElem?_eq_none (by simp; omega), List.getElem?_eq_none (by omega)]
      · intro x hx
        rcases Nat.lt_or_gt_of_ne hx with h1 | h1
        · rw [List.getElem?_append_left (by rw [h.tlen]; exact h1)]
        · rw [List.getElem?_eq_none (by simp [h.tlen]; omega), List.getElem?_eq_none (by rw [h.tlen]; omega)]
      · intro x; simp [hfree]
      · exact h.freeNodup
      · intro qs hqs hm
        obtain ⟨i, hi⟩ := List.mem_iff_getElem?.1 hqs
        have := (List.getElem?_eq_some_iff.1 (h.owner i qs _ hi hm)).1
        rw [h.tlen] at this
        omega
      · intro i
        unfold Archs.row
        simp
      · simp [CapVec.push, hf2]
      · intro F G h0 hcl hC l' hl'
        rw [hl] at hl'
        cases hl'
        have := hcl 0 l hl h0
        rw [show (0 : Nat) = Page.new.ids.cap from rfl, ← hf3] at this
        exact this
  · rw [hp]
    obtain ⟨a', l', pg', hat⟩ := h.at_of_mem hps (List.mem_reverse.1 hm)
    have e1 : a' = a := by have := hat.ha; rw [ha] at this; exact (Option.some.inj this).symm
    have e2 : pg' = pg := by have := hat.hpg; rw [hpg] at this; exact (Option.some.inj this).symm
    subst e1; subst e2
    simp only [ok_bind, idx_of_some hpg, Page.addEntityId_of hfree]
    exact ⟨_, _, rfl, h.push_row hat hfree (hr _ _ _ _ _ hat.ha hat.hl hat.hps hp hat.hpg) id⟩

/-- `c'` is `c` with a row `q` for `id` added in a page of archetype `a`. -/
structure Added (U : Universe) (dbg : Bool) (c c' : Archs) (id : Nat) (a : Archetype) (q : Loc) : Prop where
  inv : c'.Inv U
  row : ∀ x, c'.row x = if x = q then some id else c.row x
  fresh : c.row q = none
  archNew : c'.archAt q.page = some a
  archOld : ∀ x, c.row x ≠ none → c'.archAt x.page = c.archAt x.page
  val : ∀ x t, c.row x ≠ none → c'.val U x t = c.val U x t
  regs : ∀ b ∈ c'.archetypes, b = a ∨ b ∈ c.archetypes
  zero : c'.archetypes[0]? = some ((c.archetypes[0]?).getD a)
  lay : c.LayoutsOk dbg → c'.LayoutsOk dbg
  caps : ∀ (F : Nat → Prop) (G : Layout → Nat → Prop), F 0 →
    (∀ x l, Layout.new dbg a = .ok l → F x → G l (capAfter x l.entitiesCapacity)) →
    c.LayoutsOk dbg → c.Caps F G → c'.Caps F G

theorem Grown.added {dbg : Bool} {c1 c' : Archs} {id ai : Nat} {a : Archetype} {q : Loc} (h : c.Inv U) (h1 : c1.Inv U)
    (hra : c.reserveArchetype dbg a = .ok (c1, ai)) (hs : SameUse c c1) (hfp : c1.freePages = c.freePages)
    (hg : Grown U c1 c' id ai a q) :
    Added U dbg c c' id a q where
  inv := hg.inv
  row := fun x => by rw [hg.row, hs.row]
  fresh := by rw [← hs.row]; exact hg.fresh
  archNew := by obtain ⟨l, ps, pg, hat⟩ := hg.atNew; exact hat.archAt
  archOld := fun x hx => by
    obtain ⟨i, hi⟩ := Option.ne_none_iff_exists'.1 hx
    obtain ⟨ai', a', l, ps, pg, hat, _⟩ := h.at_of_row hi
    obtain ⟨ps', pg', hat'⟩ := hg.atOld _ _ _ _ _ _ ((hs.at_iff _ _ _ _ _ _).2 hat)
    rw [hat.archAt, hat'.archAt]
  val := fun x t hx => by rw [hg.val x t (by rw [hs.row]; exact hx), hs.val h hx]
  regs := fun b hb => by rw [hg.sameA] at hb; exact reserveArchetype_regs hra b hb
  zero := by rw [hg.sameA]; exact reserveArchetype_zero h hra
  lay := fun hok => by
    have := reserveArchetype_layouts hra h.llen hok
    intro i b y hb hy
    rw [hg.sameA] at hb; rw [hg.sameL] at hy
    exact this i b y hb hy
  caps := fun F G h0 hcl hok hC => by
    have hok1 := reserveArchetype_layouts hra h.llen hok
    obtain ⟨l, ps, pg, hat⟩ := hg.atNew
    have ha := hat.ha; have hl := hat.hl
    rw [hg.sameA] at ha; rw [hg.sameL] at hl
    refine hg.caps F G h0 (fun x y hy hx => hcl x y (hok1 ai a y ha hy) hx) ⟨?_, ?_⟩
    · rw [hfp, hs.pages]; exact hC.1
    · intro i y ps' p pg' hy hps hm hpg'
      obtain ⟨b, y', pg'', hat'⟩ := h1.at_of_mem hps hm
      have e1 := hat'.hl; rw [hy] at e1; cases e1
      have e2 := hat'.hpg; rw [hpg'] at e2; cases e2
      have hat'' := (hs.at_iff _ _ _ _ _ _).1 hat'
      exact hC.2 i y ps' p pg' hat''.hl hat''.hps hat''.mem hat''.hpg

/-- `add_entity`. -/
theorem addEntity_spec {dbg : Bool} {a : Archetype} {l : Layout} {id : Nat} (h : c.Inv U) (hr : c.Roomy a)
    (hs : c.Findable a) (ha : a.WF U) (hl : Layout.new dbg a = .ok l) (hcap : 1 ≤ l.entitiesCapacity) :
    ∃ c' q, c.addEntity dbg id a = .ok (c', q) ∧ Added U dbg c c' id a q := by
  obtain ⟨c1, ai, h1, h2, h3, h4, h5, h5'⟩ := reserveArchetype_spec h hs ha hl hcap
  obtain ⟨c', q, h6, h7⟩ := reservePage_spec (dbg := dbg) (id := id) h2 (h5.roomy h2 hr) h3 h4
  refine ⟨c', q, ?_, h7.added h h2 h1 h5 h5'⟩
  unfold addEntity
  rw [h1]
  exact h6

end Archs
end Ecs
