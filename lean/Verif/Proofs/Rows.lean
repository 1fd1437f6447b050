import Verif.Proofs.Owned
import Verif.Proofs.Places

/-! Which rows the pages hold, whatever calls were made as long as they returned: one for every live entity that was given
components, at the place recorded for it, and no others. Nothing is said about the contents of components, so nothing has to
be assumed about layouts and archetypes. -/

namespace Ecs
open Spec

/-- The pages are divided among the archetypes and the free list. -/
structure Archs.Use (c : Archs) : Prop where
  psNodup : ∀ ps ∈ c.archPages, ps.Nodup
  owner : ∀ (i : Nat) ps p, c.archPages[i]? = some ps → p ∈ ps → c.pageToArch[p]? = some i
  freeNodup : c.freePages.Nodup
  freeDisj : ∀ p ∈ c.freePages, ∀ ps ∈ c.archPages, p ∉ ps
  freeLt : ∀ p ∈ c.freePages, p < c.pages.length
  covers : ∀ p < c.pages.length, p ∈ c.freePages ∨ ∃ (i : Nat) (ps : List Nat), c.archPages[i]? = some ps ∧ p ∈ ps
  freeEmpty : ∀ p ∈ c.freePages, ∀ pg, c.pages[p]? = some pg → pg.ids.items = []

/-- The pages have the same vectors of ids. -/
def SameIds (ps ps' : List Page) : Prop := ps'.map (·.ids) = ps.map (·.ids)

namespace SameIds
variable {ps ps' ps'' : List Page}

theorem refl (ps : List Page) : SameIds ps ps := rfl

theorem trans (h : SameIds ps ps') (h' : SameIds ps' ps'') : SameIds ps ps'' := Eq.trans h' h

theorem length (h : SameIds ps ps') : ps'.length = ps.length := by
  have := congrArg List.length h
  simpa using this

theorem ids (h : SameIds ps ps') (p : Nat) : (ps'[p]?).map (·.ids) = (ps[p]?).map (·.ids) := by
  have := congrArg (·[p]?) h
  simpa using this

theorem items (h : SameIds ps ps') (p : Nat) : (ps'[p]?).map (·.ids.items) = (ps[p]?).map (·.ids.items) := by
  have := congrArg (Option.map CapVec.items) (h.ids p)
  simpa [Option.map_map, Function.comp_def] using this

theorem set {p : Nat} {pg pg' : Page} (hp : ps[p]? = some pg) (he : pg'.ids = pg.ids) : SameIds ps (ps.set p pg') := by
  unfold SameIds
  refine List.ext_getElem? fun i => ?_
  rw [List.getElem?_map, List.getElem?_map, List.getElem?_set]
  split
  · next h =>
    subst h
    split
    · simp [hp, he]
    · next h => exact absurd (List.getElem?_eq_some_iff.1 hp).1 h
  · rfl

theorem copyBetween {sp so dp d n : Nat} (hr : Archs.copyBetween ps sp so dp d n = .ok ps') : SameIds ps ps' := by
  unfold Archs.copyBetween at hr
  obtain ⟨_, _, hr⟩ := bind_eq_ok.1 hr
  obtain ⟨_, _, hr⟩ := bind_eq_ok.1 hr
  split at hr
  · cases hr
  · obtain ⟨pg, h1, hr⟩ := bind_eq_ok.1 hr
    obtain ⟨_, _, hr⟩ := bind_eq_ok.1 hr
    cases hr
    exact set (idx_ok.1 h1) rfl

theorem copyLoop {src dst : Loc} {sa da : Archetype} {sl dl : Layout} (l : List (Nat × Nat)) {ps ps' : List Page}
    (hr : Archs.copyLoop src dst sa da sl dl l ps = .ok ps') : SameIds ps ps' := by
  induction l generalizing ps with
  | nil => cases hr; exact refl _
  | cons p l ih =>
    unfold Archs.copyLoop at hr
    obtain ⟨_, _, hr⟩ := bind_eq_ok.1 hr
    obtain ⟨_, _, hr⟩ := bind_eq_ok.1 hr
    obtain ⟨_, _, hr⟩ := bind_eq_ok.1 hr
    obtain ⟨_, _, hr⟩ := bind_eq_ok.1 hr
    obtain ⟨_, h1, hr⟩ := bind_eq_ok.1 hr
    exact (copyBetween h1).trans (ih hr)

theorem assign (rs : List Ref) {vs : List (List UInt8)} {ps ps' : List Page} (hr : assignToRefs rs vs ps = .ok ps') :
    SameIds ps ps' := by
  induction rs generalizing vs ps with
  | nil => cases hr; exact refl _
  | cons r rs ih =>
    cases vs with
    | nil => cases hr; exact refl _
    | cons v vs =>
      unfold assignToRefs at hr
      obtain ⟨p1, h1, hr⟩ := bind_eq_ok.1 hr
      refine trans ?_ (ih hr)
      unfold writeRef at h1
      obtain ⟨pg, h2, h1⟩ := bind_eq_ok.1 h1
      obtain ⟨_, _, h1⟩ := bind_eq_ok.1 h1
      cases h1
      exact set (idxUnchecked_ok.1 h2) rfl

end SameIds

namespace Archs.Use
variable {dbg : Bool} {c c' : Archs}

theorem new : Archs.new.Use where
  psNodup := by intro ps h; simp [Archs.new] at h
  owner := by intro i ps p h; simp [Archs.new] at h
  freeNodup := List.nodup_range
  freeDisj := by intro p _ ps h; simp [Archs.new] at h
  freeLt := by intro p h; simpa [Archs.new] using h
  covers := by intro p h; exact .inl (by simpa [Archs.new] using h)
  freeEmpty := by
    intro p _ pg h
    have := List.mem_of_getElem? h
    simp only [Archs.new, List.mem_replicate] at this
    rw [this.2]; rfl

theorem row_eq (h : SameIds c.pages c'.pages) (q : Loc) : c'.row q = c.row q := by
  have := h.items q.page
  unfold Archs.row
  revert this
  cases c'.pages[q.page]? <;> cases c.pages[q.page]? <;> simp +contextual

theorem setPages (h : c.Use) {ps : List Page} (hp : SameIds c.pages ps) : { c with pages := ps }.Use where
  psNodup := h.psNodup
  owner := h.owner
  freeNodup := h.freeNodup
  freeDisj := h.freeDisj
  freeLt := by intro p hf; dsimp only; rw [hp.length]; exact h.freeLt p hf
  covers := by intro p hf; dsimp only at hf; rw [hp.length] at hf; exact h.covers p hf
  freeEmpty := by
    intro p hf pg hpg
    have := hp.items p
    dsimp only at hpg
    rw [hpg] at this
    cases h0 : c.pages[p]? with
    | none => rw [h0] at this; cases this
    | some pg0 =>
      rw [h0] at this
      simp only [Option.map_some, Option.some.injEq] at this
      rw [this]
      exact h.freeEmpty p hf pg0 h0

theorem reserveArchetype {a : Archetype} {i : Nat} (h : c.Use) (hr : c.reserveArchetype dbg a = .ok (c', i)) : c'.Use := by
  unfold Archs.reserveArchetype at hr
  split at hr
  · split at hr <;> cases hr
    · exact ⟨h.psNodup, h.owner, h.freeNodup, h.freeDisj, h.freeLt, h.covers, h.freeEmpty⟩
    · exact h
  · obtain ⟨layout, hl, hr⟩ := bind_eq_ok.1 hr
    split at hr
    · obtain ⟨as, h1, hr⟩ := bind_eq_ok.1 hr
      obtain ⟨ls, h2, hr⟩ := bind_eq_ok.1 hr
      cases hr
      exact ⟨h.psNodup, h.owner, h.freeNodup, h.freeDisj, h.freeLt, h.covers, h.freeEmpty⟩
    · cases hr
      refine ⟨?_, ?_, h.freeNodup, ?_, h.freeLt, ?_, h.freeEmpty⟩
      · intro ps hps
        rcases List.mem_append.1 hps with hps | hps
        · exact h.psNodup ps hps
        · rw [List.mem_singleton.1 hps]; exact List.nodup_nil
      · intro i ps p hi hp
        dsimp only at hi
        rw [List.getElem?_append] at hi
        split at hi
        · exact h.owner i ps p hi hp
        · rw [List.mem_singleton.1 (List.mem_of_getElem? hi)] at hp; cases hp
      · intro p hp ps hps
        rcases List.mem_append.1 hps with hps | hps
        · exact h.freeDisj p hp ps hps
        · rw [List.mem_singleton.1 hps]; simp
      · intro p hp
        rcases h.covers p hp with hf | ⟨i, ps, hi, hm⟩
        · exact Or.inl hf
        · refine Or.inr ⟨i, ps, ?_, hm⟩
          dsimp only
          rw [List.getElem?_append_left (List.getElem?_eq_some_iff.1 hi).1]
          exact hi

/-- Appending an id to a page in use. -/
theorem push {p id : Nat} {pg pg' : Page} (h : c.Use) (hp : c.pages[p]? = some pg) (hf : p ∉ c.freePages)
    (hi : pg'.ids.items = pg.ids.items ++ [id]) :
    { c with pages := c.pages.set p pg' }.Use ∧ c.row ⟨p, pg.ids.items.length⟩ = none ∧
      ∀ r, Archs.row { c with pages := c.pages.set p pg' } r = if r = ⟨p, pg.ids.items.length⟩ then some id else c.row r := by
  have hlt := (List.getElem?_eq_some_iff.1 hp).1
  refine ⟨⟨h.psNodup, h.owner, h.freeNodup, h.freeDisj, ?_, ?_, ?_⟩, ?_, ?_⟩
  · intro x hx; simpa using h.freeLt x hx
  · intro x hx; exact h.covers x (by simpa using hx)
  · intro x hx pgx hpgx
    have hne : p ≠ x := fun he => hf (he ▸ hx)
    dsimp only at hpgx
    rw [List.getElem?_set_ne hne] at hpgx
    exact h.freeEmpty x hx pgx hpgx
  · unfold Archs.row; simp [hp]
  · rintro ⟨rp, ri⟩
    unfold Archs.row
    dsimp only
    rw [List.getElem?_set]
    by_cases hpr : p = rp
    · subst hpr
      simp only [if_true, hlt, hp, Option.bind_some, hi, List.getElem?_append, Loc.mk.injEq, true_and]
      rcases Nat.lt_trichotomy ri pg.ids.items.length with h1 | h1 | h1
      · rw [if_pos h1, if_neg (by omega)]
      · subst h1; simp
      · rw [if_neg (by omega), if_neg (by omega), List.getElem?_eq_none (by simp; omega),
          List.getElem?_eq_none (by omega)]
    · rw [if_neg hpr, if_neg (fun he => hpr (Loc.mk.inj he).1.symm)]

theorem addEntityId_items {pg pg' : Page} {id ix : Nat} (hr : pg.addEntityId dbg id = .ok (pg', ix)) :
    pg'.ids.items = pg.ids.items ++ [id] ∧ ix = pg.ids.items.length := by
  unfold Page.addEntityId at hr
  obtain ⟨_, _, hr⟩ := bind_eq_ok.1 hr
  cases hr
  simp [CapVec.push]

theorem setLayout_items (pg : Page) (l : Layout) : (pg.setLayout l).ids.items = pg.ids.items := by
  unfold Page.setLayout CapVec.reserve
  dsimp only
  split <;> rfl

/-- A page taken from the free list, or a new one, is listed for the archetype. -/
theorem take {c1 : Archs} {p i : Nat} {pl : List Nat} (h : c.Use) (hs : c.Shape)
    (hpl : c.archPages[i]? = some pl)
    (hr : (match c.freePages.getLast? with
      | some pageIndex => pure ({ c with freePages := c.freePages.dropLast }, pageIndex)
      | none => do
        let pageIndex := c.pages.length
        let pages ← vecInsert c.pages pageIndex Page.new
        let pageToArch ← vecInsert c.pageToArch pageIndex i
        pure ({ c with pages := pages, pageToArch := pageToArch }, pageIndex) : Res (Archs × Nat)) = .ok (c1, p)) :
    { c1 with archPages := c1.archPages.set i (pl ++ [p]), pageToArch := c1.pageToArch.set p i }.Use ∧
      p ∉ c1.freePages ∧ (∀ q, c1.row q = c.row q) ∧ c1.archPages = c.archPages ∧
      (∀ pg, c1.pages[p]? = some pg → pg.ids.items = []) := by
  have hil := (List.getElem?_eq_some_iff.1 hpl).1
  split at hr
  · next p' hl =>
    cases hr
    have hpf : p ∈ c.freePages := List.mem_of_getLast? hl
    have hnl : ∀ ps ∈ c.archPages, p ∉ ps := h.freeDisj p hpf
    have hpn : p ∉ c.freePages.dropLast := not_mem_dropLast_of_nodup h.freeNodup hl
    have hpt : p < c.pageToArch.length := by rw [hs.tlen]; exact h.freeLt p hpf
    refine ⟨⟨?_, ?_, ?_, ?_, ?_, ?_, ?_⟩, hpn, fun _ => rfl, rfl, fun pg hpg => h.freeEmpty p hpf pg hpg⟩
    · intro ps hps
      rcases List.mem_or_eq_of_mem_set hps with hm | rfl
      · exact h.psNodup ps hm
      · have hplm := List.mem_of_getElem? hpl
        exact List.nodup_append.2 ⟨h.psNodup pl hplm, by simp, by
          intro a ha b hb; rw [List.mem_singleton.1 hb]; rintro rfl; exact hnl pl hplm ha⟩
    · intro j ps x hj hx
      dsimp only at hj ⊢
      rw [List.getElem?_set] at hj ⊢
      by_cases hxp : p = x
      · subst hxp
        rw [if_pos rfl, if_pos hpt]
        by_cases hij : i = j
        · rw [hij]
        · rw [if_neg hij] at hj
          exact absurd hx (hnl ps (List.mem_of_getElem? hj))
      · rw [if_neg hxp]
        by_cases hij : i = j
        · subst hij
          rw [if_pos rfl, if_pos hil] at hj
          cases hj
          rcases List.mem_append.1 hx with hx | hx
          · exact h.owner i pl x hpl hx
          · exact absurd (List.mem_singleton.1 hx).symm hxp
        · rw [if_neg hij] at hj
          exact h.owner j ps x hj hx
    · exact h.freeNodup.sublist (List.dropLast_sublist _)
    · intro x hx ps hps hxp
      have hxf := List.mem_of_mem_dropLast' hx
      rcases List.mem_or_eq_of_mem_set hps with hm | rfl
      · exact h.freeDisj x hxf ps hm hxp
      · rcases List.mem_append.1 hxp with h1 | h1
        · exact h.freeDisj x hxf pl (List.mem_of_getElem? hpl) h1
        · rw [List.mem_singleton.1 h1] at hx; exact hpn hx
    · exact fun x hx => h.freeLt x (List.mem_of_mem_dropLast' hx)
    · intro x hx
      by_cases hxp : x = p
      · exact .inr ⟨i, _, List.getElem?_set_self hil, by simp [hxp]⟩
      · rcases h.covers x hx with hf | ⟨j, ps, hj, hm⟩
        · left
          obtain ⟨ys, hys⟩ := List.getLast?_eq_some_iff.1 hl
          dsimp only
          rw [hys] at hf ⊢
          rw [List.dropLast_concat]
          rcases List.mem_append.1 hf with h1 | h1
          · exact h1
          · exact absurd (List.mem_singleton.1 h1) hxp
        · right
          by_cases hij : i = j
          · subst hij
            rw [hpl] at hj; cases hj
            exact ⟨i, _, List.getElem?_set_self hil, List.mem_append_left _ hm⟩
          · exact ⟨j, ps, by dsimp only; rw [List.getElem?_set_ne hij]; exact hj, hm⟩
    · exact fun x hx => h.freeEmpty x (List.mem_of_mem_dropLast' hx)
  · next hl =>
    obtain ⟨ps, h4, h3⟩ := bind_eq_ok.1 hr
    obtain ⟨pa, h5, h3⟩ := bind_eq_ok.1 h3
    cases h3
    have hfree : c.freePages = [] := List.getLast?_eq_none_iff.1 hl
    unfold vecInsert at h4 h5
    rw [if_pos (Nat.le_refl _), List.insertIdx_length_self] at h4
    rw [if_pos (by rw [hs.tlen]; exact Nat.le_refl _), ← hs.tlen, List.insertIdx_length_self] at h5
    cases h4; cases h5
    have hlt : ∀ ps ∈ c.archPages, c.pages.length ∉ ps := fun ps hps hm => by
      have := hs.listed ps hps _ hm; omega
    refine ⟨⟨?_, ?_, ?_, ?_, ?_, ?_, ?_⟩, ?_, ?_, rfl, ?_⟩
    · intro ps hps
      rcases List.mem_or_eq_of_mem_set hps with hm | rfl
      · exact h.psNodup ps hm
      · have hplm := List.mem_of_getElem? hpl
        exact List.nodup_append.2 ⟨h.psNodup pl hplm, by simp, by
          intro a ha b hb; rw [List.mem_singleton.1 hb]; rintro rfl; exact hlt pl hplm ha⟩
    · intro j ps x hj hx
      dsimp only at hj ⊢
      rw [List.getElem?_set] at hj ⊢
      by_cases hxp : c.pages.length = x
      · subst hxp
        rw [if_pos rfl, if_pos (by simp [hs.tlen])]
        by_cases hij : i = j
        · rw [hij]
        · rw [if_neg hij] at hj
          exact absurd hx (hlt ps (List.mem_of_getElem? hj))
      · rw [if_neg hxp]
        have key : c.pageToArch[x]? = some j := by
          by_cases hij : i = j
          · subst hij
            rw [if_pos rfl, if_pos hil] at hj
            cases hj
            rcases List.mem_append.1 hx with hx | hx
            · exact h.owner i pl x hpl hx
            · exact absurd (List.mem_singleton.1 hx).symm hxp
          · rw [if_neg hij] at hj
            exact h.owner j ps x hj hx
        rw [List.getElem?_append_left (List.getElem?_eq_some_iff.1 key).1]
        exact key
    · exact h.freeNodup
    · intro x hx; simp [hfree] at hx
    · intro x hx; simp [hfree] at hx
    · intro x hx
      by_cases hxp : x = c.pages.length
      · exact .inr ⟨i, _, List.getElem?_set_self hil, by simp [hxp]⟩
      · rcases h.covers x (by simp at hx; omega) with hf | ⟨j, ps, hj, hm⟩
        · simp [hfree] at hf
        · right
          by_cases hij : i = j
          · subst hij
            rw [hpl] at hj; cases hj
            exact ⟨i, _, List.getElem?_set_self hil, List.mem_append_left _ hm⟩
          · exact ⟨j, ps, by dsimp only; rw [List.getElem?_set_ne hij]; exact hj, hm⟩
    · intro x hx; simp [hfree] at hx
    · simp [hfree]
    · rintro ⟨rp, ri⟩
      unfold Archs.row
      dsimp only
      rw [List.getElem?_append]
      split
      · rfl
      · next hge =>
        rw [List.getElem?_eq_none (l := c.pages) (by omega)]
        cases hx : ([Page.new] : List Page)[rp - c.pages.length]? with
        | none => rfl
        | some pg =>
          have := List.mem_singleton.1 (List.mem_of_getElem? hx)
          subst this
          simp [Page.new, CapVec.new]
    · intro pg hpg
      simp at hpg
      rw [← hpg]; rfl

theorem reservePage {id i : Nat} {q : Loc} (h : c.Use) (hs : c.Shape) (hr : c.reservePage dbg id i = .ok (c', q)) :
    c'.Use ∧ c.row q = none ∧ ∀ r, c'.row r = if r = q then some id else c.row r := by
  unfold Archs.reservePage at hr
  obtain ⟨pl, h1, hr⟩ := bind_eq_ok.1 hr
  obtain ⟨o, h2, hr⟩ := bind_eq_ok.1 hr
  have hpl := idx_ok.1 h1
  split at hr
  · next p =>
    obtain ⟨page, h3, hr⟩ := bind_eq_ok.1 hr
    obtain ⟨⟨page', ix⟩, h4, hr⟩ := bind_eq_ok.1 hr
    cases hr
    obtain ⟨hm, _⟩ := mem_of_findFreePage h2
    obtain ⟨k1, rfl⟩ := addEntityId_items h4
    exact h.push (idx_ok.1 h3) (fun hf => h.freeDisj p hf pl (List.mem_of_getElem? hpl) (List.mem_reverse.1 hm)) k1
  · obtain ⟨⟨c1, p⟩, h3, hr⟩ := bind_eq_ok.1 hr
    dsimp only at hr
    obtain ⟨layout, h4, hr⟩ := bind_eq_ok.1 hr
    obtain ⟨page, h5, hr⟩ := bind_eq_ok.1 hr
    obtain ⟨pl', h6, hr⟩ := bind_eq_ok.1 hr
    obtain ⟨pa, h7, hr⟩ := bind_eq_ok.1 hr
    obtain ⟨⟨page', ix⟩, h8, hr⟩ := bind_eq_ok.1 hr
    cases hr
    obtain ⟨k1, k2, k3, k4, k5⟩ := h.take hs hpl h3
    obtain ⟨_, rfl⟩ := idxSet_ok h7
    have h6' := idx_ok.1 h6
    rw [k4, hpl] at h6'
    cases h6'
    obtain ⟨j1, rfl⟩ := addEntityId_items h8
    rw [setLayout_items] at j1 ⊢
    obtain ⟨m1, m2, m3⟩ := k1.push (id := id) (pg' := page') (idx_ok.1 h5) k2 j1
    refine ⟨m1, ?_, fun r => ?_⟩
    · rw [← k3]; exact m2
    · rw [← k3]; exact m3 r

theorem addEntity {id : Nat} {a : Archetype} {q : Loc} (h : c.Use) (hs : c.Shape) (ha : a.Even)
    (hr : c.addEntity dbg id a = .ok (c', q)) :
    c'.Use ∧ c.row q = none ∧ ∀ r, c'.row r = if r = q then some id else c.row r := by
  unfold Archs.addEntity at hr
  obtain ⟨⟨c1, i⟩, h1, hr⟩ := bind_eq_ok.1 hr
  have hrow : ∀ r, c1.row r = c.row r := fun r => by unfold Archs.row; rw [(hs.reserveArchetype ha h1).2.2.1]
  obtain ⟨k1, k2, k3⟩ := (h.reserveArchetype h1).reservePage (hs.reserveArchetype ha h1).1 hr
  exact ⟨k1, by rw [← hrow]; exact k2, fun r => by rw [k3, hrow]⟩

theorem move {id pi : Nat} {prev q : Loc} {a : Archetype} (h : c.Use) (hs : c.Shape) (ha : a.Even)
    (hr : c.moveEntityToOtherArchetype dbg id prev pi a = .ok (c', q)) :
    c'.Use ∧ c.row q = none ∧ ∀ r, c'.row r = if r = q then some id else c.row r := by
  unfold Archs.moveEntityToOtherArchetype at hr
  obtain ⟨⟨c1, i⟩, h1, hr⟩ := bind_eq_ok.1 hr
  dsimp only at hr
  obtain ⟨⟨c2, q'⟩, h2, hr⟩ := bind_eq_ok.1 hr
  dsimp only at hr
  obtain ⟨_, _, hr⟩ := bind_eq_ok.1 hr
  obtain ⟨_, _, hr⟩ := bind_eq_ok.1 hr
  obtain ⟨_, _, hr⟩ := bind_eq_ok.1 hr
  obtain ⟨_, _, hr⟩ := bind_eq_ok.1 hr
  obtain ⟨_, _, hr⟩ := bind_eq_ok.1 hr
  obtain ⟨ps, h3, hr⟩ := bind_eq_ok.1 hr
  cases hr
  have hsame := SameIds.copyLoop _ h3
  have hadd : c.addEntity dbg id a = .ok (c2, q) := by
    unfold Archs.addEntity
    simp only [h1, ok_bind]
    exact h2
  obtain ⟨k1, k2, k3⟩ := h.addEntity hs ha hadd
  exact ⟨k1.setPages hsame, k2, fun r => by rw [row_eq (c := c2) hsame, k3]⟩

theorem freePage {p : Nat} {pg : Page} (h : c.Use) (hp : c.pages[p]? = some pg) (he : pg.ids.items = [])
    (hf : p ∉ c.freePages) (hr : c.freePage p = .ok c') : c'.Use ∧ c'.pages = c.pages := by
  have hlt := (List.getElem?_eq_some_iff.1 hp).1
  obtain ⟨i, ps, hi, hm⟩ := (h.covers p hlt).resolve_left hf
  have hil := (List.getElem?_eq_some_iff.1 hi).1
  have hto := h.owner i ps p hi hm
  unfold Archs.freePage at hr
  rw [idx_of_some hto, ok_bind] at hr
  split at hr
  · cases hr; exact ⟨h, rfl⟩
  · simp only [idx_of_some hi, ok_bind, List.contains_iff_mem, hm, if_true] at hr
    cases hr
    refine ⟨⟨?_, ?_, ?_, ?_, ?_, ?_, ?_⟩, rfl⟩
    · intro ps' hps
      rcases List.mem_or_eq_of_mem_set hps with hm' | rfl
      · exact h.psNodup ps' hm'
      · exact (h.psNodup ps (List.mem_of_getElem? hi)).erase _
    · intro j ps' x hj hx
      dsimp only at hj ⊢
      rw [List.getElem?_set] at hj
      by_cases hij : i = j
      · subst hij
        rw [if_pos rfl, if_pos hil] at hj
        cases hj
        exact h.owner i ps x hi (List.mem_of_mem_erase hx)
      · rw [if_neg hij] at hj
        exact h.owner j ps' x hj hx
    · exact List.nodup_append.2 ⟨h.freeNodup, by simp, by
        intro a ha b hb; rw [List.mem_singleton.1 hb]; rintro rfl; exact hf ha⟩
    · intro x hx ps' hps hxp
      have hps' : ∃ j : Nat, (c.archPages.set i (ps.erase p))[j]? = some ps' := List.mem_iff_getElem?.1 hps
      obtain ⟨j, hj⟩ := hps'
      rw [List.getElem?_set] at hj
      by_cases hij : i = j
      · subst hij
        rw [if_pos rfl, if_pos hil] at hj
        cases hj
        rcases List.mem_append.1 hx with hx | hx
        · exact h.freeDisj x hx ps (List.mem_of_getElem? hi) (List.mem_of_mem_erase hxp)
        · rw [List.mem_singleton.1 hx] at hxp
          exact (h.psNodup ps (List.mem_of_getElem? hi)).not_mem_erase hxp
      · rw [if_neg hij] at hj
        rcases List.mem_append.1 hx with hx | hx
        · exact h.freeDisj x hx ps' (List.mem_of_getElem? hj) hxp
        · rw [List.mem_singleton.1 hx] at hxp
          have := h.owner j ps' p hj hxp
          rw [hto] at this
          exact hij (Option.some.inj this)
    · intro x hx
      rcases List.mem_append.1 hx with hx | hx
      · exact h.freeLt x hx
      · rw [List.mem_singleton.1 hx]; exact hlt
    · intro x hx
      by_cases hxp : x = p
      · exact .inl (by simp [hxp])
      · rcases h.covers x hx with hf' | ⟨j, ps', hj, hm'⟩
        · exact .inl (List.mem_append_left _ hf')
        · right
          by_cases hij : i = j
          · subst hij
            rw [hi] at hj; cases hj
            exact ⟨i, _, List.getElem?_set_self hil, (List.mem_erase_of_ne hxp).2 hm'⟩
          · exact ⟨j, ps', by dsimp only; rw [List.getElem?_set_ne hij]; exact hj, hm'⟩
    · intro x hx pgx hpgx
      rcases List.mem_append.1 hx with hx | hx
      · exact h.freeEmpty x hx pgx hpgx
      · rw [List.mem_singleton.1 hx] at hpgx
        dsimp only at hpgx
        rw [hp] at hpgx; cases hpgx; exact he

/-- `swap_remove` of a page: the last id takes the place of the removed one. -/
theorem swapRemoveIndex_items {pg pg' : Page} {index : Nat} {a : Archetype} {l : Layout} {o : Option Nat}
    (hr : pg.swapRemoveEntityAtIndex index a l = .ok (pg', o)) :
    ∃ last, pg.ids.items.getLast? = some last ∧ index < pg.ids.items.length ∧
      pg'.ids.items = (pg.ids.items.set index last).dropLast ∧
      o = if index + 1 = pg.ids.items.length then none else some last := by
  unfold Page.swapRemoveEntityAtIndex at hr
  obtain ⟨ids, h1, hr⟩ := bind_eq_ok.1 hr
  unfold CapVec.swapRemove at h1
  split at h1
  · cases h1
  · next last hlast =>
    split at h1 <;> cases h1
    next hlt =>
    refine ⟨last, hlast, hlt, ?_⟩
    dsimp only at hr
    split at hr
    · next hl =>
      obtain ⟨p1, h2, hr⟩ := bind_eq_ok.1 hr
      obtain ⟨r, h3, hr⟩ := bind_eq_ok.1 hr
      cases hr
      unfold Page.moveComponentData at h2
      obtain ⟨d, h4, h2⟩ := bind_eq_ok.1 h2
      cases h2
      refine ⟨rfl, ?_⟩
      have h3 := idx_ok.1 h3
      dsimp only at h3
      simp only [List.length_dropLast, List.length_set] at hl
      rw [List.getElem?_dropLast, if_pos (by simp; omega), List.getElem?_set_self hlt] at h3
      cases h3
      rw [if_neg (by omega)]
    · next hl =>
      cases hr
      simp only [List.length_dropLast, List.length_set] at hl
      exact ⟨rfl, by rw [if_pos (by omega)]⟩

theorem swapRemoveEntity {q : Loc} {o : Option Nat} (h : c.Use) (hr : c.swapRemoveEntity q = .ok (c', o)) :
    c'.Use ∧ ∃ last : Loc, last.page = q.page ∧ c.row last ≠ none ∧ c.row q ≠ none ∧
      (o = if q = last then none else c.row last) ∧
      ∀ r, c'.row r = if r = last then none else if r = q then c.row last else c.row r := by
  unfold Archs.swapRemoveEntity at hr
  obtain ⟨ai, h1, hr⟩ := bind_eq_ok.1 hr
  obtain ⟨pg, h2, hr⟩ := bind_eq_ok.1 hr
  obtain ⟨a, h3, hr⟩ := bind_eq_ok.1 hr
  obtain ⟨l, h4, hr⟩ := bind_eq_ok.1 hr
  obtain ⟨⟨pg', o'⟩, h5, hr⟩ := bind_eq_ok.1 hr
  obtain ⟨last, k1, k2, k3, k4⟩ := swapRemoveIndex_items h5
  have hp := idx_ok.1 h2
  have hlt := (List.getElem?_eq_some_iff.1 hp).1
  have hnf : q.page ∉ c.freePages := fun hf => by
    have := h.freeEmpty _ hf pg hp
    rw [this] at k2
    simp at k2
  have hU : { c with pages := c.pages.set q.page pg' }.Use := by
    refine ⟨h.psNodup, h.owner, h.freeNodup, h.freeDisj, ?_, ?_, ?_⟩
    · intro x hx; simpa using h.freeLt x hx
    · intro x hx; exact h.covers x (by simpa using hx)
    · intro x hx pgx hpgx
      have hne : q.page ≠ x := fun he => hnf (he ▸ hx)
      dsimp only at hpgx
      rw [List.getElem?_set_ne hne] at hpgx
      exact h.freeEmpty x hx pgx hpgx
  have hlast : pg.ids.items[pg.ids.items.length - 1]? = some last := by
    rw [← List.getLast?_eq_getElem?]; exact k1
  have hrow0 : ∀ i, c.row ⟨q.page, i⟩ = pg.ids.items[i]? := fun i => by unfold Archs.row; simp [hp]
  have hrows : ∃ last : Loc, last.page = q.page ∧ c.row last ≠ none ∧ c.row q ≠ none ∧
      (o' = if q = last then none else c.row last) ∧
      ∀ r, Archs.row { c with pages := c.pages.set q.page pg' } r =
        if r = last then none else if r = q then c.row last else c.row r := by
    refine ⟨⟨q.page, pg.ids.items.length - 1⟩, rfl, by rw [hrow0, hlast]; simp, ?_, ?_, ?_⟩
    · have := hrow0 q.index
      rw [show (⟨q.page, q.index⟩ : Loc) = q from rfl] at this
      rw [this, List.getElem?_eq_getElem k2]; simp
    · rw [hrow0, hlast, k4]
      have : q = ⟨q.page, pg.ids.items.length - 1⟩ ↔ q.index + 1 = pg.ids.items.length := by
        cases q; simp only [Loc.mk.injEq, true_and]; dsimp only at k2; omega
      simp only [this]
    · rintro ⟨rp, ri⟩
      unfold Archs.row
      dsimp only
      rw [List.getElem?_set]
      by_cases hpr : q.page = rp
      · subst hpr
        have e1 : ((⟨q.page, ri⟩ : Loc) = q) ↔ ri = q.index := by cases q; simp
        simp only [if_true, hlt, hp, Option.bind_some, k3, Loc.mk.injEq, true_and, List.getElem?_dropLast,
          List.length_set, List.getElem?_set, e1, hlast]
        rcases Nat.lt_trichotomy ri (pg.ids.items.length - 1) with h6 | h6 | h6
        · rw [if_pos h6, if_neg (show ¬ ri = pg.ids.items.length - 1 by omega)]
          by_cases hri : q.index = ri
          · rw [if_pos hri, if_pos hri.symm, if_pos k2]
          · rw [if_neg hri, if_neg (Ne.symm hri)]
        · rw [if_neg (by omega), if_pos h6]
        · rw [if_neg (by omega), if_neg (by omega), if_neg (by omega), List.getElem?_eq_none (by omega)]
      · rw [if_neg hpr, if_neg (fun he => hpr (Loc.mk.inj he).1.symm), if_neg (fun he => hpr (by rw [← he]))]
  dsimp only at hr
  split at hr
  · next he =>
    obtain ⟨c1, h6, hr⟩ := bind_eq_ok.1 hr
    cases hr
    have hempty : pg'.ids.items = [] := by
      rw [k3, ← List.length_eq_zero_iff]
      have : pg.ids.items.length = 1 := by simpa [Page.entityCount] using he
      simp [this]
    obtain ⟨m1, m2⟩ := hU.freePage (p := q.page) (pg := pg') (by simp [hlt]) hempty hnf h6
    refine ⟨m1, ?_⟩
    have : ∀ r, c'.row r = Archs.row { c with pages := c.pages.set q.page pg' } r := fun r => by
      unfold Archs.row; rw [m2]
    simp only [this]
    exact hrows
  · cases hr
    exact ⟨hU, hrows⟩

end Archs.Use

/-- The rows of the store: every id in `A` has a row at its recorded place, and there are no other rows, except maybe
`extra`. -/
structure Store.Rows (s : Store) (A : Nat → Prop) (extra : Option Loc) : Prop where
  use : s.archs.Use
  on : ∀ i, A i → ∃ q, Pos s.toPage s.toIndex i q ∧ s.archs.row q = some i ∧ extra ≠ some q
  rows : ∀ q i, s.archs.row q = some i → extra = some q ∨ (A i ∧ Pos s.toPage s.toIndex i q)

namespace Store.Rows
variable {U : Universe} {dbg : Bool} {s s' : Store} {A B : Nat → Prop} {extra : Option Loc}

theorem congr (h : s.Rows A extra) (hAB : ∀ i, A i ↔ B i) : s.Rows B extra :=
  ⟨h.use, fun i hi => h.on i ((hAB i).2 hi), fun q i hq => (h.rows q i hq).imp id fun h => ⟨(hAB i).1 h.1, h.2⟩⟩

/-- Nothing that matters changed. -/
theorem same (h : s.Rows A extra) (ha : s'.archs = s.archs) (h1 : s'.toPage = s.toPage) (h2 : s'.toIndex = s.toIndex) :
    s'.Rows A extra := by
  refine ⟨by rw [ha]; exact h.use, ?_, ?_⟩
  · rw [ha, h1, h2]; exact h.on
  · rw [ha, h1, h2]; exact h.rows

/-- One id is no longer of interest; its row remains. -/
theorem forget (h : s.Rows A none) {id : Nat} {q : Loc} (hA : A id) (hp : Pos s.toPage s.toIndex id q) :
    s.Rows (fun i => A i ∧ i ≠ id) (some q) ∧ s.archs.row q = some id := by
  obtain ⟨q', k1, k2, _⟩ := h.on id hA
  have := k1.unique hp
  subst this
  refine ⟨⟨h.use, ?_, ?_⟩, k2⟩
  · rintro i ⟨hi, hne⟩
    obtain ⟨p, j1, j2, _⟩ := h.on i hi
    refine ⟨p, j1, j2, ?_⟩
    rintro ⟨rfl⟩
    rw [k2] at j2
    exact hne (Option.some.inj j2).symm
  · intro r i hr
    rcases h.rows r i hr with h0 | ⟨h1, h2⟩
    · cases h0
    · by_cases hi : i = id
      · subst hi
        exact .inl (by rw [h2.unique hp])
      · exact .inr ⟨⟨h1, hi⟩, h2⟩

theorem pos_write {tp ti tp' ti' : Raw Nat} {id : Nat} {q : Loc} (h1 : Raw.write tp id q.page = .ok tp')
    (h2 : Raw.write ti id q.index = .ok ti') : Pos tp' ti' id q ∧ ∀ i r, i ≠ id → (Pos tp' ti' i r ↔ Pos tp ti i r) := by
  obtain ⟨k1, rfl⟩ := Raw.write_ok.1 h1
  obtain ⟨k2, rfl⟩ := Raw.write_ok.1 h2
  refine ⟨⟨List.getElem?_set_self k1, List.getElem?_set_self k2⟩, fun i r hne => ?_⟩
  constructor
  · rintro ⟨j1, j2⟩
    rw [List.getElem?_set_ne (Ne.symm hne)] at j1 j2
    exact ⟨j1, j2⟩
  · rintro ⟨j1, j2⟩
    exact ⟨by rw [List.getElem?_set_ne (Ne.symm hne)]; exact j1, by rw [List.getElem?_set_ne (Ne.symm hne)]; exact j2⟩

/-- A new row, with its place recorded. -/
theorem place (h : s.Rows A extra) {id : Nat} {q : Loc} (hA : ¬ A id) (hu : s'.archs.Use) (hq : s.archs.row q = none)
    (hx : extra ≠ some q) (hrow : ∀ r, s'.archs.row r = if r = q then some id else s.archs.row r)
    (hp : Pos s'.toPage s'.toIndex id q)
    (hpos : ∀ i r, i ≠ id → (Pos s'.toPage s'.toIndex i r ↔ Pos s.toPage s.toIndex i r)) :
    s'.Rows (fun i => A i ∨ i = id) extra := by
  refine ⟨hu, ?_, ?_⟩
  · rintro i (hi | rfl)
    · have hne : i ≠ id := fun he => hA (he ▸ hi)
      obtain ⟨p, j1, j2, j3⟩ := h.on i hi
      refine ⟨p, (hpos i p hne).2 j1, ?_, j3⟩
      rw [hrow, if_neg, j2]
      rintro rfl
      rw [hq] at j2; cases j2
    · exact ⟨q, hp, by rw [hrow, if_pos rfl], hx⟩
  · intro r i hr
    rw [hrow] at hr
    split at hr
    · next he =>
      cases hr
      subst he
      exact .inr ⟨.inr rfl, hp⟩
    · rcases h.rows r i hr with h0 | ⟨h1, h2⟩
      · exact .inl h0
      · have hne : i ≠ id := fun he => hA (he ▸ h1)
        exact .inr ⟨.inl h1, (hpos i r hne).2 h2⟩

theorem swapRemove (h : s.Rows A (some q)) (hr : s.swapRemoveInternal q = .ok s') : s'.Rows A none := by
  unfold Store.swapRemoveInternal at hr
  obtain ⟨⟨c, info⟩, h1, hr⟩ := bind_eq_ok.1 hr
  obtain ⟨hu, last, k1, k2, k3, k4, k5⟩ := h.use.swapRemoveEntity h1
  obtain ⟨m, hm⟩ := Option.ne_none_iff_exists'.1 k2
  dsimp only at hr
  by_cases hql : q = last
  · rw [if_pos hql] at k4
    subst k4
    cases hr
    subst hql
    have hrow : ∀ r, c.row r = if r = q then none else s.archs.row r := by
      intro r; rw [k5]; split <;> rfl
    refine ⟨hu, ?_, ?_⟩
    · intro i hi
      obtain ⟨p, j1, j2, j3⟩ := h.on i hi
      exact ⟨p, j1, by dsimp only; rw [hrow, if_neg (fun he => j3 (by rw [he])), j2], by simp⟩
    · intro r i hr
      dsimp only at hr
      rw [hrow] at hr
      split at hr
      · cases hr
      · next hne =>
        rcases h.rows r i hr with h0 | h0
        · exact absurd (Option.some.inj h0).symm hne
        · exact .inr h0
  · rw [if_neg hql, hm] at k4
    subst k4
    obtain ⟨ti, h2, hr⟩ := bind_eq_ok.1 hr
    cases hr
    obtain ⟨w1, rfl⟩ := Raw.write_ok.1 h2
    obtain ⟨hAm, hPm⟩ := (h.rows last m hm).resolve_left (fun he => hql (Option.some.inj he))
    have hPq : Pos s.toPage (s.toIndex.set m (some q.index)) m q :=
      ⟨by rw [← k1]; exact hPm.page, List.getElem?_set_self w1⟩
    have hPo : ∀ {i r}, i ≠ m → Pos s.toPage s.toIndex i r → Pos s.toPage (s.toIndex.set m (some q.index)) i r :=
      fun hne hp => ⟨hp.page, by rw [List.getElem?_set_ne (Ne.symm hne)]; exact hp.index⟩
    refine ⟨hu, ?_, ?_⟩
    · intro i hi
      obtain ⟨p, j1, j2, j3⟩ := h.on i hi
      by_cases hpl : p = last
      · subst hpl
        rw [hm] at j2
        cases j2
        refine ⟨q, hPq, ?_, by simp⟩
        dsimp only
        rw [k5, if_neg hql, if_pos rfl, hm]
      · have hne : i ≠ m := by
          rintro rfl
          exact hpl (j1.unique hPm)
        refine ⟨p, hPo hne j1, ?_, by simp⟩
        dsimp only
        rw [k5, if_neg hpl, if_neg (fun he => j3 (by rw [he])), j2]
    · intro r i hri
      dsimp only at hri
      rw [k5] at hri
      split at hri
      · cases hri
      · next hrl =>
        split at hri
        · next hrq =>
          subst hrq
          rw [hm] at hri
          cases hri
          exact .inr ⟨hAm, hPq⟩
        · next hrq =>
          rcases h.rows r i hri with h0 | ⟨h0, h0'⟩
          · exact absurd (Option.some.inj h0).symm hrq
          · have hne : i ≠ m := by
              rintro rfl
              exact hrl (h0'.unique hPm)
            exact .inr ⟨h0, hPo hne h0'⟩

theorem getLoc {id : Nat} {q : Loc} (h : s.getLocUnchecked id = .ok q) : Pos s.toPage s.toIndex id q := by
  unfold Store.getLocUnchecked at h
  obtain ⟨p, h1, h⟩ := bind_eq_ok.1 h
  obtain ⟨i, h2, h⟩ := bind_eq_ok.1 h
  cases h
  exact ⟨Raw.read_ok.1 h1, Raw.read_ok.1 h2⟩

theorem move {e : Entity} {a : Archetype} {q : Loc} (h : s.Rows A none) (hs : s.Shape) (ha : a.Even) (hA : A e.id)
    (hr : s.moveEntityToOtherArchetype dbg e a = .ok (s', q)) : s'.Rows A none := by
  unfold Store.moveEntityToOtherArchetype at hr
  obtain ⟨p, h1, hr⟩ := bind_eq_ok.1 hr
  obtain ⟨ai, h2, hr⟩ := bind_eq_ok.1 hr
  obtain ⟨⟨c, q'⟩, h3, hr⟩ := bind_eq_ok.1 hr
  dsimp only at hr
  obtain ⟨x, h4, hr⟩ := bind_eq_ok.1 hr
  obtain ⟨y, h5, hr⟩ := bind_eq_ok.1 hr
  obtain ⟨s1, h6, hr⟩ := bind_eq_ok.1 hr
  cases hr
  obtain ⟨k0, krow⟩ := h.forget hA (getLoc h1)
  obtain ⟨k1, k2, k3⟩ := h.use.move hs.archs ha h3
  obtain ⟨j1, j2⟩ := pos_write h4 h5
  have hne : (some p : Option Loc) ≠ some q := by
    rintro ⟨rfl⟩
    rw [k2] at krow; cases krow
  have := (k0.place (s' := { s with archs := c, toPage := x, toIndex := y }) (fun h => h.2 rfl) k1 k2 hne k3 j1 j2).swapRemove h6
  refine this.congr fun i => ?_
  by_cases hi : i = e.id
  · subst hi; simp [hA]
  · simp [hi]

theorem recordRow {id : Nat} {q : Loc} {c : Archs} (h : s.Rows A none) (hA : ¬ A id) (hu : c.Use) (hq : s.archs.row q = none)
    (hrow : ∀ r, c.row r = if r = q then some id else s.archs.row r)
    (hr : { s with archs := c }.recordRow id q = .ok s') : s'.Rows (fun i => A i ∨ i = id) none := by
  unfold Store.recordRow at hr
  obtain ⟨_, h1, hr⟩ := bind_eq_ok.1 hr
  obtain ⟨_, h2, hr⟩ := bind_eq_ok.1 hr
  obtain ⟨_, _, hr⟩ := bind_eq_ok.1 hr
  cases hr
  obtain ⟨j1, j2⟩ := pos_write h1 h2
  exact h.place hA hu hq (by simp) hrow j1 j2

theorem ensure {e : Entity} {ts : List TypeId} {q : Loc} (h : s.Rows A none) (hs : s.Shape)
    (hA : s.hasArch.bit e.id = true ↔ A e.id)
    (hr : s.ensureComponents U dbg e ts = .ok (s', q)) : s'.Rows (fun i => A i ∨ i = e.id) none := by
  unfold Store.ensureComponents at hr
  obtain ⟨b, h1, hr⟩ := bind_eq_ok.1 hr
  have hb := (Words.isOn_ok.1 h1).2
  split at hr
  · next hbt =>
    have hAe := hA.1 (hb.symm.trans hbt)
    have hAA : ∀ i, A i ↔ A i ∨ i = e.id := fun i => ⟨.inl, fun h => h.elim id fun h => h ▸ hAe⟩
    obtain ⟨p, h2, hr⟩ := bind_eq_ok.1 hr
    obtain ⟨ai, h3, hr⟩ := bind_eq_ok.1 hr
    obtain ⟨a, h4, hr⟩ := bind_eq_ok.1 hr
    split at hr
    · cases hr; exact h.congr hAA
    · obtain ⟨⟨na, bb⟩, h5, hr⟩ := bind_eq_ok.1 hr
      exact (h.move hs (ArchetypeBuilder.build_even h5) hAe hr).congr hAA
  · next hbt =>
    obtain ⟨a, h2, hr⟩ := bind_eq_ok.1 hr
    obtain ⟨⟨c, q'⟩, h3, hr⟩ := bind_eq_ok.1 hr
    dsimp only at hr
    obtain ⟨s1, h4, hr⟩ := bind_eq_ok.1 hr
    cases hr
    obtain ⟨k1, k2, k3⟩ := h.use.addEntity hs.archs (Archetype.withComponents_even h2) h3
    exact h.recordRow (fun hAe => hbt (hb.trans (hA.2 hAe))) k1 k2 k3 h4

theorem destroyRow {e : Entity} (h : s.Rows A none) (hA : s.hasArch.bit e.id = true ↔ A e.id)
    (hr : s.destroyRow e = .ok s') : s'.Rows (fun i => A i ∧ i ≠ e.id) none := by
  unfold Store.destroyRow at hr
  obtain ⟨b, h1, hr⟩ := bind_eq_ok.1 hr
  have hb := (Words.isOn_ok.1 h1).2
  split at hr
  · next hbt =>
    obtain ⟨q, h2, hr⟩ := bind_eq_ok.1 hr
    exact (h.forget (hA.1 (hb.symm.trans hbt)) (getLoc h2)).1.swapRemove hr
  · next hbt =>
    cases hr
    refine h.congr fun i => ⟨fun hi => ⟨hi, ?_⟩, And.left⟩
    rintro rfl
    exact hbt (hb.trans (hA.2 hi))

/-- The records grew. -/
theorem grow (h : s.Rows A none) {n : Nat} (hn : ∀ i, A i → i < n) (ha : s'.archs = s.archs)
    (h1 : ∀ i, i < n → s'.toPage[i]? = s.toPage[i]?) (h2 : ∀ i, i < n → s'.toIndex[i]? = s.toIndex[i]?) : s'.Rows A none := by
  have hpos : ∀ {i q}, A i → Pos s.toPage s.toIndex i q → Pos s'.toPage s'.toIndex i q := fun hi hp =>
    ⟨by rw [h1 _ (hn _ hi)]; exact hp.page, by rw [h2 _ (hn _ hi)]; exact hp.index⟩
  refine ⟨by rw [ha]; exact h.use, ?_, ?_⟩
  · intro i hi
    obtain ⟨q, j1, j2, j3⟩ := h.on i hi
    exact ⟨q, hpos hi j1, by rw [ha]; exact j2, j3⟩
  · intro q i hq
    rw [ha] at hq
    rcases h.rows q i hq with h0 | ⟨h0, h0'⟩
    · cases h0
    · exact .inr ⟨h0, hpos h0 h0'⟩

theorem setPages (h : s.Rows A none) {ps : List Page} (hp : SameIds s.archs.pages ps) :
    { s with archs := { s.archs with pages := ps } }.Rows A none := by
  have hrow : ∀ r, Archs.row { s.archs with pages := ps } r = s.archs.row r := fun r =>
    Archs.Use.row_eq (c := s.archs) (c' := { s.archs with pages := ps }) hp r
  refine ⟨h.use.setPages hp, ?_, ?_⟩
  · intro i hi
    obtain ⟨q, j1, j2, j3⟩ := h.on i hi
    exact ⟨q, j1, by dsimp only; rw [hrow]; exact j2, j3⟩
  · intro q i hq
    dsimp only at hq
    rw [hrow] at hq
    exact h.rows q i hq

end Store.Rows

/-- The id of a live entity that was given components. -/
def Holder (h : List Event) (i : Nat) : Prop := ∃ e ∈ alive h, e ∈ given h ∧ e.id = i

/-- In every state reached by calls that returned, the rows are those of the live entities that were given components. -/
theorem loose_rows {U : Universe} {dbg : Bool} {cap : Nat} {h : List Event} {s : Store} (hx : LooseExec U dbg cap h s) :
    s.Rows (Holder h) none := by
  induction hx with
  | init hs =>
    unfold Store.withCapacity at hs
    obtain ⟨_, _, hs⟩ := bind_eq_ok.1 hs
    cases hs
    refine ⟨Archs.Use.new, ?_, ?_⟩
    · rintro i ⟨e, he, _⟩; cases he
    · intro q i hq
      unfold Archs.row at hq
      cases hpg : Archs.new.pages[q.page]? with
      | none => simp [hpg] at hq
      | some pg =>
        have := List.mem_of_getElem? hpg
        simp only [Archs.new, List.mem_replicate] at this
        simp [hpg, this.2, Page.new, CapVec.new] at hq
  | @step h s s' ev hx hl hr ih =>
    have hc := loose_core hx
    have hs := loose_shape hx
    obtain ⟨hg1, hg2⟩ := given_bit hx
    have hinj : ∀ e ∈ alive h, ∀ x ∈ alive h, e.id = x.id → e = x := by
      rw [alive_eq]; exact hc.inj
    have hnd : (alive h).Nodup := by rw [alive_eq]; exact hc.ents.nodup_live
    have hlt : ∀ i, Holder h i → i < s.ents.capacity := by
      rintro i ⟨e, he, _, rfl⟩
      rw [alive_eq] at he
      exact hc.ents.id_lt he
    have hbit : ∀ e ∈ alive h, (s.hasArch.bit e.id = true ↔ Holder h e.id) := by
      intro e he
      rw [hg2 e he]
      exact ⟨fun hg => ⟨e, he, hg, rfl⟩, fun ⟨x, hx, hxg, hid⟩ => hinj x hx e he hid ▸ hxg⟩
    cases ev with
    | created e =>
      simp only [Returns, Store.createEntity] at hr
      obtain ⟨⟨s1, e1⟩, h1, hr⟩ := bind_eq_ok.1 hr
      obtain ⟨b, h2, hr⟩ := bind_eq_ok.1 hr
      cases hr
      obtain ⟨s2, e2, k1, _, k3, k4, k5, _, _, _, k9, k10, k11, k12, _⟩ := hc.register (dbg := dbg) hl
      rw [h1] at k1
      cases k1
      rw [← handles_eq] at k3
      have h0 : s1.Rows (Holder h) none := ih.grow hlt k5 k10 k11
      refine Store.Rows.same (s := s1) (h0.congr fun i => ⟨fun ⟨x, hx, hg, hi⟩ => ⟨x, List.mem_cons_of_mem _ hx, hg, hi⟩, ?_⟩) rfl rfl rfl
      rintro ⟨x, hx, hg, hi⟩
      rcases List.mem_cons.1 hx with rfl | hx
      · exact absurd (hg1 _ hg) k3
      · exact ⟨x, hx, hg, hi⟩
    | createdWith e ts init =>
      obtain ⟨a, ha, _, hr⟩ := hr
      unfold Store.createEntityWithArchetype at hr
      obtain ⟨⟨s1, e1⟩, h1, hr⟩ := bind_eq_ok.1 hr
      obtain ⟨⟨c, q⟩, h3, hr⟩ := bind_eq_ok.1 hr
      dsimp only at hr h3
      obtain ⟨s2, h2, hr⟩ := bind_eq_ok.1 hr
      cases hr
      obtain ⟨hs1, _⟩ := Store.Shape.register hc hs hl h1
      obtain ⟨s3, e3, k1, _, k3, k4, k5, _, _, _, k9, k10, k11, k12, _⟩ := hc.register (dbg := dbg) hl
      rw [h1] at k1
      cases k1
      rw [← alive_eq] at k4
      have h0 : s1.Rows (Holder h) none := ih.grow hlt k5 k10 k11
      obtain ⟨j1, j2, j3⟩ := h0.use.addEntity hs1.archs ha.wf.even h3
      refine (h0.recordRow (fun ⟨x, hx, _, hid⟩ => k4 x hx hid) j1 j2 j3 h2).congr fun i => ⟨?_, ?_⟩
      · rintro (⟨x, hx, hg, hi⟩ | rfl)
        · exact ⟨x, List.mem_cons_of_mem _ hx, List.mem_cons_of_mem _ hg, hi⟩
        · exact ⟨e, List.mem_cons_self, List.mem_cons_self, rfl⟩
      · rintro ⟨x, hx, hg, rfl⟩
        rcases List.mem_cons.1 hx with rfl | hx
        · exact .inr rfl
        · rcases List.mem_cons.1 hg with rfl | hg
          · exact .inr rfl
          · exact .inl ⟨x, hx, hg, rfl⟩
    | destroyed e =>
      have hle : e ∈ alive h := by rw [alive_eq]; exact hl
      simp only [Returns, Store.destroyEntity] at hr
      obtain ⟨s1, h1, hr⟩ := bind_eq_ok.1 hr
      obtain ⟨_, _, hr⟩ := bind_eq_ok.1 hr
      obtain ⟨tg, h2, hr⟩ := bind_eq_ok.1 hr
      obtain ⟨_, _, hr⟩ := bind_eq_ok.1 hr
      cases hr
      refine Store.Rows.same (s := s1) ((ih.destroyRow (hbit e hle) h1).congr fun i => ⟨?_, ?_⟩) rfl rfl rfl
      · rintro ⟨⟨x, hx, hg, rfl⟩, hne⟩
        exact ⟨x, (List.mem_erase_of_ne fun he => hne (by rw [he])).2 hx, hg, rfl⟩
      · rintro ⟨x, hx, hg, rfl⟩
        have hx' := List.mem_of_mem_erase hx
        refine ⟨⟨x, hx', hg, rfl⟩, fun hid => ?_⟩
        rw [hinj x hx' e hle hid] at hx
        exact hnd.not_mem_erase hx
    | added e vals =>
      simp only [Returns, Store.addComponents] at hr
      obtain ⟨b, h1, hr⟩ := bind_eq_ok.1 hr
      have hlt1 := hc.isAlive_lt h1
      rw [hc.isAlive hlt1, ← alive_eq] at h1
      cases h1
      split at hr
      · next hb =>
        cases hr
        have hna : e ∉ alive h := by simpa using hb
        have hg : given (.added e vals :: h) = given h := by simp [given, hna]
        have : Holder (.added e vals :: h) = Holder h := by unfold Holder; rw [hg]; rfl
        rw [this]
        exact ih
      · next hb =>
        have hle : e ∈ alive h := by simpa using hb
        obtain ⟨⟨s1, q⟩, h2, hr⟩ := bind_eq_ok.1 hr
        dsimp only at hr
        obtain ⟨v, h3, hr⟩ := bind_eq_ok.1 hr
        obtain ⟨o, h4, hr⟩ := bind_eq_ok.1 hr
        obtain ⟨pg, h5, hr⟩ := bind_eq_ok.1 hr
        cases hr
        refine ((ih.ensure hs (hbit e hle) h2).setPages (SameIds.assign _ h5)).congr fun i => ?_
        have hg : given (.added e vals :: h) = e :: given h := by simp [given, hle]
        unfold Holder
        rw [hg]
        constructor
        · rintro (⟨x, hx, hg, hi⟩ | rfl)
          · exact ⟨x, hx, List.mem_cons_of_mem _ hg, hi⟩
          · exact ⟨e, hle, List.mem_cons_self, rfl⟩
        · rintro ⟨x, hx, hg, rfl⟩
          rcases List.mem_cons.1 hg with rfl | hg
          · exact .inr rfl
          · exact .inl ⟨x, hx, hg, rfl⟩
    | removed e ts =>
      simp only [Returns, Store.removeComponents] at hr
      obtain ⟨b, h1, hr⟩ := bind_eq_ok.1 hr
      cases b with
      | false => cases hr; exact ih
      | true =>
        have hA : Holder h e.id := by
          unfold Store.isValidEntityWithArchetype at h1
          obtain ⟨b, h2, h1⟩ := bind_eq_ok.1 h1
          cases b with
          | false => simp at h1
          | true =>
            have hlt1 := hc.isAlive_lt h2
            rw [hc.isAlive hlt1, ← alive_eq] at h2
            have hle : e ∈ alive h := by simpa using h2
            exact (hbit e hle).1 (Words.isOn_ok.1 h1).2.symm
        obtain ⟨p, h2, hr⟩ := bind_eq_ok.1 hr
        obtain ⟨ai, h3, hr⟩ := bind_eq_ok.1 hr
        obtain ⟨a, h4, hr⟩ := bind_eq_ok.1 hr
        obtain ⟨⟨na, bb⟩, h5, hr⟩ := bind_eq_ok.1 hr
        obtain ⟨⟨s1, q⟩, h6, hr⟩ := bind_eq_ok.1 hr
        cases hr
        exact ih.move hs (ArchetypeBuilder.build_even h5) hA h6
    | assigned e vals =>
      obtain ⟨b, hr⟩ := hr
      unfold Store.setComponents at hr
      obtain ⟨o, h1, hr⟩ := bind_eq_ok.1 hr
      split at hr
      · cases hr; exact ih
      · obtain ⟨pg, h2, hr⟩ := bind_eq_ok.1 hr
        cases hr
        exact ih.setPages (SameIds.assign _ h2)
    | tagged t e => obtain ⟨_, _, hr⟩ := bind_eq_ok.1 hr; cases hr; exact ih.same rfl rfl rfl
    | untagged t e => obtain ⟨_, _, hr⟩ := bind_eq_ok.1 hr; cases hr; exact ih.same rfl rfl rfl
    | orderedLast g e => obtain ⟨_, _, hr⟩ := bind_eq_ok.1 hr; cases hr; exact ih.same rfl rfl rfl
    | orderedAfter g e x => obtain ⟨_, _, hr⟩ := bind_eq_ok.1 hr; cases hr; exact ih.same rfl rfl rfl
    | orderedBefore g e x => obtain ⟨_, _, hr⟩ := bind_eq_ok.1 hr; cases hr; exact ih.same rfl rfl rfl
    | unordered g e => obtain ⟨_, _, hr⟩ := bind_eq_ok.1 hr; cases hr; exact ih.same rfl rfl rfl

end Ecs
