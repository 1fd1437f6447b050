import Verif.Proofs.Rows

/-! Which pages are empty, and how many pages there are, in every state reached by calls that returned. -/

namespace Ecs
open Spec

/-- The vector of ids of a page. -/
def Archs.ids (c : Archs) (p : Nat) : Option CapVec := (c.pages[p]?).map (·.ids)

/-- No page listed for an archetype other than the first is empty. -/
def Archs.Tidy (c : Archs) : Prop :=
  ∀ (i : Nat) ps p v, c.archPages[i]? = some ps → p ∈ ps → c.ids p = some v → 1 ≤ v.cap ∧ (i ≠ 0 → v.items ≠ [])

/-- The number of pages listed for the first archetype. -/
def Archs.firstPages (c : Archs) : Nat := ((c.archPages[0]?).getD []).length

/-- All ids in rows. -/
def Archs.allIds (c : Archs) : List Nat := c.pages.flatMap (·.ids.items)

theorem findFreePage_none {pages : List Page} {cand : List Nat} (h : Archs.findFreePage pages cand = .ok none) :
    ∀ p ∈ cand, ∀ pg, pages[p]? = some pg → pg.hasFreeSpace = false := by
  induction cand with
  | nil => intro p hp; cases hp
  | cons x cand ih =>
    unfold Archs.findFreePage at h
    obtain ⟨pg, h1, h⟩ := bind_eq_ok.1 h
    split at h
    · cases h
    · next hf =>
      intro p hp pg' hpg
      rcases List.mem_cons.1 hp with rfl | hp
      · rw [idx_ok.1 h1] at hpg; cases hpg; simpa using hf
      · exact ih h p hp pg' hpg

theorem CapVec.push_cap {v : CapVec} {x : Nat} (h : v.items = [] ∨ 1 ≤ v.cap) : 1 ≤ (v.push x).cap ∧ (v.push x).items ≠ [] := by
  unfold CapVec.push CapVec.grownCap
  refine ⟨?_, by simp⟩
  dsimp only
  split
  · omega
  · next hne => rcases h with h | h
                · rw [h] at hne; simp at hne; omega
                · exact h

theorem CapVec.reserve_items (v : CapVec) (n : Nat) : (v.reserve n).items = v.items := by
  unfold CapVec.reserve; split <;> rfl

theorem addEntityId_ids {dbg : Bool} {pg pg' : Page} {id ix : Nat} (hr : pg.addEntityId dbg id = .ok (pg', ix)) :
    pg'.ids = pg.ids.push id := by
  unfold Page.addEntityId at hr
  obtain ⟨_, _, hr⟩ := bind_eq_ok.1 hr
  cases hr
  rfl

namespace Archs.Tidy
variable {dbg : Bool} {c c' : Archs}

theorem new : Archs.new.Tidy := by intro i ps p v h; simp [Archs.new] at h

theorem setPages (h : c.Tidy) {ps : List Page} (hp : SameIds c.pages ps) : { c with pages := ps }.Tidy := by
  intro i l p v h1 h2 h3
  refine h i l p v h1 h2 ?_
  rw [← h3]
  exact (hp.ids p).symm

theorem reserveArchetype {a : Archetype} {i : Nat} (h : c.Tidy) (hr : c.reserveArchetype dbg a = .ok (c', i)) :
    c'.Tidy ∧ c'.pages = c.pages ∧ c'.freePages = c.freePages ∧ c'.firstPages = c.firstPages := by
  unfold Archs.reserveArchetype at hr
  split at hr
  · split at hr <;> cases hr
    · exact ⟨h, rfl, rfl, rfl⟩
    · exact ⟨h, rfl, rfl, rfl⟩
  · obtain ⟨layout, hl, hr⟩ := bind_eq_ok.1 hr
    split at hr
    · obtain ⟨as, h1, hr⟩ := bind_eq_ok.1 hr
      obtain ⟨ls, h2, hr⟩ := bind_eq_ok.1 hr
      cases hr
      exact ⟨h, rfl, rfl, rfl⟩
    · cases hr
      refine ⟨?_, rfl, rfl, ?_⟩
      · intro j ps p v h1 h2 h3
        dsimp only at h1
        rw [List.getElem?_append] at h1
        split at h1
        · exact h j ps p v h1 h2 h3
        · rw [List.mem_singleton.1 (List.mem_of_getElem? h1)] at h2; cases h2
      · unfold firstPages
        dsimp only
        rw [List.getElem?_append]
        split
        · rfl
        · next hn => rw [List.getElem?_eq_none (l := c.archPages) (by omega)]
                     have : c.archPages.length = 0 := by omega
                     simp [this]

theorem ids_set {p x : Nat} {pg pg' : Page} (hp : c.pages[p]? = some pg) {v : CapVec}
    (h : Archs.ids { c with pages := c.pages.set p pg' } x = some v) : (x = p ∧ v = pg'.ids) ∨ (x ≠ p ∧ c.ids x = some v) := by
  unfold ids at h
  dsimp only at h
  by_cases hx : x = p
  · subst hx
    rw [List.getElem?_set_self (List.getElem?_eq_some_iff.1 hp).1] at h
    cases h
    exact .inl ⟨rfl, rfl⟩
  · rw [List.getElem?_set_ne (Ne.symm hx)] at h
    exact .inr ⟨hx, h⟩

theorem reservePage {id i : Nat} {q : Loc} (h : c.Tidy) (hu : c.Use) (hs : c.Shape)
    (hr : c.reservePage dbg id i = .ok (c', q)) :
    c'.Tidy ∧ (c'.pages.length = c.pages.length ∨ c.freePages = [] ∧ c'.pages.length = c.pages.length + 1) ∧
      (c'.firstPages = c.firstPages ∨ c'.firstPages = c.firstPages + 1 ∧
        ∀ ps p v, c.archPages[0]? = some ps → p ∈ ps → c.ids p = some v → v.items ≠ []) := by
  unfold Archs.reservePage at hr
  obtain ⟨pl, h1, hr⟩ := bind_eq_ok.1 hr
  obtain ⟨o, h2, hr⟩ := bind_eq_ok.1 hr
  have hpl := idx_ok.1 h1
  split at hr
  · next p =>
    obtain ⟨page, h3, hr⟩ := bind_eq_ok.1 hr
    obtain ⟨⟨page', ix⟩, h4, hr⟩ := bind_eq_ok.1 hr
    cases hr
    obtain ⟨hm, _⟩ := mem_of_findFreePage h2
    have h3 := idx_ok.1 h3
    refine ⟨?_, .inl (by simp), .inl rfl⟩
    intro j ps x v k1 k2 k3
    rcases ids_set h3 k3 with ⟨rfl, rfl⟩ | ⟨_, k3⟩
    · rw [addEntityId_ids h4]
      have := CapVec.push_cap (x := id) (.inr (h i pl x page.ids hpl (List.mem_reverse.1 hm) (by simp [ids, h3])).1)
      exact ⟨this.1, fun _ => this.2⟩
    · exact h j ps x v k1 k2 k3
  · have hfull := findFreePage_none h2
    obtain ⟨⟨c1, p⟩, h3, hr⟩ := bind_eq_ok.1 hr
    dsimp only at hr
    obtain ⟨layout, h4, hr⟩ := bind_eq_ok.1 hr
    obtain ⟨page, h5, hr⟩ := bind_eq_ok.1 hr
    obtain ⟨pl', h6, hr⟩ := bind_eq_ok.1 hr
    obtain ⟨pa, h7, hr⟩ := bind_eq_ok.1 hr
    obtain ⟨⟨page', ix⟩, h8, hr⟩ := bind_eq_ok.1 hr
    cases hr
    obtain ⟨k1, k2, k3, k4, k5⟩ := hu.take hs hpl h3
    have h5 := idx_ok.1 h5
    have h6 := idx_ok.1 h6
    rw [k4, hpl] at h6
    cases h6
    have hil := (List.getElem?_eq_some_iff.1 hpl).1
    have hpage := addEntityId_ids h8
    have hcap := CapVec.push_cap (v := page.ids.reserve layout.entitiesCapacity) (x := id)
      (.inl (by rw [CapVec.reserve_items]; exact k5 page h5))
    -- pages other than `p` are those of `c`
    have hold : (∀ x, x < c.pages.length → c1.pages[x]? = c.pages[x]?) ∧
        (c1.pages.length = c.pages.length ∨ c.freePages = [] ∧ c1.pages.length = c.pages.length + 1) := by
      split at h3
      · cases h3; exact ⟨fun _ _ => rfl, .inl rfl⟩
      · next hl =>
        obtain ⟨ps, m1, h3⟩ := bind_eq_ok.1 h3
        obtain ⟨pa, m2, h3⟩ := bind_eq_ok.1 h3
        cases h3
        unfold vecInsert at m1
        rw [if_pos (Nat.le_refl _), List.insertIdx_length_self] at m1
        cases m1
        exact ⟨fun x hx => by dsimp only; rw [List.getElem?_append_left hx], .inr ⟨List.getLast?_eq_none_iff.1 hl, by simp⟩⟩
    refine ⟨?_, by simpa using hold.2, ?_⟩
    · intro j ps x v j1 j2 j3
      rcases ids_set (c := c1) h5 j3 with ⟨rfl, rfl⟩ | ⟨hxp, j3⟩
      · rw [hpage]
        exact ⟨hcap.1, fun _ => hcap.2⟩
      · dsimp only at j1
        rw [k4, List.getElem?_set] at j1
        have hold' : ∀ ps, c.archPages[j]? = some ps → x ∈ ps → 1 ≤ v.cap ∧ (j ≠ 0 → v.items ≠ []) := by
          intro ps m1 m2
          refine h j ps x v m1 m2 ?_
          unfold ids at j3 ⊢
          rw [hold.1 x (hs.listed ps (List.mem_of_getElem? m1) x m2)] at j3
          exact j3
        split at j1
        · next hij =>
          subst hij
          cases j1
          rcases List.mem_append.1 j2 with j2 | j2
          · exact hold' pl hpl j2
          · exact absurd (List.mem_singleton.1 j2) hxp
        · exact hold' ps j1 j2
    · unfold firstPages
      dsimp only
      rw [k4, List.getElem?_set]
      by_cases hi : i = 0
      · subst hi
        right
        rw [if_pos rfl, if_pos hil, hpl]
        refine ⟨by simp, ?_⟩
        intro ps x v m1 m2 m3
        cases m1
        have := h 0 pl x v hpl m2 m3
        unfold ids at m3
        cases hx : c.pages[x]? with
        | none => rw [hx] at m3; cases m3
        | some pg =>
          rw [hx] at m3
          cases m3
          have hf := hfull x (List.mem_reverse.2 m2) pg hx
          intro he
          have : pg.ids.items.length = 0 := by rw [he]; rfl
          have hf := of_decide_eq_false hf
          simp only [Page.entityCount, Page.entityCapacity] at hf
          have hc1 := (h 0 pl x pg.ids hpl m2 (by simp [ids, hx])).1
          omega
      · left
        rw [if_neg hi]

theorem addEntity {id : Nat} {a : Archetype} {q : Loc} (h : c.Tidy) (hu : c.Use) (hs : c.Shape) (ha : a.Even)
    (hr : c.addEntity dbg id a = .ok (c', q)) :
    c'.Tidy ∧ (c'.pages.length = c.pages.length ∨ c.freePages = [] ∧ c'.pages.length = c.pages.length + 1) ∧
      (c'.firstPages = c.firstPages ∨ c'.firstPages = c.firstPages + 1 ∧
        ∀ ps p v, c.archPages[0]? = some ps → p ∈ ps → c.ids p = some v → v.items ≠ []) := by
  unfold Archs.addEntity at hr
  obtain ⟨⟨c1, i⟩, h1, hr⟩ := bind_eq_ok.1 hr
  obtain ⟨k1, k2, k3, k4⟩ := h.reserveArchetype h1
  obtain ⟨j1, j2, j3⟩ := k1.reservePage (hu.reserveArchetype h1) (hs.reserveArchetype ha h1).1 hr
  rw [k2, k3] at j2
  rw [k4] at j3
  refine ⟨j1, j2, j3.imp (fun x => x) fun ⟨m1, m2⟩ => ⟨m1, ?_⟩⟩
  intro ps p v n1 n2 n3
  refine m2 ps p v ?_ n2 (by unfold ids; rw [k2]; exact n3)
  unfold Archs.reserveArchetype at h1
  split at h1
  · split at h1 <;> cases h1 <;> exact n1
  · obtain ⟨layout, hl, h1⟩ := bind_eq_ok.1 h1
    split at h1
    · obtain ⟨as, _, h1⟩ := bind_eq_ok.1 h1
      obtain ⟨ls, _, h1⟩ := bind_eq_ok.1 h1
      cases h1
      exact n1
    · cases h1
      dsimp only
      rw [List.getElem?_append_left (List.getElem?_eq_some_iff.1 n1).1]
      exact n1

theorem swapRemoveEntity {q : Loc} {o : Option Nat} (h : c.Tidy) (hu : c.Use) (hr : c.swapRemoveEntity q = .ok (c', o)) :
    c'.Tidy ∧ c'.pages.length = c.pages.length ∧ c'.firstPages = c.firstPages := by
  unfold Archs.swapRemoveEntity at hr
  obtain ⟨ai, h1, hr⟩ := bind_eq_ok.1 hr
  obtain ⟨pg, h2, hr⟩ := bind_eq_ok.1 hr
  obtain ⟨a, h3, hr⟩ := bind_eq_ok.1 hr
  obtain ⟨l, h4, hr⟩ := bind_eq_ok.1 hr
  obtain ⟨⟨pg', o'⟩, h5, hr⟩ := bind_eq_ok.1 hr
  obtain ⟨last, k1, k2, k3, k4⟩ := Archs.Use.swapRemoveIndex_items h5
  have hcap : pg'.ids.cap = pg.ids.cap := by
    unfold Page.swapRemoveEntityAtIndex at h5
    obtain ⟨ids, m1, h5⟩ := bind_eq_ok.1 h5
    unfold CapVec.swapRemove at m1
    split at m1
    · cases m1
    · rw [if_pos k2] at m1
      cases m1
      dsimp only at h5
      split at h5
      · obtain ⟨p1, m2, h5⟩ := bind_eq_ok.1 h5
        obtain ⟨r, m3, h5⟩ := bind_eq_ok.1 h5
        cases h5
        unfold Page.moveComponentData at m2
        obtain ⟨d, m4, m2⟩ := bind_eq_ok.1 m2
        cases m2
        rfl
      · cases h5; rfl
  have hp := idx_ok.1 h2
  have hto := idx_ok.1 h1
  have hlen : pg'.ids.items.length + 1 = pg.ids.items.length := by
    rw [k3]; simp; omega
  dsimp only at hr
  split at hr
  · next he =>
    obtain ⟨c1, h6, hr⟩ := bind_eq_ok.1 hr
    cases hr
    unfold Archs.freePage at h6
    dsimp only at h6
    rw [idx_of_some hto, ok_bind] at h6
    split at h6
    · next hai =>
      cases h6
      refine ⟨?_, by simp, rfl⟩
      intro j ps x v m1 m2 m3
      rcases ids_set hp m3 with ⟨rfl, rfl⟩ | ⟨_, m3⟩
      · refine ⟨by rw [hcap]; exact (h j ps _ pg.ids m1 m2 (by simp [ids, hp])).1, fun hj => ?_⟩
        have := hu.owner j ps _ m1 m2
        rw [hto] at this
        exact absurd (hai.symm.trans (Option.some.inj this)).symm hj
      · exact h j ps x v m1 m2 m3
    · next hai =>
      obtain ⟨pl, h7, h6⟩ := bind_eq_ok.1 h6
      have h7 := idx_ok.1 h7
      have hil := (List.getElem?_eq_some_iff.1 h7).1
      split at h6
      · next hc =>
        cases h6
        refine ⟨?_, by simp, ?_⟩
        · intro j ps x v m1 m2 m3
          dsimp only at m1
          rw [List.getElem?_set] at m1
          rcases ids_set (c := c) hp m3 with ⟨rfl, rfl⟩ | ⟨_, m3⟩
          · exfalso
            split at m1
            · cases m1
              exact (hu.psNodup pl (List.mem_of_getElem? h7)).not_mem_erase m2
            · next hne =>
              have := hu.owner j ps _ m1 m2
              rw [hto] at this
              exact hne (Option.some.inj this)
          · split at m1
            · next hij =>
              subst hij
              cases m1
              exact h ai pl x v h7 (List.mem_of_mem_erase m2) m3
            · exact h j ps x v m1 m2 m3
        · unfold firstPages
          dsimp only
          rw [List.getElem?_set_ne hai]
      · next hc =>
        cases h6
        refine ⟨?_, by simp, rfl⟩
        intro j ps x v m1 m2 m3
        rcases ids_set (c := c) hp m3 with ⟨rfl, rfl⟩ | ⟨_, m3⟩
        · exfalso
          have := hu.owner j ps _ m1 m2
          rw [hto] at this
          cases this
          rw [m1] at h7
          cases h7
          exact hc (by simpa using m2)
        · exact h j ps x v m1 m2 m3
  · next he =>
    cases hr
    refine ⟨?_, by simp, rfl⟩
    intro j ps x v m1 m2 m3
    rcases ids_set hp m3 with ⟨rfl, rfl⟩ | ⟨_, m3⟩
    · refine ⟨by rw [hcap]; exact (h j ps _ pg.ids m1 m2 (by simp [ids, hp])).1, fun _ hnil => ?_⟩
      rw [hnil] at hlen
      simp [Page.entityCount] at he
      simp at hlen
      omega
    · exact h j ps x v m1 m2 m3

end Archs.Tidy

theorem nonempty_le {α : Type} (g : Nat → List α) (R : List Nat) :
    (R.filter fun p => !(g p).isEmpty).length ≤ (R.flatMap g).length := by
  induction R with
  | nil => simp
  | cons p R ih =>
    rw [List.flatMap_cons, List.length_append]
    by_cases hp : g p = []
    · simp only [hp, List.filter_cons, List.isEmpty_nil, Bool.not_true, Bool.false_eq_true, if_false, List.length_nil]
      omega
    · have hl : 1 ≤ (g p).length := List.length_pos_iff.2 hp
      rw [List.filter_cons]
      split
      · rw [List.length_cons]; omega
      · omega

/-- Distinct pages with rows are at most as many as there are rows. -/
theorem Archs.pages_le_rows {c : Archs} {L : List Nat} (hn : L.Nodup) (hL : ∀ p ∈ L, ∃ v, c.ids p = some v ∧ v.items ≠ []) :
    L.length ≤ c.allIds.length := by
  let g : Nat → List Nat := fun p => ((c.ids p).map (·.items)).getD []
  have hall : c.allIds = (List.range c.pages.length).flatMap g := by
    unfold Archs.allIds
    rw [List.flatMap_def, List.flatMap_def]
    congr 1
    refine List.ext_getElem? fun i => ?_
    rw [List.getElem?_map, List.getElem?_map]
    by_cases hi : i < c.pages.length
    · rw [List.getElem?_range hi, List.getElem?_eq_getElem hi]
      simp [g, Archs.ids, hi]
    · rw [List.getElem?_eq_none (by omega), List.getElem?_eq_none (by simp; omega)]
      rfl
  rw [hall]
  refine Nat.le_trans ?_ (nonempty_le g _)
  refine (List.subperm_of_subset hn fun p hp => ?_).length_le
  obtain ⟨v, h1, h2⟩ := hL p hp
  rw [List.mem_filter, List.mem_range]
  constructor
  · unfold Archs.ids at h1
    cases h : c.pages[p]? with
    | none => rw [h] at h1; cases h1
    | some pg => exact (List.getElem?_eq_some_iff.1 h).1
  · simp [g, h1, h2]

/-- What one call does to the number of pages. -/
structure Archs.Next (c c' : Archs) : Prop where
  tidy : c'.Tidy
  pages : c'.pages.length = c.pages.length ∨ c.freePages = [] ∧ c'.pages.length = c.pages.length + 1
  first : c'.firstPages = c.firstPages ∨ c'.firstPages = c.firstPages + 1 ∧
    ∀ ps p v, c.archPages[0]? = some ps → p ∈ ps → c.ids p = some v → v.items ≠ []

namespace Archs.Next
variable {U : Universe} {dbg : Bool} {c c' c'' : Archs}

theorem refl (h : c.Tidy) : c.Next c := ⟨h, .inl rfl, .inl rfl⟩

/-- Nothing more is added. -/
theorem and (h : c.Next c') (ht : c''.Tidy) (hl : c''.pages.length = c'.pages.length) (hf : c''.firstPages = c'.firstPages) :
    c.Next c'' := ⟨ht, by rw [hl]; exact h.pages, by rw [hf]; exact h.first⟩

theorem addEntity {id : Nat} {a : Archetype} {q : Loc} (h : c.Tidy) (hu : c.Use) (hs : c.Shape) (ha : a.Even)
    (hr : c.addEntity dbg id a = .ok (c', q)) : c.Next c' :=
  ⟨(h.addEntity hu hs ha hr).1, (h.addEntity hu hs ha hr).2.1, (h.addEntity hu hs ha hr).2.2⟩

theorem setPages (h : c.Next c') {ps : List Page} (hp : SameIds c'.pages ps) : c.Next { c' with pages := ps } :=
  h.and (h.tidy.setPages hp) hp.length rfl

theorem copy {id pi : Nat} {prev q : Loc} {a : Archetype} (h : c.Tidy) (hu : c.Use) (hs : c.Shape) (ha : a.Even)
    (hr : c.moveEntityToOtherArchetype dbg id prev pi a = .ok (c', q)) : c.Next c' := by
  unfold Archs.moveEntityToOtherArchetype at hr
  obtain ⟨⟨c1, i⟩, h1, hr⟩ := bind_eq_ok.1 hr
  dsimp only at hr
  obtain ⟨⟨c2, q'⟩, h2, hr⟩ := bind_eq_ok.1 hr
  dsimp only at hr
  obtain ⟨_, _, hr⟩ := bind_eq_ok.1 hr
  obtain ⟨_, _, hr⟩ := bind_eq_ok.1 hr
  obtain ⟨_, _, hr⟩ := bind_eq_ok.1 hr
  obtain ⟨_, _, hr⟩ := bind_eq_ok.1 hr
  obtain ⟨_, _, hr⟩ := bind_eq_ok.1 hr
  obtain ⟨ps, h3, hr⟩ := bind_eq_ok.1 hr
  cases hr
  have hadd : c.addEntity dbg id a = .ok (c2, q) := by
    unfold Archs.addEntity
    simp only [h1, ok_bind]
    exact h2
  exact (addEntity h hu hs ha hadd).setPages (SameIds.copyLoop _ h3)

theorem remove {s s' : Store} {q : Loc} (h : c.Next s.archs) (hu : s.archs.Use) (hr : s.swapRemoveInternal q = .ok s') :
    c.Next s'.archs := by
  unfold Store.swapRemoveInternal at hr
  obtain ⟨⟨c1, info⟩, h1, hr⟩ := bind_eq_ok.1 hr
  obtain ⟨k1, k2, k3⟩ := h.tidy.swapRemoveEntity hu h1
  have := h.and k1 k2 k3
  dsimp only at hr
  split at hr
  · obtain ⟨ti, h2, hr⟩ := bind_eq_ok.1 hr
    cases hr
    exact this
  · cases hr
    exact this

theorem move {s s' : Store} {e : Entity} {a : Archetype} {q : Loc} (h : s.archs.Tidy) (hu : s.archs.Use) (hs : s.archs.Shape)
    (ha : a.Even) (hr : s.moveEntityToOtherArchetype dbg e a = .ok (s', q)) : s.archs.Next s'.archs := by
  unfold Store.moveEntityToOtherArchetype at hr
  obtain ⟨p, h1, hr⟩ := bind_eq_ok.1 hr
  obtain ⟨ai, h2, hr⟩ := bind_eq_ok.1 hr
  obtain ⟨⟨c, q'⟩, h3, hr⟩ := bind_eq_ok.1 hr
  dsimp only at hr
  obtain ⟨x, h4, hr⟩ := bind_eq_ok.1 hr
  obtain ⟨y, h5, hr⟩ := bind_eq_ok.1 hr
  obtain ⟨s1, h6, hr⟩ := bind_eq_ok.1 hr
  cases hr
  exact (copy h hu hs ha h3).remove (s := { s with archs := c, toPage := x, toIndex := y }) (hu.move hs ha h3).1 h6

theorem recordRow {s s' : Store} {id : Nat} {q : Loc} (hr : s.recordRow id q = .ok s') : s'.archs = s.archs := by
  unfold Store.recordRow at hr
  obtain ⟨_, h1, hr⟩ := bind_eq_ok.1 hr
  obtain ⟨_, h2, hr⟩ := bind_eq_ok.1 hr
  obtain ⟨_, _, hr⟩ := bind_eq_ok.1 hr
  cases hr
  rfl

theorem ensure {s s' : Store} {e : Entity} {ts : List TypeId} {q : Loc} (h : s.archs.Tidy) (hu : s.archs.Use)
    (hs : s.archs.Shape) (hr : s.ensureComponents U dbg e ts = .ok (s', q)) : s.archs.Next s'.archs := by
  unfold Store.ensureComponents at hr
  obtain ⟨b, h1, hr⟩ := bind_eq_ok.1 hr
  split at hr
  · obtain ⟨p, h2, hr⟩ := bind_eq_ok.1 hr
    obtain ⟨ai, h3, hr⟩ := bind_eq_ok.1 hr
    obtain ⟨a, h4, hr⟩ := bind_eq_ok.1 hr
    split at hr
    · cases hr; exact refl h
    · obtain ⟨⟨na, bb⟩, h5, hr⟩ := bind_eq_ok.1 hr
      exact move h hu hs (ArchetypeBuilder.build_even h5) hr
  · obtain ⟨a, h2, hr⟩ := bind_eq_ok.1 hr
    obtain ⟨⟨c, q'⟩, h3, hr⟩ := bind_eq_ok.1 hr
    dsimp only at hr
    obtain ⟨s1, h4, hr⟩ := bind_eq_ok.1 hr
    cases hr
    rw [recordRow h4]
    exact addEntity h hu hs (Archetype.withComponents_even h2) h3

end Archs.Next

/-- One call adds at most one page, and only when no page is free. -/
theorem loose_next {U : Universe} {dbg : Bool} {cap : Nat} {h : List Event} {s s' : Store} {ev : Event}
    (hx : LooseExec U dbg cap h s) (hl : Loose (world h) ev) (hr : Returns U dbg s ev s') (ht : s.archs.Tidy) :
    s.archs.Next s'.archs := by
  have hc := loose_core hx
  have hs := (loose_shape hx).archs
  have hu := (loose_rows hx).use
  cases ev with
  | created e =>
    simp only [Returns, Store.createEntity] at hr
    obtain ⟨⟨s1, e1⟩, h1, hr⟩ := bind_eq_ok.1 hr
    obtain ⟨b, h2, hr⟩ := bind_eq_ok.1 hr
    cases hr
    obtain ⟨s2, e2, k1, _, k3, k4, k5, _⟩ := hc.register (dbg := dbg) hl
    rw [h1] at k1
    cases k1
    dsimp only
    rw [k5]
    exact .refl ht
  | createdWith e ts init =>
    obtain ⟨a, ha, _, hr⟩ := hr
    unfold Store.createEntityWithArchetype at hr
    obtain ⟨⟨s1, e1⟩, h1, hr⟩ := bind_eq_ok.1 hr
    obtain ⟨⟨c, q⟩, h3, hr⟩ := bind_eq_ok.1 hr
    dsimp only at hr h3
    obtain ⟨s2, h2, hr⟩ := bind_eq_ok.1 hr
    cases hr
    obtain ⟨s3, e3, k1, _, k3, k4, k5, _⟩ := hc.register (dbg := dbg) hl
    rw [h1] at k1
    cases k1
    rw [k5] at h3
    rw [Archs.Next.recordRow h2]
    exact .addEntity ht hu hs ha.wf.even h3
  | destroyed e =>
    simp only [Returns, Store.destroyEntity] at hr
    obtain ⟨s1, h1, hr⟩ := bind_eq_ok.1 hr
    obtain ⟨_, _, hr⟩ := bind_eq_ok.1 hr
    obtain ⟨tg, h2, hr⟩ := bind_eq_ok.1 hr
    obtain ⟨_, _, hr⟩ := bind_eq_ok.1 hr
    cases hr
    unfold Store.destroyRow at h1
    obtain ⟨b, h3, h1⟩ := bind_eq_ok.1 h1
    split at h1
    · obtain ⟨q, h4, h1⟩ := bind_eq_ok.1 h1
      have := Archs.Next.remove (s' := s1) (.refl ht) hu h1
      exact this
    · cases h1; exact .refl ht
  | added e vals =>
    simp only [Returns, Store.addComponents] at hr
    obtain ⟨b, h1, hr⟩ := bind_eq_ok.1 hr
    split at hr
    · cases hr; exact .refl ht
    · obtain ⟨⟨s1, q⟩, h2, hr⟩ := bind_eq_ok.1 hr
      dsimp only at hr
      obtain ⟨v, h3, hr⟩ := bind_eq_ok.1 hr
      obtain ⟨o, h4, hr⟩ := bind_eq_ok.1 hr
      obtain ⟨pg, h5, hr⟩ := bind_eq_ok.1 hr
      cases hr
      exact (Archs.Next.ensure ht hu hs h2).setPages (SameIds.assign _ h5)
  | removed e ts =>
    simp only [Returns, Store.removeComponents] at hr
    obtain ⟨b, h1, hr⟩ := bind_eq_ok.1 hr
    split at hr
    · cases hr; exact .refl ht
    · obtain ⟨p, h2, hr⟩ := bind_eq_ok.1 hr
      obtain ⟨ai, h3, hr⟩ := bind_eq_ok.1 hr
      obtain ⟨a, h4, hr⟩ := bind_eq_ok.1 hr
      obtain ⟨⟨na, bb⟩, h5, hr⟩ := bind_eq_ok.1 hr
      obtain ⟨⟨s1, q⟩, h6, hr⟩ := bind_eq_ok.1 hr
      cases hr
      exact .move ht hu hs (ArchetypeBuilder.build_even h5) h6
  | assigned e vals =>
    obtain ⟨b, hr⟩ := hr
    unfold Store.setComponents at hr
    obtain ⟨o, h1, hr⟩ := bind_eq_ok.1 hr
    split at hr
    · cases hr; exact .refl ht
    · obtain ⟨pg, h2, hr⟩ := bind_eq_ok.1 hr
      cases hr
      exact (Archs.Next.refl ht).setPages (SameIds.assign _ h2)
  | tagged t e => obtain ⟨_, _, hr⟩ := bind_eq_ok.1 hr; cases hr; exact .refl ht
  | untagged t e => obtain ⟨_, _, hr⟩ := bind_eq_ok.1 hr; cases hr; exact .refl ht
  | orderedLast g e => obtain ⟨_, _, hr⟩ := bind_eq_ok.1 hr; cases hr; exact .refl ht
  | orderedAfter g e x => obtain ⟨_, _, hr⟩ := bind_eq_ok.1 hr; cases hr; exact .refl ht
  | orderedBefore g e x => obtain ⟨_, _, hr⟩ := bind_eq_ok.1 hr; cases hr; exact .refl ht
  | unordered g e => obtain ⟨_, _, hr⟩ := bind_eq_ok.1 hr; cases hr; exact .refl ht

theorem loose_tidy {U : Universe} {dbg : Bool} {cap : Nat} {h : List Event} {s : Store} (hx : LooseExec U dbg cap h s) :
    s.archs.Tidy := by
  induction hx with
  | init hs =>
    unfold Store.withCapacity at hs
    obtain ⟨_, _, hs⟩ := bind_eq_ok.1 hs
    cases hs
    exact Archs.Tidy.new
  | step ev hx hl hr ih => exact (loose_next hx hl hr ih).tidy

end Ecs
