import Verif.Proofs.StoreExec
import Verif.Proofs.Shape
import Verif.Spec.Healthy

/-! `HealthyExec` implies `Exec`: a call that triggers one of the two defects of `ArchetypesContainer` leaves an
overfull page or a used archetype on the free list behind. -/

namespace Ecs
open Spec

namespace Archs
variable {U : Universe} {dbg : Bool} {c c' : Archs}

/-- Page `p` is overfull, or its archetype is on the free list. -/
def Bad (c : Archs) (p : Nat) : Prop :=
  ∃ ai pg, c.pages[p]? = some pg ∧ c.pageToArch[p]? = some ai ∧
    ((∃ l, c.layouts[ai]? = some l ∧ l.entitiesCapacity < pg.ids.items.length) ∨
      (pg.ids.items ≠ [] ∧ ai ∈ c.freeArchetypes))

theorem addEntityId_len {dbg : Bool} {pg pg' : Page} {id k : Nat} (h : pg.addEntityId dbg id = .ok (pg', k)) :
    pg'.ids.items.length = pg.ids.items.length + 1 := by
  unfold Page.addEntityId at h
  obtain ⟨_, _, h⟩ := bind_eq_ok.1 h
  cases h
  simp [CapVec.push]

/-- What is known when `reserve_page` returns, without any invariant. -/
theorem reservePage_result {id ai : Nat} {q : Loc} (h : c.reservePage dbg id ai = .ok (c', q)) :
    ∃ ps pg, c.archPages[ai]? = some ps ∧ c'.pages[q.page]? = some pg ∧ c'.layouts = c.layouts ∧
      c'.freeArchetypes = c.freeArchetypes ∧
      ((∃ pg0, findFreePage c.pages ps.reverse = .ok (some q.page) ∧ c.pages[q.page]? = some pg0 ∧
          pg.ids.items.length = pg0.ids.items.length + 1 ∧ c'.pageToArch = c.pageToArch) ∨
        (findFreePage c.pages ps.reverse = .ok none ∧ 0 < pg.ids.items.length ∧ c'.pageToArch[q.page]? = some ai ∧
          (q.page ∈ c.freePages ∨ q.page = c.pages.length))) := by
  unfold reservePage at h
  obtain ⟨ps, h1, h⟩ := bind_eq_ok.1 h
  rw [idx_ok] at h1
  obtain ⟨r, h2, h⟩ := bind_eq_ok.1 h
  cases r with
  | some p =>
    obtain ⟨pg0, h3, h⟩ := bind_eq_ok.1 h
    obtain ⟨⟨pg, k⟩, h4, h⟩ := bind_eq_ok.1 h
    rw [idx_ok] at h3
    cases h
    refine ⟨ps, pg, h1, ?_, rfl, rfl, .inl ⟨pg0, h2, h3, addEntityId_len h4, rfl⟩⟩
    dsimp only
    rw [List.getElem?_set_self (List.getElem?_eq_some_iff.1 h3).1]
  | none =>
    obtain ⟨⟨c1, p⟩, h3, h⟩ := bind_eq_ok.1 h
    dsimp only at h
    obtain ⟨l, h4, h⟩ := bind_eq_ok.1 h
    obtain ⟨pg0, h5, h⟩ := bind_eq_ok.1 h
    obtain ⟨ps', h6, h⟩ := bind_eq_ok.1 h
    obtain ⟨ta, h7, h⟩ := bind_eq_ok.1 h
    obtain ⟨⟨pg, k⟩, h8, h⟩ := bind_eq_ok.1 h
    cases h
    rw [idx_ok] at h5
    obtain ⟨h71, rfl⟩ := idxSet_ok h7
    have hc1 : c1.layouts = c.layouts ∧ c1.freeArchetypes = c.freeArchetypes ∧ (p ∈ c.freePages ∨ p = c.pages.length) := by
      split at h3
      · rename_i p' hp
        cases h3
        exact ⟨rfl, rfl, .inl (List.mem_of_getLast? hp)⟩
      · obtain ⟨_, _, h3⟩ := bind_eq_ok.1 h3
        obtain ⟨_, _, h3⟩ := bind_eq_ok.1 h3
        cases h3
        exact ⟨rfl, rfl, .inr rfl⟩
    refine ⟨ps, pg, h1, ?_, hc1.1, hc1.2.1, .inr ⟨h2, ?_, ?_, hc1.2.2⟩⟩
    · dsimp only
      rw [List.getElem?_set_self (List.getElem?_eq_some_iff.1 h5).1]
    · rw [addEntityId_len h8]; omega
    · dsimp only
      rw [List.getElem?_set_self h71]

/-- Adding a row either keeps clear of both defects, or leaves a bad page; and a page that had entities before
only gets the row if it is of the same archetype. -/
theorem addEntity_fits_or_bad {a : Archetype} {id : Nat} {q : Loc} (hI : c.Inv U) (hL : c.LayoutsOk dbg) (ha : a.WF U)
    (h : c.addEntity dbg id a = .ok (c', q)) :
    (c.Fits dbg a ∨ c'.Bad q.page) ∧
      ∀ pg, c.pages[q.page]? = some pg → pg.ids.items ≠ [] → c.archAt q.page = some a := by
  unfold addEntity at h
  obtain ⟨⟨c1, ai⟩, h1, h⟩ := bind_eq_ok.1 h
  obtain ⟨ps, pg, hps, hpg, hlay, hfree, hcase⟩ := reservePage_result h
  have key : ∀ (f : Nat), f ∈ c.freePages ∨ f = c.pages.length → ∀ pg, c.pages[f]? = some pg → pg.ids.items = [] := by
    intro f hf pg hpg
    rcases hf with hf | rfl
    · exact hI.freeEmpty f hf pg hpg
    · rw [List.getElem?_eq_none (Nat.le_refl _)] at hpg; cases hpg
  unfold reserveArchetype at h1
  cases hf : findSame a 0 c.archetypes with
  | some i =>
    obtain ⟨_, b, hb, hids⟩ := findSame_some _ hf
    rw [Nat.sub_zero] at hb
    have hba : b = a := (hI.wf b (List.mem_of_getElem? hb)).ext ha hids
    subst hba
    rw [hf] at h1
    dsimp only at h1
    have hil : i < c.layouts.length := by rw [hI.llen]; exact (List.getElem?_eq_some_iff.1 hb).1
    obtain ⟨l, hl⟩ : ∃ l, c.layouts[i]? = some l := ⟨_, List.getElem?_eq_getElem hil⟩
    have hlay0 : ∃ l, Layout.new dbg b = .ok l ∧ 1 ≤ l.entitiesCapacity := ⟨l, hL i b l hb hl, (hI.good i b l hb hl).2⟩
    -- common facts about `c1`
    have hc1 : ai = i ∧ c1.pages = c.pages ∧ c1.pageToArch = c.pageToArch ∧ c1.archPages = c.archPages ∧
        c1.layouts = c.layouts ∧ c1.freePages = c.freePages ∧
        (c.Findable b ∨ i ∈ c1.freeArchetypes) := by
      split at h1 <;> rename_i k hk <;> cases h1
      · refine ⟨rfl, rfl, rfl, rfl, rfl, rfl, .inl fun j hj _ => ?_⟩
        rw [hI.distinct j ai b b hj hb rfl]
        exact ⟨k, hk⟩
      · refine ⟨rfl, rfl, rfl, rfl, rfl, rfl, ?_⟩
        by_cases hm : ai ∈ c.freeArchetypes
        · exact .inr hm
        · refine .inl fun j hj hjm => ?_
          rw [hI.distinct j ai b b hj hb rfl] at hjm
          exact absurd hjm hm
    obtain ⟨rfl, e1, e2, e3, e4, e5, hfi⟩ := hc1
    rw [e3] at hps
    rcases hcase with ⟨pg0, g1, g2, g3, g4⟩ | ⟨g1, g2, g3, g4⟩
    · rw [e1] at g1 g2
      have hm := (mem_of_findFreePage g1).1
      have hto := hI.owner ai ps q.page hps (List.mem_reverse.1 hm)
      refine ⟨?_, fun pg' _ _ => ?_⟩
      · rcases hfi with hfi | hfi
        · by_cases hlen : pg0.ids.items.length < l.entitiesCapacity
          · refine .inl ⟨hlay0, ?_, hfi⟩
            intro j l' ps' p' pg' k1 k2 k3 k4 k5
            have := hI.distinct j ai b b k1 hb rfl
            subst this
            rw [hl] at k2; cases k2
            rw [hps] at k3; cases k3
            rw [g1] at k4; cases k4
            rw [g2] at k5; cases k5
            exact hlen
          · exact .inr ⟨ai, pg, hpg, by rw [g4, e2]; exact hto, .inl ⟨l, by rw [hlay, e4]; exact hl, by omega⟩⟩
        · refine .inr ⟨ai, pg, hpg, by rw [g4, e2]; exact hto, .inr ⟨?_, by rw [hfree]; exact hfi⟩⟩
          intro h0; rw [h0] at g3; simp at g3
      · unfold archAt
        rw [hto]
        exact hb
    · rw [e1] at g1
      refine ⟨?_, fun pg' k1 k2 => ?_⟩
      · rcases hfi with hfi | hfi
        · refine .inl ⟨hlay0, ?_, hfi⟩
          intro j l' ps' p' pg' k1 k2 k3 k4 k5
          have := hI.distinct j ai b b k1 hb rfl
          subst this
          rw [hps] at k3; cases k3
          rw [g1] at k4; cases k4
        · refine .inr ⟨ai, pg, hpg, g3, .inr ⟨?_, by rw [hfree]; exact hfi⟩⟩
          intro h0; rw [h0] at g2; simp at g2
      · rw [e5, e1] at g4
        exact absurd (key _ g4 _ k1) k2
  | none =>
    have hnew := findSame_none _ hf
    have hno : ∀ j : Nat, c.archetypes[j]? ≠ some a := fun j hj => hnew a (List.mem_of_getElem? hj) rfl
    have hroom : c.Roomy a := fun j l' ps' p' pg' k1 => absurd k1 (hno j)
    have hfind : c.Findable a := fun j k1 => absurd k1 (hno j)
    rw [hf] at h1
    obtain ⟨l, hl, h1⟩ := bind_eq_ok.1 h1
    have hc1 : c1.pages = c.pages ∧ c1.archPages[ai]? = some [] ∧ c1.layouts[ai]? = some l ∧ c1.freePages = c.freePages := by
      split at h1
      · rename_i f hg
        obtain ⟨as, k1, h1⟩ := bind_eq_ok.1 h1
        obtain ⟨ls, k2, h1⟩ := bind_eq_ok.1 h1
        cases h1
        obtain ⟨_, rfl⟩ := idxSet_ok k1
        obtain ⟨k3, rfl⟩ := idxSet_ok k2
        exact ⟨rfl, hI.freeUnused _ (List.mem_of_getLast? hg), by simp [k3], rfl⟩
      · cases h1
        refine ⟨rfl, ?_, ?_, rfl⟩
        · dsimp only
          rw [List.getElem?_append_right (by simp [hI.alen])]
          simp [hI.alen]
        · dsimp only
          rw [List.getElem?_append_right (by simp [hI.llen])]
          simp [hI.llen]
    obtain ⟨e1, e2, e3, e4⟩ := hc1
    rw [e2] at hps
    cases hps
    rcases hcase with ⟨pg0, g1, g2, g3, g4⟩ | ⟨g1, g2, g3, g4⟩
    · cases g1
    · refine ⟨?_, fun pg' k1 k2 => ?_⟩
      · by_cases hcap : 1 ≤ l.entitiesCapacity
        · exact .inl ⟨⟨l, hl, hcap⟩, hroom, hfind⟩
        · exact .inr ⟨ai, pg, hpg, g3, .inl ⟨l, by rw [hlay]; exact e3, by omega⟩⟩
      · rw [e4, e1] at g4
        exact absurd (key _ g4 _ k1) k2

/-! The rest of each call does not repair a bad page. -/

/-- `pages'` has the same entity ids as `pages`. -/
def SameIds (pages pages' : List Page) : Prop :=
  ∀ (p : Nat) (pg : Page), pages[p]? = some pg → ∃ pg' : Page, pages'[p]? = some pg' ∧ pg'.ids = pg.ids

theorem SameIds.refl (pages : List Page) : SameIds pages pages := fun _ pg h => ⟨pg, h, rfl⟩

theorem SameIds.trans {p1 p2 p3 : List Page} (h : SameIds p1 p2) (h' : SameIds p2 p3) : SameIds p1 p3 := by
  intro p pg hp
  obtain ⟨pg', h1, h2⟩ := h p pg hp
  obtain ⟨pg'', h3, h4⟩ := h' p pg' h1
  exact ⟨pg'', h3, h4.trans h2⟩

theorem SameIds.setData {pages : List Page} {p : Nat} {pg : Page} (hp : pages[p]? = some pg) (d : Bytes) :
    SameIds pages (pages.set p { pg with data := d }) := by
  intro x px hx
  by_cases h : p = x
  · subst h
    rw [hp] at hx
    cases hx
    exact ⟨_, List.getElem?_set_self (List.getElem?_eq_some_iff.1 hp).1, rfl⟩
  · exact ⟨px, by rw [List.getElem?_set_ne h]; exact hx, rfl⟩

theorem Bad.sameIds {p : Nat} (h : c.Bad p) {pages' : List Page} (hs : SameIds c.pages pages') :
    ({ c with pages := pages' } : Archs).Bad p := by
  obtain ⟨ai, pg, h1, h2, h3⟩ := h
  obtain ⟨pg', h4, h5⟩ := hs p pg h1
  exact ⟨ai, pg', h4, h2, by rw [h5]; exact h3⟩

theorem copyBetween_sameIds {pages pages' : List Page} {sp src dp dst n : Nat}
    (h : copyBetween pages sp src dp dst n = .ok pages') : SameIds pages pages' := by
  unfold copyBetween at h
  obtain ⟨_, _, h⟩ := bind_eq_ok.1 h
  obtain ⟨_, _, h⟩ := bind_eq_ok.1 h
  split at h
  · cases h
  · obtain ⟨pg, h1, h⟩ := bind_eq_ok.1 h
    obtain ⟨d, _, h⟩ := bind_eq_ok.1 h
    cases h
    exact .setData (idx_ok.1 h1) d

theorem copyLoop_sameIds {src dst : Loc} {sa da : Archetype} {sl dl : Layout} (l : List (Nat × Nat)) :
    ∀ {pages pages' : List Page}, copyLoop src dst sa da sl dl l pages = .ok pages' → SameIds pages pages' := by
  induction l with
  | nil => intro pages pages' h; cases h; exact .refl _
  | cons x l ih =>
    intro pages pages' h
    obtain ⟨si, di⟩ := x
    unfold copyLoop at h
    obtain ⟨_, _, h⟩ := bind_eq_ok.1 h
    obtain ⟨_, _, h⟩ := bind_eq_ok.1 h
    obtain ⟨_, _, h⟩ := bind_eq_ok.1 h
    obtain ⟨_, _, h⟩ := bind_eq_ok.1 h
    obtain ⟨_, h1, h⟩ := bind_eq_ok.1 h
    exact (copyBetween_sameIds h1).trans (ih h)

theorem assign_sameIds (refs : List Ref) : ∀ {vs : List (List UInt8)} {pages pages' : List Page},
    assignToRefs refs vs pages = .ok pages' → SameIds pages pages' := by
  induction refs with
  | nil => intro vs pages pages' h; cases vs <;> (cases h; exact .refl _)
  | cons r refs ih =>
    intro vs pages pages' h
    cases vs with
    | nil => cases h; exact .refl _
    | cons v vs =>
      unfold assignToRefs at h
      obtain ⟨p1, h1, h⟩ := bind_eq_ok.1 h
      unfold writeRef at h1
      obtain ⟨pg, h2, h1⟩ := bind_eq_ok.1 h1
      obtain ⟨d, _, h1⟩ := bind_eq_ok.1 h1
      cases h1
      exact (SameIds.setData (idxUnchecked_ok.1 h2) d).trans (ih h)

theorem Bad.swapRemove {p : Nat} (h : c.Bad p) {q : Loc} (hq : q.page ≠ p) {info : Option Nat}
    (hs : c.swapRemoveEntity q = .ok (c', info)) : c'.Bad p := by
  obtain ⟨ai, pg, h1, h2, h3⟩ := h
  unfold swapRemoveEntity at hs
  obtain ⟨_, _, hs⟩ := bind_eq_ok.1 hs
  obtain ⟨_, _, hs⟩ := bind_eq_ok.1 hs
  obtain ⟨_, _, hs⟩ := bind_eq_ok.1 hs
  obtain ⟨_, _, hs⟩ := bind_eq_ok.1 hs
  obtain ⟨⟨pq, inf⟩, _, hs⟩ := bind_eq_ok.1 hs
  dsimp only at hs
  have h1' : (c.pages.set q.page pq)[p]? = some pg := by rw [List.getElem?_set_ne hq]; exact h1
  split at hs
  · obtain ⟨c2, h4, hs⟩ := bind_eq_ok.1 hs
    cases hs
    unfold freePage at h4
    obtain ⟨_, _, h4⟩ := bind_eq_ok.1 h4
    split at h4
    · cases h4
      exact ⟨ai, pg, h1', h2, h3⟩
    · obtain ⟨ps, _, h4⟩ := bind_eq_ok.1 h4
      cases h4
      refine ⟨ai, pg, ?_, ?_, ?_⟩
      · dsimp only
        split <;> exact h1'
      · dsimp only
        split <;> exact h2
      · rcases h3 with ⟨l, k1, k2⟩ | ⟨k1, k2⟩
        · refine .inl ⟨l, ?_, k2⟩
          dsimp only
          split <;> exact k1
        · refine .inr ⟨k1, ?_⟩
          dsimp only
          split
          · dsimp only
            split
            · exact List.mem_append_left _ k2
            · exact k2
          · exact k2
  · cases hs
    exact ⟨ai, pg, h1', h2, h3⟩

end Archs

/-- A healthy store has no bad page. -/
theorem not_bad {s : Store} (h1 : RowsFit s) (h2 : UsedNotFree s) (p : Nat) : ¬ s.archs.Bad p := by
  rintro ⟨ai, pg, k1, k2, ⟨l, k3, k4⟩ | ⟨k3, k4⟩⟩
  · have := h1 p ai pg l k1 k2 k3
    omega
  · exact h2 p ai pg k1 k2 k3 k4

namespace Rel
open Archs
variable {U : Universe} {dbg : Bool} {s s' : Store} {w : World}

theorem recordRow_archs {id : Nat} {q : Loc} (h : s.recordRow id q = .ok s') : s'.archs = s.archs := by
  unfold Store.recordRow at h
  obtain ⟨_, _, h⟩ := bind_eq_ok.1 h
  obtain ⟨_, _, h⟩ := bind_eq_ok.1 h
  obtain ⟨_, _, h⟩ := bind_eq_ok.1 h
  cases h
  rfl

/-- `move_entity_to_other_archetype` to another type set. -/
theorem move_fits_or_bad (h : Rel U dbg s w) {e : Entity} (he : e ∈ w.live) (hT : w.types e ≠ []) {a : Archetype}
    (hw : a.WF U) {T : List TypeId} (hs : HasSet a T) (hne : ¬ sameSet T (w.types e)) {q : Loc}
    (hm : s.moveEntityToOtherArchetype dbg e a = .ok (s', q)) :
    s.archs.CanHold U dbg T ∨ s'.archs.Bad q.page := by
  obtain ⟨prev, ai, pa, pl, ps, pg, h1, h2, hat, hpw, hpg, h5, h6, h7, h8⟩ := h.row he hT
  unfold Store.moveEntityToOtherArchetype at hm
  simp only [h7, ok_bind, idx_of_some hat.hto] at hm
  obtain ⟨⟨c2, q'⟩, m1, hm⟩ := bind_eq_ok.1 hm
  obtain ⟨_, _, hm⟩ := bind_eq_ok.1 hm
  obtain ⟨_, _, hm⟩ := bind_eq_ok.1 hm
  obtain ⟨s2, m2, hm⟩ := bind_eq_ok.1 hm
  cases hm
  have hadd : ∃ c3, s.archs.addEntity dbg e.id a = .ok (c3, q') ∧ ∃ pages', SameIds c3.pages pages' ∧
      c2 = { c3 with pages := pages' } := by
    unfold Archs.moveEntityToOtherArchetype at m1
    obtain ⟨⟨c1, k⟩, r1, m1⟩ := bind_eq_ok.1 m1
    obtain ⟨⟨c3, q3⟩, r2, m1⟩ := bind_eq_ok.1 m1
    obtain ⟨_, _, m1⟩ := bind_eq_ok.1 m1
    obtain ⟨_, _, m1⟩ := bind_eq_ok.1 m1
    obtain ⟨_, _, m1⟩ := bind_eq_ok.1 m1
    obtain ⟨_, _, m1⟩ := bind_eq_ok.1 m1
    obtain ⟨_, _, m1⟩ := bind_eq_ok.1 m1
    obtain ⟨pages', r3, m1⟩ := bind_eq_ok.1 m1
    cases m1
    refine ⟨c3, ?_, pages', copyLoop_sameIds _ r3, rfl⟩
    unfold Archs.addEntity
    rw [r1]
    exact r2
  obtain ⟨c3, g1, pages', g2, rfl⟩ := hadd
  obtain ⟨g3, g4⟩ := addEntity_fits_or_bad h.places.inv h.regs.lay hw g1
  rcases g3 with g3 | g3
  · exact .inl (.of_fits hw hs g3)
  · have hpq : prev.page ≠ q'.page := by
      intro hpq
      rw [← hpq] at g4
      have := g4 pg hat.hpg (by
        intro h0
        unfold Archs.row at h2
        rw [hat.hpg] at h2
        simp [h0] at h2)
      rw [hat.archAt] at this
      cases this
      exact hne (hs.sameSet h5)
    have g5 := g3.sameIds g2
    unfold Store.swapRemoveInternal at m2
    obtain ⟨⟨c4, info⟩, m3, m2⟩ := bind_eq_ok.1 m2
    have g6 := g5.swapRemove hpq m3
    dsimp only at m2
    split at m2
    · obtain ⟨_, _, m2⟩ := bind_eq_ok.1 m2
      cases m2
      exact .inr g6
    · cases m2
      exact .inr g6

theorem ensure_fits_or_bad (h : Rel U dbg s w) {e : Entity} (he : e ∈ w.live) {vals : TupleVal} (hne : vals ≠ [])
    (hok : TupleOk U vals) (hin : ¬ ∀ p ∈ vals, p.1 ∈ w.types e) {q : Loc}
    (hm : s.ensureComponents U dbg e (vals.map (·.1)) = .ok (s', q)) :
    s.archs.CanHold U dbg (addedTypes (w.types e) vals) ∨ s'.archs.Bad q.page := by
  have hlt := h.ents.id_lt he
  have hne' : vals.map (·.1) ≠ [] := by simpa using hne
  unfold Store.ensureComponents at hm
  rw [Words.isOn_of_lt (by rw [h.places.blen]; exact Words.div_lt_getLen hlt)] at hm
  by_cases hT : w.types e = []
  · have hTa : addedTypes (w.types e) vals = vals.map (·.1) := by
      unfold addedTypes; rw [hT]; simp
    obtain ⟨a, a1, hw, a3⟩ := Archetype.withComponents_spec (U := U) hok.1 hne'
    have hs : HasSet a (addedTypes (w.types e) vals) := fun t => by rw [hTa]; exact a3.mem_iff
    simp only [h.places.off e he hT, ok_bind, Bool.false_eq_true, if_false, a1] at hm
    obtain ⟨⟨c', q'⟩, m1, hm⟩ := bind_eq_ok.1 hm
    obtain ⟨s1, m2, hm⟩ := bind_eq_ok.1 hm
    cases hm
    rcases (addEntity_fits_or_bad h.places.inv h.regs.lay hw m1).1 with g | g
    · exact .inl (.of_fits hw hs g)
    · rw [recordRow_archs m2]
      exact .inr g
  · obtain ⟨prev, ai, a, l, ps, pg, h1, h2, hat, hw, hg, h5, h6, h7, h8⟩ := h.row he hT
    simp only [(h.places.on e he hT).1, ok_bind, if_true, h7, idx_of_some hat.hto, idxUnchecked_of_some hat.ha] at hm
    have hiff := Archetype.isIncludeIds_iff hw.incr hok.1
    have hti : ¬ tupleIncluded (vals.map (·.1)) a = true := by
      unfold tupleIncluded
      rw [hiff]
      intro hall
      exact hin fun p hp => (h5 _).1 (hall _ (List.mem_map.2 ⟨p, hp, rfl⟩))
    obtain ⟨r1, b1, b2⟩ := (BuilderRep.new U).includeArchetype hw
    obtain ⟨r2, b3, b4⟩ := b1.includeComponents (vals.map (·.1))
    have hr2 : r2 ≠ [] := by
      obtain ⟨t, ht⟩ := List.exists_mem_of_ne_nil _ hne'
      exact List.ne_nil_of_mem ((b4 t).2 (Or.inr ht))
    obtain ⟨na, b', b5, b6, b7, _⟩ := b3.build hr2
    have hs : HasSet na (addedTypes (w.types e) vals) := by
      intro t
      rw [b7.mem_iff, b4, b2, mem_addedTypes, ← h5 t]
      simp
    rw [if_neg hti, b5] at hm
    refine h.move_fits_or_bad he hT b6 hs ?_ hm
    rintro ⟨k1, _⟩
    apply hin
    intro p hp
    exact k1 _ (mem_addedTypes.2 (Or.inr (List.mem_map.2 ⟨p, hp, rfl⟩)))

/-- A call that triggers a defect leaves a bad page behind. -/
theorem canHold_of_healthy (h : Rel U dbg s w) {ev : Event} (ha : Allowed U w ev) (hr : RemovesSome w ev)
    (hd : Does U dbg s ev s') (hh : ∀ p, ¬ s'.archs.Bad p) {T : List TypeId} (hn : needs w ev = some T) :
    s.archs.CanHold U dbg T := by
  cases ev with
  | createdWith e ts init =>
    cases hn
    obtain ⟨⟨a, hb, rfl, hc⟩, hi⟩ := hd
    obtain ⟨s1, e1, h1, _, _, _, h5, _⟩ := h.core.register (dbg := dbg) ha
    unfold Store.createEntityWithArchetype at hc
    simp only [h1, ok_bind] at hc
    obtain ⟨⟨c', q⟩, m1, hc⟩ := bind_eq_ok.1 hc
    obtain ⟨s2, m2, hc⟩ := bind_eq_ok.1 hc
    cases hc
    rw [h5] at m1
    rcases (addEntity_fits_or_bad h.places.inv h.regs.lay hb.wf m1).1 with g | g
    · exact .of_fits hb.wf (fun _ => Iff.rfl) g
    · exact absurd (by rw [recordRow_archs m2]; exact g) (hh q.page)
  | added e vals =>
    simp only [needs] at hn
    split at hn
    · rename_i hc
      cases hn
      have hd := hd.1
      simp only [Returns] at hd
      unfold Store.addComponents at hd
      simp only [h.isAlive (h.ents.issued_id_lt ha.1), ok_bind, hc.1, decide_true, Bool.not_true, Bool.false_eq_true,
        if_false] at hd
      obtain ⟨⟨s1, q⟩, m1, hd⟩ := bind_eq_ok.1 hd
      obtain ⟨_, _, hd⟩ := bind_eq_ok.1 hd
      obtain ⟨_, _, hd⟩ := bind_eq_ok.1 hd
      obtain ⟨pages, m2, hd⟩ := bind_eq_ok.1 hd
      cases hd
      rcases h.ensure_fits_or_bad hc.1 ha.2.1 ha.2.2 hc.2 m1 with g | g
      · exact g
      · exact absurd (g.sameIds (assign_sameIds _ m2)) (hh q.page)
    · cases hn
  | removed e ts =>
    simp only [needs] at hn
    split at hn
    · rename_i hc
      cases hn
      obtain ⟨he, hT⟩ := hc
      have hd := hd.1
      simp only [Returns] at hd
      unfold Store.removeComponents at hd
      obtain ⟨q, ai, a, l, ps, pg, h1, h2, hat, hw, hg, h5, h6, h7, h8⟩ := h.row he hT
      simp only [h.isValid (h.ents.issued_id_lt ha.1), ok_bind, he, hT, ne_eq, not_false_eq_true, and_self, decide_true,
        Bool.not_true, Bool.false_eq_true, if_false, h7, idx_of_some hat.hto, idxUnchecked_of_some hat.ha] at hd
      obtain ⟨r1, b1, b2⟩ := (BuilderRep.new U).includeArchetype hw
      obtain ⟨r2, b3, b4⟩ := b1.excludeComponents ts
      have hmem : ∀ t, t ∈ r2 ↔ t ∈ (w.types e).filter (· ∉ ts) := by
        intro t
        rw [b4, b2, List.mem_filter, ← h5 t]
        simp
      have hr2 : r2 ≠ [] := by
        obtain ⟨t, ht1, ht2⟩ := ha.2 he hT
        exact List.ne_nil_of_mem ((hmem t).2 (by simp [ht1, ht2]))
      obtain ⟨na, b', b5, b6, b7, _⟩ := b3.build hr2
      simp only [b5, ok_bind] at hd
      obtain ⟨⟨s1, q'⟩, m1, hd⟩ := bind_eq_ok.1 hd
      cases hd
      rcases h.move_fits_or_bad he hT b6 (T := (w.types e).filter (· ∉ ts)) (fun t => by rw [b7.mem_iff, hmem]) (by
        rintro ⟨_, k2⟩
        obtain ⟨t, ht1, ht2⟩ := hr he hT
        have := k2 t ht1
        simp [ht2] at this) m1 with g | g
      · exact g
      · exact absurd g (hh _)
    · cases hn
  | _ => cases hn

/-- Both properties hold in a related state. -/
theorem rowsFit (h : Rel U dbg s w) : RowsFit s := by
  intro p ai pg l h1 h2 h3
  rcases h.places.inv.covers p (List.getElem?_eq_some_iff.1 h1).1 with hf | ⟨i, ps, hi, hm⟩
  · rw [h.places.inv.freeEmpty p hf pg h1]; exact Nat.zero_le _
  · have := h.places.inv.owner i ps p hi hm
    rw [h2] at this
    cases this
    exact h.places.inv.fits ai ps p pg l hi hm h1 h3

theorem usedNotFree (h : Rel U dbg s w) : UsedNotFree s := by
  intro p ai pg h1 h2 h3 h4
  rcases h.places.inv.covers p (List.getElem?_eq_some_iff.1 h1).1 with hf | ⟨i, ps, hi, hm⟩
  · exact h3 (h.places.inv.freeEmpty p hf pg h1)
  · have := h.places.inv.owner i ps p hi hm
    rw [h2] at this
    cases this
    rw [h.places.inv.freeUnused ai h4] at hi
    cases hi
    cases hm

end Rel

theorem Spec.HealthyExec.exec {U : Universe} {dbg : Bool} {cap : Nat} {h : List Event} {s : Store}
    (hx : HealthyExec U dbg cap h s) : Exec U dbg cap h s := by
  induction hx with
  | init hs => exact .init hs
  | step ev _ ha hr hd h1 h2 ih =>
    exact .step ev ih ha (fun T hT => (exec_rel ih).canHold_of_healthy ha hr hd (not_bad h1 h2) hT) hd

end Ecs
