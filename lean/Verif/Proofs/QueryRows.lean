import Verif.Proofs.Rows
import Verif.Proofs.QueryCompAny

/-! Component queries return the entities they should, in every state reached by calls that returned. -/

namespace Ecs
open Spec

section
variable {acc : Access} {s : Store}

theorem rowsOfPage_mem {a : Archetype} {l : Layout} {p : Nat} {r : Row} : r ∈ rowsOfPage s a l p ↔
    r.arch = a ∧ r.layout = l ∧ r.loc.page = p ∧ s.archs.row r.loc = some r.id := by
  unfold rowsOfPage Archs.row
  constructor
  · intro h
    split at h
    · cases h
    · next pg hpg =>
      obtain ⟨⟨id, i⟩, h1, rfl⟩ := List.mem_map.1 h
      refine ⟨rfl, rfl, rfl, ?_⟩
      simp [hpg, List.mk_mem_zipIdx_iff_getElem?.1 h1]
  · rintro ⟨rfl, rfl, rfl, h⟩
    obtain ⟨a, l, ⟨p, i⟩, id⟩ := r
    dsimp only at h ⊢
    cases hpg : s.archs.pages[p]? with
    | none => simp [hpg] at h
    | some pg =>
      simp only [hpg, Option.bind_some] at h
      exact List.mem_map.2 ⟨(id, i), List.mk_mem_zipIdx_iff_getElem?.2 h, rfl⟩

theorem rowsOfPage_nodup {a : Archetype} {l : Layout} {p : Nat} : ((rowsOfPage s a l p).map (·.loc)).Nodup := by
  unfold rowsOfPage
  split
  · exact List.nodup_nil
  · next pg _ =>
    rw [List.map_map]
    have : ((fun x : Row => x.loc) ∘ fun x : Nat × Nat => (⟨a, l, ⟨p, x.2⟩, x.1⟩ : Row)) = (fun i => (⟨p, i⟩ : Loc)) ∘ Prod.snd := rfl
    rw [this, ← List.map_map, List.zipIdx_map_snd]
    exact List.Nodup.map (fun i j h => (Loc.mk.inj h).2) List.nodup_range'

theorem rowsOfArch_mem {ai : Nat} {r : Row} : r ∈ rowsOfArch s acc ai ↔
    ∃ ps, s.archs.archetypes[ai]? = some r.arch ∧ s.archs.layouts[ai]? = some r.layout ∧ s.archs.archPages[ai]? = some ps ∧
      Covers r.arch.ids acc ∧ r.loc.page ∈ ps ∧ s.archs.row r.loc = some r.id := by
  unfold rowsOfArch
  constructor
  · intro h
    split at h
    · next a l ps h1 h2 h3 =>
      split at h
      · next hc =>
        obtain ⟨p, hp, h⟩ := List.mem_flatMap.1 h
        obtain ⟨rfl, rfl, rfl, h4⟩ := rowsOfPage_mem.1 h
        exact ⟨ps, h1, h2, h3, hc, hp, h4⟩
      · cases h
    · cases h
  · rintro ⟨ps, h1, h2, h3, hc, hp, h4⟩
    rw [h1, h2, h3]
    dsimp only
    rw [if_pos hc]
    exact List.mem_flatMap.2 ⟨_, hp, rowsOfPage_mem.2 ⟨rfl, rfl, rfl, h4⟩⟩

theorem coveredRows_nodup (hs : s.archs.Shape) (hu : s.archs.Use) : ((coveredRows s acc).map (·.loc)).Nodup := by
  rw [coveredRows_eq hs, List.map_flatMap, List.nodup_flatMap]
  refine ⟨fun ai _ => ?_, List.nodup_range.imp fun {ai aj} hne => ?_⟩
  · unfold rowsOfArch
    split
    · next a l ps h1 h2 h3 =>
      split
      · rw [List.map_flatMap, List.nodup_flatMap]
        refine ⟨fun p _ => rowsOfPage_nodup, (hu.psNodup ps (List.mem_of_getElem? h3)).imp fun {p p'} hne => ?_⟩
        intro q hq hq'
        obtain ⟨r, hr, rfl⟩ := List.mem_map.1 hq
        obtain ⟨r', hr', he⟩ := List.mem_map.1 hq'
        have e1 := (rowsOfPage_mem.1 hr).2.2.1
        have e2 := (rowsOfPage_mem.1 hr').2.2.1
        rw [he] at e2
        exact hne (e1.symm.trans e2)
      · exact List.nodup_nil
    · exact List.nodup_nil
  · intro q hq hq'
    obtain ⟨r, hr, rfl⟩ := List.mem_map.1 hq
    obtain ⟨r', hr', he⟩ := List.mem_map.1 hq'
    obtain ⟨ps, _, _, h1, _, h2, _⟩ := rowsOfArch_mem.1 hr
    obtain ⟨ps', _, _, h3, _, h4, _⟩ := rowsOfArch_mem.1 hr'
    have e1 := hu.owner _ _ _ h1 h2
    have e2 := hu.owner _ _ _ h3 h4
    rw [he, e1] at e2
    exact hne (Option.some.inj e2)

theorem coveredRows_iff (hs : s.archs.Shape) {r : Row} : r ∈ coveredRows s acc ↔ ∃ ai, r ∈ rowsOfArch s acc ai := by
  rw [coveredRows_eq hs, List.mem_flatMap]
  constructor
  · rintro ⟨ai, _, h⟩; exact ⟨ai, h⟩
  · rintro ⟨ai, h⟩
    obtain ⟨ps, h1, _⟩ := rowsOfArch_mem.1 h
    exact ⟨ai, List.mem_range.2 (List.getElem?_eq_some_iff.1 h1).1, h⟩

/-- A row with its archetype and layout. -/
theorem Archs.Use.at_row (hs : s.archs.Shape) (hu : s.archs.Use) {q : Loc} {id : Nat} (hq : s.archs.row q = some id) :
    ∃ ai ps a l, s.archs.archPages[ai]? = some ps ∧ q.page ∈ ps ∧ s.archs.pageToArch[q.page]? = some ai ∧
      s.archs.archetypes[ai]? = some a ∧ s.archs.layouts[ai]? = some l := by
  unfold Archs.row at hq
  cases hpg : s.archs.pages[q.page]? with
  | none => simp [hpg] at hq
  | some pg =>
    simp only [hpg, Option.bind_some] at hq
    rcases hu.covers q.page (List.getElem?_eq_some_iff.1 hpg).1 with hf | ⟨ai, ps, h1, h2⟩
    · rw [hu.freeEmpty _ hf pg hpg] at hq
      simp at hq
    · have hlt := (List.getElem?_eq_some_iff.1 h1).1
      have hlt1 : ai < s.archs.archetypes.length := by rw [← hs.plen]; exact hlt
      have hlt2 : ai < s.archs.layouts.length := by rw [hs.llen]; exact hlt1
      exact ⟨ai, ps, _, _, h1, h2, hu.owner ai ps _ h1 h2, List.getElem?_eq_getElem hlt1, List.getElem?_eq_getElem hlt2⟩

end

section
variable {U : Universe} {dbg : Bool} {cap : Nat} {h : List Event} {s : Store}

/-- What the store says about a live entity that was given components. -/
theorem loose_place (hx : LooseExec U dbg cap h s) {e : Entity} (he : e ∈ alive h) (hg : e ∈ given h) :
    ∃ q ai ps a l, Pos s.toPage s.toIndex e.id q ∧ s.archs.row q = some e.id ∧
      s.archs.archPages[ai]? = some ps ∧ q.page ∈ ps ∧ s.archs.pageToArch[q.page]? = some ai ∧
      s.archs.archetypes[ai]? = some a ∧ s.archs.layouts[ai]? = some l ∧
      s.getEntityArchetype dbg e = .ok (some a) ∧
      ∀ ts, (∀ t ∈ ts, t ∈ a.ids) → ∃ offs, getOffsetsUnchecked a l ts = .ok offs ∧
        s.getComponentsRefs U dbg e ts = .ok (some (getRefs U q.page q.index ts offs)) := by
  have hc := loose_core hx
  have hs := loose_shape hx
  have hr := loose_rows hx
  obtain ⟨q, k1, k2, _⟩ := hr.on e.id ⟨e, he, hg, rfl⟩
  obtain ⟨ai, ps, a, l, j1, j2, j3, j4, j5⟩ := hr.use.at_row hs.archs k2
  have hbit := ((given_bit hx).2 e he).2 hg
  have he' := he
  rw [alive_eq] at he'
  have hlt := hc.ents.id_lt he'
  have hval : s.isValidEntityWithArchetype dbg e = .ok true := by
    unfold Store.isValidEntityWithArchetype
    simp only [hc.isAlive hlt, ok_bind, he', decide_true, if_true]
    rw [Words.isOn_of_lt, hbit]
    rw [hc.blen]
    exact Words.div_lt_getLen hlt
  refine ⟨q, ai, ps, a, l, k1, k2, j1, j2, j3, j4, j5, ?_, fun ts hts => ?_⟩
  · unfold Store.getEntityArchetype
    simp only [hval, ok_bind, Bool.not_true, Bool.false_eq_true, if_false, Raw.read_of_some k1.page, idx_of_some j3,
      idx_of_some j4, pure_ok]
  · obtain ⟨ev, hl⟩ := hs.archs.even ai a l j4 j5
    obtain ⟨offs, o1, o2⟩ := offsets_even ev hl ts hts
    refine ⟨offs, o2, ?_⟩
    obtain ⟨pg, hpg⟩ : ∃ pg, s.archs.pages[q.page]? = some pg := by
      unfold Archs.row at k2
      cases hpg : s.archs.pages[q.page]? with
      | none => simp [hpg] at k2
      | some pg => exact ⟨pg, rfl⟩
    unfold Store.getComponentsRefs Store.getPageViewUnchecked
    simp only [hval, ok_bind, if_true, Raw.read_of_some k1.page, Raw.read_of_some k1.index, idxUnchecked_of_some j3,
      idxUnchecked_of_some j4, idxUnchecked_of_some j5, idxUnchecked_of_some hpg, pure_ok, o1]

/-- The covered rows are those of the entities that are selected. -/
theorem coveredRows_selected (hx : LooseExec U dbg cap h s) {acc : Access} :
    ((coveredRows s acc).map (·.id)).Nodup ∧
    (∀ r ∈ coveredRows s acc, ∃ e ∈ alive h, e.id = r.id ∧ s.getEntityArchetype dbg e = .ok (some r.arch) ∧
      Covers r.arch.ids acc ∧ ∃ offs, getOffsetsUnchecked r.arch r.layout acc.types = .ok offs ∧
        s.getComponentsRefs U dbg e acc.types = .ok (some (getRefs U r.loc.page r.loc.index acc.types offs))) ∧
    ∀ e ∈ alive h, ∀ a, s.getEntityArchetype dbg e = .ok (some a) → Covers a.ids acc →
      ∃ r ∈ coveredRows s acc, r.id = e.id := by
  have hs := loose_shape hx
  have hr := loose_rows hx
  refine ⟨?_, fun r hrc => ?_, fun e he a ha hcov => ?_⟩
  · refine List.Nodup.map_on ?_ (List.Nodup.of_map _ (coveredRows_nodup hs.archs hr.use))
    intro r hr1 r' hr2 hid
    obtain ⟨ai, h1⟩ := (coveredRows_iff hs.archs).1 hr1
    obtain ⟨aj, h2⟩ := (coveredRows_iff hs.archs).1 hr2
    obtain ⟨ps, a1, a2, a3, _, a5, a6⟩ := rowsOfArch_mem.1 h1
    obtain ⟨ps', b1, b2, b3, _, b5, b6⟩ := rowsOfArch_mem.1 h2
    have p1 := ((hr.rows _ _ a6).resolve_left (by simp)).2
    have p2 := ((hr.rows _ _ b6).resolve_left (by simp)).2
    rw [hid] at p1
    have hloc := p1.unique p2
    have o1 := hr.use.owner _ _ _ a3 a5
    have o2 := hr.use.owner _ _ _ b3 b5
    rw [hloc, o2] at o1
    cases o1
    rw [a1] at b1
    rw [a2] at b2
    cases r; cases r'
    simp_all
  · obtain ⟨ai, h1⟩ := (coveredRows_iff hs.archs).1 hrc
    obtain ⟨ps, a1, a2, a3, a4, a5, a6⟩ := rowsOfArch_mem.1 h1
    obtain ⟨⟨e, he, hg, hid⟩, hp⟩ := (hr.rows _ _ a6).resolve_left (by simp)
    obtain ⟨q, aj, ps', a, l, k1, k2, k3, k4, k5, k6, k7, k8, k9⟩ := loose_place hx he hg
    rw [hid] at k1
    have := k1.unique hp
    subst this
    have o1 := hr.use.owner _ _ _ a3 a5
    rw [k5] at o1
    cases o1
    rw [k6] at a1
    rw [k7] at a2
    cases a1; cases a2
    exact ⟨e, he, hid, k8, a4, k9 _ a4.mem⟩
  · have hc := loose_core hx
    have hg : e ∈ given h := by
      rw [← (given_bit hx).2 e he]
      unfold Store.getEntityArchetype at ha
      obtain ⟨b, h1, ha⟩ := bind_eq_ok.1 ha
      cases b with
      | false => simp at ha
      | true =>
        unfold Store.isValidEntityWithArchetype at h1
        obtain ⟨b, h2, h1⟩ := bind_eq_ok.1 h1
        cases b with
        | false => simp at h1
        | true => exact (Words.isOn_ok.1 h1).2.symm
    obtain ⟨q, ai, ps, a', l, k1, k2, k3, k4, k5, k6, k7, k8, k9⟩ := loose_place hx he hg
    rw [k8] at ha
    cases ha
    exact ⟨⟨a, l, q, e.id⟩, (coveredRows_iff hs.archs).2 ⟨ai, rowsOfArch_mem.2 ⟨ps, k6, k7, k3, hcov, k4, k2⟩⟩, rfl⟩

theorem coveredRows_le (hx : LooseExec U dbg cap h s) (acc : Access) : (coveredRows s acc).length ≤ (alive h).length := by
  obtain ⟨h1, h2, _⟩ := coveredRows_selected (dbg := dbg) hx (acc := acc)
  have : (coveredRows s acc).map (·.id) ⊆ (alive h).map (·.id) := by
    intro i hi
    obtain ⟨r, hr, rfl⟩ := List.mem_map.1 hi
    obtain ⟨e, he, hid, _⟩ := h2 r hr
    exact List.mem_map.2 ⟨e, he, hid⟩
  simpa using (List.subperm_of_subset h1 this).length_le

/-- The items of a component query. -/
theorem component_selected (hx : LooseExec U dbg cap h s) (acc : Access) (old : List IterView) {fuel : Nat}
    (hf : (alive h).length < fuel) :
    ∃ it items, componentQueryIter U s acc old = .ok it ∧ it.Pending s items ∧ items.length < fuel ∧
      it.len = items.length ∧
      (∀ x ∈ items, s.entOf x.1 ∈ alive h ∧ s.getComponentsRefs U dbg (s.entOf x.1) acc.types = .ok (some x.2)) ∧
      (items.map fun x => s.entOf x.1).Nodup ∧
      (∀ e, e ∈ (items.map fun x => s.entOf x.1) ↔
        e ∈ alive h ∧ ∃ a, s.getEntityArchetype dbg e = .ok (some a) ∧ Covers a.ids acc) ∧
      runComponentQueryWithEntities U dbg s acc old fuel = .ok (items.map fun x => (s.entOf x.1, x.2)) ∧
      runComponentQuery U s acc old fuel = .ok (items.map (·.2)) := by
  have hent : ∀ e ∈ alive h, s.entOf e.id = e := by
    intro e he
    rw [alive_eq] at he
    unfold Store.entOf
    rw [(loose_core hx).ents.lver e he]
    rfl
  obtain ⟨it, items, h1, h2, h3, h4, h5, h6, h7, h8⟩ := component_any hx acc old
    (Nat.lt_of_le_of_lt (coveredRows_le hx acc) hf)
  obtain ⟨c1, c2, c3⟩ := coveredRows_selected (dbg := dbg) hx (acc := acc)
  have hids : items.map (·.1) = (coveredRows s acc).map (·.id) := by
    have key : ∀ {R : List Row} {I : List (Nat × List Ref)}, List.Forall₂ (ItemOf U acc) R I → I.map (·.1) = R.map (·.id) := by
      intro R I hRI
      induction hRI with
      | nil => rfl
      | cons hd _ ih => simp only [List.map_cons, ih, hd.1]
    exact key h6
  have hrow : ∀ x ∈ items, ∃ r ∈ coveredRows s acc, ItemOf U acc r x := by
    intro x hxi
    obtain ⟨k, hk, rfl⟩ := List.mem_iff_getElem.1 hxi
    have hk2 : k < (coveredRows s acc).length := by rw [h6.length_eq]; exact hk
    exact ⟨_, List.get_mem _ ⟨k, hk2⟩, (List.forall₂_iff_get.1 h6).2 k hk2 hk⟩
  have hnd : (items.map fun x => s.entOf x.1).Nodup := by
    have : (items.map fun x => s.entOf x.1) = (items.map (·.1)).map s.entOf := by rw [List.map_map]; rfl
    rw [this, hids]
    exact List.Nodup.map (fun i j he => congrArg Entity.id he) c1
  refine ⟨it, items, h1, h2, h3, h4, fun x hxi => ?_, hnd, fun e => ⟨fun he => ?_, fun he => ?_⟩, h7, h8⟩
  · obtain ⟨r, hr, hid, _, offs, ho, hrefs⟩ := hrow x hxi
    obtain ⟨e, he, hee, _, _, offs', ho', hget⟩ := c2 r hr
    rw [ho] at ho'
    cases ho'
    rw [hid, ← hee, hent e he, hrefs]
    exact ⟨he, hget⟩
  · obtain ⟨x, hxi, rfl⟩ := List.mem_map.1 he
    obtain ⟨r, hr, hid, _⟩ := hrow x hxi
    obtain ⟨e, he, hee, ha, hcov, _⟩ := c2 r hr
    rw [hid, ← hee, hent e he]
    exact ⟨he, r.arch, ha, hcov⟩
  · obtain ⟨he, a, ha, hcov⟩ := he
    obtain ⟨r, hr, hid⟩ := c3 e he a ha hcov
    have : e.id ∈ items.map (·.1) := by rw [hids]; exact List.mem_map.2 ⟨r, hr, hid⟩
    obtain ⟨x, hxi, hx1⟩ := List.mem_map.1 this
    exact List.mem_map.2 ⟨x, hxi, by rw [hx1, hent e he]⟩

end

end Ecs
