import Verif.Proofs.Owned
import Verif.Proofs.QueryAny
import Verif.Proofs.QueryRun

/-! Component queries in every state reached by calls that returned. -/

namespace Ecs
open Spec

section
variable {U : Universe} {acc : Access} {s : Store}

/-- The item is read from the row. -/
def ItemOf (U : Universe) (acc : Access) (row : Row) (x : Nat × List Ref) : Prop :=
  x.1 = row.id ∧ List.Forall₂ (PlaceOf U row) acc.types x.2 ∧
    ∃ offs, getOffsetsUnchecked row.arch row.layout acc.types = .ok offs ∧
      x.2 = getRefs U row.loc.page row.loc.index acc.types offs

theorem offsets_places {a : Archetype} {l : Layout} {ts offs : List Nat} (h : getOffsetsUnchecked a l ts = .ok offs)
    (hs : a.ids.Pairwise (· ≤ ·)) (hm : ∀ t ∈ ts, t ∈ a.ids) (p i id : Nat) :
    List.Forall₂ (PlaceOf U ⟨a, l, ⟨p, i⟩, id⟩) ts (getRefs U p i ts offs) := by
  induction ts generalizing offs with
  | nil => cases h; exact .nil
  | cons t ts ih =>
    obtain ⟨k, hb, hk⟩ := binarySearch_of_mem hs (hm t List.mem_cons_self)
    unfold getOffsetsUnchecked at h
    simp only [Archetype.findComponentIndex, hb] at h
    obtain ⟨o, h1, h⟩ := bind_eq_ok.1 h
    obtain ⟨os, h2, h⟩ := bind_eq_ok.1 h
    cases h
    simp only [getRefs, List.zip_cons_cons, List.map_cons]
    exact .cons ⟨k, o, hk, idxUnchecked_ok.1 h1, rfl⟩ (ih h2 fun x hx => hm x (List.mem_cons_of_mem _ hx))

theorem view_rows {a : Archetype} {l : Layout} {offs : List Nat} (ho : getOffsetsUnchecked a l acc.types = .ok offs)
    (hs : a.ids.Pairwise (· ≤ ·)) (hm : ∀ t ∈ acc.types, t ∈ a.ids) {p : Nat} {pg : Page} (hp : s.archs.pages[p]? = some pg) :
    List.Forall₂ (ItemOf U acc) (rowsOfPage s a l p) (IterView.new U acc p pg offs).items := by
  unfold rowsOfPage IterView.items IterView.new
  simp only [hp]
  rw [List.forall₂_map_left_iff, List.forall₂_map_right_iff, List.forall₂_same]
  rintro ⟨id, i⟩ _
  refine ⟨rfl, ?_⟩
  simp only [Access.getPtrs, addToPtrs_getRefs]
  exact ⟨offsets_places ho hs hm p i id, offs, ho, rfl⟩

theorem collectPages_any {a : Archetype} {l : Layout} {offs : List Nat} (ho : getOffsetsUnchecked a l acc.types = .ok offs)
    (hs : a.ids.Pairwise (· ≤ ·)) (hm : ∀ t ∈ acc.types, t ∈ a.ids) (rest : List Nat)
    (hl : ∀ p ∈ rest, p < s.archs.pages.length) (vs : List IterView) (n : Nat) :
    ∃ ws, collectPages U acc s.archs.pages offs rest (vs, n) = .ok (vs ++ ws, n + (ws.map (·.entityCount)).sum) ∧
      (∀ v ∈ ws, v.Ok) ∧ List.Forall₂ (ItemOf U acc) (rest.flatMap (rowsOfPage s a l)) (ws.flatMap (·.items)) := by
  induction rest generalizing vs n with
  | nil => exact ⟨[], by simp [collectPages], by simp, .nil⟩
  | cons p rest ih =>
    obtain ⟨pg, hp⟩ : ∃ pg, s.archs.pages[p]? = some pg := ⟨_, List.getElem?_eq_getElem (hl p List.mem_cons_self)⟩
    have ih := ih fun q hq => hl q (List.mem_cons_of_mem _ hq)
    unfold collectPages
    simp only [idx_of_some hp, ok_bind]
    by_cases hz : pg.ids.items = []
    · have hz' : pg.entityCount = 0 := by simp [Page.entityCount, hz]
      rw [if_pos hz']
      obtain ⟨ws, h1, h2, h3⟩ := ih vs n
      refine ⟨ws, h1, h2, ?_⟩
      have : rowsOfPage s a l p = [] := by simp [rowsOfPage, hp, hz]
      rw [List.flatMap_cons, this]
      exact h3
    · have hz' : ¬ pg.entityCount = 0 := by simpa [Page.entityCount] using hz
      rw [if_neg hz']
      obtain ⟨ws, h1, h2, h3⟩ := ih (vs ++ [IterView.new U acc p pg offs]) (n + pg.entityCount)
      refine ⟨IterView.new U acc p pg offs :: ws, ?_, ?_, ?_⟩
      · rw [h1]
        simp [IterView.new, Nat.add_assoc]
      · intro v hv
        rcases List.mem_cons.1 hv with rfl | hv
        · exact ⟨rfl, hz⟩
        · exact h2 v hv
      · rw [List.flatMap_cons, List.flatMap_cons]
        exact List.rel_append (view_rows ho hs hm hp) h3

/-- The rows of one archetype. -/
def rowsOfArch (s : Store) (acc : Access) (ai : Nat) : List Row :=
  match s.archs.archetypes[ai]?, s.archs.layouts[ai]?, s.archs.archPages[ai]? with
  | some a, some l, some ps => if Covers a.ids acc then ps.flatMap (rowsOfPage s a l) else []
  | _, _, _ => []

theorem coveredRows_eq (h : s.archs.Shape) :
    coveredRows s acc = (List.range s.archs.archetypes.length).flatMap (rowsOfArch s acc) := by
  unfold coveredRows
  have key : ((s.archs.archetypes.zip s.archs.layouts).zip s.archs.archPages) =
      (List.range s.archs.archetypes.length).filterMap fun ai =>
        match s.archs.archetypes[ai]?, s.archs.layouts[ai]?, s.archs.archPages[ai]? with
        | some a, some l, some ps => some ((a, l), ps)
        | _, _, _ => none := by
    refine List.ext_getElem? fun i => ?_
    have hall : ∀ ai ∈ List.range s.archs.archetypes.length, (match s.archs.archetypes[ai]?, s.archs.layouts[ai]?, s.archs.archPages[ai]? with
        | some a, some l, some ps => some ((a, l), ps)
        | _, _, _ => none) = (((s.archs.archetypes.zip s.archs.layouts).zip s.archs.archPages)[ai]?) := by
      intro ai hai
      have hlt := List.mem_range.1 hai
      have h1 : ai < s.archs.layouts.length := by rw [h.llen]; exact hlt
      have h2 : ai < s.archs.archPages.length := by rw [h.plen]; exact hlt
      rw [List.getElem?_eq_getElem hlt, List.getElem?_eq_getElem h1, List.getElem?_eq_getElem h2]
      symm
      rw [List.getElem?_zip_eq_some, List.getElem?_zip_eq_some]
      exact ⟨⟨List.getElem?_eq_getElem hlt, List.getElem?_eq_getElem h1⟩, List.getElem?_eq_getElem h2⟩
    rw [List.filterMap_congr hall]
    have hl : ((s.archs.archetypes.zip s.archs.layouts).zip s.archs.archPages).length = s.archs.archetypes.length := by
      simp [h.llen, h.plen]
    rw [← hl]
    generalize ((s.archs.archetypes.zip s.archs.layouts).zip s.archs.archPages) = L
    clear hl hall
    congr 1
    induction L with
    | nil => rfl
    | cons x L ih =>
      rw [List.length_cons, List.range_succ_eq_map, List.filterMap_cons, List.filterMap_map]
      simpa using ih
  rw [key]
  induction List.range s.archs.archetypes.length with
  | nil => rfl
  | cons ai l ih =>
    rw [List.flatMap_cons, List.filterMap_cons, ← ih]
    unfold rowsOfArch
    cases s.archs.archetypes[ai]? <;> cases s.archs.layouts[ai]? <;> cases s.archs.archPages[ai]? <;> simp

theorem collectArchetypes_any (h : s.archs.Shape) (ais : List Nat) (hlt : ∀ ai ∈ ais, ai < s.archs.archetypes.length)
    (vs : List IterView) (n : Nat) :
    ∃ ws, collectArchetypes U acc s.archs ais (vs, n) = .ok (vs ++ ws, n + (ws.map (·.entityCount)).sum) ∧
      (∀ v ∈ ws, v.Ok) ∧ List.Forall₂ (ItemOf U acc) (ais.flatMap (rowsOfArch s acc)) (ws.flatMap (·.items)) := by
  induction ais generalizing vs n with
  | nil => exact ⟨[], by simp [collectArchetypes], by simp, .nil⟩
  | cons ai ais ih =>
    have ih := ih fun x hx => hlt x (List.mem_cons_of_mem _ hx)
    have h0 := hlt ai List.mem_cons_self
    obtain ⟨a, ha⟩ : ∃ a, s.archs.archetypes[ai]? = some a := ⟨_, List.getElem?_eq_getElem h0⟩
    obtain ⟨l, hl⟩ : ∃ l, s.archs.layouts[ai]? = some l :=
      ⟨_, List.getElem?_eq_getElem (show ai < s.archs.layouts.length by rw [h.llen]; exact h0)⟩
    obtain ⟨ps, hps⟩ : ∃ ps, s.archs.archPages[ai]? = some ps :=
      ⟨_, List.getElem?_eq_getElem (show ai < s.archs.archPages.length by rw [h.plen]; exact h0)⟩
    obtain ⟨he, hlen⟩ := h.even ai a l ha hl
    unfold collectArchetypes
    simp only [idxUnchecked_of_some ha, idxUnchecked_of_some hl, ok_bind]
    have hrows : rowsOfArch s acc ai = if Covers a.ids acc then ps.flatMap (rowsOfPage s a l) else [] := by
      unfold rowsOfArch
      rw [ha, hl, hps]
    rw [List.flatMap_cons, hrows]
    cases hinc : acc.included a with
    | false =>
      have hc : ¬ Covers a.ids acc := by
        intro hc
        rw [(Access.included_covers he.sorted).2 hc] at hinc
        cases hinc
      simp only [if_true, if_neg hc, List.nil_append]
      exact ih vs n
    | true =>
      have hc := (Access.included_covers he.sorted).1 hinc
      simp only [Bool.true_eq_false, if_false, if_pos hc]
      obtain ⟨offs, _, ho⟩ := offsets_even he hlen acc.types hc.mem
      have ho' := ho
      rw [← Access.getOffsets_eq] at ho'
      simp only [ho', ok_bind, idx_of_some hps]
      obtain ⟨ws1, g1, g2, g3⟩ := collectPages_any (U := U) (s := s) ho he.sorted hc.mem ps
        (h.listed ps (List.mem_of_getElem? hps)) vs n
      simp only [g1, ok_bind]
      obtain ⟨ws2, h1, h2, h3⟩ := ih (vs ++ ws1) (n + (ws1.map (·.entityCount)).sum)
      refine ⟨ws1 ++ ws2, ?_, ?_, ?_⟩
      · rw [h1]; simp [Nat.add_assoc]
      · intro v hv
        exact (List.mem_append.1 hv).elim (g2 v) (h2 v)
      · rw [List.flatMap_append]
        exact List.rel_append g3 h3

/-- A component query was set up, and these are its items. -/
theorem componentQueryIter_any (h : s.archs.Shape) (old : List IterView) :
    ∃ it items, componentQueryIter U s acc old = .ok it ∧ it.Remaining items ∧ it.queriedEntitiesCount = items.length ∧
      List.Forall₂ (ItemOf U acc) (coveredRows s acc) items := by
  obtain ⟨ws, h1, hok, h3⟩ := collectArchetypes_any (U := U) (acc := acc) h (List.range s.archs.archetypes.length)
    (fun _ h => List.mem_range.1 h) [] 0
  rw [← coveredRows_eq h] at h3
  have hcnt : (ws.map (·.entityCount)).sum = (ws.flatMap (·.items)).length := by
    rw [List.length_flatMap]
    congr 1
    refine List.map_congr_left fun v hv => ?_
    rw [IterView.items_length]
    exact (hok v hv).1
  rw [List.nil_append, Nat.zero_add] at h1
  cases ws with
  | nil =>
    refine ⟨{ pageViews := [], cur := PageIter.empty, currentPageIndex := 0, queriedEntitiesCount := 0 }, [], ?_,
      ⟨by simp, rfl, rfl⟩, rfl, h3⟩
    unfold componentQueryIter
    simp only [List.take_zero, h1, ok_bind]
    rfl
  | cons v ws =>
    refine ⟨{ pageViews := v :: ws, cur := PageIter.new v, currentPageIndex := 0,
              queriedEntitiesCount := ((v :: ws).map (·.entityCount)).sum }, _, ?_,
      ⟨hok, (hok v (by simp)).1, by simp [PageIter.new]⟩, hcnt, h3⟩
    unfold componentQueryIter
    simp only [List.take_zero, h1, ok_bind]
    rfl

/-- The ids in the covered rows are listed in pages. -/
theorem coveredRows_mem {r : Row} (h : r ∈ coveredRows s acc) : ∃ pg ∈ s.archs.pages, r.id ∈ pg.ids.items := by
  unfold coveredRows at h
  obtain ⟨x, _, h⟩ := List.mem_flatMap.1 h
  split at h
  · obtain ⟨p, _, h⟩ := List.mem_flatMap.1 h
    unfold rowsOfPage at h
    split at h
    · cases h
    · next pg hpg =>
      obtain ⟨⟨id, i⟩, h1, rfl⟩ := List.mem_map.1 h
      exact ⟨pg, List.mem_of_getElem? hpg, List.mem_of_getElem? (List.mk_mem_zipIdx_iff_getElem?.1 h1)⟩
  · cases h

end

/-- A component query in a state reached by calls that returned. -/
theorem component_any {U : Universe} {dbg : Bool} {cap : Nat} {h : List Event} {s : Store} (hx : LooseExec U dbg cap h s)
    (acc : Access) (old : List IterView) {fuel : Nat} (hf : (coveredRows s acc).length < fuel) :
    ∃ it items, componentQueryIter U s acc old = .ok it ∧ it.Pending s items ∧ items.length < fuel ∧ it.len = items.length ∧
      (∀ x ∈ items, x.1 < s.ents.capacity) ∧
      List.Forall₂ (ItemOf U acc) (coveredRows s acc) items ∧
      runComponentQueryWithEntities U dbg s acc old fuel = .ok (items.map fun x => (s.entOf x.1, x.2)) ∧
      runComponentQuery U s acc old fuel = .ok (items.map (·.2)) := by
  obtain ⟨it, items, h1, h2, h3, h4⟩ := componentQueryIter_any (U := U) (acc := acc) (loose_shape hx).archs old
  have hl : items.length < fuel := by rw [← h4.length_eq]; exact hf
  have hlt : ∀ x ∈ items, x.1 < s.ents.capacity := by
    intro x hxi
    obtain ⟨k, hk⟩ := List.mem_iff_getElem?.1 hxi
    have hk1 := (List.getElem?_eq_some_iff.1 hk).1
    have hk2 : k < (coveredRows s acc).length := by rw [h4.length_eq]; exact hk1
    have hit := (List.forall₂_iff_get.1 h4).2 k hk2 hk1
    have : items.get ⟨k, hk1⟩ = x := (List.getElem?_eq_some_iff.1 hk).2
    rw [this] at hit
    obtain ⟨pg, hpg, hid⟩ := coveredRows_mem (List.get_mem (coveredRows s acc) ⟨k, hk2⟩)
    obtain ⟨e, he, hee⟩ := loose_owned hx pg hpg _ hid
    rw [hit.1, ← hee]
    exact (loose_core hx).ents.issued_id_lt he
  have hp : it.Pending s items := ⟨h2, fun x hxi => by
    obtain ⟨v, hv, _⟩ := (loose_core hx).ents.vinit _ (hlt x hxi)
    exact ⟨v, hv⟩⟩
  refine ⟨it, items, h1, hp, hl, h3, hlt, h4, ?_, ?_⟩
  · unfold runComponentQueryWithEntities
    simp only [h1, ok_bind]
    exact drain_of (CompIter.Pending s) (fun it h => (CompIter.Pending.nextWithEntity_nil s h).imp fun _ h => h.1)
      (fun it x l h => CompIter.Pending.nextWithEntity_cons h) hp hl
  · unfold runComponentQuery
    simp only [h1, ok_bind]
    exact drain_of CompIter.Remaining (fun it h => (CompIter.next_nil h).imp fun _ h => h.1)
      (fun it x l h => (CompIter.next_cons h).imp fun _ h => ⟨h.1, h.2.1⟩) h2 hl

end Ecs
