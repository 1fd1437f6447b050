import Verif.Spec.Archetype
import Verif.Proofs.Search

namespace Ecs
open Spec

/-- Well-formed archetypes over a universe of types. -/
structure Archetype.WF (U : Universe) (a : Archetype) : Prop where
  ne : a.ids ≠ []
  incr : Incr a.ids
  sizes : a.sizes = a.ids.map U.size
  aligns : a.aligns = a.ids.map U.align

theorem Archetype.WF.ext {U : Universe} {a b : Archetype} (ha : a.WF U) (hb : b.WF U)
    (h : a.ids = b.ids) : a = b := by
  have h1 := ha.sizes; have h2 := hb.sizes; have h3 := ha.aligns; have h4 := hb.aligns
  cases a; cases b; simp_all

theorem map_id_of (U : Universe) (ts : List Nat) :
    (ts.map (ComponentType.of U)).map (·.id) = ts := by
  rw [List.map_map]; exact List.map_id _

theorem of_eq_map {U : Universe} {cs : List ComponentType}
    (h : ∀ c ∈ cs, c = ComponentType.of U c.id) :
    cs = (cs.map (·.id)).map (ComponentType.of U) := by
  rw [List.map_map]
  conv => lhs; rw [← List.map_id cs]
  exact List.map_congr_left h

theorem Archetype.new_wf {U : Universe} {ts : List Nat} (hn : ts.Nodup) (hne : ts ≠ []) :
    ∃ a, Archetype.new (sortByKey (·.id) (ts.map (ComponentType.of U))) = .ok a ∧ a.WF U ∧
      a.ids.Perm ts ∧ sortByKey (·.id) (ts.map (ComponentType.of U)) = a.ids.map (ComponentType.of U) := by
  have hp := sortByKey_perm (·.id) (ts.map (ComponentType.of U))
  have hi := sortByKey_incr (·.id) (ts.map (ComponentType.of U)) (by rw [map_id_of]; exact hn)
  have hids : ((sortByKey (·.id) (ts.map (ComponentType.of U))).map (·.id)).Perm ts := by
    have := hp.map (·.id)
    rwa [map_id_of] at this
  have hform := of_eq_map (U := U) (cs := sortByKey (·.id) (ts.map (ComponentType.of U))) (by
    intro c hc
    obtain ⟨t, _, rfl⟩ := List.mem_map.1 (hp.mem_iff.1 hc)
    rfl)
  have hpos : 0 < (sortByKey (·.id) (ts.map (ComponentType.of U))).length := by
    rw [hp.length_eq, List.length_map]
    exact List.length_pos_iff.2 hne
  refine ⟨{ ids := (sortByKey (·.id) (ts.map (ComponentType.of U))).map (·.id)
            sizes := (sortByKey (·.id) (ts.map (ComponentType.of U))).map (·.size)
            aligns := (sortByKey (·.id) (ts.map (ComponentType.of U))).map (·.align) },
    ?_, ⟨?_, hi, ?_, ?_⟩, hids, hform⟩
  · simp only [Archetype.new, hpos, decide_true, rassert_true, ok_bind, gt_iff_lt]; rfl
  · intro hnil
    simp only at hnil
    rw [hnil] at hids
    exact hne hids.symm.eq_nil
  · show List.map _ _ = List.map _ _
    conv => lhs; rw [hform]
    rw [List.map_map]; rfl
  · show List.map _ _ = List.map _ _
    conv => lhs; rw [hform]
    rw [List.map_map]; rfl

theorem Archetype.withComponents_spec {U : Universe} {ts : List Nat} (hn : ts.Nodup)
    (hne : ts ≠ []) :
    ∃ a, Archetype.withComponents U ts = .ok a ∧ a.WF U ∧ a.ids.Perm ts := by
  obtain ⟨a, h1, h2, h3, _⟩ := Archetype.new_wf (U := U) hn hne
  exact ⟨a, h1, h2, h3⟩

theorem Archetype.withComponents_nil {U : Universe} :
    Archetype.withComponents U [] = .error (.panic .assertFailed) := rfl

theorem componentsIter_eq {U : Universe} {a : Archetype} (h : a.WF U) :
    a.componentsIter = a.ids.map (ComponentType.of U) := by
  unfold Archetype.componentsIter
  apply List.ext_getElem
  · simp
  · intro i h1 h2
    have hi : i < a.ids.length := by simpa using h1
    simp [ComponentType.of, h.sizes, h.aligns, List.getD, hi]

/-- The builder holds the (unsorted) distinct types `ts`. -/
def BuilderRep (U : Universe) (b : ArchetypeBuilder) (ts : List Nat) : Prop :=
  b.componentTypes = ts.map (ComponentType.of U) ∧ ts.Nodup

theorem any_eqv_of {U : Universe} {ts : List Nat} {t : Nat} :
    (ts.map (ComponentType.of U)).any (fun d => d.eqv (ComponentType.of U t)) = decide (t ∈ ts) := by
  rw [List.any_map]
  rw [Bool.eq_iff_iff]
  simp [ComponentType.eqv, ComponentType.of]

theorem include_fold {U : Universe} (ts us : List Nat) (hn : ts.Nodup) :
    ∃ r : List Nat, (us.map (ComponentType.of U)).foldl ArchetypeBuilder.includeOne (ts.map (ComponentType.of U))
      = r.map (ComponentType.of U) ∧ r.Nodup ∧ ∀ t, t ∈ r ↔ t ∈ ts ∨ t ∈ us := by
  induction us generalizing ts with
  | nil => exact ⟨ts, rfl, hn, by simp⟩
  | cons u us ih =>
    simp only [List.map_cons, List.foldl_cons, ArchetypeBuilder.includeOne, any_eqv_of]
    by_cases hu : u ∈ ts
    · obtain ⟨r, h1, h2, h3⟩ := ih ts hn
      simp only [hu, decide_true, if_true]
      refine ⟨r, h1, h2, fun t => ?_⟩
      rw [h3, List.mem_cons]
      constructor
      · tauto
      · rintro (h | rfl | h)
        · exact Or.inl h
        · exact Or.inl hu
        · exact Or.inr h
    · have hn' : (ts ++ [u]).Nodup := by
        rw [List.nodup_append]
        refine ⟨hn, by simp, ?_⟩
        rintro a ha b hb rfl
        simp at hb; subst hb; exact hu ha
      obtain ⟨r, h1, h2, h3⟩ := ih (ts ++ [u]) hn'
      simp only [hu, decide_false, Bool.false_eq_true, if_false]
      refine ⟨r, ?_, h2, fun t => ?_⟩
      · rw [← h1, List.map_append]; rfl
      · rw [h3]; simp only [List.mem_append, List.mem_cons, List.not_mem_nil, or_false]; tauto

theorem exclude_one {U : Universe} (ts : List Nat) (u : Nat) :
    ArchetypeBuilder.excludeOne (ts.map (ComponentType.of U)) (ComponentType.of U u) =
      (ts.erase u).map (ComponentType.of U) := by
  unfold ArchetypeBuilder.excludeOne
  induction ts with
  | nil => rfl
  | cons t ts ih =>
    by_cases h : t = u
    · subst h; simp [ComponentType.eqv]
    · have h2 : ¬ (t == u) = true := by simpa using h
      rw [List.erase_cons_tail h2]
      simp only [List.map_cons]
      rw [List.eraseP_cons_of_neg (by simpa [ComponentType.eqv, ComponentType.of] using h), ih]

theorem exclude_fold {U : Universe} (ts us : List Nat) (hn : ts.Nodup) :
    ∃ r : List Nat, (us.map (ComponentType.of U)).foldl ArchetypeBuilder.excludeOne (ts.map (ComponentType.of U))
      = r.map (ComponentType.of U) ∧ r.Nodup ∧ ∀ t, t ∈ r ↔ t ∈ ts ∧ t ∉ us := by
  induction us generalizing ts with
  | nil => exact ⟨ts, rfl, hn, by simp⟩
  | cons u us ih =>
    simp only [List.map_cons, List.foldl_cons, exclude_one]
    obtain ⟨r, h1, h2, h3⟩ := ih (ts.erase u) (hn.erase u)
    refine ⟨r, h1, h2, fun t => ?_⟩
    rw [h3, hn.mem_erase_iff, List.mem_cons]; tauto

theorem BuilderRep.includeComponents {U : Universe} {b : ArchetypeBuilder} {ts : List Nat}
    (h : BuilderRep U b ts) (us : List Nat) :
    ∃ r, BuilderRep U (b.includeComponents U us) r ∧ ∀ t, t ∈ r ↔ t ∈ ts ∨ t ∈ us := by
  obtain ⟨r, h1, h2, h3⟩ := include_fold (U := U) ts us h.2
  refine ⟨r, ⟨?_, h2⟩, h3⟩
  simp only [ArchetypeBuilder.includeComponents, ArchetypeBuilder.includeComponentTypes, h.1, h1]

theorem BuilderRep.excludeComponents {U : Universe} {b : ArchetypeBuilder} {ts : List Nat}
    (h : BuilderRep U b ts) (us : List Nat) :
    ∃ r, BuilderRep U (b.excludeComponents U us) r ∧ ∀ t, t ∈ r ↔ t ∈ ts ∧ t ∉ us := by
  obtain ⟨r, h1, h2, h3⟩ := exclude_fold (U := U) ts us h.2
  refine ⟨r, ⟨?_, h2⟩, h3⟩
  simp only [ArchetypeBuilder.excludeComponents, ArchetypeBuilder.excludeComponentTypes, h.1, h1]

theorem BuilderRep.includeArchetype {U : Universe} {b : ArchetypeBuilder} {ts : List Nat}
    (h : BuilderRep U b ts) {a : Archetype} (ha : a.WF U) :
    ∃ r, BuilderRep U (b.includeArchetype a) r ∧ ∀ t, t ∈ r ↔ t ∈ ts ∨ t ∈ a.ids := by
  obtain ⟨r, h1, h2, h3⟩ := include_fold (U := U) ts a.ids h.2
  refine ⟨r, ⟨?_, h2⟩, h3⟩
  simp only [ArchetypeBuilder.includeArchetype, ArchetypeBuilder.includeComponentTypes, h.1,
    componentsIter_eq ha, h1]

theorem BuilderRep.new (U : Universe) : BuilderRep U .new [] := ⟨rfl, List.nodup_nil⟩

theorem BuilderRep.build_nil {U : Universe} {b : ArchetypeBuilder}
    (h : BuilderRep U b []) : b.build = .error (.panic .assertFailed) := by
  unfold ArchetypeBuilder.build; rw [h.1]; rfl

theorem BuilderRep.build {U : Universe} {b : ArchetypeBuilder} {ts : List Nat}
    (h : BuilderRep U b ts) (hne : ts ≠ []) :
    ∃ a b', b.build = .ok (a, b') ∧ a.WF U ∧ a.ids.Perm ts ∧ BuilderRep U b' a.ids := by
  obtain ⟨a, h1, h2, h3, h4⟩ := Archetype.new_wf (U := U) h.2 hne
  refine ⟨a, { componentTypes := sortByKey (·.id) b.componentTypes }, ?_, h2, h3, ?_, h2.incr.nodup⟩
  · unfold ArchetypeBuilder.build; rw [h.1]; dsimp only; rw [h1]; rfl
  · simp only [h.1, h4]

theorem runBuilder_rep {U : Universe} (ops : List BuilderOp) {b b' : ArchetypeBuilder}
    {ts : List Nat} {S : Nat → Prop} (h : BuilderRep U b ts) (hS : ∀ t, t ∈ ts ↔ S t)
    (hw : ∀ x, .includeArchetype x ∈ ops → x.WF U) (hr : runBuilder U b ops = .ok b') :
    ∃ r, BuilderRep U b' r ∧ ∀ t, t ∈ r ↔ exprSet S ops t := by
  induction ops generalizing b ts S with
  | nil => cases hr; exact ⟨ts, h, hS⟩
  | cons op ops ih =>
    obtain ⟨b1, hb1, hr2⟩ := bind_eq_ok.1 hr
    clear hr
    have hr := hr2
    have hw' : ∀ x, .includeArchetype x ∈ ops → x.WF U := fun x hx => hw x (List.mem_cons_of_mem _ hx)
    cases op with
    | includeTypes us =>
      cases hb1
      obtain ⟨r, h1, h2⟩ := h.includeComponents us
      exact ih h1 (fun t => by rw [h2, hS]) hw' hr
    | excludeTypes us =>
      cases hb1
      obtain ⟨r, h1, h2⟩ := h.excludeComponents us
      exact ih h1 (fun t => by rw [h2, hS]) hw' hr
    | includeArchetype a =>
      cases hb1
      obtain ⟨r, h1, h2⟩ := h.includeArchetype (hw a (by simp))
      exact ih h1 (fun t => by rw [h2, hS]) hw' hr
    | build =>
      obtain ⟨⟨a, b2⟩, hb2, hb1⟩ := bind_eq_ok.1 hb1
      cases hb1
      by_cases hne : ts = []
      · subst hne; rw [h.build_nil] at hb2; cases hb2
      · obtain ⟨a', b3, h1, h2, h3, h4⟩ := h.build hne
        rw [h1] at hb2; cases hb2
        exact ih h4 (fun t => by rw [h3.mem_iff, hS]) hw' hr

theorem Spec.Built.wf {U : Universe} {a : Archetype} (h : Built U a) : a.WF U := by
  induction h with
  | tuple ts hn hr =>
    by_cases hne : ts = []
    · subst hne; rw [Archetype.withComponents_nil] at hr; cases hr
    · obtain ⟨a', h1, h2, _⟩ := Archetype.withComponents_spec (U := U) hn hne
      rw [h1] at hr; cases hr; exact h2
  | builder ops hx hr hb ih =>
    obtain ⟨r, h1, h2⟩ := runBuilder_rep ops (BuilderRep.new U) (S := fun _ => False) (by simp) ih hr
    by_cases hne : r = []
    · subst hne; rw [h1.build_nil] at hb; cases hb
    · obtain ⟨a', b3, h3, h4, h5, h6⟩ := h1.build hne
      rw [h3] at hb; cases hb; exact h4

namespace Archetype

theorem findComponentIndex_iff {a : Archetype} (h : Incr a.ids) {t i : Nat} :
    a.findComponentIndex t = some i ↔ a.ids[i]? = some t := by
  unfold findComponentIndex
  cases hb : binarySearch a.ids t with
  | found j =>
    have hj := binarySearch_found hb
    constructor
    · intro hh; cases hh; exact hj
    · intro hi; simp [h.getElem?_inj hi hj]
  | notFound j =>
    constructor
    · intro hh; cases hh
    · intro hi; exact absurd (List.mem_of_getElem? hi) (binarySearch_notFound_not_mem h.le hb)

theorem findComponentIndex_none_iff {a : Archetype} (h : Incr a.ids) {t : Nat} :
    a.findComponentIndex t = none ↔ t ∉ a.ids := by
  unfold findComponentIndex
  cases hb : binarySearch a.ids t with
  | found j => simp [List.mem_of_getElem? (binarySearch_found hb)]
  | notFound j => simp [binarySearch_notFound_not_mem h.le hb]

theorem hasComponent_iff {a : Archetype} (h : Incr a.ids) {t : Nat} :
    a.hasComponent t = true ↔ t ∈ a.ids := by
  unfold hasComponent
  rw [Option.isSome_iff_ne_none, Ne, findComponentIndex_none_iff h, not_not]

theorem allFound_iff {ids : List Nat} (h : Incr ids) (l : List Nat) :
    allFound ids l = true ↔ ∀ t ∈ l, t ∈ ids := by
  induction l with
  | nil => simp [allFound]
  | cons x l ih =>
    unfold allFound
    cases hb : binarySearch ids x with
    | found j => simp [ih, List.mem_of_getElem? (binarySearch_found hb)]
    | notFound j => simp [binarySearch_notFound_not_mem h.le hb]

theorem isIncludeIds_iff {a : Archetype} (h : Incr a.ids) {l : List Nat} (hl : l.Nodup) :
    a.isIncludeIds l = true ↔ ∀ t ∈ l, t ∈ a.ids := by
  unfold isIncludeIds
  split
  · rename_i hlt
    simp only [Bool.false_eq_true, false_iff]
    intro hsub
    have := (List.subperm_of_subset hl hsub).length_le
    omega
  · exact allFound_iff h l

theorem isIncludeOnlyIds_iff {a : Archetype} (h : Incr a.ids) {l : List Nat} (hl : l.Nodup) :
    a.isIncludeOnlyIds l = true ↔ l.Perm a.ids := by
  unfold isIncludeOnlyIds
  split
  · rename_i hne
    simp only [Bool.false_eq_true, false_iff]
    intro hp
    exact hne hp.length_eq.symm
  · rename_i hne
    rw [allFound_iff h l]
    constructor
    · intro hsub
      exact (List.subperm_of_subset hl hsub).perm_of_length_le (by omega)
    · exact fun hp t ht => hp.mem_iff.1 ht

theorem excludeLoop_sorted {ids : List Nat} (h : Incr ids) (l : List Nat)
    (hl : l.Pairwise (· ≤ ·)) (left : Nat) (hle : left ≤ ids.length)
    (hb : ∀ x ∈ l, ∀ i (hi : i < ids.length), i < left → ids[i] < x) :
    excludeLoop ids left l = .ok (decide (∀ t ∈ l, t ∉ ids)) := by
  induction l generalizing left with
  | nil => simp [excludeLoop]
  | cons x l ih =>
    rw [List.pairwise_cons] at hl
    unfold excludeLoop
    rw [if_pos hle]
    have hd : (ids.drop left).Pairwise (· ≤ ·) := h.le.sublist (List.drop_sublist _ _)
    cases hs : binarySearch (ids.drop left) x with
    | found j =>
      have := List.mem_of_mem_drop (List.mem_of_getElem? (binarySearch_found hs))
      simp [this]
    | notFound j =>
      obtain ⟨hj1, hj2, hj3⟩ := binarySearch_notFound hd hs
      rw [List.length_drop] at hj1
      have hnm : x ∉ ids := by
        intro hm
        obtain ⟨i, hi, rfl⟩ := List.getElem_of_mem hm
        by_cases hil : i < left
        · exact Nat.lt_irrefl _ (hb _ (by simp) i hi hil)
        · apply binarySearch_notFound_not_mem hd hs
          rw [List.mem_drop_iff_getElem]
          exact ⟨i - left, by omega, by congr 1; omega⟩
      dsimp only
      split
      · rename_i hge
        have hl0 : left = 0 := by omega
        subst hl0
        have : ∀ t ∈ x :: l, t ∉ ids := by
          intro t ht hm
          obtain ⟨i, hi, rfl⟩ := List.getElem_of_mem hm
          have h1 := hj2 i (by simpa using hi) (by omega)
          simp only [List.drop_zero] at h1
          rcases List.mem_cons.1 ht with h2 | h2
          · omega
          · have := hl.1 _ h2; omega
        rw [decide_eq_true this]
      · rename_i hlt
        rw [ih hl.2 j (by omega) ?_]
        · congr 1
          simp [hnm]
        · intro y hy i hi hij
          have hxy := hl.1 y hy
          by_cases hil : i < left
          · have := hb x (by simp) i hi hil; omega
          · have h1 := hj2 (i - left) (by rw [List.length_drop]; omega) (by omega)
            rw [List.getElem_drop] at h1
            have : left + (i - left) = i := by omega
            simp only [this] at h1
            omega

theorem isExcludeIds_sorted {a : Archetype} (h : Incr a.ids) {l : List Nat}
    (hl : l.Pairwise (· ≤ ·)) : a.isExcludeIds l = .ok (decide (∀ t ∈ l, t ∉ a.ids)) :=
  excludeLoop_sorted h l hl 0 (by omega) (fun _ _ i _ hi => by omega)

theorem excludeLoop_finds {ids : List Nat} (h : Incr ids) (l : List Nat) (left : Nat) (hle : left ≤ ids.length)
    {before after : List Nat} {y : Nat} (hl : l = before ++ y :: after) (hy : y ∈ ids)
    (hmax : ∀ x ∈ before, x ≤ y) (hb : ∀ i (hi : i < ids.length), i < left → ids[i] < y) :
    excludeLoop ids left l = .ok false := by
  induction l generalizing left before with
  | nil => simp at hl
  | cons x l ih =>
    unfold excludeLoop
    rw [if_pos hle]
    have hd : (ids.drop left).Pairwise (· ≤ ·) := h.le.sublist (List.drop_sublist _ _)
    cases hs : binarySearch (ids.drop left) x with
    | found j => rfl
    | notFound j =>
      obtain ⟨hj1, hj2, hj3⟩ := binarySearch_notFound hd hs
      rw [List.length_drop] at hj1
      dsimp only
      obtain ⟨iy, hiy, rfl⟩ := List.getElem_of_mem hy
      have hil : ¬ iy < left := fun hlt => Nat.lt_irrefl _ (hb iy hiy hlt)
      cases before with
      | nil =>
        exfalso
        simp only [List.nil_append, List.cons.injEq] at hl
        obtain ⟨rfl, _⟩ := hl
        refine binarySearch_notFound_not_mem hd hs ?_
        rw [List.mem_drop_iff_getElem]
        exact ⟨iy - left, by omega, by congr 1; omega⟩
      | cons b before =>
        simp only [List.cons_append, List.cons.injEq] at hl
        obtain ⟨rfl, hl⟩ := hl
        have hxy := hmax x (by simp)
        split
        · rename_i hge
          have hl0 : left = 0 := by omega
          subst hl0
          have h1 := hj2 iy (by simpa using hiy) (by omega)
          simp only [List.drop_zero] at h1
          omega
        · refine ih j (by omega) hl (fun z hz => hmax z (by simp [hz])) fun i hi hij => ?_
          by_cases hil' : i < left
          · exact hb i hi hil'
          · have h1 := hj2 (i - left) (by rw [List.length_drop]; omega) (by omega)
            rw [List.getElem_drop] at h1
            have e1 : left + (i - left) = i := by omega
            simp only [e1] at h1
            omega

end Archetype

namespace ArchetypesUnion

theorem innerLoop_mem {ids : List Nat} (h : Incr ids) (o : Nat) (s : Nat) (j : Nat) :
    j ∈ innerLoop o s ids ↔ s ≤ j ∧ ids[j - s]? = some o := by
  induction ids generalizing s with
  | nil => simp [innerLoop]
  | cons x l ih =>
    have h' := List.pairwise_cons.1 h
    unfold innerLoop
    split
    · rename_i hgt
      simp only [List.not_mem_nil, false_iff, not_and]
      intro _ hm
      rcases List.mem_cons.1 (List.mem_of_getElem? hm) with rfl | hm
      · omega
      · have := h'.1 _ hm; omega
    · split
      · rename_i heq
        subst heq
        rw [List.mem_cons, ih h'.2]
        constructor
        · rintro (rfl | ⟨h1, h2⟩)
          · simp
          · exfalso
            exact Nat.lt_irrefl _ (h'.1 _ (List.mem_of_getElem? h2))
        · rintro ⟨h1, h2⟩
          left
          by_cases hjs : j - s = 0
          · omega
          · rw [show j - s = (j - s - 1) + 1 by omega, List.getElem?_cons_succ] at h2
            exact absurd (h'.1 _ (List.mem_of_getElem? h2)) (Nat.lt_irrefl _)
      · rename_i hne
        rw [ih h'.2]
        constructor
        · rintro ⟨h1, h2⟩
          refine ⟨by omega, ?_⟩
          rw [show j - s = (j - (s + 1)) + 1 by omega, List.getElem?_cons_succ]; exact h2
        · rintro ⟨h1, h2⟩
          have hjs : j - s ≠ 0 := by
            intro h0; rw [h0] at h2; simp at h2; exact hne h2
          refine ⟨by omega, ?_⟩
          rw [show j - s = (j - (s + 1)) + 1 by omega, List.getElem?_cons_succ] at h2; exact h2

theorem innerLoop_ge (ids : List Nat) (o : Nat) (s : Nat) : ∀ j ∈ innerLoop o s ids, s ≤ j := by
  induction ids generalizing s with
  | nil => simp [innerLoop]
  | cons x l ih =>
    intro j
    unfold innerLoop
    split
    · simp
    · split
      · rw [List.mem_cons]
        rintro (rfl | hj)
        · omega
        · have := ih _ _ hj; omega
      · intro hj; have := ih _ _ hj; omega

theorem innerLoop_nodup (ids : List Nat) (o : Nat) (s : Nat) : (innerLoop o s ids).Nodup := by
  induction ids generalizing s with
  | nil => simp [innerLoop]
  | cons x l ih =>
    unfold innerLoop
    split
    · simp
    · split
      · refine List.nodup_cons.2 ⟨fun hm => ?_, ih _⟩
        have := innerLoop_ge _ _ _ _ hm; omega
      · exact ih _

theorem outerLoop_mem {inner : List Nat} (h : Incr inner) (outer : List Nat) (s : Nat)
    (o i : Nat) : (o, i) ∈ outerLoop inner s outer ↔
      s ≤ o ∧ ∃ t, outer[o - s]? = some t ∧ inner[i]? = some t := by
  induction outer generalizing s with
  | nil => simp [outerLoop]
  | cons x l ih =>
    simp only [outerLoop, List.mem_append, List.mem_map, Prod.mk.injEq, ih, innerLoop_mem h]
    constructor
    · rintro (⟨j, ⟨_, h2⟩, rfl, rfl⟩ | ⟨h1, t, h2, h3⟩)
      · exact ⟨by omega, x, by simp, by simpa using h2⟩
      · refine ⟨by omega, t, ?_, h3⟩
        rw [show o - s = (o - (s + 1)) + 1 by omega, List.getElem?_cons_succ]; exact h2
    · rintro ⟨h1, t, h2, h3⟩
      by_cases h0 : o = s
      · left
        subst h0
        simp at h2; subst h2
        exact ⟨i, ⟨by omega, by simpa using h3⟩, rfl, rfl⟩
      · right
        rw [show o - s = (o - (s + 1)) + 1 by omega, List.getElem?_cons_succ] at h2
        exact ⟨by omega, t, h2, h3⟩

theorem outerLoop_ge (inner outer : List Nat) (s : Nat) :
    ∀ p ∈ outerLoop inner s outer, s ≤ p.1 := by
  induction outer generalizing s with
  | nil => simp [outerLoop]
  | cons x l ih =>
    intro p
    simp only [outerLoop, List.mem_append, List.mem_map]
    rintro (⟨j, _, rfl⟩ | hp)
    · exact Nat.le_refl _
    · have := ih _ _ hp; omega

theorem outerLoop_nodup (inner outer : List Nat) (s : Nat) : (outerLoop inner s outer).Nodup := by
  induction outer generalizing s with
  | nil => simp [outerLoop]
  | cons x l ih =>
    simp only [outerLoop]
    refine List.nodup_append.2 ⟨?_, ih _, ?_⟩
    · exact (innerLoop_nodup _ _ _).map (fun a b hab => (Prod.mk.inj hab).2)
    · rintro p hp q hq rfl
      obtain ⟨j, _, rfl⟩ := List.mem_map.1 hp
      have := outerLoop_ge _ _ _ _ hq
      simp only at this; omega

theorem zip_map_fst_snd (l : List (Nat × Nat)) : (l.map (·.1)).zip (l.map (·.2)) = l := by
  induction l with
  | nil => rfl
  | cons a l ih => simp [ih]

theorem zip_map_snd_fst (l : List (Nat × Nat)) : (l.map (·.2)).zip (l.map (·.1)) = l.map Prod.swap := by
  induction l with
  | nil => rfl
  | cons a l ih => simp [ih, Prod.swap]

/-- The pairs of indices computed by `calculate`. -/
def pairs (u : ArchetypesUnion) : List (Nat × Nat) := u.lhsIndices.zip u.rhsIndices

theorem calculate_spec {a b : Archetype} (ha : Incr a.ids) (hb : Incr b.ids) :
    (calculate a b).lhsIndices.length = (calculate a b).rhsIndices.length ∧
    (calculate a b).pairs.Nodup ∧
    ∀ i j, (i, j) ∈ (calculate a b).pairs ↔ ∃ t, a.ids[i]? = some t ∧ b.ids[j]? = some t := by
  unfold pairs calculate
  split
  · simp only [zip_map_fst_snd, List.length_map, true_and]
    refine ⟨outerLoop_nodup _ _ _, fun i j => ?_⟩
    rw [outerLoop_mem hb]; simp
  · simp only [zip_map_snd_fst, List.length_map, true_and]
    refine ⟨(outerLoop_nodup _ _ _).map (fun a b hab => by cases a; cases b; simpa [Prod.swap, and_comm] using hab), fun i j => ?_⟩
    rw [List.mem_map]
    constructor
    · rintro ⟨⟨o, i'⟩, hm, heq⟩
      cases heq
      obtain ⟨_, t, h1, h2⟩ := (outerLoop_mem ha _ _ _ _).1 hm
      exact ⟨t, h2, by simpa using h1⟩
    · rintro ⟨t, h1, h2⟩
      exact ⟨(j, i), (outerLoop_mem ha _ _ _ _).2 ⟨by omega, t, by simpa using h2, h1⟩, rfl⟩

end ArchetypesUnion
end Ecs
