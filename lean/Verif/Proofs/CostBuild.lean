import Verif.Proofs.Cost

/-! How many pages a creation examines. -/

namespace Ecs
open Spec Meter

theorem searched_none {α : Type} {p : α → Bool} {l : List α} (h : ∀ x ∈ l, p x = false) : searched p l = l.length := by
  induction l with
  | nil => rfl
  | cons x l ih =>
    unfold searched
    rw [h x List.mem_cons_self, if_neg Bool.false_ne_true, ih fun y hy => h y (List.mem_cons_of_mem _ hy), List.length_cons]

namespace Archs
variable {U : Universe} {dbg : Bool} {c c' : Archs}

theorem measured_addEntity_exact (id : Nat) (a : Archetype) : Measured (c.addEntityM dbg id a) (c.addEntity dbg id a)
    (fun _ w => ∃ c1 i ps, c.reserveArchetype dbg a = .ok (c1, i) ∧ c1.archPages[i]? = some ps ∧
      w = { archetypes := searched (·.isSameAs a) c.archetypes,
            pages := searched (fun p => (c1.pages[p]?).any Page.hasFreeSpace) ps.reverse }) := by
  unfold addEntityM addEntity
  refine Measured.bind (measured_reserveArchetype a) (fun x _ => measured_reservePage id x.2) ?_
  rintro ⟨c1, i⟩ _ _ _ h _ rfl ⟨ps, h1, rfl⟩
  exact ⟨c1, i, ps, h, h1, by simp [Work.add_def]⟩

/-- The place in the list that `reserve_archetype` finds. -/
theorem findSame_findIdx (a : Archetype) : ∀ (k : Nat) (l : List Archetype),
    findSame a k l = (l.findIdx? fun b => decide (b.ids = a.ids)).map (· + k)
  | _, [] => rfl
  | k, b :: l => by
    unfold findSame
    rw [List.findIdx?_cons]
    by_cases h : b.ids = a.ids
    · rw [if_pos (Archetype.isSameAs_iff.2 h)]
      simp [h]
    · rw [if_neg (fun h0 => h (Archetype.isSameAs_iff.1 h0)), findSame_findIdx a (k + 1) l]
      simp only [h, decide_false, Bool.false_eq_true, if_false, Option.map_map]
      congr 1
      funext x
      simp only [Function.comp]
      omega

/-- The pages of the archetype that `reserve_archetype` finds or makes. -/
theorem reserve_pages {a : Archetype} {i : Nat} {ps : List Nat} (hf : ∀ f ∈ c.freeArchetypes, c.archPages[f]? = some [])
    (hl : c.archPages.length = c.archetypes.length) (hr : c.reserveArchetype dbg a = .ok (c', i)) (hps : c'.archPages[i]? = some ps) :
    c'.pages = c.pages ∧ ps = match c.archetypes.findIdx? (fun b => decide (b.ids = a.ids)) with
      | some j => (c.archPages[j]?).getD []
      | none => [] := by
  unfold Archs.reserveArchetype at hr
  rw [findSame_findIdx] at hr
  cases h : c.archetypes.findIdx? (fun b => decide (b.ids = a.ids)) with
  | some j =>
    rw [h] at hr
    simp only [Option.map_some, Nat.add_zero] at hr
    split at hr <;> cases hr <;> exact ⟨rfl, by dsimp only at hps ⊢; rw [hps]; rfl⟩
  | none =>
    rw [h] at hr
    simp only [Option.map_none] at hr
    obtain ⟨layout, _, hr⟩ := bind_eq_ok.1 hr
    split at hr
    · rename_i f hg
      obtain ⟨as, _, hr⟩ := bind_eq_ok.1 hr
      obtain ⟨ls, _, hr⟩ := bind_eq_ok.1 hr
      cases hr
      have := hf _ (List.mem_of_getLast? hg)
      dsimp only at hps
      rw [this] at hps
      cases hps
      exact ⟨rfl, rfl⟩
    · cases hr
      refine ⟨rfl, ?_⟩
      have h0 : ∀ n : Nat, n = c.archPages.length → (c.archPages ++ [[]])[n]? = some ps → ps = [] := by
        rintro _ rfl h
        rw [List.getElem?_append_right (Nat.le_refl _), Nat.sub_self] at h
        exact (Option.some.inj h).symm
      dsimp only at hps
      exact h0 _ (by simp [hl]) hps

end Archs

namespace Store
variable {U : Universe} {dbg : Bool} {s : Store}

/-- The pages examined by a creation with an archetype. -/
theorem measured_createWith_exact (a : Archetype) (hf : ∀ f ∈ s.archs.freeArchetypes, s.archs.archPages[f]? = some [])
    (hl : s.archs.archPages.length = s.archs.archetypes.length) :
    Measured (s.createEntityWithArchetypeM dbg a) (s.createEntityWithArchetype dbg a)
    (fun _ w => w.pages = searched (hasRoom s) (pagesFor s a.ids).reverse) := by
  unfold createEntityWithArchetypeM createEntityWithArchetype
  refine Measured.bind measured_register
    (Q := fun x _ w => x.1.archs = s.archs → w.pages = searched (hasRoom s) (pagesFor s a.ids).reverse) (fun x _ => ?_) ?_
  · dsimp only
    refine Measured.bind (Archs.measured_addEntity_exact x.2.id a) (fun _ _ => Measured.step fun _ _ => Measured.pure0 _) ?_
    rintro _ _ _ _ _ _ ⟨c1, i, ps, h1, h2, rfl⟩ rfl hx
    rw [hx] at h1
    obtain ⟨k1, k2⟩ := Archs.reserve_pages hf hl h1 h2
    rw [k1, k2]
    rfl
  · rintro ⟨s1, e⟩ _ v w _ _ ⟨_, h2, _, _, h5⟩ h
    simp only [Work.add_def]
    rw [h h5, h2, Nat.zero_add]

end Store

section
variable {U : Universe} {dbg : Bool} {cap : Nat} {h : List Event} {s : Store}

/-- The rows of an archetype are those of the entities with its types. -/
theorem Rel.rows_of {w : World} (hr : Rel U dbg s w) (hn : w.live.Nodup) {i : Nat} {a : Archetype} {ps : List Nat} {T : List TypeId}
    (ha : s.archs.archetypes[i]? = some a) (hps : s.archs.archPages[i]? = some ps) (hT : HasSet a T) :
    (s.archs.idsIn ps).length = population w T := by
  have hI := hr.places.inv
  have hmem : ∀ p id, id ∈ s.archs.idsAt p ↔ ∃ k, s.archs.row ⟨p, k⟩ = some id := by
    intro p id
    unfold Archs.idsAt Archs.row
    dsimp only
    cases s.archs.pages[p]? with
    | none => simp
    | some pg => simp [List.mem_iff_getElem?]
  have hpos : ∀ q q' id, s.archs.row q = some id → s.archs.row q' = some id → q = q' := by
    intro q q' id h1 h2
    obtain h0 | ⟨_, _, _, _, k1⟩ := hr.places.rows q id h1
    · cases h0
    obtain h0 | ⟨_, _, _, _, k2⟩ := hr.places.rows q' id h2
    · cases h0
    exact k1.unique k2
  have hnd : (s.archs.idsIn ps).Nodup := by
    refine List.nodup_flatMap.2 ⟨fun p _ => ?_, ?_⟩
    · refine List.nodup_iff_injective_getElem.2 fun x y hxy => ?_
      have hrow : ∀ z : Fin (s.archs.idsAt p).length, s.archs.row ⟨p, z⟩ = some (s.archs.idsAt p)[z] := by
        rintro ⟨z, hz⟩
        refine Eq.trans ?_ (List.getElem?_eq_getElem hz)
        unfold Archs.row Archs.idsAt
        dsimp only
        cases s.archs.pages[p]? <;> simp
      have := hpos _ _ _ (hrow x) (by rw [hrow y]; exact congrArg some hxy.symm)
      exact Fin.ext (Loc.mk.inj this).2
    · refine (hI.psNodup ps (List.mem_of_getElem? hps)).imp_of_mem ?_
      intro p p' _ _ hne id h1 h2
      obtain ⟨k, h1⟩ := (hmem _ _).1 h1
      obtain ⟨k', h2⟩ := (hmem _ _).1 h2
      exact hne (Loc.mk.inj (hpos _ _ _ h1 h2)).1
  have hmn : ((w.live.filter fun e => decide (sameSet (w.types e) T)).map (·.id)).Nodup := by
    refine List.Nodup.map_on (fun x hx y hy hxy => ?_) (hn.filter _)
    exact hr.places.inj x (List.mem_filter.1 hx).1 y (List.mem_filter.1 hy).1 hxy
  have hperm := (List.perm_ext_iff_of_nodup hnd hmn).2 ?_
  · rw [hperm.length_eq, List.length_map]; rfl
  intro id
  simp only [List.mem_map, List.mem_filter, decide_eq_true_eq]
  constructor
  · intro hid
    obtain ⟨p, hp, hid⟩ := List.mem_flatMap.1 hid
    obtain ⟨k, hk⟩ := (hmem p id).1 hid
    obtain h0 | ⟨e, he, rfl, hT', k1⟩ := hr.places.rows _ _ hk
    · cases h0
    obtain ⟨_, _, b, hb, hbT, _⟩ := hr.places.rowOf he hT' k1
    refine ⟨e, ⟨he, ?_⟩, rfl⟩
    unfold Archs.archAt at hb
    rw [hI.owner i ps p hps hp] at hb
    simp only [Option.bind_some] at hb
    rw [ha] at hb
    cases hb
    exact HasSet.sameSet hbT hT
  · rintro ⟨e, ⟨he, hs⟩, rfl⟩
    have hne : w.types e ≠ [] := by
      intro h0
      rw [h0] at hs
      have hTn : T = [] := List.eq_nil_iff_forall_not_mem.2 fun t ht => nomatch hs.2 t ht
      refine (hI.wf a (List.mem_of_getElem? ha)).ne (List.eq_nil_iff_forall_not_mem.2 fun t ht => ?_)
      have := (hT t).1 ht
      rw [hTn] at this
      cases this
    obtain ⟨_, q, b, k1, k2, _, k4, k5, _⟩ := hr.places.on e he hne
    obtain ⟨j, a', l, ps', pg, hat, hq⟩ := hI.at_of_row k2
    have e1 := hat.archAt
    rw [k4] at e1
    cases e1
    have e2 := (hI.wf b (List.mem_of_getElem? hat.ha)).eq_of_set (hI.wf a (List.mem_of_getElem? ha)) (HasSet.trans k5 hs) hT
    subst e2
    have e3 := hI.distinct j i b b hat.ha ha rfl
    subst e3
    have e4 := hat.hps
    rw [hps] at e4
    cases e4
    exact List.mem_flatMap.2 ⟨q.page, hat.mem, (hmem _ _).2 ⟨q.index, k2⟩⟩

/-- `k` rows in pages of `c` rows, all pages full but the last one. -/
theorem searched_packed {c k : Nat} {room : Nat → Bool} {len : Nat → Nat} (hc : 0 < c) :
    ∀ ps : List Nat, (∀ p ∈ ps, room p = decide (len p < c) ∧ 1 ≤ len p ∧ len p ≤ c) →
    (∀ p ∈ ps.dropLast, room p = false) → (ps.map len).sum = k →
    searched room ps.reverse = if c ∣ k then k / c else 1 := by
  intro ps hall hfull hk
  rcases List.eq_nil_or_concat ps with rfl | ⟨qs, p, rfl⟩
  · simp at hk
    subst hk
    simp [searched]
  · rw [List.concat_eq_append] at *
    rw [List.dropLast_concat] at hfull
    have hq : (qs.map len).sum = qs.length * c := by
      have : ∀ x ∈ qs, len x = c := fun x hx => by
        obtain ⟨h1, _, h3⟩ := hall x (List.mem_append_left _ hx)
        rw [hfull x hx] at h1
        have := of_decide_eq_false h1.symm
        omega
      rw [List.map_congr_left this]
      simp
    obtain ⟨h1, h2, h3⟩ := hall p (by simp)
    rw [List.map_append, List.sum_append, hq] at hk
    simp only [List.map_cons, List.map_nil, List.sum_cons, List.sum_nil, Nat.add_zero] at hk
    rw [List.reverse_append, List.reverse_singleton, List.singleton_append, searched, h1]
    by_cases hlt : len p < c
    · rw [if_pos (by simpa using hlt), if_neg]
      intro hd
      rw [← hk, Nat.dvd_add_right (Nat.dvd_mul_left _ _)] at hd
      have := Nat.le_of_dvd h2 hd
      omega
    · have he : len p = c := by omega
      rw [if_neg (by simpa using hlt), searched_none (fun x hx => hfull x (List.mem_reverse.1 hx)), List.length_reverse]
      rw [he] at hk
      have hk' : k = (qs.length + 1) * c := by rw [← hk, Nat.add_mul, Nat.one_mul]
      rw [if_pos (by rw [hk']; exact Nat.dvd_mul_left _ _), hk', Nat.mul_div_cancel _ hc]

/-- Building up, the pages of a type set are examined until one has room. -/
theorem builds_searched (hx : SafeExec U dbg cap h s) (hb : BuildsUp h) {a : Archetype} (ha : a.WF U) {c : Nat}
    (hc : rowsPerPage U dbg a.ids = some c) (h4 : 4 ≤ c) :
    searched (hasRoom s) (pagesFor s a.ids).reverse =
      if c ∣ population (world h) a.ids then population (world h) a.ids / c else 1 := by
  have hr := exec_rel hx.exec
  have hst := builds_stack hx.well hb
  have hI := hr.places.inv
  have hleft := (builds_world hx.well hb).1
  have hn : (world h).live.Nodup := (List.nodup_append.1 hr.ents.nodup).1.of_map _
  unfold pagesFor
  cases hf : s.archs.archetypes.findIdx? (fun b => decide (b.ids = a.ids)) with
  | none =>
    have hpop : population (world h) a.ids = 0 := by
      by_contra h0
      obtain ⟨e, he, hs⟩ := population_pos.1 (Nat.pos_of_ne_zero h0)
      have hne : (world h).types e ≠ [] := by
        intro h0
        rw [h0] at hs
        exact ha.ne (List.eq_nil_iff_forall_not_mem.2 fun t ht => nomatch hs.2 t ht)
      obtain ⟨_, q, b, k1, k2, _, k4, k5, _⟩ := hr.places.on e he hne
      obtain ⟨j, a', l, ps', pg, hat, hq⟩ := hI.at_of_row k2
      have e1 := hat.archAt
      rw [k4] at e1
      cases e1
      have e2 := (hI.wf b (List.mem_of_getElem? hat.ha)).eq_of_set ha (HasSet.trans k5 hs) (fun _ => Iff.rfl)
      have := (List.findIdx?_eq_none_iff.1 hf) b (List.mem_of_getElem? hat.ha)
      simp [e2] at this
    rw [hpop]
    simp [searched]
  | some i =>
    obtain ⟨hil, hi, _⟩ := List.findIdx?_eq_some_iff_getElem.1 hf
    have hb' := List.getElem?_eq_getElem hil
    have hids := of_decide_eq_true hi
    generalize s.archs.archetypes[i] = b at hb' hids
    have hba : b = a := (hI.wf b (List.mem_of_getElem? hb')).eq_of_set ha (T := a.ids) (fun _ => by rw [hids]) (fun _ => Iff.rfl)
    subst hba
    have hpl : i < s.archs.archPages.length := by rw [hI.alen]; exact hil
    have hps := List.getElem?_eq_getElem hpl
    have hll : i < s.archs.layouts.length := by rw [hI.llen]; exact hil
    have hlay := List.getElem?_eq_getElem hll
    generalize s.archs.archPages[i] = ps at hps
    generalize s.archs.layouts[i] = l at hlay
    obtain ⟨l', hl', hcap⟩ := rowsPerPage_some hc ha (fun _ => Iff.rfl)
    have := hr.regs.lay i b l hb' hlay
    rw [hl'] at this
    cases this
    have hcaps := (hr.regs.caps c h4 (by rw [hleft]; intro S hS; cases hS)).2
    simp only [hps, Option.getD_some]
    refine searched_packed (len := fun p => (s.archs.idsAt p).length) (by omega) ps (fun p hp => ?_) (fun p hp => ?_) ?_
    · obtain ⟨a', l', pg, hat⟩ := hI.at_of_mem hps hp
      have hf := hst.packed.filled ps (List.mem_of_getElem? hps) p hp
      have hle := hI.fits i ps p pg l hps hp hat.hpg hlay
      have hcp := hcaps i l ps p pg hlay hps hp hat.hpg hcap
      unfold Archs.idsAt at hf ⊢
      unfold hasRoom Page.hasFreeSpace Page.entityCount Page.entityCapacity
      rw [hat.hpg] at hf ⊢
      simp only [Option.map_some, Option.getD_some, Option.any_some] at hf ⊢
      rw [hcp]
      exact ⟨rfl, List.length_pos_iff.2 hf, by omega⟩
    · obtain ⟨a', l', pg, hat⟩ := hI.at_of_mem hps (List.dropLast_subset _ hp)
      unfold hasRoom
      rw [hat.hpg]
      exact hst.packed.full ps (List.mem_of_getElem? hps) p hp pg hat.hpg
    · rw [← hr.rows_of hn hb' hps (fun _ => Iff.rfl)]
      unfold Archs.idsIn
      rw [List.length_flatMap]

end

end Ecs
