import Verif.Proofs.Places

/-! Registered archetypes versus used type sets, and what `Target` gives. -/

namespace Ecs
open Spec

variable {U : Universe} {dbg : Bool}

/-- The archetype `a` has type set `T`. -/
def HasSet (a : Archetype) (T : List Nat) : Prop := ∀ t, t ∈ a.ids ↔ t ∈ T

theorem HasSet.sameSet {a : Archetype} {S T : List Nat} (h1 : HasSet a S) (h2 : HasSet a T) : sameSet S T :=
  ⟨fun t ht => (h2 t).1 ((h1 t).2 ht), fun t ht => (h1 t).1 ((h2 t).2 ht)⟩

theorem HasSet.trans {a : Archetype} {S T : List Nat} (h1 : HasSet a S) (h2 : Spec.sameSet S T) : HasSet a T :=
  fun t => ⟨fun h => h2.1 t ((h1 t).1 h), fun h => (h1 t).2 (h2.2 t h)⟩

theorem sameSet_symm {S T : List Nat} (h : sameSet S T) : sameSet T S := ⟨h.2, h.1⟩

theorem Archetype.WF.eq_of_set {a b : Archetype} (ha : a.WF U) (hb : b.WF U) {T : List Nat} (h1 : HasSet a T)
    (h2 : HasSet b T) : a = b :=
  ha.ext hb (ha.incr.ext hb.incr (fun t => (h1 t).trans (h2 t).symm))

/-- `rowsPerPage` in terms of any archetype with the type set. -/
theorem rowsPerPage_of {a : Archetype} (ha : a.WF U) {T : List Nat} (h : HasSet a T) :
    rowsPerPage U dbg T = match Layout.new dbg a with
      | .ok l => some l.entitiesCapacity
      | .error _ => none := by
  have hne : T.dedup ≠ [] := by
    intro h0
    cases hids : a.ids with
    | nil => exact ha.ne hids
    | cons t ts =>
      have : t ∈ T.dedup := List.mem_dedup.2 ((h t).1 (by simp [hids]))
      rw [h0] at this; cases this
  obtain ⟨b, h1, h2, h3⟩ := Archetype.withComponents_spec (U := U) (List.nodup_dedup T) hne
  have hb : HasSet b T := fun t => by rw [h3.mem_iff, List.mem_dedup]
  have := ha.eq_of_set h2 h hb
  subst this
  unfold rowsPerPage
  rw [h1]
  dsimp only
  cases Layout.new dbg a <;> rfl

theorem rowsPerPage_nil : rowsPerPage U dbg [] = none := rfl

/-- A type set with a layout comes from an archetype. -/
theorem rowsPerPage_some {T : List Nat} {c : Nat} (h : rowsPerPage U dbg T = some c) {a : Archetype} (ha : a.WF U)
    (hs : HasSet a T) : ∃ l, Layout.new dbg a = .ok l ∧ l.entitiesCapacity = c := by
  rw [rowsPerPage_of ha hs] at h
  split at h
  · rename_i l hl
    cases h
    exact ⟨l, hl, rfl⟩
  · cases h

/-- What `CanHold` says of an archetype with the type set. -/
theorem Archs.CanHold.fits {c : Archs} {T : List Nat} (h : c.CanHold U dbg T) {a : Archetype} (hw : a.WF U)
    (hs : HasSet a T) : c.Fits dbg a := by
  obtain ⟨b, h1, h2⟩ := h
  have hne : T.dedup ≠ [] := by
    intro h0
    rw [h0] at h1
    cases h1
  obtain ⟨b', h3, h4, h5⟩ := Archetype.withComponents_spec (U := U) (List.nodup_dedup T) hne
  rw [h3] at h1
  cases h1
  have hb : HasSet b T := fun t => by rw [h5.mem_iff, List.mem_dedup]
  rw [hw.eq_of_set h4 hs hb]
  exact h2

theorem Archs.CanHold.of_fits {c : Archs} {T : List Nat} {a : Archetype} (hw : a.WF U) (hs : HasSet a T)
    (h : c.Fits dbg a) : c.CanHold U dbg T := by
  have hne : T.dedup ≠ [] := by
    intro h0
    cases hids : a.ids with
    | nil => exact hw.ne hids
    | cons t ts =>
      have : t ∈ T.dedup := List.mem_dedup.2 ((hs t).1 (by simp [hids]))
      rw [h0] at this; cases this
  obtain ⟨b, h1, h2, h3⟩ := Archetype.withComponents_spec (U := U) (List.nodup_dedup T) hne
  have hb : HasSet b T := fun t => by rw [h3.mem_iff, List.mem_dedup]
  have := hw.eq_of_set h2 hs hb
  subst this
  exact ⟨a, h1, h⟩

theorem Archs.CanHold.ne {c : Archs} {T : List Nat} (h : c.CanHold U dbg T) : T ≠ [] := by
  rintro rfl
  obtain ⟨b, h1, _⟩ := h
  cases h1

/-- Registered archetypes, their layouts, and the capacities of the page vectors. -/
structure Regs (U : Universe) (dbg : Bool) (c : Archs) (used left : List (List Nat)) : Prop where
  lay : c.LayoutsOk dbg
  regs : ∀ b ∈ c.archetypes, ∃ S ∈ used, HasSet b S
  zeroN : c.archetypes[0]? = none → used = []
  zero : ∀ b, c.archetypes[0]? = some b → ∃ F, used.getLast? = some F ∧ HasSet b F
  caps : ∀ K, 4 ≤ K → (∀ S ∈ left, rowsPerPage U dbg S = some K) →
    c.Caps (fun x => x = 0 ∨ x = K) (fun l x => l.entitiesCapacity = K → x = K)

namespace Regs

variable {c c' : Archs} {used left : List (List Nat)}

theorem new : Regs U dbg Archs.new [] [] where
  lay := by intro i a l h; simp [Archs.new] at h
  regs := by simp [Archs.new]
  zeroN := fun _ => rfl
  zero := by simp [Archs.new]
  caps := by
    intro K _ _
    refine ⟨fun p _ pg hpg => ?_, fun i l ps p pg hl => ?_⟩
    · left
      have := List.mem_of_getElem? hpg
      simp only [Archs.new, List.mem_replicate] at this
      rw [this.2]; rfl
    · simp [Archs.new] at hl

theorem same (h : Regs U dbg c used left) (hA : c'.archetypes = c.archetypes) (hL : c'.layouts = c.layouts)
    (hC : ∀ F G, c.Caps F G → c'.Caps F G) : Regs U dbg c' used left where
  lay := by intro i a l h1 h2; rw [hA] at h1; rw [hL] at h2; exact h.lay i a l h1 h2
  regs := by rw [hA]; exact h.regs
  zeroN := by rw [hA]; exact h.zeroN
  zero := by rw [hA]; exact h.zero
  caps := fun K hK hu => hC _ _ (h.caps K hK hu)

theorem added (h : Regs U dbg c used left) {a : Archetype} {id : Nat} {q : Loc} {T : List Nat}
    (hA : Archs.Added U dbg c c' id a q) (hs : HasSet a T) : Regs U dbg c' (T :: used) left where
  lay := hA.lay h.lay
  regs := fun b hb => by
    rcases hA.regs b hb with rfl | hb
    · exact ⟨T, by simp, hs⟩
    · obtain ⟨S, hS, h1⟩ := h.regs b hb
      exact ⟨S, List.mem_cons_of_mem _ hS, h1⟩
  zeroN := fun hn => by rw [hA.zero] at hn; cases hn
  zero := fun b hb => by
    rw [hA.zero] at hb
    cases h0 : c.archetypes[0]? with
    | none =>
      rw [h0] at hb
      cases hb
      rw [h.zeroN h0]
      exact ⟨T, rfl, hs⟩
    | some b0 =>
      rw [h0] at hb
      cases hb
      obtain ⟨F, hF, h1⟩ := h.zero _ h0
      refine ⟨F, ?_, h1⟩
      cases used with
      | nil => simp at hF
      | cons x xs => rw [List.getLast?_cons_cons]; exact hF
  caps := fun K hK hu => by
    refine hA.caps _ _ (Or.inl rfl) ?_ h.lay (h.caps K hK hu)
    intro x l hl hx hc
    unfold Archs.capAfter CapVec.grownCap
    rw [hc]
    rcases hx with rfl | rfl
    · rw [if_neg (by omega)]; omega
    · rw [if_pos (Nat.le_refl _)]

/-- A row of type set `S` was removed. -/
theorem removedRow (h : Regs U dbg c used left) {q : Loc} {a : Archetype} {S : List Nat} (hw : a.WF U)
    (ha : c.archAt q.page = some a) (hs : HasSet a S)
    (hA : c'.archetypes = c.archetypes) (hL : c'.layouts = c.layouts)
    (hC : ∀ (F : Nat → Prop) (G : Layout → Nat → Prop),
      (∀ (i : Nat) l x, c.pageToArch[q.page]? = some i → c.layouts[i]? = some l → G l x → F x) →
      c.Caps F G → c'.Caps F G) : Regs U dbg c' used (S :: left) where
  lay := by intro i a l h1 h2; rw [hA] at h1; rw [hL] at h2; exact h.lay i a l h1 h2
  regs := by rw [hA]; exact h.regs
  zeroN := by rw [hA]; exact h.zeroN
  zero := by rw [hA]; exact h.zero
  caps := fun K hK hu => by
    refine hC _ _ ?_ (h.caps K hK (fun S hS => hu S (List.mem_cons_of_mem _ hS)))
    intro i l x hi hl hG
    right
    apply hG
    obtain ⟨l', hl', hc⟩ := rowsPerPage_some (hu S (by simp)) hw hs
    unfold Archs.archAt at ha
    rw [hi] at ha
    have := h.lay i a l ha hl
    rw [hl'] at this
    cases this
    exact hc

end Regs

variable {c : Archs} {tp ti : Raw Nat} {hb : Words} {cap : Nat} {w : World}

/-- The archetype of an inhabited type set is in use. -/
theorem inhabited_at (h : Places U c tp ti hb cap w.live w.types w.value none) {a : Archetype} (hw : a.WF U)
    {T : List Nat} (hs : HasSet a T) (hp : 0 < population w T) :
    ∃ p ai l ps pg, c.At p ai a l ps pg := by
  unfold population at hp
  obtain ⟨e, he⟩ := List.exists_mem_of_length_pos hp
  rw [List.mem_filter] at he
  have hse : sameSet (w.types e) T := by simpa using he.2
  have hne : w.types e ≠ [] := by
    intro h0
    cases hids : a.ids with
    | nil => exact hw.ne hids
    | cons t ts =>
      have := hse.2 t ((hs t).1 (by simp [hids]))
      rw [h0] at this; cases this
  obtain ⟨_, q, b, _, hr, _, hb, hbs, _⟩ := h.on e he.1 hne
  obtain ⟨ai, b', l, ps, pg, hat, _⟩ := h.inv.at_of_row hr
  have h1 := hat.archAt
  rw [hb] at h1
  cases h1
  have : b = a := ((h.inv.at_wf hat).1).eq_of_set hw (HasSet.trans hbs hse) hs
  subst this
  exact ⟨_, _, _, _, _, hat⟩

/-- The rows of a page belong to different entities. -/
theorem page_le_population (h : Places U c tp ti hb cap w.live w.types w.value none) {p ai : Nat} {a : Archetype}
    {l : Layout} {ps : List Nat} {pg : Page} (hat : c.At p ai a l ps pg) {T : List Nat} (hs : HasSet a T) :
    pg.ids.items.length ≤ population w T := by
  have hrow : ∀ (i : Nat) x, pg.ids.items[i]? = some x → c.row ⟨p, i⟩ = some x := by
    intro i x hx; rw [hat.row]; exact hx
  have hnd : pg.ids.items.Nodup := by
    rw [List.nodup_iff_injective_getElem]
    intro i j hij
    have h1 := hrow i _ (List.getElem?_eq_getElem i.2)
    have h2 := hrow j _ (List.getElem?_eq_getElem j.2)
    rcases h.rows _ _ h1 with hn | ⟨e, _, _, _, g1⟩
    · cases hn
    rcases h.rows _ _ h2 with hn | ⟨e', _, _, _, g2⟩
    · cases hn
    have hij' : pg.ids.items[(i : Nat)] = pg.ids.items[(j : Nat)] := hij
    rw [hij'] at g1
    exact Fin.ext (congrArg Loc.index (g1.unique g2))
  have hsub : pg.ids.items ⊆ ((w.live.filter fun e => decide (sameSet (w.types e) T)).map (·.id)) := by
    intro x hx
    obtain ⟨i, hi⟩ := List.mem_iff_getElem?.1 hx
    rcases h.rows _ _ (hrow i x hi) with hn | ⟨e, he, rfl, h0, hpos⟩
    · cases hn
    obtain ⟨_, _, b, hb, hbs, _⟩ := h.rowOf he h0 hpos
    have h1 := hat.archAt
    simp only at hb
    rw [hb] at h1
    cases h1
    refine List.mem_map.2 ⟨e, List.mem_filter.2 ⟨he, ?_⟩, rfl⟩
    simpa using HasSet.sameSet (a := a) hbs hs
  have := (List.subperm_of_subset hnd hsub).length_le
  rw [List.length_map] at this
  exact this

/-- `Target` gives what the archetype container needs. -/
theorem target_fits (h : Places U c tp ti hb cap w.live w.types w.value none) (hr : Regs U dbg c w.used w.left)
    {T : List Nat} (ht : Target U dbg w T) {a : Archetype} (hw : a.WF U) (hs : HasSet a T) : c.Fits dbg a := by
  unfold Target at ht
  split at ht
  · exact ht.elim
  rename_i K hK
  obtain ⟨h1, h2, h3⟩ := ht
  obtain ⟨l, hl, hlc⟩ := rowsPerPage_some hK hw hs
  refine ⟨⟨l, hl, by omega⟩, ?_, ?_⟩
  · intro ai l' ps p pg ha hl' hps hfind hpg
    obtain ⟨hm, pg', hpg', hfree⟩ := Archs.mem_of_findFreePage hfind
    rw [hpg] at hpg'; cases hpg'
    have hm := List.mem_reverse.1 hm
    obtain ⟨b, l'', pg'', hat⟩ := h.inv.at_of_mem hps hm
    have e1 := hat.ha; rw [ha] at e1; cases e1
    have e2 := hat.hl; rw [hl'] at e2; cases e2
    have e3 := hat.hpg; rw [hpg] at e3; cases e3
    have := hr.lay _ _ _ hat.ha hat.hl
    rw [hl] at this
    cases this
    rw [hlc]
    rcases h2 with h2 | ⟨h4, hall⟩
    · exact Nat.lt_of_le_of_lt (page_le_population h hat hs) h2
    · have hc := (hr.caps K h4 hall).2 _ _ _ _ _ hat.hl hat.hps hat.mem hat.hpg hlc
      unfold Page.hasFreeSpace Page.entityCount Page.entityCapacity at hfree
      have hf : pg.ids.items.length < pg.ids.cap := by simpa using hfree
      omega
  · intro i hi hfree
    have hnotUsed : ∀ (j : Nat) b S, c.archetypes[j]? = some b → j ∈ c.freeArchetypes → HasSet b S → ¬ 0 < population w S := by
      intro j b S hj hjf hbS hpop
      obtain ⟨p, aj, l', ps, pg, hat⟩ := inhabited_at h (h.inv.wf b (List.mem_of_getElem? hj)) hbS hpop
      have := h.inv.distinct aj j b b hat.ha hj rfl
      subst this
      have h5 := h.inv.freeUnused _ hjf
      rw [hat.hps] at h5
      cases h5
      cases hat.mem
    rcases h3 with h3 | h3 | h3
    · exact absurd h3 (hnotUsed i a T hi hfree hs)
    · obtain ⟨S, hS, h4⟩ := hr.regs a (List.mem_of_getElem? hi)
      exact absurd (HasSet.sameSet h4 hs) (h3 S hS)
    · have hall : ∀ j ∈ c.freeArchetypes, j = i := by
        intro j hj
        have hjl : j < c.archetypes.length := by
          rw [← h.inv.alen]; exact (List.getElem?_eq_some_iff.1 (h.inv.freeUnused j hj)).1
        have hjb := List.getElem?_eq_getElem hjl
        have hwb := h.inv.wf _ (List.getElem_mem hjl)
        obtain ⟨S, hS, h4⟩ := hr.regs _ (List.getElem_mem hjl)
        rcases h3 S hS with h5 | h5 | ⟨F, hF, h5⟩
        · have := hwb.eq_of_set hw (HasSet.trans h4 h5) hs
          rw [this] at hjb
          exact h.inv.distinct j i a a hjb hi rfl
        · exact absurd h5 (hnotUsed j _ S hjb hj h4)
        · have h0l : 0 < c.archetypes.length := by omega
          obtain ⟨F', hF', h6⟩ := hr.zero _ (List.getElem?_eq_getElem h0l)
          rw [Option.mem_def] at hF
          rw [hF'] at hF
          cases hF
          have := hwb.eq_of_set (h.inv.wf _ (List.getElem_mem h0l)) (HasSet.trans h4 h5) h6
          have := h.inv.distinct j 0 _ _ hjb (List.getElem?_eq_getElem h0l) (by rw [this])
          exact absurd this (h.inv.freePos j hj)
      have hsing : c.freeArchetypes = [i] := by
        have hn := h.inv.freeANodup
        cases hf : c.freeArchetypes with
        | nil => rw [hf] at hfree; cases hfree
        | cons x xs =>
          rw [hf] at hall hn
          have hx := hall x (by simp)
          subst hx
          cases xs with
          | nil => rfl
          | cons y ys =>
            have hy := hall y (by simp)
            subst hy
            simp at hn
      exact Archs.findable_of_incr (by rw [hsing]; exact List.pairwise_singleton _ _) i hi hfree

theorem target_canHold (h : Places U c tp ti hb cap w.live w.types w.value none) (hr : Regs U dbg c w.used w.left)
    {T : List Nat} (ht : Target U dbg w T) : c.CanHold U dbg T := by
  have hne : T.dedup ≠ [] := by
    intro h0
    unfold Target rowsPerPage at ht
    rw [h0] at ht
    exact ht
  obtain ⟨b, h1, h2, h3⟩ := Archetype.withComponents_spec (U := U) (List.nodup_dedup T) hne
  exact ⟨b, h1, target_fits h hr ht h2 (fun t => by rw [h3.mem_iff, List.mem_dedup])⟩

end Ecs
