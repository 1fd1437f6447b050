import Verif.Proofs.ArchsReserve

/-! Effects of `move_entity_to_other_archetype`, `free_page` and `swap_remove_entity`. -/

namespace Ecs
namespace Archs

variable {U : Universe} {c : Archs}

/-- Moving the entity in row `prev` to archetype `a` (its old row is still there afterwards). -/
theorem moveEntity_spec {dbg : Bool} {a : Archetype} {ly : Layout} {id pai : Nat} {prev : Loc}
    (h : c.Inv U) (hr : c.Roomy a) (hs : c.Findable a) (ha : a.WF U)
    (hly : Layout.new dbg a = .ok ly) (hcap : 1 ≤ ly.entitiesCapacity)
    {pa : Archetype} {pl : Layout} {pps : List Nat} {ppg : Page} (hat : c.At prev.page pai pa pl pps ppg)
    (hrow : c.row prev ≠ none) :
    ∃ c' q, c.moveEntityToOtherArchetype dbg id prev pai a = .ok (c', q) ∧ Added U dbg c c' id a q ∧
      (∀ t, t ∈ a.ids → t ∈ pa.ids → c'.val U q t = c.val U prev t) := by
  obtain ⟨c1, ai, h1, hI1, h3, h4, h5, h5'⟩ := reserveArchetype_spec h hs ha hly hcap
  obtain ⟨c2, q, h6, h7⟩ := reservePage_spec (dbg := dbg) (id := id) hI1 (h5.roomy hI1 hr) h3 h4
  obtain ⟨l, ps, pg, hq⟩ := h7.atNew
  obtain ⟨pps', ppg', hp⟩ := h7.atOld _ _ _ _ _ _ ((h5.at_iff _ _ _ _ _ _).2 hat)
  have hA := h7.added h hI1 h1 h5 h5'
  have hneq : prev ≠ q := by
    rintro rfl
    exact hrow hA.fresh
  have hpr : c2.row prev ≠ none := by rw [hA.row, if_neg hneq]; exact hrow
  have hqr : c2.row q ≠ none := by rw [hA.row, if_pos rfl]; simp
  have hwp := (h7.inv.at_wf hp).1
  obtain ⟨hlen, _, hpairs⟩ := ArchetypesUnion.calculate_spec hwp.incr ha.incr
  obtain ⟨pages', k1, k2, k3, k4, k5⟩ := copyLoop_spec ((ArchetypesUnion.calculate pa a).pairs) h7.inv hp hq hpr hqr hneq
    (fun i j hij => (hpairs i j).1 hij)
  refine ⟨{ c2 with pages := pages' }, q, ?_, ⟨k2, ?_, hA.fresh, hA.archNew, hA.archOld, ?_, hA.regs, hA.zero, hA.lay, ?_⟩, ?_⟩
  · unfold moveEntityToOtherArchetype
    unfold ArchetypesUnion.pairs at k1
    simp only [h1, ok_bind, h6, idx_of_some hp.hpg, idx_of_some hq.hpg, idx_of_some hp.ha, idx_of_some hp.hl,
      idx_of_some hq.hl, k1, pure_ok]
  · intro x
    rw [k3, hA.row]
  · intro x t hx
    have hxq : x ≠ q := by
      rintro rfl
      exact hx hA.fresh
    have hx2 : c2.row x ≠ none := by rw [hA.row, if_neg hxq]; exact hx
    rw [k4 x t hx2, if_neg (fun e => hxq e.1), hA.val x t hx]
  · intro F G h0 hcl hok hP
    exact k5 F G (hA.caps F G h0 hcl hok hP)
  · intro t hta htp
    have hex : ∃ i j, (i, j) ∈ (ArchetypesUnion.calculate pa a).pairs ∧ pa.ids[i]? = some t := by
      obtain ⟨i, hi⟩ := List.mem_iff_getElem?.1 htp
      obtain ⟨j, hj⟩ := List.mem_iff_getElem?.1 hta
      exact ⟨i, j, (hpairs i j).2 ⟨t, hi, hj⟩, hi⟩
    rw [k4 q t hqr, if_pos ⟨rfl, hex⟩, hA.val prev t hrow]

/-! ### Removing rows -/

/-- `move_component_data`: row `dst` gets the contents of row `src`, component by component. -/
theorem moveLoop_spec {a : Archetype} {l : Layout} (hw : a.WF U) (hg : l.Good U a) {src dst : Nat}
    (hs : src < l.entitiesCapacity) (hd : dst < l.entitiesCapacity) (hne : src ≠ dst) (is : List Nat) :
    ∀ d : Bytes, (∀ k ∈ is, k < a.ids.length) →
    ∃ d', Page.moveLoop a l src dst is d = .ok d' ∧
      ∀ k t o i, a.ids[k]? = some t → l.offsets[k]? = some o → i < l.entitiesCapacity →
        ((List.range (U.size t)).map fun j => d' (o + i * U.size t + j)) =
          if i = dst ∧ k ∈ is then ((List.range (U.size t)).map fun j => d (o + src * U.size t + j))
          else ((List.range (U.size t)).map fun j => d (o + i * U.size t + j)) := by
  induction is with
  | nil => intro d _; exact ⟨d, rfl, fun k t o i _ _ _ => by simp⟩
  | cons m is ih =>
    intro d hk
    obtain ⟨t, ht⟩ : ∃ t, a.ids[m]? = some t := ⟨_, List.getElem?_eq_getElem (hk m (by simp))⟩
    obtain ⟨o, ho⟩ : ∃ o, l.offsets[m]? = some o := ⟨_, List.getElem?_eq_getElem (by rw [hg.len]; exact hk m (by simp))⟩
    have hp1 := slot_inPage hg ht ho hs
    have hp2 := slot_inPage hg ht ho hd
    have hdis := slot_disj hw hg ht ho hs ht ho hd (fun e => hne e.1)
    have hov : overlaps (o + src * U.size t) (o + dst * U.size t) (U.size t) = false := by
      simp only [overlaps, decide_eq_false_iff_not]; omega
    have hcopy : Page.copyWithin d (Page.dataPtr src o (U.size t)) (Page.dataPtr dst o (U.size t)) (U.size t) =
        .ok (patch d (o + dst * U.size t) ((List.range (U.size t)).map fun j => d (o + src * U.size t + j))) := by
      unfold Page.copyWithin Page.dataPtr
      rw [readBytes_of hp1]
      simp only [ok_bind, hov, Bool.false_eq_true, if_false]
      exact writeBytes_of (by simpa using hp2)
    obtain ⟨d', h1, h2⟩ := ih (patch d (o + dst * U.size t) ((List.range (U.size t)).map fun j => d (o + src * U.size t + j)))
      (fun k hk' => hk k (by simp [hk']))
    refine ⟨d', ?_, ?_⟩
    · unfold Page.moveLoop
      simp only [idxUnchecked_of_some (sizes_get hw ht), idxUnchecked_of_some ho, ok_bind, hcopy, h1]
    · intro k t' o' i hk' ho' hi
      have hpatch : ∀ i', i' < l.entitiesCapacity → ¬ (i' = dst ∧ k = m) →
          ((List.range (U.size t')).map fun j => patch d (o + dst * U.size t)
            ((List.range (U.size t)).map fun j => d (o + src * U.size t + j)) (o' + i' * U.size t' + j)) =
          ((List.range (U.size t')).map fun j => d (o' + i' * U.size t' + j)) := by
        intro i' hi' hne'
        apply patch_disj
        simp only [List.length_map, List.length_range]
        refine slot_disj hw hg hk' ho' hi' ht ho hd ?_
        rintro ⟨e1, e2⟩
        subst e2
        exact hne' ⟨e1, hw.incr.getElem?_inj hk' ht⟩
      rw [h2 k t' o' i hk' ho' hi, hpatch src hs (fun e => hne e.1)]
      by_cases hid : i = dst
      · by_cases hkm : k ∈ is
        · rw [if_pos ⟨hid, hkm⟩, if_pos ⟨hid, by simp [hkm]⟩]
        · rw [if_neg (fun e => hkm e.2)]
          by_cases hmm : k = m
          · subst hmm
            rw [hk'] at ht; cases ht
            rw [ho'] at ho; cases ho
            rw [if_pos ⟨hid, by simp⟩]
            subst hid
            have := patch_same d (o + i * U.size t) ((List.range (U.size t)).map fun j => d (o + src * U.size t + j))
            simp only [List.length_map, List.length_range] at this
            exact this
          · rw [if_neg (by rintro ⟨_, e⟩; rcases List.mem_cons.1 e with e | e
                           · exact hmm e
                           · exact hkm e)]
            exact hpatch i hi (fun e => hmm e.2)
      · rw [if_neg (fun e => hid e.1), if_neg (fun e => hid e.1)]
        exact hpatch i hi (fun e => hid e.1)

/-- Replacing a page in use by one with no more rows. -/
theorem Inv.setPage (h : c.Inv U) {p ai : Nat} {a : Archetype} {l : Layout} {ps : List Nat} {pg : Page}
    (hat : c.At p ai a l ps pg) (pg' : Page) (hle : pg'.ids.items.length ≤ pg.ids.items.length) :
    ({ c with pages := c.pages.set p pg' } : Archs).Inv U ∧
    ({ c with pages := c.pages.set p pg' } : Archs).At p ai a l ps pg' := by
  have hset : ∀ j, (c.pages.set p pg')[j]? = if j = p then some pg' else c.pages[j]? := getElem?_set_of hat.hpg
  refine ⟨{ h with tlen := ?_, freeLt := ?_, covers := ?_, freeEmpty := ?_, fits := ?_ },
    hat.hps, hat.mem, hat.hto, hat.ha, hat.hl, by simp only [hset, if_true]⟩
  · simp [h.tlen]
  · simpa using h.freeLt
  · simpa using h.covers
  · intro x hx y hy
    have hne : x ≠ p := by rintro rfl; exact h.freeDisj x hx ps (List.mem_of_getElem? hat.hps) hat.mem
    simp only [hset, if_neg hne] at hy
    exact h.freeEmpty x hx y hy
  · intro i qs x y l' hi hx hy hl'
    simp only at hi hl'
    simp only [hset] at hy
    split at hy
    · rename_i hxp
      subst hxp
      cases hy
      exact Nat.le_trans hle (h.fits i qs x pg l' hi hx hat.hpg hl')
    · exact h.fits i qs x y l' hi hx hy hl'

/-- `free_page` of a page that has become empty. -/
theorem Inv.freePage_spec (h : c.Inv U) {p ai : Nat} {a : Archetype} {l : Layout} {ps : List Nat} {pg : Page}
    (hat : c.At p ai a l ps pg) (he : pg.ids.items = []) :
    ∃ c', c.freePage p = .ok c' ∧ c'.Inv U ∧ c'.pages = c.pages ∧ c'.archetypes = c.archetypes ∧
      c'.layouts = c.layouts ∧ c'.pageToArch = c.pageToArch ∧
      ∀ (F : Nat → Prop) (G : Layout → Nat → Prop), (∀ x, G l x → F x) → c.Caps F G → c'.Caps F G := by
  unfold freePage
  rw [idx_of_some hat.hto]
  simp only [ok_bind]
  by_cases h0 : ai = 0
  · rw [if_pos h0]
    exact ⟨c, rfl, h, rfl, rfl, rfl, rfl, fun _ _ _ hC => hC⟩
  · rw [if_neg h0]
    simp only [idx_of_some hat.hps, ok_bind, List.contains_iff_mem.2 hat.mem, if_true, pure_ok]
    have hset : ∀ j, (c.archPages.set ai (ps.erase p))[j]? = if j = ai then some (ps.erase p) else c.archPages[j]? :=
      getElem?_set_of hat.hps
    refine ⟨_, rfl, ?_, rfl, rfl, rfl, rfl, ?_⟩
    rotate_left
    · intro F G hGF hC
      refine ⟨fun x hx y hy => ?_, fun i l' qs x y hl' hqs hm hy => ?_⟩
      · rcases List.mem_append.1 hx with hx | hx
        · exact hC.1 x hx y hy
        · rw [List.mem_singleton.1 hx] at hy
          exact hGF _ (hC.2 ai l ps p y hat.hl hat.hps hat.mem hy)
      · simp only [hset] at hqs
        split at hqs
        · rename_i hia
          subst hia
          cases hqs
          exact hC.2 _ l' ps x y hl' hat.hps (List.mem_of_mem_erase hm) hy
        · exact hC.2 i l' qs x y hl' hqs hm hy
    have hpsm := List.mem_of_getElem? hat.hps
    have hpn := h.psNodup ps hpsm
    have hpf : p ∉ c.freePages := fun hf => h.freeDisj p hf ps hpsm hat.mem
    have hainf : ai ∉ c.freeArchetypes := by
      intro hf
      have := h.freeUnused ai hf
      rw [hat.hps] at this
      cases this
      cases hat.mem
    refine { h with alen := ?_, psNodup := ?_, owner := ?_, freeNodup := ?_, freeDisj := ?_, freeLt := ?_,
                    covers := ?_, freeEmpty := ?_, fits := ?_, freeANodup := ?_, freeUnused := ?_, freePos := ?_ }
    · simp [h.alen]
    · intro qs hqs
      rcases List.mem_or_eq_of_mem_set hqs with hqs | rfl
      · exact h.psNodup qs hqs
      · exact hpn.erase _
    · intro i qs x hi hx
      simp only [hset] at hi
      split at hi
      · rename_i hia
        subst hia; cases hi
        exact h.owner _ ps x hat.hps (List.mem_of_mem_erase hx)
      · exact h.owner i qs x hi hx
    · refine List.nodup_append.2 ⟨h.freeNodup, List.nodup_singleton _, ?_⟩
      intro x hx y hy
      rw [List.mem_singleton.1 hy]
      rintro rfl
      exact hpf hx
    · intro x hx qs hqs
      rcases List.mem_append.1 hx with hx | hx
      · rcases List.mem_or_eq_of_mem_set hqs with hqs | rfl
        · exact h.freeDisj x hx qs hqs
        · exact fun hm => h.freeDisj x hx ps hpsm (List.mem_of_mem_erase hm)
      · rw [List.mem_singleton.1 hx]
        intro hm
        obtain ⟨i, hi⟩ := List.mem_iff_getElem?.1 hqs
        rw [hset] at hi
        split at hi
        · cases hi
          exact hpn.not_mem_erase hm
        · rename_i hia
          have := h.owner i qs p hi hm
          rw [hat.hto] at this
          cases this
          exact hia rfl
    · intro x hx
      rcases List.mem_append.1 hx with hx | hx
      · exact h.freeLt x hx
      · rw [List.mem_singleton.1 hx]; exact (List.getElem?_eq_some_iff.1 hat.hpg).1
    · intro x hx
      rcases h.covers x hx with hf | ⟨i, qs, hi, hm⟩
      · exact Or.inl (List.mem_append.2 (Or.inl hf))
      · by_cases hxp : x = p
        · exact Or.inl (List.mem_append.2 (Or.inr (by simp [hxp])))
        · right
          by_cases hia : i = ai
          · subst hia
            rw [hat.hps] at hi; cases hi
            exact ⟨i, ps.erase p, by simp only [hset, if_true], (List.mem_erase_of_ne hxp).2 hm⟩
          · exact ⟨i, qs, by simp only [hset, if_neg hia]; exact hi, hm⟩
    · intro x hx y hy
      rcases List.mem_append.1 hx with hx | hx
      · exact h.freeEmpty x hx y hy
      · rw [List.mem_singleton.1 hx] at hy
        simp only at hy
        rw [hat.hpg] at hy; cases hy
        exact he
    · intro i qs x y l' hi hx hy hl'
      simp only at hy hl'
      simp only [hset] at hi
      split at hi
      · rename_i hia
        subst hia; cases hi
        exact h.fits _ ps x y l' hat.hps (List.mem_of_mem_erase hx) hy hl'
      · exact h.fits i qs x y l' hi hx hy hl'
    · split
      · refine List.nodup_append.2 ⟨h.freeANodup, List.nodup_singleton _, ?_⟩
        intro x hx y hy
        rw [List.mem_singleton.1 hy]
        rintro rfl
        exact hainf hx
      · exact h.freeANodup
    · intro f hf
      simp only [hset]
      by_cases hfa : f = ai
      · subst hfa
        rw [if_pos rfl]
        simp only at hf
        split at hf
        · rename_i he0
          rw [List.length_eq_zero_iff.1 he0]
        · exact absurd hf hainf
      · rw [if_neg hfa]
        simp only at hf
        split at hf
        · rcases List.mem_append.1 hf with hf | hf
          · exact h.freeUnused f hf
          · exact absurd (List.mem_singleton.1 hf) hfa
        · exact h.freeUnused f hf
    · intro f hf
      simp only at hf
      split at hf
      · rcases List.mem_append.1 hf with hf | hf
        · exact h.freePos f hf
        · rw [List.mem_singleton.1 hf]; exact h0
      · exact h.freePos f hf

/-- `swap_remove_entity`: the row `q` disappears, and the last row `last` of its page takes its place. -/
theorem Inv.swapRemove_spec (h : c.Inv U) {q : Loc} (hq : c.row q ≠ none) :
    ∃ c' info last, c.swapRemoveEntity q = .ok (c', info) ∧ c'.Inv U ∧ last.page = q.page ∧ c.row last ≠ none ∧
      info = (if q = last then none else c.row last) ∧
      (∀ x, c'.row x = if x = last then none else if x = q then c.row last else c.row x) ∧
      (∀ x t, c'.row x ≠ none → c'.val U x t = if x = q then c.val U last t else c.val U x t) ∧
      (∀ p, c'.archAt p = c.archAt p) ∧ c'.archetypes = c.archetypes ∧ c'.layouts = c.layouts ∧
      (∀ (F : Nat → Prop) (G : Layout → Nat → Prop),
        (∀ (i : Nat) l x, c.pageToArch[q.page]? = some i → c.layouts[i]? = some l → G l x → F x) →
        c.Caps F G → c'.Caps F G) := by
  obtain ⟨id, hid⟩ := Option.ne_none_iff_exists'.1 hq
  obtain ⟨ai, a, l, ps, pg, hat, hidx⟩ := h.at_of_row hid
  obtain ⟨qp, qi⟩ := q
  simp only at hat hidx
  obtain ⟨hw, hg, hc1, hcap⟩ := h.at_wf hat
  have hqi := (List.getElem?_eq_some_iff.1 hidx).1
  have hne : pg.ids.items ≠ [] := by intro e; rw [e] at hqi; simp at hqi
  obtain ⟨n, hn⟩ : ∃ n, pg.ids.items.length = n + 1 := ⟨pg.ids.items.length - 1, by omega⟩
  obtain ⟨lastId, hlast⟩ : ∃ x, pg.ids.items[n]? = some x := ⟨_, List.getElem?_eq_getElem (by omega)⟩
  have hgl : pg.ids.items.getLast? = some lastId := by
    rw [List.getLast?_eq_getElem?, hn]; simpa using hlast
  have hit : ∀ i, ((pg.ids.items.set qi lastId).dropLast)[i]? =
      if i = n then none else if i = qi then some lastId else pg.ids.items[i]? := by
    intro i
    rw [List.getElem?_dropLast]
    simp only [List.length_set, hn, Nat.add_sub_cancel]
    by_cases h1 : i < n
    · rw [if_pos h1, if_neg (by omega), List.getElem?_set]
      by_cases h2 : qi = i
      · subst h2; rw [if_pos rfl, if_pos hqi, if_pos rfl]
      · rw [if_neg h2, if_neg (fun e => h2 e.symm)]
    · rw [if_neg h1]
      by_cases h2 : i = n
      · rw [if_pos h2]
      · rw [if_neg h2, if_neg (by omega), List.getElem?_eq_none (by omega)]
  have hlen' : ((pg.ids.items.set qi lastId).dropLast).length = n := by simp [hn]
  obtain ⟨pg', info, hsw, hpgc, hpgi, hinfo, hpgv⟩ : ∃ pg' info, pg.swapRemoveEntityAtIndex qi a l = .ok (pg', info) ∧
      pg'.ids.cap = pg.ids.cap ∧
      pg'.ids.items = (pg.ids.items.set qi lastId).dropLast ∧ info = (if qi = n then none else some lastId) ∧
      ∀ i t, i < n → rowVal U a l pg' i t = if i = qi then rowVal U a l pg n t else rowVal U a l pg i t := by
    unfold Page.swapRemoveEntityAtIndex CapVec.swapRemove
    simp only [hgl, if_pos hqi, ok_bind, hlen']
    by_cases hqn : qi < n
    · rw [if_pos hqn]
      obtain ⟨d', hd1, hd2⟩ := moveLoop_spec hw hg (src := n) (dst := qi) (by omega) (by omega) (by omega)
        (List.range a.componentCount) pg.data (fun k hk => List.mem_range.1 hk)
      have hgot : (pg.ids.items.set qi lastId).dropLast[qi]? = some lastId := by
        rw [hit, if_neg (by omega), if_pos rfl]
      simp only [Page.moveComponentData, hd1, ok_bind, pure_ok, idx_of_some hgot]
      refine ⟨_, _, rfl, rfl, rfl, by rw [if_neg (by omega)], ?_⟩
      intro i t hi
      by_cases ht : t ∈ a.ids
      · obtain ⟨k, o, hk1, hk2, hk3⟩ := offset_of_mem hw hg ht
        rw [rowVal_of hk1 hk3, rowVal_of hk1 hk3, rowVal_of hk1 hk3]
        unfold Page.cells
        simp only
        rw [hd2 k t o i hk2 hk3 (by omega)]
        have hkr : k ∈ List.range a.componentCount := List.mem_range.2 (List.getElem?_eq_some_iff.1 hk2).1
        by_cases hiq : i = qi
        · rw [if_pos ⟨hiq, hkr⟩, if_pos hiq]
        · rw [if_neg (fun e => hiq e.1), if_neg hiq]
      · rw [rowVal_none hw ht, rowVal_none hw ht, rowVal_none hw ht, ite_self]
    · rw [if_neg hqn]
      have hqe : qi = n := by omega
      refine ⟨_, _, rfl, rfl, rfl, by rw [if_pos hqe], ?_⟩
      intro i t hi
      rw [if_neg (by omega)]
      rfl
  obtain ⟨hI1, hat1⟩ := h.setPage hat pg' (by rw [hpgi, hlen']; omega)
  have hset : ∀ j, (c.pages.set qp pg')[j]? = if j = qp then some pg' else c.pages[j]? := getElem?_set_of hat.hpg
  have hfin : ∃ c', c.swapRemoveEntity ⟨qp, qi⟩ = .ok (c', info) ∧ c'.Inv U ∧ c'.pages = c.pages.set qp pg' ∧
      c'.archetypes = c.archetypes ∧ c'.layouts = c.layouts ∧ c'.pageToArch = c.pageToArch ∧
      (∀ (F : Nat → Prop) (G : Layout → Nat → Prop), (∀ x, G l x → F x) → c.Caps F G → c'.Caps F G) := by
    have hC1 : ∀ (F : Nat → Prop) (G : Layout → Nat → Prop), c.Caps F G →
        ({ c with pages := c.pages.set qp pg' } : Archs).Caps F G := by
      intro F G hC
      refine hC.mapPages (fun x y hy => ?_)
      rw [hset] at hy
      split at hy
      · rename_i hx
        cases hy
        exact ⟨pg, by rw [hx]; exact hat.hpg, hpgc.symm⟩
      · exact ⟨y, hy, rfl⟩
    unfold swapRemoveEntity
    simp only [idx_of_some hat.hto, idx_of_some hat.hpg, idx_of_some hat.ha, idx_of_some hat.hl, ok_bind, hsw,
      Page.entityCount]
    by_cases hn0 : n = 0
    · have : (pg.ids.items.length == 1) = true := by rw [hn, hn0]; rfl
      simp only [this, if_true]
      have hemp : pg'.ids.items = [] := List.length_eq_zero_iff.1 (by rw [hpgi, hlen', hn0])
      obtain ⟨c', f1, f2, f3, f4, f5, f6, f7⟩ := hI1.freePage_spec hat1 hemp
      rw [f1]
      exact ⟨c', rfl, f2, f3, f4, f5, f6, fun F G hGF hC => f7 F G hGF (hC1 F G hC)⟩
    · have : (pg.ids.items.length == 1) = false := by rw [hn]; simpa using hn0
      simp only [this, Bool.false_eq_true, if_false]
      exact ⟨_, rfl, hI1, rfl, rfl, rfl, rfl, fun F G _ hC => hC1 F G hC⟩
  obtain ⟨c', f1, f2, f3, f4, f5, f6, f7⟩ := hfin
  have hrl : c.row ⟨qp, n⟩ = some lastId := by rw [hat.row]; exact hlast
  refine ⟨c', info, ⟨qp, n⟩, f1, f2, rfl, by rw [hrl]; simp, ?_, ?_, ?_, ?_, f4, f5, ?_⟩
  · rw [hinfo, hrl]
    by_cases hqn : qi = n
    · rw [if_pos hqn, if_pos (by rw [hqn])]
    · rw [if_neg hqn, if_neg (by intro e; cases e; exact hqn rfl)]
  · rintro ⟨xp, xi⟩
    rw [hrl]
    by_cases hxp : xp = qp
    · subst hxp
      have : c'.row ⟨xp, xi⟩ = ((pg.ids.items.set qi lastId).dropLast)[xi]? := by
        unfold Archs.row
        simp only [f3, hset, if_true, Option.bind_some, hpgi]
      rw [this, hit, hat.row]
      simp only [Loc.mk.injEq, true_and]
    · rw [if_neg (by intro e; cases e; exact hxp rfl), if_neg (by intro e; cases e; exact hxp rfl)]
      unfold Archs.row
      simp only [f3, hset, if_neg hxp]
  · rintro ⟨xp, xi⟩ t hx
    by_cases hxp : xp = qp
    · subst hxp
      have hxi : xi < n := by
        by_contra hc
        apply hx
        unfold Archs.row
        simp only [f3, hset, if_true, Option.bind_some, hpgi]
        exact List.getElem?_eq_none (by rw [hlen']; omega)
      have hv : c'.val U ⟨xp, xi⟩ t = rowVal U a l pg' xi t := by
        unfold Archs.val
        simp only [f3, f4, f5, f6, hset, if_true, hat.hto, hat.ha, hat.hl, Option.bind_some]
      rw [hv, hat.val, hat.val, hpgv xi t hxi]
      simp only [Loc.mk.injEq, true_and]
    · rw [if_neg (by intro e; cases e; exact hxp rfl)]
      unfold Archs.val
      simp only [f3, f4, f5, f6, hset, if_neg hxp]
  · intro p
    unfold Archs.archAt
    rw [f4, f6]
  · intro F G hGF hC
    exact f7 F G (fun x => hGF ai l x hat.hto hat.hl) hC

end Archs
end Ecs
