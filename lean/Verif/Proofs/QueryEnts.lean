import Verif.Proofs.QueryRun

/-! Entity queries over a store that represents a world. -/

namespace Ecs
open Spec

namespace Rel
variable {U : Universe} {dbg : Bool} {s : Store} {w : World}

/-- `e` is alive and has the types of the access. -/
def Matches (w : World) (acc : Access) (e : Entity) : Prop := e ∈ w.live ∧ w.types e ≠ [] ∧ ∀ t ∈ acc.types, t ∈ w.types e

instance (w : World) (acc : Access) (e : Entity) : Decidable (Matches w acc e) := by unfold Matches; infer_instance

/-- Whatever the query reads about `e` is there. -/
structure Askable (s : Store) (w : World) (e : Entity) : Prop where
  issued : e ∈ w.issued
  row : Inited s.toPage e.id
  types : e ∈ w.live → w.types e ≠ []

theorem valid (h : Rel U dbg s w) {acc : Access} (hd : DistinctTypes acc) {e : Entity} (he : e.id < s.ents.capacity) :
    isValidEntityForQuery dbg s acc e = .ok (decide (Matches w acc e)) := by
  unfold isValidEntityForQuery
  by_cases hc : e ∈ w.live ∧ w.types e ≠ []
  · obtain ⟨a, h1, h2, h3⟩ := h.getEntityArchetype_some hc.1 hc.2
    simp only [h1, ok_bind, pure_ok]
    congr 1
    rw [Bool.eq_iff_iff, Access.included_iff hd h2, decide_eq_true_eq]
    exact ⟨fun h0 => ⟨hc.1, hc.2, fun t ht => (h3 t).1 (h0 t ht)⟩, fun h0 t ht => (h3 t).2 (h0.2.2 t ht)⟩
  · rw [h.getEntityArchetype_none he hc]
    simp only [ok_bind, pure_ok]
    have : ¬ Matches w acc e := fun h0 => hc ⟨h0.1, h0.2.1⟩
    simp [this]

/-- The references a query should return for `e`. -/
def refsOf (U : Universe) (dbg : Bool) (s : Store) (acc : Access) (e : Entity) : List Ref :=
  match s.getComponentsRefs U dbg e acc.types with
  | .ok (some rs) => rs
  | _ => []

/-- A range of positions of `L` whose entities are all stored in the page of the view. -/
structure RangeOk (U : Universe) (dbg : Bool) (s : Store) (w : World) (acc : Access) (L : List Entity)
    (p : Range × IterView) : Prop where
  lt : p.1.start < p.1.stop
  le : p.1.stop ≤ L.length
  item : ∀ i e, p.1.start ≤ i → i < p.1.stop → L[i]? = some e → Matches w acc e ∧
    ∃ n, Raw.read s.toIndex e.id = .ok n ∧ s.getComponentsRefs U dbg e acc.types = .ok (some (addToPtrs p.2.ptrs n))

/-- The entities of a range. -/
def seg (L : List Entity) (p : Range × IterView) : List Entity := (L.take p.1.stop).drop p.1.start

/-- The inner loop stops at a position `k'` such that all entities before are alive and in the page. -/
theorem rangeLoop (h : Rel U dbg s w) {L : List Entity} (hL : ∀ e ∈ L, Askable s w e) (page : Nat) (rest : List Entity) (k : Nat)
    (hk : rest = L.drop k) (hle : k ≤ L.length) :
    ∃ k', entityRangeLoop dbg s page rest k = .ok (k', L.drop k') ∧ k ≤ k' ∧ k' ≤ L.length ∧
      ∀ i e, k ≤ i → i < k' → L[i]? = some e → e ∈ w.live ∧ Raw.read s.toPage e.id = .ok page := by
  induction rest generalizing k with
  | nil =>
    refine ⟨k, ?_, Nat.le_refl _, hle, fun i e h1 h2 => by omega⟩
    unfold entityRangeLoop
    rw [← hk]
  | cons e rest ih =>
    have hlt : k < L.length := by
      by_contra hc
      rw [List.drop_eq_nil_of_le (Nat.not_lt.1 hc)] at hk
      cases hk
    rw [List.drop_eq_getElem_cons hlt] at hk
    obtain ⟨he, hrest⟩ := List.cons.inj hk
    have hget : L[k]? = some e := by rw [List.getElem?_eq_getElem hlt, he]
    have ha := hL e (List.mem_of_getElem? hget)
    obtain ⟨pg, hpg⟩ := ha.row
    have hal := h.isAlive (h.ents.issued_id_lt ha.issued)
    unfold entityRangeLoop
    simp only [Raw.read_of_some hpg, ok_bind, hal]
    by_cases hc : e ∈ w.live ∧ page = pg
    · obtain ⟨hc1, rfl⟩ := hc
      obtain ⟨k', h1, h2, h3, h4⟩ := ih (k + 1) hrest hlt
      refine ⟨k', ?_, by omega, h3, fun i e' hi hi' hge => ?_⟩
      · simp only [hc1, decide_true, Bool.not_true, bne_self_eq_false, Bool.or_self, Bool.false_eq_true, if_false]
        exact h1
      · by_cases hik : i = k
        · subst hik
          rw [hget] at hge
          cases hge
          exact ⟨hc1, Raw.read_of_some hpg⟩
        · exact h4 i e' (by omega) hi' hge
    · refine ⟨k, ?_, Nat.le_refl _, hle, fun i e h1 h2 => by omega⟩
      have : (!decide (e ∈ w.live) || page != pg) = true := by
        by_cases h1 : e ∈ w.live
        · have h2 : page ≠ pg := fun h2 => hc ⟨h1, h2⟩
          simp [h2]
        · simp [h1]
      simp only [this, if_true, pure_ok]
      rw [List.drop_eq_getElem_cons hlt, ← he, hrest]

/-- The outer loop finds ranges with exactly the entities that match. -/
theorem outerLoop (h : Rel U dbg s w) {acc : Access} (hd : DistinctTypes acc) {L : List Entity} (hL : ∀ e ∈ L, Askable s w e)
    (fuel : Nat) (k : Nat) (hf : L.length - k ≤ fuel) (hle : k ≤ L.length) :
    ∃ rs, entityOuterLoop U dbg s acc fuel (L.drop k) k = .ok rs ∧ (∀ p ∈ rs, RangeOk U dbg s w acc L p) ∧
      rs.flatMap (seg L) = (L.drop k).filter fun e => decide (Matches w acc e) := by
  induction fuel generalizing k with
  | zero =>
    have : L.drop k = [] := List.drop_eq_nil_of_le (by omega)
    exact ⟨[], by rw [this]; rfl, by simp, by simp [this]⟩
  | succ fuel ih =>
    by_cases hlt : k < L.length
    · have hget : L[k]? = some L[k] := List.getElem?_eq_getElem hlt
      have hdrop : L.drop k = L[k] :: L.drop (k + 1) := List.drop_eq_getElem_cons hlt
      have ha := hL _ (List.mem_of_getElem? hget)
      rw [hdrop]
      generalize hge : L[k] = e at *
      have hv := h.valid hd (h.ents.issued_id_lt ha.issued)
      unfold entityOuterLoop
      simp only [hv, ok_bind]
      by_cases hm : Matches w acc e
      · simp only [hm, decide_true, Bool.true_eq_false, if_false]
        obtain ⟨q, ai, a, l, ps, pg, h1, h2, hat, hw, hg, h5, h6, _, h8⟩ := h.row hm.1 hm.2.1
        obtain ⟨offs, _, g2, _⟩ := getOffsets_present hw hg acc.types (fun t ht => (h5 t).2 (hm.2.2 t ht))
        obtain ⟨k', r1, r2, r3, r4⟩ := h.rangeLoop hL q.page (L.drop (k + 1)) (k + 1) rfl hlt
        obtain ⟨rs, i1, i2, i3⟩ := ih k' (by omega) r3
        refine ⟨(⟨k, k'⟩, IterView.new U acc q.page pg offs) :: rs, ?_, ?_, ?_⟩
        · simp only [Raw.read_of_some h1.page, ok_bind, idx_of_some hat.hto, idxUnchecked_of_some hat.ha,
            idxUnchecked_of_some hat.hl, idxUnchecked_of_some hat.hpg, Access.getOffsets_eq, g2, r1, i1, pure_ok]
        · have hitem : ∀ i e', k ≤ i → i < k' → L[i]? = some e' → Matches w acc e' ∧
              ∃ n, Raw.read s.toIndex e'.id = .ok n ∧ s.getComponentsRefs U dbg e' acc.types =
                .ok (some (addToPtrs (IterView.new U acc q.page pg offs).ptrs n)) := by
            intro i e' hi hi' hge'
            have hpage : e' ∈ w.live ∧ Raw.read s.toPage e'.id = .ok q.page := by
              by_cases hik : i = k
              · subst hik
                rw [hget] at hge'
                cases hge'
                exact ⟨hm.1, Raw.read_of_some h1.page⟩
              · exact r4 i e' (by omega) hi' hge'
            have hn := (hL e' (List.mem_of_getElem? hge')).types hpage.1
            obtain ⟨q', ai', a', l', ps', pg', h1', h2', hat', _, _, _, _, _, _⟩ := h.row hpage.1 hn
            have hqp : q'.page = q.page := by
              have := hpage.2
              rw [Raw.read_of_some h1'.page] at this
              exact Except.ok.inj this
            rw [← hqp] at hat ⊢
            obtain ⟨e2, k1, k2, k3, k4, _, k6⟩ := h.row_refs (ts := acc.types) h2' hat
              (fun t ht => (h5 t).2 (hm.2.2 t ht)) g2
            have := h.places.inj e2 k1 e' hpage.1 k2
            subst this
            refine ⟨⟨k1, k3, k4⟩, q'.index, Raw.read_of_some h1'.index, ?_⟩
            rw [k6]
            simp only [IterView.new, Access.getPtrs, addToPtrs_getRefs]
          intro p hp
          rcases List.mem_cons.1 hp with rfl | hp
          · exact ⟨by simp only; omega, r3, hitem⟩
          · exact i2 p hp
        · have hseg : L.drop k = seg L (⟨k, k'⟩, IterView.new U acc q.page pg offs) ++ L.drop k' := by
            unfold seg
            simp only
            conv_lhs => rw [← List.take_append_drop k' L]
            rw [List.drop_append_of_le_length (by rw [List.length_take]; omega)]
          rw [← hdrop, hseg, List.filter_append, List.flatMap_cons, i3]
          congr 1
          symm
          rw [List.filter_eq_self]
          intro x hx
          unfold seg at hx
          simp only at hx
          obtain ⟨i, hi⟩ := List.mem_iff_getElem?.1 hx
          rw [List.getElem?_drop, List.getElem?_take] at hi
          split at hi
          · next hik =>
            by_cases hik0 : k + i = k
            · rw [hik0, hget] at hi
              cases hi
              simp [hm]
            · have hpage := r4 (k + i) x (by omega) hik hi
              have hn := (hL x (List.mem_of_getElem? hi)).types hpage.1
              obtain ⟨q', ai', a', l', ps', pg', h1', h2', hat', _, _, h5', _, _, _⟩ := h.row hpage.1 hn
              have hqp : q'.page = q.page := by
                have := hpage.2
                rw [Raw.read_of_some h1'.page] at this
                exact Except.ok.inj this
              rw [hqp] at hat'
              have e1 := hat'.hto; rw [hat.hto] at e1; cases e1
              have e1 := hat'.ha; rw [hat.ha] at e1; cases e1
              have : Matches w acc x := ⟨hpage.1, hn, fun t ht => (h5' t).1 ((h5 t).2 (hm.2.2 t ht))⟩
              simp [this]
          · cases hi
      · obtain ⟨rs, i1, i2, i3⟩ := ih (k + 1) (by omega) hlt
        refine ⟨rs, ?_, i2, ?_⟩
        · simp only [hm, decide_false, if_true]
          exact i1
        · rw [List.filter_cons_of_neg (by simp [hm])]
          exact i3
    · have : L.drop k = [] := List.drop_eq_nil_of_le (by omega)
      exact ⟨[], by rw [this]; rfl, by simp, by simp [this]⟩

end Rel

/-! ### The iterator -/

/-- The entities still to come from an entity query iterator. -/
def EntIter.Remaining (U : Universe) (dbg : Bool) (s : Store) (w : World) (acc : Access) (it : EntIter) (l : List Entity) : Prop :=
  (∀ p ∈ it.ranges, Rel.RangeOk U dbg s w acc it.entities p) ∧
  l = ((it.ranges.drop it.nextRangeIndex).flatMap (Rel.seg it.entities)).drop it.nextOffsetFromRange ∧
  (it.nextOffsetFromRange = 0 ∨
    ∃ p, it.ranges[it.nextRangeIndex]? = some p ∧ p.1.start + it.nextOffsetFromRange < p.1.stop)

namespace EntIter
variable {U : Universe} {dbg : Bool} {s : Store} {w : World} {acc : Access}

theorem seg_length {L : List Entity} {p : Range × IterView} (h : p.1.stop ≤ L.length) :
    (Rel.seg L p).length = p.1.stop - p.1.start := by
  simp [Rel.seg, Nat.min_eq_left h]

theorem next_nil {it : EntIter} (h : it.Remaining U dbg s w acc []) : it.next dbg s = .ok (none, it) := by
  obtain ⟨h1, h2, h3⟩ := h
  have hge : it.nextRangeIndex ≥ it.ranges.length := by
    by_contra hlt
    have hlt := Nat.not_le.1 hlt
    have hp : it.ranges[it.nextRangeIndex]? = some it.ranges[it.nextRangeIndex] := List.getElem?_eq_getElem hlt
    have hok := h1 _ (List.mem_of_getElem? hp)
    have hoff : it.ranges[it.nextRangeIndex].1.start + it.nextOffsetFromRange < it.ranges[it.nextRangeIndex].1.stop := by
      rcases h3 with h3 | ⟨p, h3, h4⟩
      · rw [h3]; exact hok.lt
      · rw [hp] at h3; cases h3; exact h4
    rw [List.drop_eq_getElem_cons hlt, List.flatMap_cons, List.drop_append_of_le_length (by
      rw [seg_length hok.le]; omega)] at h2
    have := congrArg List.length h2
    rw [List.length_append, List.length_drop, seg_length hok.le] at this
    simp only [List.length_nil] at this
    omega
  unfold EntIter.next
  rw [if_pos hge]
  rfl

theorem next_cons {it : EntIter} {e : Entity} {l : List Entity} (h : it.Remaining U dbg s w acc (e :: l)) :
    ∃ it', it.next dbg s = .ok (some (Rel.refsOf U dbg s acc e), it') ∧ it'.Remaining U dbg s w acc l ∧
      it'.entities = it.entities ∧ it.entities[it'.currentEntityIndex]? = some e := by
  obtain ⟨h1, h2, h3⟩ := h
  have hlt : it.nextRangeIndex < it.ranges.length := by
    by_contra hc
    rw [List.drop_eq_nil_of_le (Nat.not_lt.1 hc)] at h2
    simp at h2
  obtain ⟨p, hp⟩ : ∃ p, it.ranges[it.nextRangeIndex]? = some p := ⟨_, List.getElem?_eq_getElem hlt⟩
  have hok := h1 _ (List.mem_of_getElem? hp)
  have hoff : p.1.start + it.nextOffsetFromRange < p.1.stop := by
    rcases h3 with h3 | ⟨p', h3, h4⟩
    · rw [h3]; exact hok.lt
    · rw [hp] at h3; cases h3; exact h4
  have hdrop : it.ranges.drop it.nextRangeIndex = p :: it.ranges.drop (it.nextRangeIndex + 1) := by
    rw [List.drop_eq_getElem_cons hlt, (List.getElem?_eq_some_iff.1 hp).2]
  have hlen := seg_length (p := p) hok.le
  have hle := hok.le
  -- the current entity
  have hcur : it.entities[p.1.start + it.nextOffsetFromRange]? = some e := by
    have := congrArg (·[0]?) h2
    simp only [List.getElem?_cons_zero, hdrop, List.flatMap_cons, List.getElem?_drop, Nat.add_zero] at this
    rw [List.getElem?_append_left (by omega)] at this
    unfold Rel.seg at this
    rw [List.getElem?_drop, List.getElem?_take_of_lt (by omega)] at this
    exact this.symm
  have hl : l = ((it.ranges.drop it.nextRangeIndex).flatMap (Rel.seg it.entities)).drop (it.nextOffsetFromRange + 1) := by
    have := congrArg (List.drop 1) h2
    rw [List.drop_drop] at this
    exact this
  obtain ⟨_, n, hn, hrefs⟩ := hok.item _ _ (Nat.le_add_right _ _) hoff hcur
  have hrefs' : Rel.refsOf U dbg s acc e = addToPtrs p.2.ptrs n := by
    unfold Rel.refsOf; rw [hrefs]
  have hsub : subUsize dbg p.1.stop 1 = .ok (p.1.stop - 1) := by
    unfold subUsize
    rw [if_pos (by omega)]
  by_cases hlast : p.1.start + it.nextOffsetFromRange ≥ p.1.stop - 1
  · refine ⟨{ it with currentEntityIndex := p.1.start + it.nextOffsetFromRange,
                      nextRangeIndex := it.nextRangeIndex + 1, nextOffsetFromRange := 0 }, ?_, ⟨h1, ?_, .inl rfl⟩, rfl, hcur⟩
    · unfold EntIter.next
      rw [if_neg (Nat.not_le.2 hlt)]
      simp only [idxUnchecked_of_some hp, ok_bind, idxUnchecked_of_some hcur, hn, hsub, hlast, if_true, pure_ok, hrefs']
    · rw [hl, hdrop, List.flatMap_cons, List.drop_append, List.drop_eq_nil_of_le (by omega), List.nil_append, hlen]
      have h0 : it.nextOffsetFromRange + 1 - (p.1.stop - p.1.start) = 0 := by omega
      rw [h0]
  · refine ⟨{ it with currentEntityIndex := p.1.start + it.nextOffsetFromRange,
                      nextOffsetFromRange := it.nextOffsetFromRange + 1 }, ?_, ⟨h1, hl, .inr ⟨p, hp, ?_⟩⟩, rfl, hcur⟩
    · unfold EntIter.next
      rw [if_neg (Nat.not_le.2 hlt)]
      simp only [idxUnchecked_of_some hp, ok_bind, idxUnchecked_of_some hcur, hn, hsub, hlast, if_false, pure_ok, hrefs']
    · simp only; omega

end EntIter

namespace Rel
variable {U : Universe} {dbg : Bool} {s : Store} {w : World}

/-- What an entity query returns. -/
theorem entity_query (h : Rel U dbg s w) {acc : Access} (hd : DistinctTypes acc) {L : List Entity} (hL : ∀ e ∈ L, Askable s w e)
    (old : List (Range × IterView)) {fuel : Nat} (hf : L.length < fuel) :
    runEntityQueryWithEntities U dbg s L acc old fuel =
      .ok ((L.filter fun e => decide (Matches w acc e)).map fun e => (e, refsOf U dbg s acc e)) ∧
    runEntityQuery U dbg s L acc old fuel =
      .ok ((L.filter fun e => decide (Matches w acc e)).map (refsOf U dbg s acc)) := by
  obtain ⟨rs, h1, h2, h3⟩ := h.outerLoop hd hL L.length 0 (by omega) (Nat.zero_le _)
  rw [List.drop_zero] at h1 h3
  have hit : entityQueryIter U dbg s L acc old = .ok ⟨L, rs, 0, 0, 0⟩ := by
    unfold entityQueryIter
    simp only [h1, ok_bind, pure_ok, List.take_zero, List.nil_append]
  have hrem : EntIter.Remaining U dbg s w acc ⟨L, rs, 0, 0, 0⟩ (L.filter fun e => decide (Matches w acc e)) :=
    ⟨h2, by rw [List.drop_zero, List.drop_zero]; exact h3.symm, .inl rfl⟩
  have hlen : (L.filter fun e => decide (Matches w acc e)).length < fuel :=
    Nat.lt_of_le_of_lt (List.length_filter_le _ _) hf
  constructor
  · unfold runEntityQueryWithEntities
    simp only [hit, ok_bind]
    refine drain_of (EntIter.Remaining U dbg s w acc) (fun it h => ?_) (fun it e l h => ?_) hrem hlen
    · refine ⟨it, ?_⟩
      unfold EntIter.nextWithEntity
      rw [EntIter.next_nil h]
      rfl
    · obtain ⟨it', k1, k2, k3, k4⟩ := EntIter.next_cons h
      refine ⟨it', ?_, k2⟩
      unfold EntIter.nextWithEntity
      rw [← k3] at k4
      simp only [k1, ok_bind, idxUnchecked_of_some k4, pure_ok]
  · unfold runEntityQuery
    simp only [hit, ok_bind]
    exact drain_of (EntIter.Remaining U dbg s w acc) (fun it h => ⟨it, EntIter.next_nil h⟩)
      (fun it e l h => (EntIter.next_cons h).imp fun _ h => ⟨h.1, h.2.1⟩) hrem hlen

theorem refsOf_eq (h : Rel U dbg s w) {acc : Access} {e : Entity} (hm : Matches w acc e) :
    s.getComponentsRefs U dbg e acc.types = .ok (some (refsOf U dbg s acc e)) := by
  obtain ⟨_, _, _, _, _, _, _, _, _, _, _, _, h1, _⟩ := h.getRefs_some hm.1 hm.2.1 hm.2.2
  unfold refsOf
  rw [h1]

end Rel
end Ecs
