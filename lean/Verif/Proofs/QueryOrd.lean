import Verif.Proofs.QueryEnts

/-! Ordered queries over a store that represents a world. -/

namespace Ecs
open Spec

/-- The id at the front of a sequence of entities, or the null id. -/
def headId (l : List Entity) : Nat := (l.head?.map (·.id)).getD NULL_ID

theorem follower_get {l : List Nat} (hn : l.Nodup) {k x : Nat} (hk : l[k]? = some x) : follower l x = l[k + 1]? := by
  have hlt := (List.getElem?_eq_some_iff.1 hk).1
  have hx := (List.getElem?_eq_some_iff.1 hk).2
  have hs : l = l.take k ++ x :: l.drop (k + 1) := by
    rw [← hx, ← List.drop_eq_getElem_cons hlt, List.take_append_drop]
  have hnot : x ∉ l.take k := by
    intro hm
    rw [hs] at hn
    exact (List.nodup_append.1 hn).2.2 x hm x List.mem_cons_self rfl
  conv_lhs => rw [hs]
  rw [follower_append, if_neg hnot]
  simp [follower]

/-- The links of a group lead from each member to the next one. -/
theorem link_read {cap : Nat} {g : Group} {L : List Entity} (h : g.Rep cap (L.map (·.id))) {k : Nat} {e : Entity}
    (hk : L[k]? = some e) : Raw.read g.fwd e.id = .ok (headId (L.drop (k + 1))) := by
  have hm : e.id ∈ L.map (·.id) := List.mem_map.2 ⟨e, List.mem_of_getElem? hk, rfl⟩
  rw [h.fwd.read (h.lt _ hm).1]
  rw [follower_get h.nodup (k := k) (by rw [List.getElem?_map, hk]; rfl)]
  unfold headId
  rw [List.head?_drop, List.getElem?_map]

theorem headId_drop {L : List Entity} {k : Nat} {e : Entity} (hk : L[k]? = some e) : headId (L.drop k) = e.id := by
  unfold headId
  rw [List.head?_drop, hk]
  rfl

theorem headId_nil {L : List Entity} {k : Nat} (hk : L.length ≤ k) : headId (L.drop k) = NULL_ID := by
  rw [List.drop_eq_nil_of_le hk]
  rfl

namespace Rel
variable {U : Universe} {dbg : Bool} {s : Store} {w : World}

/-- A range of rows of a page which hold, in this order, the entities `es`. -/
structure RowsOf (U : Universe) (dbg : Bool) (s : Store) (w : World) (acc : Access) (p : Range × IterView)
    (es : List Entity) : Prop where
  ne : es ≠ []
  len : p.1.stop = p.1.start + es.length
  item : ∀ (i : Nat) e, es[i]? = some e → Matches w acc e ∧
    s.getComponentsRefs U dbg e acc.types = .ok (some (addToPtrs p.2.ptrs (p.1.start + i))) ∧
    p.2.entityIds[p.1.start + i]? = some e.id
  page : ∃ q pg, s.archs.pages[q]? = some pg ∧ p.2.entityIds = pg.ids.items ∧ ∀ e ∈ es, s.toPage[e.id]? = some (some q)

/-- The inner loop stops at a position `k'` such that the entities before are in consecutive rows. -/
theorem ordRangeLoop (h : Rel U dbg s w) {L : List Entity} (hL : ∀ e ∈ L, e ∈ w.live ∧ w.types e ≠ []) {g : Group}
    (hg : g.Rep s.ents.capacity (L.map (·.id))) (page : Nat) (fuel : Nat) (k n : Nat) (hf : L.length - k < fuel)
    (hle : k ≤ L.length) :
    ∃ m, orderedRangeLoop s g.fwd page fuel (headId (L.drop k)) n = .ok (headId (L.drop (k + m)), n + m) ∧
      k + m ≤ L.length ∧
      (∀ (i : Nat) e, i < m → L[k + i]? = some e → Pos s.toPage s.toIndex e.id ⟨page, n + i⟩) ∧
      ∀ e, L[k + m]? = some e → ¬ Pos s.toPage s.toIndex e.id ⟨page, n + m⟩ := by
  induction fuel generalizing k n with
  | zero => omega
  | succ fuel ih =>
    unfold orderedRangeLoop
    by_cases hlt : k < L.length
    · obtain ⟨e, he⟩ : ∃ e, L[k]? = some e := ⟨_, List.getElem?_eq_getElem hlt⟩
      rw [headId_drop he]
      have hm := List.mem_of_getElem? he
      obtain ⟨hl, hty⟩ := hL e hm
      have hnn := h.core.ne_null hl
      obtain ⟨q, _, _, _, _, _, h1, _⟩ := h.row hl hty
      simp only [hnn, if_false, Raw.read_of_some h1.page, Raw.read_of_some h1.index, ok_bind]
      by_cases hc : q.page = page ∧ q.index = n
      · obtain ⟨m, i1, i2, i3, i4⟩ := ih (k + 1) (n + 1) (by omega) hlt
        refine ⟨m + 1, ?_, by omega, fun i e' hi hge => ?_, fun e' hge => ?_⟩
        · simp only [hc.1, hc.2, bne_self_eq_false, Bool.or_self, Bool.false_eq_true, if_false, link_read hg he, ok_bind]
          rw [i1]
          have e1 : k + 1 + m = k + (m + 1) := by omega
          have e2 : n + 1 + m = n + (m + 1) := by omega
          rw [e1, e2]
        · cases i with
          | zero =>
            rw [Nat.add_zero, he] at hge
            cases hge
            obtain ⟨qp, qi⟩ := q
            obtain ⟨rfl, rfl⟩ := hc
            exact h1
          | succ i =>
            have := i3 i e' (by omega) (by rw [← hge]; congr 1; omega)
            have e1 : n + 1 + i = n + (i + 1) := by omega
            rw [e1] at this
            exact this
        · have e1 : n + (m + 1) = n + 1 + m := by omega
          rw [e1]
          exact i4 e' (by rw [← hge]; congr 1; omega)
      · refine ⟨0, ?_, by omega, fun i e hi => by omega, fun e' hge hp => ?_⟩
        rotate_left
        · rw [Nat.add_zero, he] at hge
          cases hge
          have := h1.unique hp
          subst this
          exact hc ⟨rfl, rfl⟩
        have : (q.page != page || q.index != n) = true := by
          by_cases h1 : q.page = page
          · have h2 : q.index ≠ n := fun h2 => hc ⟨h1, h2⟩
            simp [h2]
          · simp [h1]
        simp only [this, if_true, pure_ok, Nat.add_zero]
        rw [headId_drop he]
    · refine ⟨0, ?_, by omega, fun i e hi => by omega, fun e hge => ?_⟩
      rotate_left
      · rw [Nat.add_zero, List.getElem?_eq_none (by omega)] at hge
        cases hge
      rw [headId_nil (by omega), Nat.add_zero, headId_nil (by omega)]
      simp

/-- Entity `y` is stored in the row after that of `x`. -/
def RightAfter (s : Store) (x y : Entity) : Prop :=
  ∃ q : Loc, Pos s.toPage s.toIndex x.id q ∧ Pos s.toPage s.toIndex y.id ⟨q.page, q.index + 1⟩

/-- `es` is a part of the sequence `L` in consecutive rows, and the member after it is not in the row after it. -/
structure Run (s : Store) (L es : List Entity) : Prop where
  start : ∃ (k : Nat), es = (L.drop k).take es.length ∧ k + es.length ≤ L.length ∧
    (∀ (i : Nat) x y, i + 1 < es.length → L[k + i]? = some x → L[k + i + 1]? = some y → RightAfter s x y) ∧
    ∀ x y, es.getLast? = some x → L[k + es.length]? = some y → ¬ RightAfter s x y

/-- The outer loop finds ranges with exactly the members that match, in order. -/
theorem ordOuterLoop (h : Rel U dbg s w) {acc : Access} (hd : DistinctTypes acc) {L : List Entity}
    (hL : ∀ e ∈ L, e ∈ w.live ∧ w.types e ≠ []) {g : Group} (hg : g.Rep s.ents.capacity (L.map (·.id)))
    (fuel : Nat) (k : Nat) (hf : L.length - k < fuel) (hle : k ≤ L.length) :
    ∃ rs ess, orderedOuterLoop U s acc g.fwd fuel (headId (L.drop k)) = .ok (rs, ess.flatten.length) ∧
      List.Forall₂ (RowsOf U dbg s w acc) rs ess ∧
      ess.flatten = ((L.drop k).filter fun e => decide (Matches w acc e)) ∧ ∀ es ∈ ess, Run s L es := by
  induction fuel generalizing k with
  | zero => omega
  | succ fuel ih =>
    unfold orderedOuterLoop
    by_cases hlt : k < L.length
    · obtain ⟨e, he⟩ : ∃ e, L[k]? = some e := ⟨_, List.getElem?_eq_getElem hlt⟩
      have hdrop : L.drop k = e :: L.drop (k + 1) := by
        rw [List.drop_eq_getElem_cons hlt, (List.getElem?_eq_some_iff.1 he).2]
      rw [headId_drop he]
      have hm := List.mem_of_getElem? he
      obtain ⟨hl, hty⟩ := hL e hm
      have hnn := h.core.ne_null hl
      obtain ⟨q, ai, a, l, ps, pg, h1, h2, hat, hw, hgd, h5, h6, _, h8⟩ := h.row hl hty
      have hinc : acc.included a = true ↔ Matches w acc e := by
        rw [Access.included_iff hd hw]
        exact ⟨fun h0 => ⟨hl, hty, fun t ht => (h5 t).1 (h0 t ht)⟩, fun h0 t ht => (h5 t).2 (h0.2.2 t ht)⟩
      simp only [hnn, if_false, Raw.read_of_some h1.page, Raw.read_of_some h1.index, ok_bind, idx_of_some hat.hto,
        idxUnchecked_of_some hat.ha, idxUnchecked_of_some hat.hl, idxUnchecked_of_some hat.hpg]
      by_cases hM : Matches w acc e
      · simp only [hinc.2 hM, Bool.not_true, Bool.false_eq_true, if_false]
        obtain ⟨offs, _, g2, _⟩ := getOffsets_present hw hgd acc.types (fun t ht => (h5 t).2 (hM.2.2 t ht))
        obtain ⟨m, r1, r2, r3, r4⟩ := h.ordRangeLoop hL hg q.page fuel (k + 1) (q.index + 1) (by omega) hlt
        obtain ⟨rs, ess, i1, i2, i3, i4⟩ := ih (k + 1 + m) (by omega) r2
        -- the entities of the range
        have hes : ∀ (i : Nat) x, ((L.drop k).take (m + 1))[i]? = some x → i < m + 1 ∧ L[k + i]? = some x ∧
            Pos s.toPage s.toIndex x.id ⟨q.page, q.index + i⟩ := by
          intro i x hx
          rw [List.getElem?_take] at hx
          split at hx
          · next hi =>
            rw [List.getElem?_drop] at hx
            refine ⟨hi, hx, ?_⟩
            cases i with
            | zero =>
              rw [Nat.add_zero, he] at hx
              cases hx
              exact h1
            | succ i =>
              have := r3 i x (by omega) (by rw [← hx]; congr 1; omega)
              have e1 : q.index + 1 + i = q.index + (i + 1) := by omega
              rw [e1] at this
              exact this
          · cases hx
        have hlen : ((L.drop k).take (m + 1)).length = m + 1 := by
          rw [List.length_take, List.length_drop]; omega
        have hmat : ∀ (i : Nat) x, ((L.drop k).take (m + 1))[i]? = some x → Matches w acc x ∧
            s.getComponentsRefs U dbg x acc.types = .ok (some (getRefs U q.page (q.index + i) acc.types offs)) ∧
            pg.ids.items[q.index + i]? = some x.id := by
          intro i x hx
          obtain ⟨_, hx1, hx2⟩ := hes i x hx
          obtain ⟨hxl, hxt⟩ := hL x (List.mem_of_getElem? hx1)
          obtain ⟨q', _, _, _, _, _, h1', h2', _⟩ := h.row hxl hxt
          have := h1'.unique hx2
          subst this
          obtain ⟨e2, k1, k2, k3, k4, _, k6⟩ := h.row_refs (ts := acc.types) h2' hat
            (fun t ht => (h5 t).2 (hM.2.2 t ht)) g2
          have := h.places.inj e2 k1 x hxl k2
          subst this
          refine ⟨⟨k1, k3, k4⟩, k6, ?_⟩
          rw [← h2', hat.row]
        refine ⟨(⟨q.index, q.index + 1 + m⟩, IterView.new U acc q.page pg offs) :: rs, (L.drop k).take (m + 1) :: ess, ?_,
          .cons ⟨?_, ?_, ?_, ?_⟩ i2, ?_, ?_⟩
        · simp only [Access.getOffsets_eq, g2, ok_bind, link_read hg he, r1, i1, pure_ok, List.flatten_cons,
            List.length_append, hlen]
          have e1 : q.index + 1 + m - q.index = m + 1 := by omega
          rw [e1]
        · intro h0
          rw [h0] at hlen
          simp at hlen
        · simp only [hlen]; omega
        · intro i x hx
          obtain ⟨m1, m2, m3⟩ := hmat i x hx
          refine ⟨m1, ?_, m3⟩
          rw [m2]
          simp only [IterView.new, Access.getPtrs, addToPtrs_getRefs]
        · refine ⟨q.page, pg, hat.hpg, rfl, fun x hx => ?_⟩
          obtain ⟨i, hi⟩ := List.mem_iff_getElem?.1 hx
          exact (hes i x hi).2.2.page
        · rw [List.flatten_cons, i3]
          have hsplit : L.drop k = (L.drop k).take (m + 1) ++ L.drop (k + 1 + m) := by
            conv_lhs => rw [← List.take_append_drop (m + 1) (L.drop k)]
            rw [List.drop_drop]
            congr 2
            omega
          conv_rhs => rw [hsplit, List.filter_append]
          congr 1
          symm
          rw [List.filter_eq_self]
          intro x hx
          obtain ⟨i, hi⟩ := List.mem_iff_getElem?.1 hx
          simp [(hmat i x hi).1]
        · intro es hes'
          rcases List.mem_cons.1 hes' with rfl | hes'
          · refine ⟨k, by rw [hlen], by rw [hlen]; omega, fun i x y hi hx hy => ?_, fun x y hx hy => ?_⟩
            · rw [hlen] at hi
              have hx' : ((L.drop k).take (m + 1))[i]? = some x := by
                rw [List.getElem?_take, if_pos (by omega), List.getElem?_drop]; exact hx
              have hy' : ((L.drop k).take (m + 1))[i + 1]? = some y := by
                rw [List.getElem?_take, if_pos (by omega), List.getElem?_drop]; exact hy
              exact ⟨_, (hes i x hx').2.2, (hes (i + 1) y hy').2.2⟩
            · rintro ⟨q', p1, p2⟩
              rw [List.getLast?_eq_getElem?, hlen, Nat.add_sub_cancel] at hx
              have := p1.unique (hes m x hx).2.2
              subst this
              refine r4 y (by rw [← hy, hlen]; congr 1; omega) ?_
              have e1 : q.index + 1 + m = q.index + m + 1 := by omega
              rw [e1]
              exact p2
          · exact i4 es hes'
      · have hni : acc.included a = false := by
          rw [← Bool.not_eq_true]
          exact fun h0 => hM (hinc.1 h0)
        obtain ⟨rs, ess, i1, i2, i3, i4⟩ := ih (k + 1) (by omega) hlt
        refine ⟨rs, ess, ?_, i2, ?_, i4⟩
        · simp only [hni, Bool.not_false, if_true, link_read hg he, ok_bind]
          exact i1
        · rw [hdrop, List.filter_cons_of_neg (by simp [hM])]
          exact i3
    · refine ⟨[], [], ?_, .nil, ?_, by simp⟩
      · rw [headId_nil (by omega)]
        simp
      · rw [List.drop_eq_nil_of_le (by omega)]
        rfl

end Rel

/-! ### The iterator -/

/-- The entities still to come from an ordered query iterator. -/
def OrdIter.Remaining (U : Universe) (dbg : Bool) (s : Store) (w : World) (acc : Access) (it : OrdIter) (l : List Entity) :
    Prop :=
  ∃ ess, List.Forall₂ (Rel.RowsOf U dbg s w acc) it.ranges ess ∧
    l = ((ess.drop it.nextRangeIndex).flatten).drop it.nextOffsetFromRange ∧
    (it.nextOffsetFromRange = 0 ∨
      ∃ es, ess[it.nextRangeIndex]? = some es ∧ it.nextOffsetFromRange < es.length)

namespace OrdIter
variable {U : Universe} {dbg : Bool} {s : Store} {w : World} {acc : Access}

theorem next_nil {it : OrdIter} (h : it.Remaining U dbg s w acc []) : it.next dbg = .ok (none, it) := by
  obtain ⟨ess, h1, h2, h3⟩ := h
  have hge : it.nextRangeIndex ≥ it.ranges.length := by
    by_contra hlt
    have hlt := Nat.not_le.1 hlt
    rw [h1.length_eq] at hlt
    have hp : ess[it.nextRangeIndex]? = some ess[it.nextRangeIndex] := List.getElem?_eq_getElem hlt
    have hok := (h1.get (i := it.nextRangeIndex) (by rw [h1.length_eq]; exact hlt) hlt).ne
    have hoff : it.nextOffsetFromRange < ess[it.nextRangeIndex].length := by
      rcases h3 with h3 | ⟨p, h3, h4⟩
      · rw [h3]; exact List.length_pos_iff.2 hok
      · rw [hp] at h3; cases h3; exact h4
    rw [List.drop_eq_getElem_cons hlt, List.flatten_cons, List.drop_append_of_le_length (by omega)] at h2
    have := congrArg List.length h2
    rw [List.length_append, List.length_drop] at this
    simp only [List.length_nil] at this
    omega
  unfold OrdIter.next
  rw [if_pos hge]
  rfl

theorem next_cons {it : OrdIter} {e : Entity} {l : List Entity} (h : it.Remaining U dbg s w acc (e :: l)) :
    ∃ it' p es, it.next dbg = .ok (some (Rel.refsOf U dbg s acc e), it') ∧ it'.Remaining U dbg s w acc l ∧
      it'.ranges = it.ranges ∧ it.ranges[it.nextRangeIndex]? = some p ∧ Rel.RowsOf U dbg s w acc p es ∧ e ∈ es ∧
      p.2.entityIds[it'.currentIndexInPage]? = some e.id ∧
      (it'.nextRangeIndex = it.nextRangeIndex ∨ it'.nextRangeIndex = it.nextRangeIndex + 1) := by
  obtain ⟨ess, h1, h2, h3⟩ := h
  have hlt : it.nextRangeIndex < ess.length := by
    by_contra hc
    rw [List.drop_eq_nil_of_le (Nat.not_lt.1 hc)] at h2
    simp at h2
  have hlt' : it.nextRangeIndex < it.ranges.length := by rw [h1.length_eq]; exact hlt
  have hrow := h1.get hlt' hlt
  obtain ⟨es, hes⟩ : ∃ es, ess[it.nextRangeIndex]? = some es := ⟨_, List.getElem?_eq_getElem hlt⟩
  obtain ⟨p, hp⟩ : ∃ p, it.ranges[it.nextRangeIndex]? = some p := ⟨_, List.getElem?_eq_getElem hlt'⟩
  have hrow : Rel.RowsOf U dbg s w acc p es := by
    have e1 := (List.getElem?_eq_some_iff.1 hes).2
    have e2 := (List.getElem?_eq_some_iff.1 hp).2
    simp only [List.get_eq_getElem, e1, e2] at hrow
    exact hrow
  have hpos := List.length_pos_iff.2 hrow.ne
  have hoff : it.nextOffsetFromRange < es.length := by
    rcases h3 with h3 | ⟨p', h3, h4⟩
    · rw [h3]; exact hpos
    · rw [hes] at h3; cases h3; exact h4
  have hdrop : ess.drop it.nextRangeIndex = es :: ess.drop (it.nextRangeIndex + 1) := by
    rw [List.drop_eq_getElem_cons hlt, (List.getElem?_eq_some_iff.1 hes).2]
  have hcur : es[it.nextOffsetFromRange]? = some e := by
    have := congrArg (·[0]?) h2
    simp only [List.getElem?_cons_zero, hdrop, List.flatten_cons, List.getElem?_drop, Nat.add_zero] at this
    rw [List.getElem?_append_left hoff] at this
    exact this.symm
  have hl : l = ((ess.drop it.nextRangeIndex).flatten).drop (it.nextOffsetFromRange + 1) := by
    have := congrArg (List.drop 1) h2
    rw [List.drop_drop] at this
    exact this
  obtain ⟨_, hrefs, hid⟩ := hrow.item _ _ hcur
  have hrefs' : Rel.refsOf U dbg s acc e = addToPtrs p.2.ptrs (p.1.start + it.nextOffsetFromRange) := by
    unfold Rel.refsOf; rw [hrefs]
  have hstop := hrow.len
  have hsub : subU32 dbg p.1.stop 1 = .ok (p.1.stop - 1) := by
    unfold subU32
    rw [if_pos (by omega)]
  by_cases hlast : p.1.start + it.nextOffsetFromRange ≥ p.1.stop - 1
  · refine ⟨{ it with currentIndexInPage := p.1.start + it.nextOffsetFromRange,
                      nextRangeIndex := it.nextRangeIndex + 1, nextOffsetFromRange := 0 }, p, es, ?_,
        ⟨ess, h1, ?_, .inl rfl⟩, rfl, hp, hrow, List.mem_of_getElem? hcur, hid, .inr rfl⟩
    · unfold OrdIter.next
      rw [if_neg (Nat.not_le.2 hlt')]
      simp only [idxUnchecked_of_some hp, ok_bind, hsub, hlast, if_true, pure_ok, hrefs']
    · rw [hl, hdrop, List.flatten_cons, List.drop_append, List.drop_eq_nil_of_le (by omega), List.nil_append]
      have h0 : it.nextOffsetFromRange + 1 - es.length = 0 := by omega
      rw [h0]
  · refine ⟨{ it with currentIndexInPage := p.1.start + it.nextOffsetFromRange,
                      nextOffsetFromRange := it.nextOffsetFromRange + 1 }, p, es, ?_,
        ⟨ess, h1, hl, .inr ⟨es, hes, ?_⟩⟩, rfl, hp, hrow, List.mem_of_getElem? hcur, hid, .inl rfl⟩
    · unfold OrdIter.next
      rw [if_neg (Nat.not_le.2 hlt')]
      simp only [idxUnchecked_of_some hp, ok_bind, hsub, hlast, if_false, pure_ok, hrefs']
    · simp only; omega

end OrdIter

namespace Rel
variable {U : Universe} {dbg : Bool} {s : Store} {w : World}

/-- The iterator of an ordered query. -/
theorem ordered_iter (h : Rel U dbg s w) {acc : Access} (hd : DistinctTypes acc) {g : Nat}
    (hL : ∀ e ∈ w.order g, w.types e ≠ []) (old : List (Range × IterView)) {fuel : Nat} (hf : (w.order g).length < fuel) :
    ∃ it, orderedQueryIter U s g acc old fuel = .ok it ∧
      it.Remaining U dbg s w acc ((w.order g).filter fun e => decide (Matches w acc e)) ∧
      (∀ p ∈ it.ranges, ∃ es, RowsOf U dbg s w acc p es ∧ ∀ e ∈ es, e ∈ w.order g) ∧
      it.len = ((w.order g).filter fun e => decide (Matches w acc e)).length := by
  unfold orderedQueryIter Orders.getGroupIndex
  cases hb : binarySearch s.orders.groupIds g with
  | notFound j =>
    have : w.order g = [] := by
      have := h.orders.unreg g (lookupK_notFound hb)
      exact List.map_eq_nil_iff.1 this
    refine ⟨_, rfl, ⟨[], ?_, ?_, .inl rfl⟩, ?_, ?_⟩
    · simp
    · simp [this]
    · simp
    · simp [this]
  | found i =>
    obtain ⟨gr, h1, h2, h3⟩ := h.orders.get hb
    rw [h.ocap] at h3
    obtain ⟨rs, ess, k1, k2, k3, _⟩ := h.ordOuterLoop (dbg := dbg) hd (L := w.order g)
      (fun e he => ⟨h.ordLive g e he, hL e he⟩) h3 fuel 0 (by omega) (Nat.zero_le _)
    rw [List.drop_zero] at k1 k3
    have hh : gr.head = headId (w.order g) := by
      rw [h3.head]; unfold headId; rw [List.head?_map]
    simp only [idxUnchecked_of_some h1, ok_bind, hh, k1, pure_ok, List.take_zero, List.nil_append]
    refine ⟨_, rfl, ⟨ess, k2, ?_, .inl rfl⟩, fun p hp => ?_, by rw [← k3]⟩
    · rw [List.drop_zero, List.drop_zero, k3]
    · obtain ⟨i, hi, rfl⟩ := List.getElem_of_mem hp
      have hi' : i < ess.length := by rw [← k2.length_eq]; exact hi
      refine ⟨_, k2.get hi hi', fun e he => ?_⟩
      have : e ∈ ess.flatten := List.mem_flatten.2 ⟨_, List.get_mem _ _, he⟩
      rw [k3] at this
      exact (List.mem_filter.1 this).1

/-- What an ordered query returns. -/
theorem ordered_query (h : Rel U dbg s w) {acc : Access} (hd : DistinctTypes acc) {g : Nat}
    (hL : ∀ e ∈ w.order g, w.types e ≠ []) (old : List (Range × IterView)) {fuel : Nat} (hf : (w.order g).length < fuel) :
    runOrderedQuery U dbg s g acc old fuel =
      .ok (((w.order g).filter fun e => decide (Matches w acc e)).map (refsOf U dbg s acc)) := by
  obtain ⟨it, h1, h2, _⟩ := h.ordered_iter hd hL old hf
  unfold runOrderedQuery
  simp only [h1, ok_bind]
  exact drain_of (OrdIter.Remaining U dbg s w acc) (fun it h => ⟨it, OrdIter.next_nil h⟩)
    (fun it e l h => (OrdIter.next_cons h).imp fun _ ⟨_, _, h1, h2, _⟩ => ⟨h1, h2⟩) h2
    (Nat.lt_of_le_of_lt (List.length_filter_le _ _) hf)

/-- All members of the group are in page `q`. -/
def OnePage (s : Store) (w : World) (g q : Nat) : Prop := ∀ e ∈ w.order g, s.toPage[e.id]? = some (some q)

theorem ordered_withEntities (h : Rel U dbg s w) {acc : Access} (hd : DistinctTypes acc) {g q : Nat}
    (hL : ∀ e ∈ w.order g, w.types e ≠ []) (hq : OnePage s w g q) (old : List (Range × IterView)) {fuel : Nat}
    (hf : (w.order g).length < fuel) :
    runOrderedQueryWithEntities U dbg s g acc old fuel =
      .ok (((w.order g).filter fun e => decide (Matches w acc e)).map fun e => (e, refsOf U dbg s acc e)) := by
  obtain ⟨it, h1, h2, h3, _⟩ := h.ordered_iter hd hL old hf
  unfold runOrderedQueryWithEntities
  simp only [h1, ok_bind]
  -- all views show the same page
  have hview : ∃ items : List Nat, ∀ p ∈ it.ranges, p.2.entityIds = items := by
    have hone : ∀ p ∈ it.ranges, ∃ pg, s.archs.pages[q]? = some pg ∧ p.2.entityIds = pg.ids.items := by
      intro p hp
      obtain ⟨es, hr, hes⟩ := h3 p hp
      obtain ⟨q', pg, g1, g2, g3⟩ := hr.page
      obtain ⟨e, he⟩ := List.exists_mem_of_ne_nil _ hr.ne
      have := hq e (hes e he)
      rw [g3 e he] at this
      cases this
      exact ⟨pg, g1, g2⟩
    cases hp : s.archs.pages[q]? with
    | none => exact ⟨[], fun p hp' => by obtain ⟨pg, g1, _⟩ := hone p hp'; rw [hp] at g1; cases g1⟩
    | some pg => exact ⟨pg.ids.items, fun p hp' => by obtain ⟨pg', g1, g2⟩ := hone p hp'; rw [hp] at g1; cases g1; exact g2⟩
  obtain ⟨items, hview⟩ := hview
  refine drain_of (fun it l => it.Remaining U dbg s w acc l ∧ ∀ p ∈ it.ranges, p.2.entityIds = items) ?_ ?_ ⟨h2, hview⟩
    (Nat.lt_of_le_of_lt (List.length_filter_le _ _) hf)
  · rintro it ⟨hr, _⟩
    refine ⟨it, ?_⟩
    unfold OrdIter.nextWithEntity
    rw [OrdIter.next_nil hr]
    rfl
  · rintro it e l ⟨hr, hv⟩
    obtain ⟨it', p, es, k1, k2, k3, k4, k5, k6, k7, k8⟩ := OrdIter.next_cons hr
    refine ⟨it', ?_, k2, by rw [k3]; exact hv⟩
    have hlt : it'.nextRangeIndex - 1 < it'.ranges.length := by
      have := (List.getElem?_eq_some_iff.1 k4).1
      rw [k3]; omega
    obtain ⟨p', hp'⟩ : ∃ p', it'.ranges[it'.nextRangeIndex - 1]? = some p' := ⟨_, List.getElem?_eq_getElem hlt⟩
    have hpi : p'.2.entityIds[it'.currentIndexInPage]? = some e.id := by
      rw [hv p' (by rw [← k3]; exact List.mem_of_getElem? hp'), ← hv p (List.mem_of_getElem? k4)]
      exact k7
    obtain ⟨i, hi⟩ := List.mem_iff_getElem?.1 k6
    have hlive := (k5.item i e hi).1.1
    unfold OrdIter.nextWithEntity
    simp only [k1, ok_bind, idxUnchecked_of_some hp', idxUnchecked_of_some hpi, Raw.read_of_some (h.ents.lver e hlive), pure_ok]

end Rel
end Ecs
