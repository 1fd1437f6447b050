import Verif.Proofs.QueryAny

/-! Ordered queries in every state reached by calls that returned. -/

namespace Ecs
open Spec

theorem follower_self {A B : List Nat} {y : Nat} (h : y ∉ A) : follower (A ++ y :: B) y = B.head? := by
  rw [follower_append, if_neg h]
  simp [follower]

namespace Group

/-- Following the links from the head passes through the ids `l` and ends. -/
structure Path (cap : Nat) (g : Group) (l : List Nat) : Prop where
  head : g.head = l.head?.getD NULL_ID
  lt : ∀ x ∈ l, x < cap ∧ x ≠ NULL_ID
  next : ∀ A y B, l = A ++ y :: B → g.fwd[y]? = some (some (B.head?.getD NULL_ID))

theorem Rep.path {cap : Nat} {g : Group} {l : List Nat} (h : g.Rep cap l) : g.Path cap l := by
  refine ⟨h.head, h.lt, fun A y B hl => ?_⟩
  have hy : y ∉ A := fun hy => (List.nodup_append.1 (hl ▸ h.nodup)).2.2 y hy y (by simp) rfl
  rw [h.fwd.2 y (h.lt y (by simp [hl])).1]
  simp only [hl, follower_self hy]

theorem Path.read {cap : Nat} {g : Group} {L : List Entity} (h : g.Path cap (L.map (·.id))) {k : Nat} {e : Entity}
    (hk : L[k]? = some e) : Raw.read g.fwd e.id = .ok (headId (L.drop (k + 1))) := by
  obtain ⟨hlt, he⟩ := List.getElem?_eq_some_iff.1 hk
  have hs : L.map (·.id) = (L.take k).map (·.id) ++ e.id :: (L.drop (k + 1)).map (·.id) := by
    rw [← List.map_cons, ← he, ← List.drop_eq_getElem_cons hlt, ← List.map_append, List.take_append_drop]
  rw [Raw.read_of_some (h.next _ _ _ hs), List.head?_map]
  rfl

end Group

/-- `gr` is the group `gid`. -/
def Orders.Holds (c : Orders) (gid : Nat) (gr : Group) : Prop :=
  ∃ i, binarySearch c.groupIds gid = .found i ∧ c.groups[i]? = some gr

/-- A page with an archetype is recorded for `e`. -/
def Recorded (s : Store) (e : Entity) : Prop :=
  ∃ p n a l pg, Pos s.toPage s.toIndex e.id ⟨p, n⟩ ∧ PageOf s p a l pg

/-- The page recorded for `e` satisfies the access. -/
def Shown (s : Store) (acc : Access) (e : Entity) : Prop := ∃ p n pg offs, Lies s acc e p n pg offs

/-- A range of rows of a page in which, according to their records, the entities `es` are stored. -/
structure RowsAt (U : Universe) (s : Store) (acc : Access) (p : Range × IterView) (es : List Entity) : Prop where
  ne : es ≠ []
  len : p.1.stop = p.1.start + es.length
  item : ∀ (i : Nat) e, es[i]? = some e → recordRefs U s acc e = addToPtrs p.2.ptrs (p.1.start + i)
  page : ∃ q pg, s.archs.pages[q]? = some pg ∧ p.2.entityIds = pg.ids.items ∧
    ∀ (i : Nat) e, es[i]? = some e → Pos s.toPage s.toIndex e.id ⟨q, p.1.start + i⟩

/-- The entities still to come from an ordered query iterator. -/
def OrdIter.Coming (U : Universe) (s : Store) (acc : Access) (it : OrdIter) (l : List Entity) : Prop :=
  ∃ ess, List.Forall₂ (RowsAt U s acc) it.ranges ess ∧
    l = ((ess.drop it.nextRangeIndex).flatten).drop it.nextOffsetFromRange ∧
    (it.nextOffsetFromRange = 0 ∨
      ∃ es, ess[it.nextRangeIndex]? = some es ∧ it.nextOffsetFromRange < es.length)

namespace OrdIter
variable {U : Universe} {dbg : Bool} {s : Store} {acc : Access}

theorem coming_nil {it : OrdIter} (h : it.Coming U s acc []) : it.next dbg = .ok (none, it) := by
  obtain ⟨ess, h1, h2, h3⟩ := h
  have hge : it.nextRangeIndex ≥ it.ranges.length := by
    by_contra hlt
    have hlt := Nat.not_le.1 hlt
    rw [h1.length_eq] at hlt
    have hp : ess[it.nextRangeIndex]? = some ess[it.nextRangeIndex] := List.getElem?_eq_getElem hlt
    have hok := (h1.get (i := it.nextRangeIndex) (by rw [h1.length_eq]; exact hlt) hlt).ne
    have hoff : it.nextOffsetFromRange < ess[it.nextRangeIndex].length := by
      rcases h3 with h3 | ⟨p, h3, h4⟩
      · rw [h3]; exact List.length_pos_iff.2 hok
      · rw [hp] at h3; cases h3; exact h4
    rw [List.drop_eq_getElem_cons hlt, List.flatten_cons, List.drop_append_of_le_length (by omega)] at h2
    have := congrArg List.length h2
    rw [List.length_append, List.length_drop] at this
    simp only [List.length_nil] at this
    omega
  unfold OrdIter.next
  rw [if_pos hge]
  rfl

theorem coming_cons {it : OrdIter} {e : Entity} {l : List Entity} (h : it.Coming U s acc (e :: l)) :
    ∃ it', it.next dbg = .ok (some (recordRefs U s acc e), it') ∧ it'.Coming U s acc l := by
  obtain ⟨ess, h1, h2, h3⟩ := h
  have hlt : it.nextRangeIndex < ess.length := by
    by_contra hc
    rw [List.drop_eq_nil_of_le (Nat.not_lt.1 hc)] at h2
    simp at h2
  have hlt' : it.nextRangeIndex < it.ranges.length := by rw [h1.length_eq]; exact hlt
  have hrow := h1.get hlt' hlt
  obtain ⟨es, hes⟩ : ∃ es, ess[it.nextRangeIndex]? = some es := ⟨_, List.getElem?_eq_getElem hlt⟩
  obtain ⟨p, hp⟩ : ∃ p, it.ranges[it.nextRangeIndex]? = some p := ⟨_, List.getElem?_eq_getElem hlt'⟩
  have hrow : RowsAt U s acc p es := by
    have e1 := (List.getElem?_eq_some_iff.1 hes).2
    have e2 := (List.getElem?_eq_some_iff.1 hp).2
    simp only [List.get_eq_getElem, e1, e2] at hrow
    exact hrow
  have hpos := List.length_pos_iff.2 hrow.ne
  have hoff : it.nextOffsetFromRange < es.length := by
    rcases h3 with h3 | ⟨p', h3, h4⟩
    · rw [h3]; exact hpos
    · rw [hes] at h3; cases h3; exact h4
  have hdrop : ess.drop it.nextRangeIndex = es :: ess.drop (it.nextRangeIndex + 1) := by
    rw [List.drop_eq_getElem_cons hlt, (List.getElem?_eq_some_iff.1 hes).2]
  have hcur : es[it.nextOffsetFromRange]? = some e := by
    have := congrArg (·[0]?) h2
    simp only [List.getElem?_cons_zero, hdrop, List.flatten_cons, List.getElem?_drop, Nat.add_zero] at this
    rw [List.getElem?_append_left hoff] at this
    exact this.symm
  have hl : l = ((ess.drop it.nextRangeIndex).flatten).drop (it.nextOffsetFromRange + 1) := by
    have := congrArg (List.drop 1) h2
    rw [List.drop_drop] at this
    exact this
  have hrefs' := hrow.item _ _ hcur
  have hstop := hrow.len
  have hsub : subU32 dbg p.1.stop 1 = .ok (p.1.stop - 1) := by
    unfold subU32
    rw [if_pos (by omega)]
  by_cases hlast : p.1.start + it.nextOffsetFromRange ≥ p.1.stop - 1
  · refine ⟨{ it with currentIndexInPage := p.1.start + it.nextOffsetFromRange,
                      nextRangeIndex := it.nextRangeIndex + 1, nextOffsetFromRange := 0 }, ?_, ess, h1, ?_, .inl rfl⟩
    · unfold OrdIter.next
      rw [if_neg (Nat.not_le.2 hlt')]
      simp only [idxUnchecked_of_some hp, ok_bind, hsub, hlast, if_true, pure_ok, hrefs']
    · rw [hl, hdrop, List.flatten_cons, List.drop_append, List.drop_eq_nil_of_le (by omega), List.nil_append]
      have h0 : it.nextOffsetFromRange + 1 - es.length = 0 := by omega
      rw [h0]
  · refine ⟨{ it with currentIndexInPage := p.1.start + it.nextOffsetFromRange,
                      nextOffsetFromRange := it.nextOffsetFromRange + 1 }, ?_, ess, h1, hl, .inr ⟨es, hes, ?_⟩⟩
    · unfold OrdIter.next
      rw [if_neg (Nat.not_le.2 hlt')]
      simp only [idxUnchecked_of_some hp, ok_bind, hsub, hlast, if_false, pure_ok, hrefs']
    · simp only; omega

end OrdIter

namespace Readable
variable {U : Universe} {dbg : Bool} {s : Store} {w : World}

/-- A selected entity is shown, and has a record. -/
theorem shown_of_selected (h : Readable s w) {acc : Access} {e : Entity} (he : e.id < s.ents.capacity)
    (hs : selected dbg s acc e = true) : Shown s acc e := ((h.selected_iff he).1 hs).2.2

theorem Shown.recorded {acc : Access} {e : Entity} (h : Shown s acc e) : Recorded s e := by
  obtain ⟨p, n, pg, offs, h1, a, l, h2, _⟩ := h
  exact ⟨p, n, a, l, pg, h1, h2⟩

/-- An entity with an archetype has a record; it is selected if it is shown. -/
theorem of_bit (h : Readable s w) {e : Entity} (hb : s.hasArch.bit e.id = true) : Recorded s e := by
  obtain ⟨p, n, ai, a, l, pg, h1, h2, h3, h4, h5, h6, _, _⟩ := h.shape.found hb (h.row _ hb)
  exact ⟨p, n, a, l, pg, ⟨Raw.read_ok.1 h1, Raw.read_ok.1 h2⟩, ai, h3, h4, h5, h6⟩

/-- The inner loop collects the members in consecutive rows of the page, and fails at one without a record. -/
theorem ordRangeLoop (h : Readable s w) {L : List Entity} {g : Group}
    (hg : g.Path s.ents.capacity (L.map (·.id))) (page : Nat) (fuel : Nat) (k n : Nat) (hf : L.length - k < fuel)
    (hle : k ≤ L.length) :
    ∃ m, k + m ≤ L.length ∧
      (∀ (i : Nat) e, i < m → L[k + i]? = some e → Pos s.toPage s.toIndex e.id ⟨page, n + i⟩) ∧
      ((orderedRangeLoop s g.fwd page fuel (headId (L.drop k)) n = .ok (headId (L.drop (k + m)), n + m) ∧
        ∀ e, L[k + m]? = some e → ¬ Pos s.toPage s.toIndex e.id ⟨page, n + m⟩) ∨
       (orderedRangeLoop s g.fwd page fuel (headId (L.drop k)) n = .error (.ub .uninit) ∧
        ∃ e, L[k + m]? = some e ∧ ¬ Inited s.toPage e.id)) := by
  induction fuel generalizing k n with
  | zero => omega
  | succ fuel ih =>
    by_cases hlt : k < L.length
    · obtain ⟨e, he⟩ : ∃ e, L[k]? = some e := ⟨_, List.getElem?_eq_getElem hlt⟩
      have hm := List.mem_of_getElem? he
      obtain ⟨hl, hnn⟩ := hg.lt e.id (List.mem_map.2 ⟨e, hm, rfl⟩)
      by_cases hi : Inited s.toPage e.id
      · obtain ⟨q, hq⟩ := id hi
        obtain ⟨x, hx⟩ := h.both _ hi
        by_cases hc : q = page ∧ x = n
        · obtain ⟨rfl, rfl⟩ := hc
          obtain ⟨m, i2, i3, i4⟩ := ih (k + 1) (x + 1) (by omega) hlt
          have hstep : orderedRangeLoop s g.fwd q (fuel + 1) (headId (L.drop k)) x =
              orderedRangeLoop s g.fwd q fuel (headId (L.drop (k + 1))) (x + 1) := by
            conv_lhs => unfold orderedRangeLoop
            rw [headId_drop he]
            simp only [hnn, if_false, Raw.read_of_some hq, Raw.read_of_some hx, ok_bind, bne_self_eq_false, Bool.or_self,
              Bool.false_eq_true, hg.read he]
          rw [hstep]
          have e1 : k + 1 + m = k + (m + 1) := by omega
          have e2 : x + 1 + m = x + (m + 1) := by omega
          rw [e1, e2] at i4
          rw [e1] at i2
          refine ⟨m + 1, i2, fun i e' hi hge => ?_, i4⟩
          cases i with
          | zero =>
            rw [Nat.add_zero, he] at hge
            cases hge
            exact ⟨hq, hx⟩
          | succ i =>
            have := i3 i e' (by omega) (by rw [← hge]; congr 1; omega)
            have e1 : x + 1 + i = x + (i + 1) := by omega
            rw [e1] at this
            exact this
        · refine ⟨0, by omega, fun i e hi => by omega, .inl ⟨?_, fun e' hge hp => ?_⟩⟩
          rotate_left
          · rw [Nat.add_zero, he] at hge
            cases hge
            have hpq : Pos s.toPage s.toIndex e.id ⟨q, x⟩ := ⟨hq, hx⟩
            have := hpq.unique hp
            simp only [Loc.mk.injEq, Nat.add_zero] at this
            exact hc this
          have : (q != page || x != n) = true := by
            by_cases h1 : q = page
            · have h2 : x ≠ n := fun h2 => hc ⟨h1, h2⟩
              simp [h2]
            · simp [h1]
          unfold orderedRangeLoop
          rw [headId_drop he]
          simp only [hnn, if_false, Raw.read_of_some hq, Raw.read_of_some hx, ok_bind, this, if_true, pure_ok, Nat.add_zero]
          rw [headId_drop he]
      · refine ⟨0, by omega, fun i e hi => by omega, .inr ⟨?_, e, by rw [Nat.add_zero]; exact he, hi⟩⟩
        unfold orderedRangeLoop
        rw [headId_drop he]
        simp only [hnn, if_false]
        rw [h.read_uninit hl hi]
        rfl
    · refine ⟨0, by omega, fun i e hi => by omega, .inl ⟨?_, fun e hge => ?_⟩⟩
      rotate_left
      · rw [Nat.add_zero, List.getElem?_eq_none (by omega)] at hge
        cases hge
      rw [headId_nil (by omega), Nat.add_zero, headId_nil (by omega)]
      unfold orderedRangeLoop
      simp

open Classical in
/-- The outer loop finds ranges with exactly the members that are shown, in order, unless a member has no record. -/
theorem ordOuterLoop (h : Readable s w) {acc : Access} {L : List Entity} {g : Group}
    (hg : g.Path s.ents.capacity (L.map (·.id))) (fuel : Nat) (k : Nat) (hf : L.length - k < fuel) (hle : k ≤ L.length) :
    ((∃ u, (u = .uninit ∨ u = .oob) ∧ orderedOuterLoop U s acc g.fwd fuel (headId (L.drop k)) = .error (.ub u)) ∧ ∃ e ∈ L.drop k, ¬ Recorded s e) ∨
    ((∀ e ∈ L.drop k, Recorded s e) ∧
     ∃ rs ess, orderedOuterLoop U s acc g.fwd fuel (headId (L.drop k)) = .ok (rs, ess.flatten.length) ∧
      List.Forall₂ (RowsAt U s acc) rs ess ∧ (ess.flatten = (L.drop k).filter fun e => decide (Shown s acc e)) ∧
      ∀ es ∈ ess, Rel.Run s L es) := by
  induction fuel generalizing k with
  | zero => omega
  | succ fuel ih =>
    unfold orderedOuterLoop
    by_cases hlt : k < L.length
    · obtain ⟨e, he⟩ : ∃ e, L[k]? = some e := ⟨_, List.getElem?_eq_getElem hlt⟩
      have hdrop : L.drop k = e :: L.drop (k + 1) := by
        rw [List.drop_eq_getElem_cons hlt, (List.getElem?_eq_some_iff.1 he).2]
      rw [headId_drop he]
      have hm := List.mem_of_getElem? he
      obtain ⟨hl, hnn⟩ := hg.lt e.id (List.mem_map.2 ⟨e, hm, rfl⟩)
      have hmem : ∀ j, k ≤ j → ∀ x ∈ L.drop j, x ∈ L.drop k := by
        intro j hj x hx
        have : L.drop j = (L.drop k).drop (j - k) := by rw [List.drop_drop]; congr 1; omega
        rw [this] at hx
        exact List.mem_of_mem_drop hx
      simp only [hnn, if_false]
      by_cases hrec : Recorded s e
      · obtain ⟨q, n, a, l, pg, hpos, hpo⟩ := id hrec
        obtain ⟨ai, h3, h4, h5, h6⟩ := id hpo
        obtain ⟨ev1, ev2⟩ := h.even hpo
        simp only [Raw.read_of_some hpos.page, Raw.read_of_some hpos.index, ok_bind, idx_of_some h3,
          idxUnchecked_of_some h4, idxUnchecked_of_some h5, idxUnchecked_of_some h6]
        have hinc := Access.included_covers (acc := acc) ev1.sorted
        by_cases hcov : Covers a.ids acc
        · obtain ⟨offs, go1, go2⟩ := offsets_even ev1 ev2 acc.types hcov.mem
          simp only [hinc.2 hcov, Bool.not_true, Bool.false_eq_true, if_false, Access.getOffsets_eq, go2, ok_bind,
            hg.read he]
          obtain ⟨m, r2, r3, r4⟩ := h.ordRangeLoop hg q fuel (k + 1) (n + 1) (by omega) hlt
          -- the entities of the range
          have hes : ∀ (i : Nat) x, ((L.drop k).take (m + 1))[i]? = some x → Lies s acc x q (n + i) pg offs := by
            intro i x hx
            rw [List.getElem?_take] at hx
            split at hx
            · next hi =>
              rw [List.getElem?_drop] at hx
              refine ⟨?_, a, l, hpo, hcov, go1, go2⟩
              cases i with
              | zero =>
                rw [Nat.add_zero, he] at hx
                cases hx
                exact hpos
              | succ i =>
                have := r3 i x (by omega) (by rw [← hx]; congr 1; omega)
                have e1 : n + 1 + i = n + (i + 1) := by omega
                rw [e1] at this
                exact this
            · cases hx
          have hlen : ((L.drop k).take (m + 1)).length = m + 1 := by
            rw [List.length_take, List.length_drop]; omega
          have hsplit : L.drop k = (L.drop k).take (m + 1) ++ L.drop (k + 1 + m) := by
            conv_lhs => rw [← List.take_append_drop (m + 1) (L.drop k)]
            rw [List.drop_drop]
            congr 2
            omega
          have hshown : ∀ x ∈ (L.drop k).take (m + 1), Shown s acc x := by
            intro x hx
            obtain ⟨i, hi⟩ := List.mem_iff_getElem?.1 hx
            exact ⟨_, _, _, _, hes i x hi⟩
          rcases r4 with ⟨r4, r5⟩ | ⟨r4, x, hx, hxi⟩
          · simp only [r4, ok_bind]
            rcases ih (k + 1 + m) (by omega) r2 with ⟨⟨u, hu, i1⟩, x, hx, hxr⟩ | ⟨i0, rs, ess, i1, i2, i3, i4⟩
            · exact .inl ⟨⟨u, hu, by rw [i1]; rfl⟩, x, hmem _ (by omega) x hx, hxr⟩
            · refine .inr ⟨fun x hx => ?_, (⟨n, n + 1 + m⟩, IterView.new U acc q pg offs) :: rs,
                (L.drop k).take (m + 1) :: ess, ?_, .cons ⟨?_, ?_, ?_, ?_⟩ i2, ?_, ?_⟩
              · rw [hsplit] at hx
                rcases List.mem_append.1 hx with hx | hx
                · exact Shown.recorded (hshown x hx)
                · exact i0 x hx
              · simp only [i1, ok_bind, pure_ok, List.flatten_cons, List.length_append, hlen]
                have e1 : n + 1 + m - n = m + 1 := by omega
                rw [e1]
              · intro h0
                rw [h0] at hlen
                simp at hlen
              · simp only [hlen]; omega
              · intro i x hx
                rw [recordRefs_eq (hes i x hx)]
                simp only [IterView.new, Access.getPtrs, addToPtrs_getRefs]
              · exact ⟨q, pg, h6, rfl, fun i x hx => (hes i x hx).pos⟩
              · rw [List.flatten_cons, i3]
                conv_rhs => rw [hsplit, List.filter_append]
                congr 1
                symm
                rw [List.filter_eq_self]
                intro x hx
                simp [hshown x hx]
              · intro es hes'
                rcases List.mem_cons.1 hes' with rfl | hes'
                · refine ⟨k, by rw [hlen], by rw [hlen]; omega, fun i x y hi hx hy => ?_, fun x y hx hy => ?_⟩
                  · rw [hlen] at hi
                    have hx' : ((L.drop k).take (m + 1))[i]? = some x := by
                      rw [List.getElem?_take, if_pos (by omega), List.getElem?_drop]; exact hx
                    have hy' : ((L.drop k).take (m + 1))[i + 1]? = some y := by
                      rw [List.getElem?_take, if_pos (by omega), List.getElem?_drop]; exact hy
                    exact ⟨_, (hes i x hx').pos, (hes (i + 1) y hy').pos⟩
                  · rintro ⟨q', p1, p2⟩
                    rw [List.getLast?_eq_getElem?, hlen, Nat.add_sub_cancel] at hx
                    have := p1.unique (hes m x hx).pos
                    subst this
                    refine r5 y (by rw [← hy, hlen]; congr 1; omega) ?_
                    have e1 : n + 1 + m = n + m + 1 := by omega
                    rw [e1]
                    exact p2
                · exact i4 es hes'
          · refine .inl ⟨⟨_, .inl rfl, by rw [r4]; rfl⟩, x, ?_, fun hr => ?_⟩
            · refine hmem (k + 1 + m) (by omega) x ?_
              rw [List.mem_iff_getElem?]
              exact ⟨0, by rw [List.getElem?_drop, Nat.add_zero]; exact hx⟩
            · obtain ⟨p', _, _, _, _, hp', _⟩ := hr
              exact hxi ⟨p', hp'.page⟩
        · have hni : acc.included a = false := by
            rw [← Bool.not_eq_true]
            exact fun h0 => hcov (hinc.1 h0)
          have hns : ¬ Shown s acc e := by
            rintro ⟨p', n', pg', offs', h1', a', l', h2', h3', _⟩
            have := hpos.unique h1'
            cases this
            obtain ⟨rfl, _, _⟩ := hpo.unique h2'
            exact hcov h3'
          simp only [hni, Bool.not_false, if_true, hg.read he, ok_bind]
          rcases ih (k + 1) (by omega) hlt with ⟨i1, x, hx, hxr⟩ | ⟨i0, rs, ess, i1, i2, i3, i4⟩
          · exact .inl ⟨i1, x, hmem _ (by omega) x hx, hxr⟩
          · refine .inr ⟨fun x hx => ?_, rs, ess, i1, i2, ?_, i4⟩
            · rw [hdrop] at hx
              rcases List.mem_cons.1 hx with rfl | hx
              · exact hrec
              · exact i0 x hx
            · rw [hdrop, List.filter_cons_of_neg (by simp [hns])]
              exact i3
      · refine .inl ⟨?_, e, by rw [hdrop]; exact List.mem_cons_self, hrec⟩
        by_cases hi : Inited s.toPage e.id
        · obtain ⟨q, hq⟩ := id hi
          obtain ⟨n, hn⟩ := h.both _ hi
          have hpl := h.shape.row _ _ hq
          obtain ⟨pg, hpg⟩ : ∃ pg, s.archs.pages[q]? = some pg := ⟨_, List.getElem?_eq_getElem hpl⟩
          obtain ⟨ai, hai⟩ : ∃ ai, s.archs.pageToArch[q]? = some ai :=
            ⟨_, List.getElem?_eq_getElem (by rw [h.shape.archs.tlen]; exact hpl)⟩
          have hno : s.archs.archetypes[ai]? = none := by
            cases ha : s.archs.archetypes[ai]? with
            | none => rfl
            | some a =>
              exfalso
              have hlt := (List.getElem?_eq_some_iff.1 ha).1
              obtain ⟨l, hl⟩ : ∃ l, s.archs.layouts[ai]? = some l :=
                ⟨_, List.getElem?_eq_getElem (by rw [h.shape.archs.llen]; exact hlt)⟩
              exact hrec ⟨q, n, a, l, pg, ⟨hq, hn⟩, ai, hai, ha, hl, hpg⟩
          simp only [Raw.read_of_some hq, Raw.read_of_some hn, ok_bind, idx_of_some hai, idxUnchecked_of_some hpg]
          unfold idxUnchecked
          rw [hno]
          exact ⟨_, .inr rfl, rfl⟩
        · rw [h.read_uninit hl hi]
          exact ⟨_, .inl rfl, rfl⟩
    · rw [List.drop_eq_nil_of_le (by omega)]
      refine .inr ⟨by simp, [], [], ?_, .nil, rfl, by simp⟩
      simp [headId]

theorem ordRangeLoop_orders (o : Orders) (links : Raw Nat) (p fuel e n : Nat) :
    orderedRangeLoop { s with orders := o } links p fuel e n = orderedRangeLoop s links p fuel e n := by
  induction fuel generalizing e n with
  | zero => rfl
  | succ fuel ih => simp only [orderedRangeLoop, ih]

/-- The walk along the links of a group does not look at the groups. -/
theorem ordOuterLoop_orders (o : Orders) (acc : Access) (links : Raw Nat) (fuel e : Nat) :
    orderedOuterLoop U { s with orders := o } acc links fuel e = orderedOuterLoop U s acc links fuel e := by
  induction fuel generalizing e with
  | zero => rfl
  | succ fuel ih => simp only [orderedOuterLoop, ih, ordRangeLoop_orders]

open Classical in
/-- The iterator of an ordered query over a group with the path `L` of ids inside the memory of the store, in every state. The
members need not be live, nor ever have been. -/
theorem ordered_query_path (h : Readable s w) {o : Orders} {gr : Group} {acc : Access} {g : Nat} (hb : o.Holds g gr)
    {L : List Entity} (h3 : gr.Path s.ents.capacity (L.map (·.id))) (old : List (Range × IterView)) {fuel : Nat} (hf : L.length < fuel) :
    ((∃ e ∈ L, ¬ Recorded s e) ∧ ∃ u, (u = .uninit ∨ u = .oob) ∧ orderedQueryIter U { s with orders := o } g acc old fuel = .error (.ub u) ∧
      runOrderedQuery U dbg { s with orders := o } g acc old fuel = .error (.ub u)) ∨
    ((∀ e ∈ L, Recorded s e) ∧
      ∃ it, orderedQueryIter U { s with orders := o } g acc old fuel = .ok it ∧
      it.len = ((L).filter fun e => decide (Shown s acc e)).length ∧
      runOrderedQuery U dbg { s with orders := o } g acc old fuel =
        .ok (((L).filter fun e => decide (Shown s acc e)).map (recordRefs U s acc))) := by
  have hrun : ∀ it l, orderedQueryIter U { s with orders := o } g acc old fuel = .ok it → it.Coming U s acc l → l.length < fuel →
      runOrderedQuery U dbg { s with orders := o } g acc old fuel = .ok (l.map (recordRefs U s acc)) := by
    intro it l h1 h2 h3
    unfold runOrderedQuery
    simp only [h1, ok_bind]
    exact drain_of (OrdIter.Coming U s acc) (fun it h => ⟨it, OrdIter.coming_nil h⟩)
      (fun it e l h => OrdIter.coming_cons h) h2 h3
  obtain ⟨i, hb, h1⟩ := hb
  have hout := h.ordOuterLoop (U := U) (acc := acc) (L := L) h3 fuel 0
    (by omega) (Nat.zero_le _)
  have hh : gr.head = headId (L) := by
    rw [h3.head]; unfold headId; rw [List.head?_map]
  rw [List.drop_zero, ← hh] at hout
  have hdef : orderedQueryIter U { s with orders := o } g acc old fuel = (do
      let (ranges, count) ← orderedOuterLoop U s acc gr.fwd fuel gr.head
      return ⟨old.take 0 ++ ranges, 0, 0, 0, count⟩) := by
    unfold orderedQueryIter Orders.getGroupIndex
    rw [hb]
    simp only [idxUnchecked_of_some h1, ok_bind, ordOuterLoop_orders]
  rcases hout with ⟨⟨u, hu, k1⟩, k2⟩ | ⟨k0, rs, ess, k1, k2, k3, _⟩
  · rw [k1] at hdef
    refine .inl ⟨k2, u, hu, hdef, ?_⟩
    unfold runOrderedQuery
    rw [hdef]
    rfl
  · simp only [k1, ok_bind, pure_ok, List.take_zero, List.nil_append] at hdef
    refine .inr ⟨k0, _, hdef, by rw [← k3], ?_⟩
    refine hrun _ _ hdef ⟨ess, k2, ?_, .inl rfl⟩ (Nat.lt_of_le_of_lt (List.length_filter_le _ _) hf)
    rw [List.drop_zero, List.drop_zero, k3]

open Classical in
/-- The iterator of an ordered query over a group `L` of ids inside the memory of the store, in every state. The members need
not be live, nor ever have been. -/
theorem ordered_query_of (h : Readable s w) {o : Orders} {f : Nat → List Nat} (ho : o.Rep f)
    (hcap : o.entityCapacity = s.ents.capacity) {acc : Access} {g : Nat} {L : List Entity} (hL : f g = L.map (·.id))
    (old : List (Range × IterView)) {fuel : Nat} (hf : L.length < fuel) :
    ((∃ e ∈ L, ¬ Recorded s e) ∧ ∃ u, (u = .uninit ∨ u = .oob) ∧ orderedQueryIter U { s with orders := o } g acc old fuel = .error (.ub u) ∧
      runOrderedQuery U dbg { s with orders := o } g acc old fuel = .error (.ub u)) ∨
    ((∀ e ∈ L, Recorded s e) ∧
      ∃ it, orderedQueryIter U { s with orders := o } g acc old fuel = .ok it ∧
      it.len = ((L).filter fun e => decide (Shown s acc e)).length ∧
      runOrderedQuery U dbg { s with orders := o } g acc old fuel =
        .ok (((L).filter fun e => decide (Shown s acc e)).map (recordRefs U s acc))) := by
  cases hb : binarySearch o.groupIds g with
  | notFound j =>
    have hnil : L = [] := List.map_eq_nil_iff.1 (by rw [← hL]; exact ho.unreg g (lookupK_notFound hb))
    have hit : orderedQueryIter U { s with orders := o } g acc old fuel = .ok ⟨old.take 0, 0, 0, 0, 0⟩ := by
      unfold orderedQueryIter Orders.getGroupIndex
      rw [hb]
      rfl
    rw [hnil]
    refine .inr ⟨by simp, _, hit, rfl, ?_⟩
    unfold runOrderedQuery
    simp only [hit, ok_bind]
    exact drain_of (l := []) (OrdIter.Coming U s acc) (fun it h => ⟨it, OrdIter.coming_nil h⟩)
      (fun it e l h => OrdIter.coming_cons h) ⟨[], by simp, by simp, .inl rfl⟩ (by rw [hnil] at hf; exact hf)
  | found i =>
    obtain ⟨gr, h1, h2, h3⟩ := ho.get hb
    rw [hcap, hL] at h3
    exact h.ordered_query_path ⟨i, hb, h1⟩ h3.path old hf

open Classical in
/-- The iterator of an ordered query, in every state. -/
theorem ordered_query (h : Readable s w) {acc : Access} {g : Nat} (old : List (Range × IterView)) {fuel : Nat}
    (hf : (w.order g).length < fuel) :
    ((∃ e ∈ w.order g, ¬ Recorded s e) ∧ ∃ u, (u = .uninit ∨ u = .oob) ∧ orderedQueryIter U s g acc old fuel = .error (.ub u) ∧
      runOrderedQuery U dbg s g acc old fuel = .error (.ub u)) ∨
    ((∀ e ∈ w.order g, Recorded s e) ∧
      ∃ it, orderedQueryIter U s g acc old fuel = .ok it ∧
      it.len = ((w.order g).filter fun e => decide (Shown s acc e)).length ∧
      runOrderedQuery U dbg s g acc old fuel =
        .ok (((w.order g).filter fun e => decide (Shown s acc e)).map (recordRefs U s acc))) :=
  h.ordered_query_of (o := s.orders) h.core.orders h.core.ocap rfl old hf

end Readable
end Ecs
