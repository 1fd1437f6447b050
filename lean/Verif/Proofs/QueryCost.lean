import Verif.Spec.QueryCost
import Verif.Proofs.Cost
import Verif.Proofs.QueryOrdAny

/-! The counting functions that start queries compute what the others compute, and what they count. -/

namespace Ecs
open Spec Meter

variable {U : Universe} {dbg : Bool} {s : Store} {acc : Access}

theorem measured_collectPages {pages : List Page} {offs : List Nat} (l : List Nat) (r : List IterView × Nat) :
    Measured (collectPagesM U acc pages offs l r) (collectPages U acc pages offs l r)
      (fun r' w => w = { pages := l.length } ∧
        r'.1.length = r.1.length + (l.filter fun p => decide ((pages[p]?).elim 0 Page.entityCount ≠ 0)).length ∧
        r'.2 = r.2 + (l.map fun p => (pages[p]?).elim 0 Page.entityCount).sum) := by
  induction l generalizing r with
  | nil => exact Measured.pureOk _ ⟨rfl, rfl, rfl⟩
  | cons p l ih =>
    obtain ⟨vs, n⟩ := r
    unfold collectPagesM collectPages
    refine Measured.tick (P := fun r' w => w = { pages := l.length } ∧
      r'.1.length = vs.length + ((p :: l).filter fun p => decide ((pages[p]?).elim 0 Page.entityCount ≠ 0)).length ∧
      r'.2 = n + ((p :: l).map fun p => (pages[p]?).elim 0 Page.entityCount).sum) ?_ ?_
    · refine Measured.step fun pg hpg => ?_
      have hp := (idx_ok.1 hpg)
      refine Measured.ite (fun h0 => ?_) fun h0 => ?_
      · refine (ih (vs, n)).mono ?_
        rintro a w - ⟨h1, h2, h3⟩
        refine ⟨h1, ?_, ?_⟩
        · rw [h2, List.filter_cons_of_neg (by simp [hp, h0])]
        · rw [h3, List.map_cons, List.sum_cons, hp]
          simp [h0]
      · refine (ih (_, _)).mono ?_
        rintro a w - ⟨h1, h2, h3⟩
        refine ⟨h1, ?_, ?_⟩
        · rw [h2, List.filter_cons_of_pos (by simp [hp, h0]), List.length_append, List.length_cons]
          simp only [List.length_cons, List.length_nil]
          omega
        · rw [h3, List.map_cons, List.sum_cons, hp]
          simp only [Option.elim_some]
          omega
    · rintro a v - ⟨rfl, h2, h3⟩
      refine ⟨?_, h2, h3⟩
      simp only [Work.add_def, List.length_cons]
      congr 1
      omega

/-- The pages that the outer loop goes through. -/
def passedPages (c : Archs) (acc : Access) (A : List Nat) : List Nat :=
  A.flatMap fun i => if (c.archetypes[i]?).any fun a => acc.included a then (c.archPages[i]?).getD [] else []

theorem measured_collectArchetypes {c : Archs} (A : List Nat) (r : List IterView × Nat) :
    Measured (collectArchetypesM U acc c A r) (collectArchetypes U acc c A r)
      (fun r' w => w = { archetypes := A.length, pages := (passedPages c acc A).length } ∧
        r'.1.length = r.1.length + ((passedPages c acc A).filter fun p => decide ((c.pages[p]?).elim 0 Page.entityCount ≠ 0)).length ∧
        r'.2 = r.2 + ((passedPages c acc A).map fun p => (c.pages[p]?).elim 0 Page.entityCount).sum) := by
  induction A generalizing r with
  | nil => exact Measured.pureOk _ ⟨rfl, rfl, rfl⟩
  | cons i A ih =>
    unfold collectArchetypesM collectArchetypes
    refine Measured.tick (P := fun r' w => w = { archetypes := A.length, pages := (passedPages c acc (i :: A)).length } ∧
        r'.1.length = r.1.length +
          ((passedPages c acc (i :: A)).filter fun p => decide ((c.pages[p]?).elim 0 Page.entityCount ≠ 0)).length ∧
        r'.2 = r.2 + ((passedPages c acc (i :: A)).map fun p => (c.pages[p]?).elim 0 Page.entityCount).sum) ?_ ?_
    · refine Measured.step fun a ha => Measured.step fun l hl => ?_
      have ha' := idxUnchecked_ok.1 ha
      refine Measured.ite (fun h0 => ?_) fun h0 => ?_
      · have hp : passedPages c acc (i :: A) = passedPages c acc A := by
          simp [passedPages, ha', h0]
        rw [hp]
        exact ih r
      · refine Measured.step fun offs _ => Measured.step fun ps hps => ?_
        have hps' := idx_ok.1 hps
        have hp : passedPages c acc (i :: A) = ps ++ passedPages c acc A := by
          simp only [passedPages, List.flatMap_cons, ha', hps', Option.any_some, Option.getD_some]
          rw [if_pos (by simpa using h0)]
        rw [hp]
        refine Measured.bind (measured_collectPages ps r) (fun r1 _ => ih r1) ?_
        rintro r1 r2 v w - - ⟨rfl, h2, h3⟩ ⟨rfl, h4, h5⟩
        refine ⟨?_, ?_, ?_⟩
        · simp [Work.add_def]
        · rw [h4, h2, List.filter_append, List.length_append, Nat.add_assoc]
        · rw [h5, h3, List.map_append, List.sum_append, Nat.add_assoc]
    · rintro a v - ⟨rfl, h2, h3⟩
      refine ⟨?_, h2, h3⟩
      simp only [Work.add_def, List.length_cons]
      congr 1 <;> omega

theorem measured_component (old : List IterView) :
    Measured (componentQueryIterM U s acc old) (componentQueryIter U s acc old)
      (fun it w => w = { archetypes := s.archs.archetypes.length,
                         pages := (passedPages s.archs acc (List.range s.archs.archetypes.length)).length } ∧
        it.pageViews.length = ((passedPages s.archs acc (List.range s.archs.archetypes.length)).filter
          fun p => decide ((s.archs.pages[p]?).elim 0 Page.entityCount ≠ 0)).length ∧
        it.queriedEntitiesCount = ((passedPages s.archs acc (List.range s.archs.archetypes.length)).map
          fun p => (s.archs.pages[p]?).elim 0 Page.entityCount).sum) := by
  unfold componentQueryIterM componentQueryIter
  dsimp only
  refine Measured.bind (measured_collectArchetypes _ _)
    (Q := fun r it w => w = {} ∧ it.pageViews = r.1 ∧ it.queriedEntitiesCount = r.2)
    (fun r _ => ?_) ?_
  · split
    · cases r.1 with
      | nil => exact Measured.step (r := .error _) (k' := fun _ : PageIter => .error (.panic .indexOutOfBounds)) fun pi h => nomatch h
      | cons v l => exact Measured.pure _ ⟨rfl, rfl, rfl⟩
    · exact Measured.pure _ ⟨rfl, rfl, rfl⟩
  rintro r it v w - - ⟨rfl, h2, h3⟩ ⟨rfl, h4, h5⟩
  rw [h4, h5, h2, h3]
  refine ⟨?_, ?_, ?_⟩
  · simp [Work.add_def]
  · simp
  · simp

theorem measured_entityRange {p : Nat} (l : List Entity) (n : Nat) :
    Measured (entityRangeLoopM dbg s p l n) (entityRangeLoop dbg s p l n)
      (fun r w => ∃ m, r = (n + m, l.drop m) ∧ m ≤ l.length ∧ w = { entities := m + if m < l.length then 1 else 0 }) := by
  induction l generalizing n with
  | nil => exact Measured.pureOk _ ⟨0, rfl, Nat.le_refl _, rfl⟩
  | cons e l ih =>
    unfold entityRangeLoopM entityRangeLoop
    refine Measured.tick (P := fun r w => ∃ m, r = (n + m, (e :: l).drop m) ∧ m ≤ l.length + 1 ∧
      w = { entities := if m = 0 then 0 else (m - 1) + if m < l.length + 1 then 1 else 0 }) ?_ ?_
    · refine Measured.step fun q _ => Measured.step fun b _ => ?_
      refine Measured.ite (fun _ => Measured.pure _ ⟨0, rfl, Nat.zero_le _, rfl⟩) fun _ => ?_
      refine (ih (n + 1)).mono ?_
      rintro a w - ⟨m, rfl, h2, rfl⟩
      refine ⟨m + 1, by simp only [List.drop_succ_cons, Prod.mk.injEq, and_true]; omega, by omega, ?_⟩
      simp only [Nat.add_one_ne_zero, if_false, Nat.add_sub_cancel, Nat.add_lt_add_iff_right]
    · rintro a v - ⟨m, h1, h2, rfl⟩
      refine ⟨m, h1, h2, ?_⟩
      simp only [Work.add_def, List.length_cons, Work.mk.injEq, true_and]
      split
      · next h0 => subst h0; simp
      · next h0 => split <;> omega

theorem measured_entityOuter (fuel : Nat) (l : List Entity) (n : Nat) :
    Measured (entityOuterLoopM U dbg s acc fuel l n) (entityOuterLoop U dbg s acc fuel l n)
      (fun rs w => w = { entities := w.entities } ∧ l.length ≤ w.entities ∧ w.entities ≤ l.length + rs.length ∧
        w.entities ≤ 2 * l.length - 1 ∧ rs.length ≤ l.length) := by
  induction fuel generalizing l n with
  | zero =>
    cases l with
    | nil => exact Measured.pureOk _ ⟨rfl, by decide, by decide, by decide, by decide⟩
    | cons e l => exact Measured.last (by intro a h; cases h)
  | succ fuel ih =>
    cases l with
    | nil => exact Measured.pureOk _ ⟨rfl, by decide, by decide, by decide, by decide⟩
    | cons e l =>
      unfold entityOuterLoopM entityOuterLoop
      refine Measured.tick (P := fun rs w => w = { entities := w.entities } ∧ l.length ≤ w.entities ∧
        w.entities ≤ l.length + rs.length ∧ w.entities ≤ 2 * l.length ∧ rs.length ≤ l.length + 1) ?_ ?_
      · refine Measured.step fun b _ => Measured.ite (fun _ => ?_) fun _ => ?_
        · refine (ih l (n + 1)).mono ?_
          rintro a w - ⟨h1, h2, h3, h4, h5⟩
          exact ⟨h1, by omega, by omega, by omega, by omega⟩
        · refine Measured.step fun q _ => Measured.step fun ai _ => Measured.step fun ar _ => Measured.step fun ly _ =>
            Measured.step fun pg _ => Measured.step fun offs _ => ?_
          refine Measured.bind (measured_entityRange l (n + 1))
            (Q := fun r rs w => w = { entities := w.entities } ∧ r.2.length ≤ w.entities ∧ w.entities + 1 ≤ r.2.length + rs.length ∧
              w.entities ≤ 2 * r.2.length - 1 ∧ rs.length ≤ r.2.length + 1) (fun r _ => ?_) ?_
          · refine Measured.bind (ih r.2 r.1) (fun rs _ => Measured.pure0 _) ?_
            rintro rs b v w - hb ⟨h1, h2, h3, h4, h5⟩ rfl
            cases hb
            rw [Work.add_zero]
            simp only [List.length_cons]
            exact ⟨h1, h2, by omega, h4, by omega⟩
          · rintro r rs v w - - ⟨m, rfl, h1, rfl⟩ ⟨h2, h3, h4, h5, h6⟩
            simp only [List.length_drop] at h3 h4 h5 h6
            refine ⟨by rw [h2]; rfl, ?_⟩
            simp only [Work.add_def]
            split <;> omega
      · rintro a v - ⟨h1, h2, h3, h4, h5⟩
        refine ⟨by rw [h1]; rfl, ?_⟩
        simp only [Work.add_def, List.length_cons]
        omega

theorem measured_entity (l : List Entity) (old : List (Range × IterView)) :
    Measured (entityQueryIterM U dbg s l acc old) (entityQueryIter U dbg s l acc old)
      (fun it w => w = { entities := w.entities } ∧ l.length ≤ w.entities ∧ w.entities ≤ l.length + it.ranges.length ∧
        w.entities ≤ 2 * l.length - 1 ∧ it.ranges.length ≤ l.length) := by
  unfold entityQueryIterM entityQueryIter
  dsimp only
  refine Measured.bind (measured_entityOuter _ _ _) (fun rs _ => Measured.pure0 _) ?_
  rintro rs b v w - hb h rfl
  cases hb
  rw [Work.add_zero]
  simpa using h

theorem measured_orderedRange_any {links : Raw Nat} {page : Nat} (fuel x n : Nat) :
    Measured (orderedRangeLoopM s links page fuel x n) (orderedRangeLoop s links page fuel x n) (fun _ _ => True) := by
  induction fuel generalizing x n with
  | zero => exact Measured.last (by intro a h; cases h)
  | succ fuel ih =>
    unfold orderedRangeLoopM orderedRangeLoop
    refine Measured.ite (fun _ => Measured.pure _ trivial) fun _ => ?_
    refine Measured.tick (P := fun _ _ => True) ?_ fun _ _ _ _ => trivial
    refine Measured.step fun q _ => Measured.step fun i _ => ?_
    refine Measured.ite (fun _ => Measured.pure _ trivial) fun _ => ?_
    exact Measured.step fun y _ => ih y (n + 1)

theorem measured_orderedOuter_any {links : Raw Nat} (fuel x : Nat) :
    Measured (orderedOuterLoopM U s acc links fuel x) (orderedOuterLoop U s acc links fuel x) (fun _ _ => True) := by
  induction fuel generalizing x with
  | zero => exact Measured.last (by intro a h; cases h)
  | succ fuel ih =>
    unfold orderedOuterLoopM orderedOuterLoop
    refine Measured.ite (fun _ => Measured.pure _ trivial) fun _ => ?_
    refine Measured.tick (P := fun _ _ => True) ?_ fun _ _ _ _ => trivial
    refine Measured.step fun q _ => Measured.step fun i _ => Measured.step fun pg _ => Measured.step fun ai _ =>
      Measured.step fun ar _ => Measured.step fun ly _ => ?_
    refine Measured.ite (fun _ => Measured.step fun y _ => ih y) fun _ => ?_
    refine Measured.step fun offs _ => Measured.step fun y _ => ?_
    refine Measured.bind (measured_orderedRange_any _ _ _) (Q := fun _ _ _ => True) (fun r _ => ?_) fun _ _ _ _ _ _ _ _ => trivial
    exact Measured.bind (ih r.1) (fun rs _ => Measured.pure0 _) fun _ _ _ _ _ _ _ _ => trivial

theorem measured_ordered_any (g : Nat) (old : List (Range × IterView)) (fuel : Nat) :
    Measured (orderedQueryIterM U s g acc old fuel) (orderedQueryIter U s g acc old fuel) (fun _ _ => True) := by
  unfold orderedQueryIterM orderedQueryIter
  dsimp only
  cases s.orders.getGroupIndex g with
  | none => exact Measured.pure _ trivial
  | some gi =>
    refine Measured.step fun gr _ => ?_
    exact Measured.bind (measured_orderedOuter_any _ _) (fun r _ => Measured.pure0 _) fun _ _ _ _ _ _ _ _ => trivial

section
variable {cap : Nat} {g : Group} {L : List Entity}

theorem measured_orderedRange (hg : g.Rep cap (L.map (·.id))) (page fuel k n : Nat) (hk : k ≤ L.length) :
    Measured (orderedRangeLoopM s g.fwd page fuel (headId (L.drop k)) n) (orderedRangeLoop s g.fwd page fuel (headId (L.drop k)) n)
      (fun r w => ∃ m, r = (headId (L.drop (k + m)), n + m) ∧ k + m ≤ L.length ∧
        w = { entities := m + if k + m < L.length then 1 else 0 }) := by
  induction fuel generalizing k n with
  | zero => exact Measured.last (by intro a h; cases h)
  | succ fuel ih =>
    unfold orderedRangeLoopM orderedRangeLoop
    by_cases hlt : k < L.length
    · obtain ⟨e, he⟩ : ∃ e, L[k]? = some e := ⟨_, List.getElem?_eq_getElem hlt⟩
      rw [headId_drop he]
      have hnn := (hg.lt e.id (List.mem_map.2 ⟨e, List.mem_of_getElem? he, rfl⟩)).2
      simp only [hnn, if_false]
      refine Measured.tick (P := fun r w => ∃ m, r = (headId (L.drop (k + m)), n + m) ∧ k + m ≤ L.length ∧
        w = { entities := if m = 0 then 0 else (m - 1) + if k + m < L.length then 1 else 0 }) ?_ ?_
      · refine Measured.step fun q _ => Measured.step fun x _ => ?_
        refine Measured.ite (fun _ => Measured.pure _ ⟨0, by rw [Nat.add_zero, Nat.add_zero, headId_drop he], hk, rfl⟩) fun _ => ?_
        rw [link_read hg he]
        refine Measured.step fun y hy => ?_
        cases hy
        refine (ih (k + 1) (n + 1) hlt).mono ?_
        rintro a w - ⟨m, rfl, h2, rfl⟩
        have e1 : k + 1 + m = k + (m + 1) := by omega
        rw [e1] at h2 ⊢
        refine ⟨m + 1, by simp only [Prod.mk.injEq, true_and]; omega, h2, ?_⟩
        simp only [Nat.add_one_ne_zero, if_false, Nat.add_sub_cancel]
      · rintro a v - ⟨m, h1, h2, rfl⟩
        refine ⟨m, h1, h2, ?_⟩
        simp only [Work.add_def, Work.mk.injEq, true_and]
        split
        · next h0 => subst h0; simp [hlt]
        · next h0 => split <;> omega
    · rw [headId_nil (by omega)]
      simp only [if_true]
      exact Measured.pure _ ⟨0, by rw [Nat.add_zero, headId_nil (by omega), Nat.add_zero], hk, by simp [hlt]⟩

theorem measured_orderedOuter (hg : g.Rep cap (L.map (·.id))) (fuel k : Nat) (hk : k ≤ L.length) :
    Measured (orderedOuterLoopM U s acc g.fwd fuel (headId (L.drop k))) (orderedOuterLoop U s acc g.fwd fuel (headId (L.drop k)))
      (fun r w => w = { entities := w.entities } ∧ L.length - k ≤ w.entities ∧ w.entities ≤ L.length - k + r.1.length ∧
        w.entities ≤ 2 * (L.length - k) - 1 ∧ r.1.length ≤ L.length - k) := by
  induction fuel generalizing k with
  | zero => exact Measured.last (by intro a h; cases h)
  | succ fuel ih =>
    unfold orderedOuterLoopM orderedOuterLoop
    by_cases hlt : k < L.length
    · obtain ⟨e, he⟩ : ∃ e, L[k]? = some e := ⟨_, List.getElem?_eq_getElem hlt⟩
      rw [headId_drop he]
      have hnn := (hg.lt e.id (List.mem_map.2 ⟨e, List.mem_of_getElem? he, rfl⟩)).2
      simp only [hnn, if_false]
      refine Measured.tick (P := fun r w => w = { entities := w.entities } ∧ L.length - (k + 1) ≤ w.entities ∧
        w.entities ≤ L.length - (k + 1) + r.1.length ∧ w.entities ≤ 2 * (L.length - (k + 1)) ∧ r.1.length ≤ L.length - k) ?_ ?_
      · refine Measured.step fun q _ => Measured.step fun x _ => Measured.step fun pg _ => Measured.step fun ai _ =>
          Measured.step fun ar _ => Measured.step fun ly _ => ?_
        rw [link_read hg he]
        refine Measured.ite (fun _ => ?_) fun _ => ?_
        · refine Measured.step fun y hy => ?_
          cases hy
          refine (ih (k + 1) hlt).mono ?_
          rintro a w - ⟨h1, h2, h3, h4, h5⟩
          exact ⟨h1, by omega, by omega, by omega, by omega⟩
        · refine Measured.step fun offs _ => Measured.step fun y hy => ?_
          cases hy
          refine Measured.bind (measured_orderedRange hg q fuel (k + 1) (x + 1) hlt)
            (Q := fun r rs w => ∀ m, r.2 = x + 1 + m →
              w = { entities := w.entities } ∧ L.length - (k + 1 + m) ≤ w.entities ∧
              w.entities + 1 ≤ L.length - (k + 1 + m) + rs.1.length ∧
              w.entities ≤ 2 * (L.length - (k + 1 + m)) - 1 ∧ rs.1.length ≤ L.length - (k + 1 + m) + 1) (fun r hr => ?_) ?_
          · obtain ⟨w, _, m, hm, hm2, _⟩ := (measured_orderedRange hg q fuel (k + 1) (x + 1) hlt).ok hr {}
            subst hm
            dsimp only
            refine Measured.bind (ih (k + 1 + m) hm2) (fun rs _ => Measured.pure0 _) ?_
            rintro rs b v w - hb ⟨h1, h2, h3, h4, h5⟩ rfl m' hm'
            cases hb
            have : m' = m := by omega
            subst this
            rw [Work.add_zero]
            simp only [List.length_cons]
            exact ⟨h1, h2, by omega, h4, by omega⟩
          · rintro r rs v w - - ⟨m, rfl, h1, rfl⟩ hq
            obtain ⟨h2, h3, h4, h5, h6⟩ := hq m rfl
            refine ⟨by rw [h2]; rfl, ?_⟩
            simp only [Work.add_def]
            split <;> omega
      · rintro a v - ⟨h1, h2, h3, h4, h5⟩
        refine ⟨by rw [h1]; rfl, ?_⟩
        simp only [Work.add_def]
        omega
    · rw [headId_nil (by omega)]
      simp only [if_true]
      exact Measured.pure _ ⟨rfl, by show _ ≤ 0; omega, Nat.zero_le _, Nat.zero_le _, Nat.zero_le _⟩

end
end Ecs
