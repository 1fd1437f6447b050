import Verif.Proofs.Simplify
import Verif.Props.Exchange

/-! C128: calls for one entity that can be replaced by fewer calls. -/

namespace Ecs.Props
open Ecs Ecs.Spec

variable {U : Universe} {dbg dbg' : Bool} {cap cap' : Nat} {h h' k : List Event} {s s' : Store} {e : Entity}

/-- **C128**: when one history becomes the other by replacing calls for one entity by simpler ones, or the other way round, and by
exchanging unrelated calls, the stores show the same, whatever their capacities and build modes. (Missing: histories in which the
known defects of the store show. `C128_counterexample`.) -/
theorem C128_simpler_partial (hx : Exec U dbg cap h s) (hx' : Exec U dbg' cap' h' s') (hs : Simplified h h') :
    Copied U dbg dbg' s s' (alive h) id ∧ ∀ x, x ∈ alive h' ↔ x ∈ alive h := by
  obtain ⟨h1, h2⟩ := twin_copied hx hx' hs.akin.twin
  exact ⟨h1, fun x => by simpa using h2 x⟩

/-- **C128**, for components added in any number of calls without others in between: adding all of them in one call makes the store
show the same. (Missing: as above.) -/
theorem C128_add_at_once_partial {A : TupleVal} {As : List TupleVal}
    (hx : Exec U dbg cap (k ++ (As.map (.added e)).reverse ++ .added e A :: h) s)
    (hx' : Exec U dbg' cap' (k ++ .added e (As.foldl (fun A B => overlay B A) A) :: h) s') :
    Copied U dbg dbg' s s' (alive (k ++ (As.map (.added e)).reverse ++ .added e A :: h)) id := by
  refine (C128_simpler_partial hx hx' ?_).1
  clear hx hx'
  induction As generalizing A with
  | nil => exact .exchanged (by simpa using .same _)
  | cons B As ih =>
    refine .trans ?_ (ih (A := overlay B A))
    have := Simplified.simpler (k ++ (As.map (.added e)).reverse) (h := h) (Simpler.addAdd e A B)
    simpa using this

/-- **C128**, what returns: in a state reached by a program that only builds up the world, an entity has no components yet, and tuples are
to be added to it one after another. Adding all of them in one call returns, if at least four entities with all these components fit
into a page, and the program still only builds up the world. Whenever adding them one after another leads to an execution that shows
none of the known defects, it makes the store show the same. -/
theorem C128_at_once_returns (hx : SafeExec U dbg cap h s) (hb : BuildsUp h) (he : e ∈ alive h)
    (h0 : s.getEntityArchetype dbg e = .ok none) {A : TupleVal} {As : List TupleVal} (hne : A ≠ []) (hA : ∀ B ∈ A :: As, TupleOk U B)
    (hw : Wide U dbg (typesOf (As.foldl (fun A B => overlay B A) A))) :
    ∃ s', s.addComponents U dbg e (As.foldl (fun A B => overlay B A) A) = .ok s' ∧
      SafeExec U dbg cap (.added e (As.foldl (fun A B => overlay B A) A) :: h) s' ∧
      BuildsUp (.added e (As.foldl (fun A B => overlay B A) A) :: h) ∧
      ∀ s1, Exec U dbg cap ((As.map (.added e)).reverse ++ .added e A :: h) s1 →
        Copied U dbg dbg s1 s' (alive ((As.map (.added e)).reverse ++ .added e A :: h)) id := by
  have hl : e ∈ (world h).live := by rwa [alive_eq] at he
  have hty : (world h).types e = [] := by
    by_contra hn
    have h1 := (exec_rel hx.exec).agrees.arch e ((exec_rel hx.exec).ents.sub e hl)
    rw [if_pos ⟨hl, hn⟩] at h1
    obtain ⟨a, h1, -⟩ := h1
    rw [h0] at h1
    cases h1
  have hok : ∀ {As : List TupleVal} {A : TupleVal}, A ≠ [] → (∀ B ∈ A :: As, TupleOk U B) →
      As.foldl (fun A B => overlay B A) A ≠ [] ∧ TupleOk U (As.foldl (fun A B => overlay B A) A) := by
    intro As
    induction As with
    | nil => exact fun h1 h2 => ⟨h1, h2 _ List.mem_cons_self⟩
    | cons B As ih =>
      intro A h1 h2
      refine ih (overlay_ne h1) fun C hC => ?_
      rcases List.mem_cons.1 hC with rfl | hC
      · exact overlay_ok (h2 B (by simp)) (h2 A (by simp))
      · exact h2 C (by simp [hC])
  obtain ⟨g1, g2⟩ := hok hne hA
  generalize hM : As.foldl (fun A B => overlay B A) A = M at g1 g2 hw ⊢
  have hb' : BuildsUp (.added e M :: h) := ⟨.inl hty, hb⟩
  obtain ⟨s', h1, h2⟩ := (C74_calls_return hx hb).1 (.added e M) rfl ⟨(exec_rel hx.exec).ents.sub e hl, g1, g2⟩ hb' (by
    intro T hT
    simp only [needs, hty] at hT
    split at hT
    · cases hT
      simpa [typesOf] using hw
    · cases hT)
  refine ⟨s', h1.1, h2, hb', fun s1 hx1 => ?_⟩
  subst hM
  exact C128_add_at_once_partial (k := []) (by simpa using hx1) h2.exec

/-! ### The defects show in which calls something is done -/

/-- `spoilt` without a component that is given to an entity just before it is destroyed. -/
def unspoiltByLess : List Event := spoilt.take 8 ++ spoilt.drop 9

theorem unspoiltByLess_simplified : Simplified spoilt unspoiltByLess :=
  .simpler (spoilt.take 7) (h := spoilt.drop 9) (.destroy ⟨3, 1⟩ (a := .added ⟨3, 1⟩ [(5, [6])]) rfl)

/-- **C128 is false of the code** in general: whether an entity was given a component just before it was destroyed decides whether
another entity loses a component later. -/
theorem C128_counterexample : ∃ s s', Simplified spoilt unspoiltByLess ∧ WellExec demo true 1 spoilt s ∧
    Exec demo true 1 unspoiltByLess s' ∧
    s.getComponents demo true ⟨1, 2⟩ [5] = .ok none ∧ s'.getComponents demo true ⟨1, 2⟩ [5] = .ok (some [[some 50]]) := by
  have h1 : ((runWell demo true 1 spoilt).any fun s => decide (s.getComponents demo true ⟨1, 2⟩ [5] = .ok none)) = true := by decide
  have h2 : ((runExec demo true 1 unspoiltByLess).any fun s =>
      decide (s.getComponents demo true ⟨1, 2⟩ [5] = .ok (some [[some 50]]))) = true := by decide
  obtain ⟨s, hs, h1⟩ := any_some h1
  obtain ⟨s', hs', h2⟩ := any_some h2
  exact ⟨s, s', unspoiltByLess_simplified, runWell_sound hs, runExec_sound hs', of_decide_eq_true h1, of_decide_eq_true h2⟩

/-! ### Examples -/

/-- A roundabout program (newest call first). -/
def roundabout : List Event :=
  [.destroyed ⟨1, 1⟩, .tagged 3 ⟨1, 1⟩, .unordered 2 ⟨0, 1⟩, .orderedLast 2 ⟨0, 1⟩, .added ⟨0, 1⟩ [(1, [8])], .added ⟨0, 1⟩ [(4, [7]), (1, [6])],
   .created ⟨1, 1⟩, .created ⟨0, 1⟩]

/-- The same made simple. -/
def madeSimple : List Event := [.destroyed ⟨1, 1⟩, .added ⟨0, 1⟩ [(1, [8]), (4, [7])], .created ⟨1, 1⟩, .created ⟨0, 1⟩]

theorem madeSimple_simplified : Simplified roundabout madeSimple := by
  have h1 := Simplified.simpler [] (h := roundabout.drop 2) (.destroy ⟨1, 1⟩ (a := .tagged 3 ⟨1, 1⟩) rfl)
  have h2 := Simplified.simpler [.destroyed ⟨1, 1⟩] (h := roundabout.drop 4)
    (.orderUnorder 2 ⟨0, 1⟩ ⟨0, 1⟩ (a := .orderedLast 2 ⟨0, 1⟩) (.inl rfl) (by decide))
  have h3 := Simplified.simpler [.destroyed ⟨1, 1⟩] (h := roundabout.drop 6) (.addAdd ⟨0, 1⟩ [(4, [7]), (1, [6])] [(1, [8])])
  exact .trans h1 (.trans h2 h3)

example : ∃ s s', Simplified roundabout madeSimple ∧ Exec demo true 1 roundabout s ∧ Exec demo false 8 madeSimple s' ∧
    Copied demo true false s s' (alive roundabout) id ∧ alive roundabout = [⟨0, 1⟩] ∧
    s.getComponents demo true ⟨0, 1⟩ [1, 4] = .ok (some [[some 8], [some 7]]) := by
  have h1 : ((runExec demo true 1 roundabout).any fun s =>
      decide (s.getComponents demo true ⟨0, 1⟩ [1, 4] = .ok (some [[some 8], [some 7]]))) = true := by decide
  obtain ⟨s, hs, h1⟩ := any_some h1
  obtain ⟨s', hs'⟩ := Option.isSome_iff_exists.1 (show (runExec demo false 8 madeSimple).isSome = true by decide)
  exact ⟨s, s', madeSimple_simplified, runExec_sound hs, runExec_sound hs',
    (C128_simpler_partial (runExec_sound hs) (runExec_sound hs') madeSimple_simplified).1, by decide, of_decide_eq_true h1⟩

/-- Three tuples added to an entity, or all at once. -/
example : ∃ s s', Exec demo true 1 ([.tagged 1 ⟨0, 1⟩] ++ (([[(1, [2])], [(5, [5])]] : List TupleVal).map (.added ⟨0, 1⟩)).reverse ++
      .added ⟨0, 1⟩ [(4, [4]), (1, [1])] :: [.created ⟨0, 1⟩]) s ∧
    Exec demo true 1 ([.tagged 1 ⟨0, 1⟩] ++ .added ⟨0, 1⟩ [(5, [5]), (1, [2]), (4, [4])] :: [.created ⟨0, 1⟩]) s' := by
  obtain ⟨s, hs⟩ := Option.isSome_iff_exists.1 (show (runExec demo true 1 ([.tagged 1 ⟨0, 1⟩] ++
    (([[(1, [2])], [(5, [5])]] : List TupleVal).map (.added ⟨0, 1⟩)).reverse ++
      .added ⟨0, 1⟩ [(4, [4]), (1, [1])] :: [.created ⟨0, 1⟩])).isSome = true by decide)
  obtain ⟨s', hs'⟩ := Option.isSome_iff_exists.1 (show (runExec demo true 1 ([.tagged 1 ⟨0, 1⟩] ++
    .added ⟨0, 1⟩ [(5, [5]), (1, [2]), (4, [4])] :: [.created ⟨0, 1⟩])).isSome = true by decide)
  exact ⟨s, s', runExec_sound hs, runExec_sound hs'⟩

/-- An entity without components beside one with components: three tuples can be added to it at once. -/
example : ∃ s s', SafeExec demo true 1 [.added ⟨1, 1⟩ [(4, [9])], .created ⟨1, 1⟩, .created ⟨0, 1⟩] s ∧
    s.getEntityArchetype true ⟨0, 1⟩ = .ok none ∧
    s.addComponents demo true ⟨0, 1⟩ (([[(1, [2])], [(5, [5])]] : List TupleVal).foldl (fun A B => overlay B A) [(4, [4]), (1, [1])]) = .ok s' ∧
    s'.getComponents demo true ⟨0, 1⟩ [1, 4, 5] = .ok (some [[some 2], [some 4], [some 5]]) := by
  have h : ((runSafe demo true 1 [.added ⟨1, 1⟩ [(4, [9])], .created ⟨1, 1⟩, .created ⟨0, 1⟩]).any fun s =>
      okAnd (s.getEntityArchetype true ⟨0, 1⟩) fun o => o.isNone) = true := by decide
  obtain ⟨s, hs, h⟩ := any_some h
  obtain ⟨o, h1, h2⟩ := okAnd_iff h
  cases o with
  | some a => cases h2
  | none =>
    have hx := runSafe_sound hs
    obtain ⟨s', h3, h4, _, _⟩ := C128_at_once_returns (As := [[(1, [2])], [(5, [5])]]) (A := [(4, [4]), (1, [1])]) hx (by decide)
      (by decide) h1 (by decide) (by decide) (by exact ⟨(rowsPerPage demo true [5, 1, 4]).get (by decide), by decide, by decide⟩)
    refine ⟨s, s', hx, h1, h3, ?_⟩
    rw [(exec_rel h4.exec).agrees.read ⟨0, 1⟩ (by decide) [1, 4, 5] (by decide)]
    rfl

end Ecs.Props
