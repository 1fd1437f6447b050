import Verif.Proofs.Exchange
import Verif.Props.Components
import Verif.Props.Defects
import Verif.Props.BuildUp

/-! C121: unrelated calls can be exchanged. -/

namespace Ecs.Props
open Ecs Ecs.Spec

variable {U : Universe} {dbg dbg' : Bool} {cap cap' : Nat} {h h' k k' p q : List Event} {s s' : Store} {a b : Event}

/-- **C121**: when histories differ only in the order of unrelated calls, the stores show the same, whatever their capacities and build
modes. (Missing: histories in which the known defects of the store show. `C121_counterexample`.) -/
theorem C121_exchange_partial (hx : Exec U dbg cap h s) (hx' : Exec U dbg' cap' h' s') (he : Exchanged h h') :
    Copied U dbg dbg' s s' (alive h) id ∧ ∀ x, x ∈ alive h' ↔ x ∈ alive h := by
  obtain ⟨h1, h2⟩ := twin_copied hx hx' he.alike.twin
  exact ⟨h1, fun x => by simpa using h2 x⟩

/-- **C121**, for two parts of a program that have nothing to do with each other: it does not matter how their calls alternate. -/
theorem C121_interleaving_partial (hpq : ∀ a ∈ p, ∀ b ∈ q, Unrelated a b) (hk : Interleaved k p q) (hk' : Interleaved k' p q)
    (hx : Exec U dbg cap (k ++ h) s) (hx' : Exec U dbg' cap' (k' ++ h) s') :
    Copied U dbg dbg' s s' (alive (k ++ h)) id ∧ ∀ x, x ∈ alive (k' ++ h) ↔ x ∈ alive (k ++ h) :=
  C121_exchange_partial hx hx' ((hk.exchanged h hpq).trans (hk'.exchanged h hpq).symm)

/-- **C121**, what returns: of two unrelated calls that create nothing and look for no room, the second can be made first. -/
theorem C121_returns_partial (hab : Unrelated a b) (ha : isCreation a = false) (hb : isCreation b = false)
    (hna : needs (world h) a = none) (hnb : needs (world h) b = none) (hx : Exec U dbg cap (b :: a :: h) s) :
    ∃ s', Exec U dbg cap (a :: b :: h) s' ∧ Copied U dbg dbg s s' (alive (b :: a :: h)) id := by
  obtain ⟨_, hx1, h1⟩ := exec_tail hx
  obtain ⟨s0, hx0, h0⟩ := exec_tail hx1
  obtain ⟨s1, _, hy1⟩ := (C46_calls_return_partial hx0).1 b hb ((hab.allowed ha).1 h1) (fun T hT => by rw [hnb] at hT; cases hT)
  obtain ⟨s2, _, hy2⟩ := (C46_calls_return_partial hy1).1 a ha ((hab.symm.allowed hb).2 h0)
    (fun T hT => by rw [show needs (world (b :: h)) a = needs (world h) a from hab.symm.needs, hna] at hT; cases hT)
  exact ⟨s2, hy2, (C121_exchange_partial hx hy2 (.swap [] b a h hab.symm)).1⟩

/-- **C121**, for programs that only build up a world, without the restriction: unrelated calls that create nothing can be made in any
order. All of them return, and the store then shows the same. -/
theorem C121_buildup (hx : SafeExec U dbg cap (k ++ h) s) (hb : BuildsUp (k ++ h)) (hw : RoomFor U dbg k h)
    (hc : ∀ ev ∈ k, isCreation ev = false) (he : Exchanged k k') :
    ∃ s', SafeExec U dbg cap (k' ++ h) s' ∧ BuildsUp (k' ++ h) ∧ Copied U dbg dbg s s' (alive (k ++ h)) id := by
  have key : ∀ {k : List Event} {s : Store}, SafeExec U dbg cap (k ++ h) s → BuildsUp (k ++ h) → RoomFor U dbg k h →
      (∀ ev ∈ k, isCreation ev = false) → AllSmooth U dbg k h ∧ ∃ s0, SafeExec U dbg cap h s0 ∧ BuildsUp h := by
    intro k
    induction k with
    | nil => exact fun hx hb _ _ => ⟨trivial, _, hx, hb⟩
    | cons ev k ih =>
      intro s hx hb hw hc
      cases hx with
      | step _ h1 h2 _ _ =>
        obtain ⟨h3, h4⟩ := ih h1 (buildsUp_cons.1 hb).2 hw.2 fun a ha => hc a (List.mem_cons_of_mem _ ha)
        exact ⟨⟨⟨hc ev List.mem_cons_self, h2, (buildsUp_cons.1 hb).1, hw.1⟩, h3⟩, h4⟩
  have back : ∀ {k : List Event} {s0 : Store}, AllSmooth U dbg k h → SafeExec U dbg cap h s0 → BuildsUp h →
      ∃ s', SafeExec U dbg cap (k ++ h) s' ∧ BuildsUp (k ++ h) := by
    intro k
    induction k with
    | nil => exact fun _ hx hb => ⟨_, hx, hb⟩
    | cons ev k ih =>
      rintro s0 ⟨h1, h2⟩ hx hb
      obtain ⟨s1, h3, h4⟩ := ih h2 hx hb
      have h5 : BuildsUp (ev :: (k ++ h)) := buildsUp_cons.2 ⟨h1.gentle, h4⟩
      obtain ⟨s2, _, h6⟩ := (C74_calls_return h3 h4).1 ev h1.made h1.allowed h5 h1.wide
      exact ⟨s2, h6, h5⟩
  obtain ⟨h1, s0, h2, h3⟩ := key hx hb hw hc
  obtain ⟨s', h4, h5⟩ := back (h1.exchanged he) h2 h3
  exact ⟨s', h4, h5, (C121_exchange_partial hx.exec h4.exec (he.append h)).1⟩

/-! ### The defects show the order of the calls -/

/-- `refilled`, and the call that makes the defect show. -/
def spoilt : List Event := .added ⟨4, 1⟩ [(8, [80])] :: refilled

/-- The same calls, but entity 3 gets its component before entities 1 and 2 get theirs. -/
def spoilt' : List Event :=
  [.added ⟨4, 1⟩ [(8, [80])], .created ⟨4, 1⟩, .added ⟨3, 2⟩ [(7, [70])], .created ⟨3, 2⟩,
   .added ⟨1, 2⟩ [(5, [50])], .created ⟨1, 2⟩, .destroyed ⟨1, 1⟩, .destroyed ⟨3, 1⟩,
   .added ⟨2, 1⟩ [(4, [4])], .added ⟨1, 1⟩ [(1, [1])], .added ⟨3, 1⟩ [(5, [6])], .added ⟨0, 1⟩ [(9, [9])],
   .created ⟨3, 1⟩, .created ⟨2, 1⟩, .created ⟨1, 1⟩, .created ⟨0, 1⟩]

theorem spoilt_exchanged : Exchanged spoilt spoilt' := by
  have h1 := Exchanged.swap (spoilt.take 8) (.added ⟨3, 1⟩ [(5, [6])]) (.added ⟨2, 1⟩ [(4, [4])]) (spoilt.drop 10)
    (by simp [Unrelated, subject, named, entered])
  have h2 := Exchanged.swap (spoilt'.take 9) (.added ⟨3, 1⟩ [(5, [6])]) (.added ⟨1, 1⟩ [(1, [1])]) (spoilt.drop 11)
    (by simp [Unrelated, subject, named, entered])
  exact Exchanged.trans h1 h2

/-- **C121 is false of the code** in general: the order in which three entities got their first components decides whether one of them
loses a component later. -/
theorem C121_counterexample : ∃ s s', Exchanged spoilt spoilt' ∧ WellExec demo true 1 spoilt s ∧ Exec demo true 1 spoilt' s' ∧
    s.getComponents demo true ⟨1, 2⟩ [5] = .ok none ∧ s'.getComponents demo true ⟨1, 2⟩ [5] = .ok (some [[some 50]]) := by
  have h1 : ((runWell demo true 1 spoilt).any fun s => decide (s.getComponents demo true ⟨1, 2⟩ [5] = .ok none)) = true := by decide
  have h2 : ((runExec demo true 1 spoilt').any fun s => decide (s.getComponents demo true ⟨1, 2⟩ [5] = .ok (some [[some 50]]))) = true := by
    decide
  obtain ⟨s, hs, h1⟩ := any_some h1
  obtain ⟨s', hs', h2⟩ := any_some h2
  exact ⟨s, s', spoilt_exchanged, runWell_sound hs, runExec_sound hs', of_decide_eq_true h1, of_decide_eq_true h2⟩

/-! ### Examples -/

/-- Two parts of a program: one about entity 0 and group 3, one about entity 1 and group 5. Both destroy something. -/
example : ∃ s s', (∀ a ∈ [Event.destroyed ⟨0, 1⟩, .orderedLast 3 ⟨0, 1⟩, .added ⟨0, 1⟩ [(4, [1])]],
      ∀ b ∈ [Event.unordered 3 ⟨2, 1⟩, .orderedAfter 5 ⟨1, 1⟩ ⟨2, 1⟩, .tagged 7 ⟨1, 1⟩], Unrelated a b) ∧
    Interleaved [.unordered 3 ⟨2, 1⟩, .destroyed ⟨0, 1⟩, .orderedAfter 5 ⟨1, 1⟩ ⟨2, 1⟩, .orderedLast 3 ⟨0, 1⟩, .tagged 7 ⟨1, 1⟩,
      .added ⟨0, 1⟩ [(4, [1])]] [.destroyed ⟨0, 1⟩, .orderedLast 3 ⟨0, 1⟩, .added ⟨0, 1⟩ [(4, [1])]]
      [.unordered 3 ⟨2, 1⟩, .orderedAfter 5 ⟨1, 1⟩ ⟨2, 1⟩, .tagged 7 ⟨1, 1⟩] ∧
    Exec demo true 1 ([.unordered 3 ⟨2, 1⟩, .destroyed ⟨0, 1⟩, .orderedAfter 5 ⟨1, 1⟩ ⟨2, 1⟩, .orderedLast 3 ⟨0, 1⟩, .tagged 7 ⟨1, 1⟩,
      .added ⟨0, 1⟩ [(4, [1])]] ++ [.orderedLast 5 ⟨2, 1⟩, .orderedLast 3 ⟨2, 1⟩, .created ⟨2, 1⟩, .created ⟨1, 1⟩, .created ⟨0, 1⟩]) s ∧
    Exec demo true 1 ([.destroyed ⟨0, 1⟩, .orderedLast 3 ⟨0, 1⟩, .added ⟨0, 1⟩ [(4, [1])], .unordered 3 ⟨2, 1⟩, .orderedAfter 5 ⟨1, 1⟩ ⟨2, 1⟩,
      .tagged 7 ⟨1, 1⟩] ++ [.orderedLast 5 ⟨2, 1⟩, .orderedLast 3 ⟨2, 1⟩, .created ⟨2, 1⟩, .created ⟨1, 1⟩, .created ⟨0, 1⟩]) s' := by
  obtain ⟨s, hs⟩ := Option.isSome_iff_exists.1 (show (runExec demo true 1 ([.unordered 3 ⟨2, 1⟩, .destroyed ⟨0, 1⟩,
    .orderedAfter 5 ⟨1, 1⟩ ⟨2, 1⟩, .orderedLast 3 ⟨0, 1⟩, .tagged 7 ⟨1, 1⟩, .added ⟨0, 1⟩ [(4, [1])]] ++ [.orderedLast 5 ⟨2, 1⟩,
    .orderedLast 3 ⟨2, 1⟩, .created ⟨2, 1⟩, .created ⟨1, 1⟩, .created ⟨0, 1⟩])).isSome = true by decide)
  obtain ⟨s', hs'⟩ := Option.isSome_iff_exists.1 (show (runExec demo true 1 ([.destroyed ⟨0, 1⟩, .orderedLast 3 ⟨0, 1⟩,
    .added ⟨0, 1⟩ [(4, [1])], .unordered 3 ⟨2, 1⟩, .orderedAfter 5 ⟨1, 1⟩ ⟨2, 1⟩, .tagged 7 ⟨1, 1⟩] ++ [.orderedLast 5 ⟨2, 1⟩,
    .orderedLast 3 ⟨2, 1⟩, .created ⟨2, 1⟩, .created ⟨1, 1⟩, .created ⟨0, 1⟩])).isSome = true by decide)
  refine ⟨s, s', ?_, ?_, runExec_sound hs, runExec_sound hs'⟩
  · simp [Unrelated, subject, named, entered]
  · exact .right _ (.left _ (.right _ (.left _ (.right _ (.left _ .none)))))

/-- The hypotheses of `C121_buildup`: two entities get components, a tag, and places in two groups. -/
example : ∃ s, SafeExec demo true 1 ([.orderedLast 5 ⟨1, 1⟩, .added ⟨1, 1⟩ [(1, [2])], .tagged 7 ⟨0, 1⟩, .added ⟨0, 1⟩ [(4, [1])]] ++
      [.created ⟨1, 1⟩, .created ⟨0, 1⟩]) s ∧
    BuildsUp ([.orderedLast 5 ⟨1, 1⟩, .added ⟨1, 1⟩ [(1, [2])], .tagged 7 ⟨0, 1⟩, .added ⟨0, 1⟩ [(4, [1])]] ++
      [.created ⟨1, 1⟩, .created ⟨0, 1⟩]) ∧
    RoomFor demo true [.orderedLast 5 ⟨1, 1⟩, .added ⟨1, 1⟩ [(1, [2])], .tagged 7 ⟨0, 1⟩, .added ⟨0, 1⟩ [(4, [1])]]
      [.created ⟨1, 1⟩, .created ⟨0, 1⟩] ∧
    Exchanged [.orderedLast 5 ⟨1, 1⟩, .added ⟨1, 1⟩ [(1, [2])], .tagged 7 ⟨0, 1⟩, .added ⟨0, 1⟩ [(4, [1])]]
      [.tagged 7 ⟨0, 1⟩, .added ⟨0, 1⟩ [(4, [1])], .orderedLast 5 ⟨1, 1⟩, .added ⟨1, 1⟩ [(1, [2])]] := by
  obtain ⟨s, hs⟩ := Option.isSome_iff_exists.1 (show (runSafe demo true 1 ([.orderedLast 5 ⟨1, 1⟩, .added ⟨1, 1⟩ [(1, [2])],
    .tagged 7 ⟨0, 1⟩, .added ⟨0, 1⟩ [(4, [1])]] ++ [.created ⟨1, 1⟩, .created ⟨0, 1⟩])).isSome = true by decide)
  refine ⟨s, runSafe_sound hs, by decide, ⟨fun T hT => (by cases hT), fun T hT => ?_, fun T hT => (by cases hT), fun T hT => ?_, trivial⟩, ?_⟩
  · have : T = [1] := by simpa using hT.symm.trans (show _ = some [1] by decide)
    subst this
    exact ⟨16383, by decide, by decide⟩
  · have : T = [4] := by simpa using hT.symm.trans (show _ = some [4] by decide)
    subst this
    exact ⟨16383, by decide, by decide⟩
  · have := Interleaved.exchanged (p := [.tagged 7 ⟨0, 1⟩, .added ⟨0, 1⟩ [(4, [1])]]) (q := [.orderedLast 5 ⟨1, 1⟩, .added ⟨1, 1⟩ [(1, [2])]])
      (.right _ (.right _ (.left _ (.left _ .none)))) [] (by simp [Unrelated, subject, named, entered])
    simpa using this

/-- Related calls: the place in a group depends on the order. -/
example : ¬ Unrelated (.orderedLast 3 ⟨0, 1⟩) (.orderedLast 3 ⟨1, 1⟩) ∧ ¬ Unrelated (.orderedAfter 3 ⟨0, 1⟩ ⟨1, 1⟩) (.unordered 3 ⟨1, 1⟩) ∧
    (world [.orderedLast 3 ⟨0, 1⟩, .orderedLast 3 ⟨1, 1⟩]).order 3 ≠ (world [.orderedLast 3 ⟨1, 1⟩, .orderedLast 3 ⟨0, 1⟩]).order 3 := by
  simp [Unrelated, subject, named, entered, world, World.apply, World.empty, at']

end Ecs.Props
