import Verif.Proofs.Healthy
import Verif.Props.Components
import Verif.Props.Defects

/-! Property C56: the executions `Exec`, about which the properties of component data are proved, are exactly the
well-behaved executions in which two of these properties themselves hold after every call: no page holds too many rows
(C20), and no archetype with entities is on the free list. So nothing goes wrong before one of these two does. -/

namespace Ecs.Props
open Spec

section
variable {U : Universe} {dbg : Bool} {cap : Nat} {h : List Event} {s s' : Store}

/-- **C56**: in every state of an `Exec` both properties hold. -/
theorem C56_exec_states_healthy (hx : Exec U dbg cap h s) : RowsFit s ∧ UsedNotFree s :=
  ⟨(exec_rel hx).rowsFit, (exec_rel hx).usedNotFree⟩

/-- **C56**, one call: if the next call of a well-behaved program returns, then there was room for it (as `Exec`
demands) if and only if both properties hold afterwards. -/
theorem C56_room_iff_healthy (hx : Exec U dbg cap h s) {ev : Event} (ha : Allowed U (world h) ev)
    (hr : RemovesSome (world h) ev) (hd : Does U dbg s ev s') :
    (∀ T, needs (world h) ev = some T → s.archs.CanHold U dbg T) ↔ RowsFit s' ∧ UsedNotFree s' :=
  ⟨fun hn => C56_exec_states_healthy (.step ev hx ha hn hd),
    fun hh _ hT => (exec_rel hx).canHold_of_healthy ha hr hd (not_bad hh.1 hh.2) hT⟩

/-- **C56**, whole executions: `Exec` contains every well-behaved execution in which both properties hold after every
call, and apart from calls of `remove_components` that remove nothing it contains no others. -/
theorem C56_exact : HealthyExec U dbg cap h s ↔ Exec U dbg cap h s ∧ AllRemoveSome h := by
  constructor
  · intro hx
    refine ⟨hx.exec, ?_⟩
    induction hx with
    | init _ => trivial
    | step ev _ _ hr _ _ _ ih => exact ⟨hr, ih⟩
  · rintro ⟨hx, hr⟩
    induction hx with
    | init hs => exact .init hs
    | step ev hx' ha hn hd ih =>
      have hh := C56_exec_states_healthy (.step ev hx' ha hn hd)
      exact .step ev (ih hr.2) ha hr.1 hd hh.1 hh.2

/-- In such executions everything that can be read is what the history says. -/
theorem C56_healthy_refines_world (hx : HealthyExec U dbg cap h s) : Agrees U dbg s (world h) :=
  C49_store_refines_world_partial hx.exec

end

/-- A healthy execution. -/
example : ∃ s, HealthyExec demo true 1 componentHistory s := by
  have h : (runExec demo true 1 componentHistory).isSome = true := by decide
  obtain ⟨s, hs⟩ := Option.isSome_iff_exists.1 h
  exact ⟨s, C56_exact.2 ⟨runExec_sound hs, by decide⟩⟩

/-- The counterexample to C20 leaves the healthy executions. -/
example : ∃ s, WellExec demo true 1 overfull s ∧ ¬ RowsFit s := by
  obtain ⟨s, hx, p, ai, pg, l, h1, h2, h3, h4, h5⟩ := C20_counterexample
  refine ⟨s, hx, fun hr => ?_⟩
  have := hr p ai pg l h1 h2 h3
  omega

/-- So does the counterexample to C28, one call before an archetype with entities is overwritten. -/
example : ∃ s, WellExec demo true 1 refilled s ∧ ¬ UsedNotFree s := by
  have h : ((runWell demo true 1 refilled).any fun s =>
      (s.archs.pages[3]?).any (fun pg => decide (pg.ids.items ≠ [])) &&
      (decide (s.archs.pageToArch[3]? = some 3) && decide (3 ∈ s.archs.freeArchetypes))) = true := by decide
  obtain ⟨s, hs, h⟩ := any_some h
  simp only [Bool.and_eq_true, decide_eq_true_eq] at h
  obtain ⟨h1, h2, h3⟩ := h
  obtain ⟨pg, h1, h1'⟩ := any_some h1
  exact ⟨s, runWell_sound hs, fun hu => hu 3 3 pg h1 h2 (of_decide_eq_true h1') h3⟩

/-- Decides both properties of one page. -/
def pageHealthy (s : Store) (p : Nat) : Bool :=
  match s.archs.pages[p]?, s.archs.pageToArch[p]? with
  | some pg, some ai =>
    (match s.archs.layouts[ai]? with
      | some l => decide (pg.ids.items.length ≤ l.entitiesCapacity)
      | none => true) && (decide (pg.ids.items = []) || !(s.archs.freeArchetypes.contains ai))
  | _, _ => true

theorem pageHealthy_sound {s : Store} (h : (List.range s.archs.pages.length).all (pageHealthy s) = true) :
    RowsFit s ∧ UsedNotFree s := by
  have key : ∀ (p : Nat) (pg : Page), s.archs.pages[p]? = some pg → pageHealthy s p = true := fun p pg hp =>
    List.all_eq_true.1 h p (List.mem_range.2 (List.getElem?_eq_some_iff.1 hp).1)
  constructor
  · intro p ai pg l h1 h2 h3
    have := key p pg h1
    simp only [pageHealthy, h1, h2, h3, Bool.and_eq_true, decide_eq_true_eq] at this
    exact this.1
  · intro p ai pg h1 h2 h3 h4
    have := key p pg h1
    simp [pageHealthy, h1, h2, h3, h4] at this

/-- **C56 and C23 are false of the code** for calls of `remove_components` that remove nothing: removing type 9 from an
entity that has the types 3, 4 and 5 destroys its components 4 and 5, although before and after the call no page is
overfull and no archetype in use is free. (The row is moved within the page, through a row beyond its capacity.) -/
theorem C56_counterexample : ∃ s s',
    WellExec demo true 1 [.assigned ⟨0, 1⟩ [(4, [1]), (5, [2])], .createdWith ⟨0, 1⟩ [3, 4, 5] fun _ => []] s ∧
    RowsFit s ∧ UsedNotFree s ∧ s.removeComponents demo true ⟨0, 1⟩ [9] = .ok s' ∧ RowsFit s' ∧ UsedNotFree s' ∧
    s.getComponents demo true ⟨0, 1⟩ [4, 5] = .ok (some [[some 1], [some 2]]) ∧
    s'.getComponents demo true ⟨0, 1⟩ [4, 5] = .ok (some [[none], [none]]) := by
  have h : ((runWell demo true 1 [.assigned ⟨0, 1⟩ [(4, [1]), (5, [2])],
        .createdWith ⟨0, 1⟩ [3, 4, 5] fun _ => []]).any fun s =>
      okAnd (s.removeComponents demo true ⟨0, 1⟩ [9]) fun s' =>
      (List.range s.archs.pages.length).all (pageHealthy s) &&
      ((List.range s'.archs.pages.length).all (pageHealthy s') &&
      (decide (s.getComponents demo true ⟨0, 1⟩ [4, 5] = .ok (some [[some 1], [some 2]])) &&
      decide (s'.getComponents demo true ⟨0, 1⟩ [4, 5] = .ok (some [[none], [none]]))))) = true := by
    decide +kernel
  obtain ⟨s, hs, h⟩ := any_some h
  obtain ⟨s', hs', h⟩ := okAnd_iff h
  simp only [Bool.and_eq_true, decide_eq_true_eq] at h
  obtain ⟨h1, h2, h3, h4⟩ := h
  exact ⟨s, s', runWell_sound hs, (pageHealthy_sound h1).1, (pageHealthy_sound h1).2, hs', (pageHealthy_sound h2).1,
    (pageHealthy_sound h2).2, h3, h4⟩

end Ecs.Props
