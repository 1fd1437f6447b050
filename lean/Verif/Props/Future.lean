import Verif.Proofs.Future
import Verif.Props.Components
import Verif.Props.Defects
import Verif.Props.Rebuild
import Verif.Props.BuildUp

/-! C120: what a store will do depends only on what it shows. -/

namespace Ecs.Props
open Ecs Ecs.Spec

variable {U : Universe} {dbg dbg' : Bool} {cap cap' : Nat} {h h' k k' : List Event} {s s' s1 s1' : Store} {f f' : Entity → Entity}

/-- **C120**: two stores, with whatever past, capacity and build mode, show the same for their live entities, up to the handles. The same
calls are made on both, for live entities or creating new ones. Then they show the same again. (Missing: pasts and calls with which
the known defects of the store show. `C120_counterexample`.) -/
theorem C120_same_future_partial (hx : Exec U dbg cap h s) (hx' : Exec U dbg' cap' h' s') (hc : Copied U dbg dbg' s s' (alive h) f)
    (ho : ∀ x, x ∈ alive h' ↔ ∃ e ∈ alive h, x = f e) (hk : Follows f k k' h f')
    (hx1 : Exec U dbg cap (k ++ h) s1) (hx1' : Exec U dbg' cap' (k' ++ h') s1') :
    Copied U dbg dbg' s1 s1' (alive (k ++ h)) f' ∧ ∀ x, x ∈ alive (k' ++ h') ↔ ∃ e ∈ alive (k ++ h), x = f' e :=
  twin_copied hx1 hx1' (follows_twin hk (copied_twin hx hx' hc ho) hx1 hx1')

/-- **C120**, for component queries: stores that show the same visit the same entities, perhaps in another order. -/
theorem C120_query_partial (hx : Exec U dbg cap h s) (hx' : Exec U dbg' cap' h' s') (hc : Copied U dbg dbg' s s' (alive h) f)
    (ho : ∀ x, x ∈ alive h' ↔ ∃ e ∈ alive h, x = f e) {acc : Access} (hd : DistinctTypes acc) (old old' : List IterView) {fuel : Nat}
    (hf : (alive h).length < fuel) (hf' : (alive h').length < fuel) :
    ∃ items items', runComponentQueryWithEntities U dbg s acc old fuel = .ok items ∧
      runComponentQueryWithEntities U dbg' s' acc old' fuel = .ok items' ∧ (items'.map (·.1)).Perm ((items.map (·.1)).map f) := by
  obtain ⟨items, h1, _, h2, h3, _⟩ := C31_visits_once_partial hx.loose hd old hf
  obtain ⟨items', k1, _, k2, k3, _⟩ := C31_visits_once_partial hx'.loose hd old' hf'
  refine ⟨items, items', h1, k1, ?_⟩
  have hin : ∀ e ∈ items.map (·.1), e ∈ alive h := fun e he => ((h3 e).1 he).1
  refine (List.perm_ext_iff_of_nodup k2 (List.Nodup.map_on (fun e he e' he' => hc.apart e (hin e he) e' (hin e' he')) h2)).2 fun x => ?_
  rw [k3, ho]
  simp only [List.mem_map (f := f)]
  constructor
  · rintro ⟨⟨e, he, rfl⟩, a, ha, ht⟩
    rw [hc.arch e he] at ha
    exact ⟨e, (h3 e).2 ⟨he, a, ha, ht⟩, rfl⟩
  · rintro ⟨e, he, rfl⟩
    obtain ⟨he, a, ha, ht⟩ := (h3 e).1 he
    exact ⟨⟨e, he, rfl⟩, a, by rw [hc.arch e he]; exact ha, ht⟩

/-- **C120**, what returns: of two stores that show the same, if a call for a live entity that looks for no room returns on one, it
returns on the other, and they show the same again. -/
theorem C120_returns_partial (hx : Exec U dbg cap h s) (hx' : Exec U dbg' cap' h' s') (hc : Copied U dbg dbg' s s' (alive h) f)
    (ho : ∀ x, x ∈ alive h' ↔ ∃ e ∈ alive h, x = f e) {ev : Event} (hnc : isCreation ev = false) (he : subject ev ∈ alive h)
    (hn : needs (world h) ev = none) (hx1 : Exec U dbg cap (ev :: h) s1) :
    ∃ s1', Does U dbg' s' (withHandles f ev) s1' ∧ Exec U dbg' cap' (withHandles f ev :: h') s1' ∧
      Copied U dbg dbg' s1 s1' (alive (ev :: h)) f ∧ ∀ x, x ∈ alive (withHandles f ev :: h') ↔ ∃ e ∈ alive (ev :: h), x = f e := by
  have ht := copied_twin hx hx' hc ho
  obtain ⟨_, _, ha⟩ := exec_tail hx1
  obtain ⟨s1', h1, h2⟩ := (C46_calls_return_partial hx').1 (withHandles f ev) (by cases ev <;> first | rfl | cases hnc)
    (ht.allowed (exec_orderly hx) (exec_rel hx').ents.sub hnc (by rwa [alive_eq] at he) ha)
    (fun T hT => by rw [ht.needs_none (by rwa [alive_eq] at he) hnc hn] at hT; cases hT)
  obtain ⟨h3, h4⟩ := C120_same_future_partial (k := [ev]) (k' := [withHandles f ev]) hx hx' hc ho (.call ev .start hnc he) hx1 h2
  exact ⟨s1', h1, h2, h3, h4⟩

/-- **C120**, what returns: if `create_entity` returns on one store, it returns on the other, unless that one has given out nearly all
handles; and they show the same again. -/
theorem C120_create_partial (hx : Exec U dbg cap h s) (hx' : Exec U dbg' cap' h' s') (hc : Copied U dbg dbg' s s' (alive h) f)
    (ho : ∀ x, x ∈ alive h' ↔ ∃ e ∈ alive h, x = f e) (hb : (handles h').length + 1 < u32Size) {e : Entity}
    (hx1 : Exec U dbg cap (.created e :: h) s1) :
    ∃ s1' e', Does U dbg' s' (.created e') s1' ∧ Exec U dbg' cap' (.created e' :: h') s1' ∧
      Copied U dbg dbg' s1 s1' (alive (.created e :: h)) (at' f e e') ∧
      ∀ x, x ∈ alive (.created e' :: h') ↔ ∃ a ∈ alive (.created e :: h), x = at' f e e' a := by
  obtain ⟨s1', e', _, h1, h2⟩ := ((C46_calls_return_partial hx').2 hb).1
  obtain ⟨h3, h4⟩ := C120_same_future_partial (k := [.created e]) (k' := [.created e']) hx hx' hc ho (.created e e' .start) hx1 h2
  exact ⟨s1', e', h1, h2, h3, h4⟩

/-- **C120**, for programs that only build up a world, with calls that look for room: of two stores that show the same, if such a call
for a live entity returns on one, it returns on the other, provided that at least four entities of the new kind fit into a page there;
and they show the same again. -/
theorem C120_buildup (hx : SafeExec U dbg cap h s) (hx' : SafeExec U dbg' cap' h' s') (hb' : BuildsUp h')
    (hc : Copied U dbg dbg' s s' (alive h) f) (ho : ∀ x, x ∈ alive h' ↔ ∃ e ∈ alive h, x = f e) {ev : Event} (hnc : isCreation ev = false)
    (he : subject ev ∈ alive h) (hx1 : SafeExec U dbg cap (ev :: h) s1) (hb1 : BuildsUp (ev :: h))
    (hw : ∀ T, needs (world h') (withHandles f ev) = some T → Wide U dbg' T) :
    ∃ s1', SafeExec U dbg' cap' (withHandles f ev :: h') s1' ∧ BuildsUp (withHandles f ev :: h') ∧
      Copied U dbg dbg' s1 s1' (alive (ev :: h)) f ∧ ∀ x, x ∈ alive (withHandles f ev :: h') ↔ ∃ e ∈ alive (ev :: h), x = f e := by
  have ht := copied_twin hx.exec hx'.exec hc ho
  have he' : subject ev ∈ (world h).live := by rwa [alive_eq] at he
  obtain ⟨_, _, ha⟩ := exec_tail hx1.exec
  have hb2 : BuildsUp (withHandles f ev :: h') := by
    cases ev with
    | destroyed e => exact hb1
    | removed e ts => exact hb1
    | added e vals =>
      refine ⟨?_, hb'⟩
      rcases hb1.1 with h1 | h1
      · refine .inl (List.eq_nil_iff_forall_not_mem.2 fun t h2 => ?_)
        have := (ht.types e he' t).1 h2
        rw [h1] at this
        cases this
      · exact .inr ((ht.all_iff he' vals).2 h1)
    | created e => cases hnc
    | createdWith e ts init => cases hnc
    | _ => exact hb'
  obtain ⟨s1', _, h2⟩ := (C74_calls_return hx' hb').1 (withHandles f ev) (by cases ev <;> first | rfl | cases hnc)
    (ht.allowed (exec_orderly hx.exec) (exec_rel hx'.exec).ents.sub hnc he' ha) hb2 hw
  obtain ⟨h3, h4⟩ := C120_same_future_partial (k := [ev]) (k' := [withHandles f ev]) hx.exec hx'.exec hc ho (.call ev .start hnc he)
    hx1.exec h2.exec
  exact ⟨s1', h2, hb2, h3, h4⟩

/-! ### The defects show the past -/

/-- A history that the defects have not touched: of four entities with one component each two were destroyed, and one was created. -/
def unspoilt : List Event := refilled.drop 4

/-- The calls that follow. -/
def sequel : List Event := [.added ⟨4, 1⟩ [(8, [80])], .created ⟨4, 1⟩, .added ⟨3, 2⟩ [(7, [70])], .created ⟨3, 2⟩, .added ⟨1, 2⟩ [(5, [50])]]

/-- The same calls in the restored store. -/
def sequel' : List Event := [.added ⟨4, 1⟩ [(8, [80])], .created ⟨4, 1⟩, .added ⟨3, 1⟩ [(7, [70])], .created ⟨3, 1⟩, .added ⟨0, 1⟩ [(5, [50])]]

/-- The handles of the restored store. -/
def sequelHandles : Entity → Entity := at' (at' (restoredAs unspoilt) ⟨3, 2⟩ ⟨3, 1⟩) ⟨4, 1⟩ ⟨4, 1⟩

theorem unspoilt_written : AllWritten unspoilt := by unfold AllWritten; decide

theorem unspoilt_wide : ∀ e ∈ alive unspoilt, (world unspoilt).types e ≠ [] → Wide demo true ((world unspoilt).types e) := by
  intro e he hne
  have hmem : e = ⟨1, 2⟩ ∨ e = ⟨2, 1⟩ ∨ e = ⟨0, 1⟩ := by
    have : alive unspoilt = [⟨1, 2⟩, ⟨2, 1⟩, ⟨0, 1⟩] := by decide
    rw [this] at he
    simpa using he
  rcases hmem with rfl | rfl | rfl
  · exact absurd (by decide) hne
  · exact ⟨16383, by decide, by decide⟩
  · exact ⟨16383, by decide, by decide⟩

theorem sequel_follows : Follows (restoredAs unspoilt) sequel sequel' unspoilt sequelHandles := by
  refine .call (k' := [.created ⟨4, 1⟩, .added ⟨3, 1⟩ [(7, [70])], .created ⟨3, 1⟩, .added ⟨0, 1⟩ [(5, [50])]]) (.added ⟨4, 1⟩ [(8, [80])])
    (.created ⟨4, 1⟩ ⟨4, 1⟩ ?_) rfl (by decide)
  refine .call (k' := [.created ⟨3, 1⟩, .added ⟨0, 1⟩ [(5, [50])]]) (.added ⟨3, 2⟩ [(7, [70])]) (.created ⟨3, 2⟩ ⟨3, 1⟩ ?_) rfl (by decide)
  exact .call (k' := []) (.added ⟨1, 2⟩ [(5, [50])]) .start rfl (by decide)

/-- **C120 is false of the code** in general: a store and the one restored from it show the same, and the same calls return on both. But
then an entity has the component it was given in one of them, and has lost it in the other. -/
theorem C120_counterexample : ∃ s s' s1 s1', Exec demo true 1 unspoilt s ∧ Exec demo true 1 (saved unspoilt).program.reverse s' ∧
    Copied demo true true s s' (alive unspoilt) (restoredAs unspoilt) ∧
    (∀ x, x ∈ alive (saved unspoilt).program.reverse ↔ ∃ e ∈ alive unspoilt, x = restoredAs unspoilt e) ∧
    Follows (restoredAs unspoilt) sequel sequel' unspoilt sequelHandles ∧
    WellExec demo true 1 (sequel ++ unspoilt) s1 ∧ Exec demo true 1 (sequel' ++ (saved unspoilt).program.reverse) s1' ∧
    s1.getComponents demo true ⟨1, 2⟩ [5] = .ok none ∧
    s1'.getComponents demo true (sequelHandles ⟨1, 2⟩) [5] = .ok (some [[some 50]]) := by
  obtain ⟨s, hs⟩ := Option.isSome_iff_exists.1 (show (runExec demo true 1 unspoilt).isSome = true by decide)
  have hx := runExec_sound hs
  obtain ⟨_, s', hx', hc, ho⟩ := C119_restore (dbg' := true) (cap' := 1) hx unspoilt_written unspoilt_wide (by decide)
  have h1 : ((runWell demo true 1 (sequel ++ unspoilt)).any fun s => decide (s.getComponents demo true ⟨1, 2⟩ [5] = .ok none)) = true := by
    decide
  obtain ⟨s1, hs1, h1⟩ := any_some h1
  have h2 : ((runExec demo true 1 (sequel' ++ (saved unspoilt).program.reverse)).any fun s =>
      decide (s.getComponents demo true (sequelHandles ⟨1, 2⟩) [5] = .ok (some [[some 50]]))) = true := by decide
  obtain ⟨s1', hs1', h2⟩ := any_some h2
  exact ⟨s, s', s1, s1', hx, hx'.exec, hc, ho, sequel_follows, runWell_sound hs1, runExec_sound hs1', of_decide_eq_true h1,
    of_decide_eq_true h2⟩

/-! ### Examples -/

/-- The hypotheses of `C120_same_future_partial`, with `C119_restore`: the eventful store and the one restored from it. -/
example : ∃ s s' f' s1 s1', Exec demo true 1 eventful s ∧ Exec demo true 5 (saved eventful).program.reverse s' ∧
    Copied demo true true s s' (alive eventful) (restoredAs eventful) ∧
    (∀ x, x ∈ alive (saved eventful).program.reverse ↔ ∃ e ∈ alive eventful, x = restoredAs eventful e) ∧
    Follows (restoredAs eventful) [.orderedAfter 3 ⟨3, 1⟩ ⟨2, 1⟩, .added ⟨3, 1⟩ [(4, [44])], .created ⟨3, 1⟩]
      [.orderedAfter 3 ⟨3, 1⟩ ⟨1, 1⟩, .added ⟨3, 1⟩ [(4, [44])], .created ⟨3, 1⟩] eventful f' ∧
    Exec demo true 1 ([.orderedAfter 3 ⟨3, 1⟩ ⟨2, 1⟩, .added ⟨3, 1⟩ [(4, [44])], .created ⟨3, 1⟩] ++ eventful) s1 ∧
    Exec demo true 5 ([.orderedAfter 3 ⟨3, 1⟩ ⟨1, 1⟩, .added ⟨3, 1⟩ [(4, [44])], .created ⟨3, 1⟩] ++ (saved eventful).program.reverse) s1' := by
  obtain ⟨s, hs⟩ := Option.isSome_iff_exists.1 (show (runExec demo true 1 eventful).isSome = true by decide)
  have hx := runExec_sound hs
  obtain ⟨_, s', hx', hc, ho⟩ := C119_restore (dbg' := true) (cap' := 5) hx (by unfold AllWritten; decide) eventful_wide (by decide)
  obtain ⟨s1, hs1⟩ := Option.isSome_iff_exists.1 (show (runExec demo true 1
    ([.orderedAfter 3 ⟨3, 1⟩ ⟨2, 1⟩, .added ⟨3, 1⟩ [(4, [44])], .created ⟨3, 1⟩] ++ eventful)).isSome = true by decide)
  obtain ⟨s1', hs1'⟩ := Option.isSome_iff_exists.1 (show (runExec demo true 5
    ([.orderedAfter 3 ⟨3, 1⟩ ⟨1, 1⟩, .added ⟨3, 1⟩ [(4, [44])], .created ⟨3, 1⟩] ++ (saved eventful).program.reverse)).isSome = true by decide)
  refine ⟨s, s', at' (restoredAs eventful) ⟨3, 1⟩ ⟨3, 1⟩, s1, s1', hx, hx'.exec, hc, ho, ?_, runExec_sound hs1, runExec_sound hs1'⟩
  have h1 : (.orderedAfter 3 ⟨3, 1⟩ ⟨1, 1⟩ : Event) = withHandles (at' (restoredAs eventful) ⟨3, 1⟩ ⟨3, 1⟩) (.orderedAfter 3 ⟨3, 1⟩ ⟨2, 1⟩) := by
    simp [withHandles, at', show restoredAs eventful ⟨2, 1⟩ = ⟨1, 1⟩ by decide]
  rw [h1]
  refine .call (k := [.added ⟨3, 1⟩ [(4, [44])], .created ⟨3, 1⟩]) (k' := [.added ⟨3, 1⟩ [(4, [44])], .created ⟨3, 1⟩]) (h := eventful)
    (.orderedAfter 3 ⟨3, 1⟩ ⟨2, 1⟩) ?_ rfl (by decide)
  exact .call (k' := [.created ⟨3, 1⟩]) (.added ⟨3, 1⟩ [(4, [44])]) (.created ⟨3, 1⟩ ⟨3, 1⟩ .start) rfl (by decide)

/-- Two entities, one of them with a component. -/
def startingPair : List Event := [.added ⟨0, 1⟩ [(4, [1])], .created ⟨1, 1⟩, .created ⟨0, 1⟩]

/-- The hypotheses of `C120_buildup`: the store after `startingPair` and the one restored from it, in which the entities have exchanged their ids. -/
example : ∃ s s' s1, SafeExec demo true 1 startingPair s ∧ SafeExec demo true 5 (saved startingPair).program.reverse s' ∧
    BuildsUp (saved startingPair).program.reverse ∧ Copied demo true true s s' (alive startingPair) (restoredAs startingPair) ∧
    (∀ x, x ∈ alive (saved startingPair).program.reverse ↔ ∃ e ∈ alive startingPair, x = restoredAs startingPair e) ∧
    SafeExec demo true 1 (.added ⟨1, 1⟩ [(1, [9])] :: startingPair) s1 ∧ BuildsUp (.added ⟨1, 1⟩ [(1, [9])] :: startingPair) ∧
    ∀ T, needs (world (saved startingPair).program.reverse) (withHandles (restoredAs startingPair) (.added ⟨1, 1⟩ [(1, [9])])) = some T → Wide demo true T := by
  obtain ⟨s, hs⟩ := Option.isSome_iff_exists.1 (show (runSafe demo true 1 startingPair).isSome = true by decide)
  obtain ⟨s1, hs1⟩ := Option.isSome_iff_exists.1 (show (runSafe demo true 1 (.added ⟨1, 1⟩ [(1, [9])] :: startingPair)).isSome = true by decide)
  have hx := runSafe_sound hs
  have hwide : ∀ e ∈ alive startingPair, (world startingPair).types e ≠ [] → Wide demo true ((world startingPair).types e) := by
    intro e he hne
    have hmem : e = ⟨1, 1⟩ ∨ e = ⟨0, 1⟩ := by
      have : alive startingPair = [⟨1, 1⟩, ⟨0, 1⟩] := by decide
      rw [this] at he
      simpa using he
    rcases hmem with rfl | rfl
    · exact absurd (by decide) hne
    · exact ⟨16383, by decide, by decide⟩
  obtain ⟨_, s', hx', hc, ho⟩ := C119_restore (dbg' := true) (cap' := 5) hx.exec (by unfold AllWritten; decide) hwide (by decide)
  refine ⟨s, s', s1, hx, hx', by decide, hc, ho, runSafe_sound hs1, by decide, fun T hT => ?_⟩
  have : T = [1] := by simpa using hT.symm.trans (show _ = some [1] by decide)
  subst this
  exact ⟨16383, by decide, by decide⟩

end Ecs.Props
