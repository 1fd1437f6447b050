import Verif.Proofs.Bare
import Verif.Props.Independent

/-! C115: components do not influence which handles exist, the tags or the order groups. -/

namespace Ecs.Props
open Spec

variable {U : Universe} {dbg : Bool} {cap : Nat} {h h' : List Event} {s s' : Store}

/-- **C115** Take any calls with any arguments, valid or not, that all returned, leave out those about components, and create
entities without components. All these calls return too, creations return the same handles, and in the end the same entities
are alive, with the same tags and the same places in the order groups. -/
theorem C115_left_out (hx : Runs U dbg cap h s) :
    ∃ s', Runs U dbg cap (componentless h) s' ∧ handles (componentless h) = handles h ∧ SameWithoutComponents dbg s s' := by
  obtain ⟨s', h1, h2⟩ := Store.Bared.runs hx
  exact ⟨s', h1, handles_bare h, h2.sees⟩

/-- **C115** Two programs that differ only in what they do with components, and whose calls all return, get the same handles, have
the same entities alive, the same tags and the same groups. The types of the components may be quite different, too. -/
theorem C115_noninterference {U' : Universe} (hx : Runs U dbg cap h s) (hy : Runs U' dbg cap h' s')
    (hs : List.Forall₂ SameCall (componentless h) (componentless h')) :
    handles h = handles h' ∧ SameWithoutComponents dbg s s' := by
  obtain ⟨a, h1, h2⟩ := Store.Bared.runs hx
  obtain ⟨b, h3, h4⟩ := Store.Bared.runs hy
  obtain ⟨rfl, h6⟩ := same_runs h1 (Store.Bared.other_types h3) hs
  rw [handles_bare, handles_bare] at h6
  have hc := h2.sees (dbg := dbg)
  have hc' := h4.sees (dbg := dbg)
  exact ⟨h6, hc'.1.symm.trans hc.1, fun e => (hc'.2 e).symm.trans (hc.2 e), fun t e => (hc'.3 t e).symm.trans (hc.3 t e),
    fun g e => (hc'.4 g e).symm.trans (hc.4 g e), fun g e => (hc'.5 g e).symm.trans (hc.5 g e),
    fun g => (hc'.6 g).symm.trans (hc.6 g), fun g => (hc'.7 g).symm.trans (hc.7 g)⟩

/-- **C115** In two such programs every further creation without components and every further call about a tag or group ends the
same way, whether it returns, panics or is undefined. -/
theorem C115_same_faults {U' : Universe} (hx : Runs U dbg cap h s) (hy : Runs U' dbg cap h' s')
    (hs : List.Forall₂ SameCall (componentless h) (componentless h')) (c : Call) (hc : needsNoComponents c = true) :
    outcome U dbg s c = outcome U' dbg s' c := by
  obtain ⟨a, h1, h2⟩ := Store.Bared.runs hx
  obtain ⟨b, h3, h4⟩ := Store.Bared.runs hy
  obtain ⟨rfl, _⟩ := same_runs h1 (Store.Bared.other_types h3) hs
  exact (h2.outcome (U := U) c hc).symm.trans ((Store.Bared.outcome_types c hc).trans (h4.outcome c hc))

/-- **C115** So which entities have a tag follows from the creations, the destructions and the calls about this tag alone:
programs that agree in these agree about the tag, whatever they do with components, groups and the other tags. -/
theorem C115_one_tag {U' : Universe} (tag : Nat) (hx : Runs U dbg cap h s) (hy : Runs U' dbg cap h' s')
    (hs : List.Forall₂ SameCall (only (· == tag) (fun _ => false) (componentless h))
      (only (· == tag) (fun _ => false) (componentless h'))) (e : Entity) : s.hasTag tag e = s'.hasTag tag e := by
  obtain ⟨a, h1, h2⟩ := Store.Bared.runs hx
  obtain ⟨b, h3, h4⟩ := Store.Bared.runs hy
  obtain ⟨a', h5, h6⟩ := Store.Part.runs (kt := (· == tag)) (kg := fun _ => false) h1
  obtain ⟨b', h7, h8⟩ := Store.Part.runs (kt := (· == tag)) (kg := fun _ => false) (Store.Bared.other_types (U := U) h3)
  obtain ⟨rfl, _⟩ := same_runs h5 h7 hs
  rw [← (h2.sees (dbg := dbg)).has, ← (h4.sees (dbg := dbg)).has,
    ← ((h6.sees (U := U) (dbg := dbg)).2.1 tag (beq_self_eq_true tag)).has, ← ((h8.sees (U := U) (dbg := dbg)).2.1 tag (beq_self_eq_true tag)).has]

/-- **C115** Likewise the order of a group follows from the creations, the destructions and the calls about this group alone. -/
theorem C115_one_group {U' : Universe} (g : Nat) (hx : Runs U dbg cap h s) (hy : Runs U' dbg cap h' s')
    (hs : List.Forall₂ SameCall (only (fun _ => false) (· == g) (componentless h))
      (only (fun _ => false) (· == g) (componentless h'))) :
    s.getFirstOrdered g = s'.getFirstOrdered g ∧ s.getLastOrdered g = s'.getLastOrdered g ∧
    ∀ e, s.getNextOrdered g e = s'.getNextOrdered g e ∧ s.getPreviousOrdered g e = s'.getPreviousOrdered g e := by
  obtain ⟨a, h1, h2⟩ := Store.Bared.runs hx
  obtain ⟨b, h3, h4⟩ := Store.Bared.runs hy
  obtain ⟨a', h5, h6⟩ := Store.Part.runs (kt := fun _ => false) (kg := (· == g)) h1
  obtain ⟨b', h7, h8⟩ := Store.Part.runs (kt := fun _ => false) (kg := (· == g)) (Store.Bared.other_types (U := U) h3)
  obtain ⟨rfl, _⟩ := same_runs h5 h7 hs
  have k := (h6.sees (U := U) (dbg := dbg)).2.2.1 g (beq_self_eq_true g)
  have k' := (h8.sees (U := U) (dbg := dbg)).2.2.1 g (beq_self_eq_true g)
  have m := h2.sees (dbg := dbg)
  have m' := h4.sees (dbg := dbg)
  exact ⟨by rw [← m.first, ← m'.first, ← k.first, ← k'.first], by rw [← m.last, ← m'.last, ← k.last, ← k'.last],
    fun e => ⟨by rw [← m.next, ← m'.next, ← k.next, ← k'.next], by rw [← m.previous, ← m'.previous, ← k.previous, ← k'.previous]⟩⟩

/-- **C115** Why destructions are excepted in `C115_same_faults`: destroying a handle a second time returns in a release build if the
entity never had components, and panics if it had some (`destroy_entity` first removes the row recorded for the id). -/
theorem C115_destroy_differs : ∃ s s', Runs demo false 1 [.destroyed ⟨0, 1⟩, .added ⟨0, 1⟩ [(1, [3])], .created ⟨1, 1⟩, .created ⟨0, 1⟩] s ∧
    Runs demo false 1 [.destroyed ⟨0, 1⟩, .created ⟨1, 1⟩, .created ⟨0, 1⟩] s' ∧
    outcome demo false s (.destroy ⟨0, 1⟩) = .error (.panic .indexOutOfBounds) ∧ outcome demo false s' (.destroy ⟨0, 1⟩) = .ok () := by
  have h : ((runFree demo false 1 [.destroyed ⟨0, 1⟩, .added ⟨0, 1⟩ [(1, [3])], .created ⟨1, 1⟩, .created ⟨0, 1⟩]).any fun s =>
      decide (outcome demo false s (.destroy ⟨0, 1⟩) = .error (.panic .indexOutOfBounds))) = true := by decide +kernel
  have h' : ((runFree demo false 1 [.destroyed ⟨0, 1⟩, .created ⟨1, 1⟩, .created ⟨0, 1⟩]).any fun s =>
      decide (outcome demo false s (.destroy ⟨0, 1⟩) = .ok ())) = true := by decide +kernel
  obtain ⟨s, hs, h⟩ := any_some h
  obtain ⟨s', hs', h'⟩ := any_some h'
  exact ⟨s, s', free_runs (runFree_sound hs), free_runs (runFree_sound hs'), of_decide_eq_true h, of_decide_eq_true h'⟩

/-- The program `decorated` of C78 with other components. -/
def otherwise : List Event :=
  [.assigned ⟨2, 1⟩ [(1, [6])], .tagged 5 ⟨2, 1⟩, .created ⟨0, 2⟩, .destroyed ⟨0, 1⟩, .added ⟨0, 1⟩ [(1, [3])],
   .orderedBefore 7 ⟨2, 1⟩ ⟨0, 1⟩, .added ⟨2, 1⟩ [(1, [4])], .created ⟨2, 1⟩, .orderedLast 7 ⟨1, 1⟩, .orderedLast 7 ⟨0, 1⟩,
   .tagged 5 ⟨1, 1⟩, .created ⟨1, 1⟩, .tagged 6 ⟨0, 1⟩, .created ⟨0, 1⟩]

/-- The hypotheses of the theorems above; the components of the two programs do differ. -/
example : ∃ s s', Runs demo true 1 decorated s ∧ Runs demo true 1 otherwise s' ∧
    List.Forall₂ SameCall (componentless decorated) (componentless otherwise) ∧
    s.hasTag 5 ⟨2, 1⟩ = .ok true ∧ s'.hasTag 5 ⟨2, 1⟩ = .ok true ∧ s.getFirstOrdered 7 = .ok (some ⟨2, 1⟩) ∧
    s'.getFirstOrdered 7 = .ok (some ⟨2, 1⟩) ∧ s.getComponents demo true ⟨0, 2⟩ [1] = .ok (some [[some 7]]) ∧
    s'.getComponents demo true ⟨0, 2⟩ [1] = .ok none := by
  have h : ((runFree demo true 1 decorated).any fun s =>
      decide (s.hasTag 5 ⟨2, 1⟩ = .ok true ∧ s.getFirstOrdered 7 = .ok (some ⟨2, 1⟩) ∧
        s.getComponents demo true ⟨0, 2⟩ [1] = .ok (some [[some 7]]))) = true := by decide +kernel
  have h' : ((runFree demo true 1 otherwise).any fun s =>
      decide (s.hasTag 5 ⟨2, 1⟩ = .ok true ∧ s.getFirstOrdered 7 = .ok (some ⟨2, 1⟩) ∧
        s.getComponents demo true ⟨0, 2⟩ [1] = .ok none)) = true := by decide +kernel
  obtain ⟨s, hs, h⟩ := any_some h
  obtain ⟨s', hs', h'⟩ := any_some h'
  have h := of_decide_eq_true h
  have h' := of_decide_eq_true h'
  exact ⟨s, s', free_runs (runFree_sound hs), free_runs (runFree_sound hs'),
    List.forall₂_iff_zip.2 ⟨rfl, fun hm => by
      simp only [componentless, decorated, otherwise, bareCall, List.filterMap] at hm
      simp at hm
      rcases hm with ⟨rfl, rfl⟩ | ⟨rfl, rfl⟩ | ⟨rfl, rfl⟩ | ⟨rfl, rfl⟩ | ⟨rfl, rfl⟩ | ⟨rfl, rfl⟩ | ⟨rfl, rfl⟩ | ⟨rfl, rfl⟩ | ⟨rfl, rfl⟩ |
        ⟨rfl, rfl⟩ | ⟨rfl, rfl⟩ <;> trivial⟩,
    h.1, h'.1, h.2.1, h'.2.1, h.2.2, h'.2.2⟩

end Ecs.Props
