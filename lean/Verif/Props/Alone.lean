import Verif.Proofs.Alone
import Verif.Props.Independent

/-! C114: every tag and every order group depends on the calls about it only, not on those about other tags and groups. -/

namespace Ecs.Props
open Spec

variable {U : Universe} {dbg : Bool} {cap : Nat} {h h' : List Event} {s s' : Store}

/-- **C114** Take any calls with any arguments, valid or not, that all returned, and leave out those about tags outside `kt` and
about groups outside `kg`. The remaining calls return too, creations return the same handles, and in the end all entities,
components, archetypes and query results are the same, and so is everything about the tags of `kt` and the groups of `kg`; no
other tag is on, and no other group has entities. -/
theorem C114_left_out (kt kg : Nat → Bool) (hx : Runs U dbg cap h s) : ∃ s', Runs U dbg cap (only kt kg h) s' ∧
    SeesSame U dbg s s' ∧ (∀ tag, kt tag = true → SameOneTag tag U dbg s s') ∧ (∀ g, kg g = true → SameOneGroup g U dbg s s') ∧
    (∀ tag e, kt tag = false → s'.hasTag tag e = .ok false) ∧ (∀ g, kg g = false → s'.getFirstOrdered g = .ok none) := by
  obtain ⟨s', h1, h2⟩ := Store.Part.runs (kt := kt) (kg := kg) hx
  exact ⟨s', h1, h2.sees⟩

/-- **C114** Two programs that differ only in their calls about tags outside `kt` and groups outside `kg`, and whose calls all
return, get the same handles and see the same entities, components, query results, tags of `kt` and groups of `kg`. -/
theorem C114_noninterference (kt kg : Nat → Bool) (hx : Runs U dbg cap h s) (hy : Runs U dbg cap h' s')
    (hs : List.Forall₂ SameCall (only kt kg h) (only kt kg h')) : handles h = handles h' ∧ SeesSame U dbg s s' ∧
    (∀ tag, kt tag = true → SameOneTag tag U dbg s s') ∧ (∀ g, kg g = true → SameOneGroup g U dbg s s') := by
  obtain ⟨a, h1, h2⟩ := Store.Part.runs (kt := kt) (kg := kg) hx
  obtain ⟨b, h3, h4⟩ := Store.Part.runs (kt := kt) (kg := kg) hy
  obtain ⟨rfl, h6⟩ := same_runs h1 h3 hs
  rw [handles_only, handles_only] at h6
  obtain ⟨hc, ht, hg, _⟩ := h2.sees (U := U) (dbg := dbg)
  obtain ⟨hc', ht', hg', _⟩ := h4.sees (U := U) (dbg := dbg)
  refine ⟨h6, ⟨hc.1.trans hc'.1.symm,
    fun e => (hc.2 e).trans (hc'.2 e).symm, fun e => (hc.3 e).trans (hc'.3 e).symm,
    fun e ts => (hc.4 e ts).trans (hc'.4 e ts).symm, fun e ts => (hc.5 e ts).trans (hc'.5 e ts).symm,
    fun a b c => (hc.6 a b c).trans (hc'.6 a b c).symm, fun a b c => (hc.7 a b c).trans (hc'.7 a b c).symm,
    fun a b c d => (hc.8 a b c d).trans (hc'.8 a b c d).symm, fun a b c d => (hc.9 a b c d).trans (hc'.9 a b c d).symm⟩,
    fun tag hk => ?_, fun g hk => ?_⟩
  · have h1 := ht tag hk
    have h2 := ht' tag hk
    exact ⟨fun e => (h2.1 e).symm.trans (h1.1 e), fun a b c => (h2.2 a b c).symm.trans (h1.2 a b c)⟩
  · have h1 := hg g hk
    have h2 := hg' g hk
    exact ⟨fun e => (h2.1 e).symm.trans (h1.1 e), fun e => (h2.2 e).symm.trans (h1.2 e), h2.3.symm.trans h1.3,
      h2.4.symm.trans h1.4, fun a b c => (h2.5 a b c).symm.trans (h1.5 a b c), fun a b c => (h2.6 a b c).symm.trans (h1.6 a b c)⟩

/-- **C114** In two such programs every further call also ends the same way, whether it returns, panics or is undefined, unless it
creates or destroys an entity or is about a tag or group outside `kt` and `kg`. -/
theorem C114_same_faults (kt kg : Nat → Bool) (hx : Runs U dbg cap h s) (hy : Runs U dbg cap h' s')
    (hs : List.Forall₂ SameCall (only kt kg h) (only kt kg h')) (c : Call) (hc : stays kt kg c = true) :
    outcome U dbg s c = outcome U dbg s' c := by
  obtain ⟨a, h1, h2⟩ := Store.Part.runs (kt := kt) (kg := kg) hx
  obtain ⟨b, h3, h4⟩ := Store.Part.runs (kt := kt) (kg := kg) hy
  obtain ⟨rfl, _⟩ := same_runs h1 h3 hs
  exact (h2.outcome c hc).symm.trans (h4.outcome c hc)

/-- **C114** A creation or destruction that returns in a program also returns in the program without the calls about the other
tags and groups, a creation with the same handle. -/
theorem C114_fewer_faults (kt kg : Nat → Bool) (hx : Runs U dbg cap h s) : ∃ s', Runs U dbg cap (only kt kg h) s' ∧
    (∀ s1 e, s.createEntity dbg = .ok (s1, e) → ∃ s2, s'.createEntity dbg = .ok (s2, e)) ∧
    (∀ a s1 e, s.createEntityWithArchetype dbg a = .ok (s1, e) → ∃ s2, s'.createEntityWithArchetype dbg a = .ok (s2, e)) ∧
    ∀ e s1, s.destroyEntity dbg e = .ok s1 → ∃ s2, s'.destroyEntity dbg e = .ok s2 := by
  obtain ⟨s', h1, h2⟩ := Store.Part.runs (kt := kt) (kg := kg) hx
  refine ⟨s', h1, fun s1 e hr => ?_, fun a s1 e hr => ?_, fun e s1 hr => ?_⟩
  · obtain ⟨⟨s2, e'⟩, h3, _, h4⟩ := h2.create _ hr
    cases h4
    exact ⟨s2, h3⟩
  · obtain ⟨⟨s2, e'⟩, h3, _, h4⟩ := h2.createWith a _ hr
    cases h4
    exact ⟨s2, h3⟩
  · obtain ⟨s2, h3, _⟩ := h2.destroyed e _ hr
    exact ⟨s2, h3⟩

/-- **C114** Why destructions are excepted in `C114_same_faults`: in a release build, destroying a handle made up for another store
is undefined if some group exists and returns if none does. -/
theorem C114_destroy_differs : ∃ s s', Runs demo false 1 [.orderedLast 8 ⟨0, 1⟩, .created ⟨0, 1⟩] s ∧
    Runs demo false 1 (only (fun _ => true) (fun _ => false) [.orderedLast 8 ⟨0, 1⟩, .created ⟨0, 1⟩]) s' ∧
    outcome demo false s (.destroy ⟨5, 1⟩) = .error (.ub .oob) ∧ outcome demo false s' (.destroy ⟨5, 1⟩) = .ok () := by
  have h : ((runFree demo false 1 [.orderedLast 8 ⟨0, 1⟩, .created ⟨0, 1⟩]).any fun s =>
      decide (outcome demo false s (.destroy ⟨5, 1⟩) = .error (.ub .oob))) = true := by decide +kernel
  have h' : ((runFree demo false 1 [.created ⟨0, 1⟩]).any fun s =>
      decide (outcome demo false s (.destroy ⟨5, 1⟩) = .ok ())) = true := by decide +kernel
  obtain ⟨s, hs, h⟩ := any_some h
  obtain ⟨s', hs', h'⟩ := any_some h'
  exact ⟨s, s', free_runs (runFree_sound hs), free_runs (runFree_sound hs'), of_decide_eq_true h, of_decide_eq_true h'⟩

/-- The program `decorated` of C78 with another group and other tags beside tag 5, before, between and after its calls. -/
def crowded : List Event :=
  [.unordered 8 ⟨1, 1⟩, .tagged 5 ⟨2, 1⟩, .added ⟨0, 2⟩ [(1, [7])], .created ⟨0, 2⟩, .orderedLast 8 ⟨1, 1⟩, .destroyed ⟨0, 1⟩,
   .tagged 3 ⟨0, 1⟩, .created ⟨2, 1⟩, .orderedAfter 6 ⟨1, 1⟩ ⟨0, 1⟩, .orderedLast 6 ⟨0, 1⟩, .tagged 5 ⟨1, 1⟩, .added ⟨1, 1⟩ [(1, [2])],
   .untagged 4 ⟨1, 1⟩, .tagged 4 ⟨1, 1⟩, .created ⟨1, 1⟩, .tagged 4 ⟨0, 1⟩, .created ⟨0, 1⟩]

/-- The hypotheses of the theorems above for tag 5: the two programs agree about tag 5 and differ in tags 4 and 6 and in groups 6
to 8. -/
example : ∃ s s', Runs demo true 1 decorated s ∧ Runs demo true 1 crowded s' ∧
    List.Forall₂ SameCall (only (· == 5) (fun _ => false) decorated) (only (· == 5) (fun _ => false) crowded) ∧
    s.hasTag 5 ⟨2, 1⟩ = .ok true ∧ s'.hasTag 5 ⟨2, 1⟩ = .ok true ∧ s.hasTag 5 ⟨0, 2⟩ = .ok false ∧
    s.getFirstOrdered 7 = .ok (some ⟨2, 1⟩) ∧ s'.getFirstOrdered 7 = .ok none ∧ s'.getFirstOrdered 6 = .ok (some ⟨1, 1⟩) := by
  have h : ((runFree demo true 1 decorated).any fun s => decide (s.hasTag 5 ⟨2, 1⟩ = .ok true ∧ s.hasTag 5 ⟨0, 2⟩ = .ok false ∧
      s.getFirstOrdered 7 = .ok (some ⟨2, 1⟩))) = true := by decide +kernel
  have h' : ((runFree demo true 1 crowded).any fun s => decide (s.hasTag 5 ⟨2, 1⟩ = .ok true ∧
      s.getFirstOrdered 7 = .ok none ∧ s.getFirstOrdered 6 = .ok (some ⟨1, 1⟩))) = true := by decide +kernel
  obtain ⟨s, hs, h⟩ := any_some h
  obtain ⟨s', hs', h'⟩ := any_some h'
  have h := of_decide_eq_true h
  have h' := of_decide_eq_true h'
  exact ⟨s, s', free_runs (runFree_sound hs), free_runs (runFree_sound hs'),
    List.forall₂_iff_zip.2 ⟨rfl, fun hm => by
      simp only [only, decorated, crowded, concernsOnly, List.filter] at hm
      simp at hm
      rcases hm with ⟨rfl, rfl⟩ | ⟨rfl, rfl⟩ | ⟨rfl, rfl⟩ | ⟨rfl, rfl⟩ | ⟨rfl, rfl⟩ | ⟨rfl, rfl⟩ | ⟨rfl, rfl⟩ | ⟨rfl, rfl⟩ | ⟨rfl, rfl⟩ <;>
        trivial⟩,
    h.1, h'.1, h.2.1, h.2.2, h'.2⟩

end Ecs.Props
