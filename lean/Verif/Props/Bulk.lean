import Verif.Proofs.Bulk
import Verif.Props.Orders

/-! C123: programs can destroy or tag everything that a query finds. -/

namespace Ecs.Props
open Ecs Ecs.Spec

variable {U : Universe} {dbg : Bool} {cap : Nat} {h : List Event} {s : Store}

/-- **C123**, destroying, for `Exec`: collecting the entities that a component query finds and destroying them one after the other always
returns. Afterwards exactly they are dead; the others have their components, archetypes and tags; the groups are what is left of them, in
the same order; and the query finds nothing. (Missing: histories in which the known defects of the store show; there
`destroy_entity` itself may be undefined behaviour, `C24_counterexample`.) -/
theorem C123_destroy_found_partial (hx : Exec U dbg cap h s) {acc : Access} (hd : DistinctTypes acc) (old : List IterView) {fuel : Nat}
    (hf : (alive h).length < fuel) :
    ∃ items s', runComponentQueryWithEntities U dbg s acc old fuel = .ok items ∧ destroyFound U dbg s acc old fuel = .ok s' ∧
      Without U dbg h s (items.map (·.1)) s' ∧ ∀ old', runComponentQueryWithEntities U dbg s' acc old' fuel = .ok [] := by
  obtain ⟨items, h1, _, h2, h3, _⟩ := C31_visits_once_partial hx.loose hd old hf
  refine ⟨items, ?_⟩
  generalize hL : items.map (·.1) = L at h2 h3 ⊢
  have hin : ∀ e ∈ L, e ∈ alive h := fun e he => ((h3 e).1 he).1
  obtain ⟨s', h4, hx'⟩ := destroyed_run L h s h2 hin hx
  have hw := without_of hx hx'
  have hal := destroyed_alive L h (alive_nodup' hx)
  refine ⟨s', h1, ?_, hw, fun old' => ?_⟩
  · unfold destroyFound
    rw [h1, ok_bind, hL, h4]
  · have hlen : (alive (callsFor .destroyed L h)).length < fuel :=
      Nat.lt_of_le_of_lt ((List.subperm_of_subset (alive_nodup' hx') fun e he => ((hal e).1 he).1).length_le) hf
    obtain ⟨items', k1, _, _, k3, _⟩ := C31_visits_once_partial hx'.loose hd old' hlen
    rw [k1]
    cases items' with
    | nil => rfl
    | cons x l =>
      exfalso
      obtain ⟨hx1, a, hx2, hx3⟩ := (k3 x.1).1 (by simp)
      obtain ⟨hx4, hx5⟩ := (hal x.1).1 hx1
      rw [hw.archetype x.1 hx4 hx5] at hx2
      exact hx5 ((h3 x.1).2 ⟨hx4, a, hx2, hx3⟩)

/-- **C123**, destroying, in every state reached by calls that returned: if the program returns, exactly the entities found are dead, the
tags of the others are unchanged, and the groups are what is left of them. -/
theorem C123_destroy_found_returned (hx : LooseExec U dbg cap h s) {acc : Access} (hd : DistinctTypes acc) (old : List IterView) {fuel : Nat}
    (hf : (alive h).length < fuel) {s' : Store} (hs : destroyFound U dbg s acc old fuel = .ok s') :
    ∃ items, runComponentQueryWithEntities U dbg s acc old fuel = .ok items ∧ Gone dbg h s (items.map (·.1)) s' := by
  obtain ⟨items, h1, _, h2, h3, _⟩ := C31_visits_once_partial hx hd old hf
  unfold destroyFound at hs
  rw [h1, ok_bind] at hs
  exact ⟨items, h1, gone_of hx (destroyed_loose _ h s s' h2 (fun e he => ((h3 e).1 he).1) hx hs)⟩

/-- **C123**, tagging, in every state reached by calls that returned: collecting the entities that a component query finds and giving
each the tag always returns. Afterwards exactly they have the tag, besides those that had it. Nothing but the tags has changed. -/
theorem C123_tag_found (hx : LooseExec U dbg cap h s) {acc : Access} (hd : DistinctTypes acc) (old : List IterView) {fuel : Nat}
    (hf : (alive h).length < fuel) (tag : Nat) :
    ∃ items s', runComponentQueryWithEntities U dbg s acc old fuel = .ok items ∧ tagFound U dbg s acc old fuel tag = .ok s' ∧
      (∀ e ∈ items.map (·.1), s'.hasTag tag e = .ok true) ∧
      (∀ e ∈ alive h, ∀ tag', tag' ≠ tag ∨ e ∉ items.map (·.1) → s'.hasTag tag' e = s.hasTag tag' e) ∧ { s' with tags := s.tags } = s := by
  obtain ⟨items, h1, _, h2, h3, _⟩ := C31_visits_once_partial hx hd old hf
  have hin : ∀ e ∈ items.map (·.1), e ∈ alive h := fun e he => ((h3 e).1 he).1
  obtain ⟨s', h4, hx', h5⟩ := tagged_run tag (items.map (·.1)) h s hin hx
  refine ⟨items, s', h1, ?_, fun e he => ?_, fun e he tag' hc => ?_, h5⟩
  · unfold tagFound
    rw [h1, ok_bind, h4]
  · rw [C39_has_tag_is_last_change hx' tag (by rw [tagged_alive]; exact hin e he), tagged_last]
    rw [decide_eq_true (show tag = tag ∧ e ∈ items.map (·.1) from ⟨rfl, he⟩), Bool.true_or]
  · rw [C39_has_tag_is_last_change hx' tag' (by rw [tagged_alive]; exact he), tagged_last, C39_has_tag_is_last_change hx tag' he]
    rw [decide_eq_false (fun h' => hc.elim (fun h0 => h0 h'.1) fun h0 => h0 h'.2), Bool.false_or]

/-! ### Examples -/

/-- Four entities; three have a component of type 4, one of these also has one of type 1. -/
def crowd : List Event :=
  [.orderedLast 3 ⟨2, 1⟩, .orderedLast 3 ⟨1, 1⟩, .orderedLast 3 ⟨0, 1⟩, .tagged 7 ⟨3, 1⟩, .added ⟨2, 1⟩ [(4, [12])], .added ⟨1, 1⟩ [(1, [5])],
   .added ⟨0, 1⟩ [(4, [10]), (1, [11])], .created ⟨3, 1⟩, .created ⟨2, 1⟩, .created ⟨1, 1⟩, .created ⟨0, 1⟩]

/-- The hypotheses of the theorems, and what the programs do: entities 0 and 2 are found. -/
example : ∃ s items s' s'', Exec demo true 1 crowd s ∧ DistinctTypes (.readonly [4]) ∧ (alive crowd).length < 5 ∧
    runComponentQueryWithEntities demo true s (.readonly [4]) [] 5 = .ok items ∧ items.map (·.1) = [⟨0, 1⟩, ⟨2, 1⟩] ∧
    destroyFound demo true s (.readonly [4]) [] 5 = .ok s' ∧ s'.getFirstOrdered 3 = .ok (some ⟨1, 1⟩) ∧
    tagFound demo true s (.readonly [4]) [] 5 7 = .ok s'' ∧ s''.hasTag 7 ⟨2, 1⟩ = .ok true ∧ s''.hasTag 7 ⟨1, 1⟩ = .ok false := by
  have h : ((runExec demo true 1 crowd).any fun s => okAnd (runComponentQueryWithEntities demo true s (.readonly [4]) [] 5) fun items =>
      decide (items.map (·.1) = [⟨0, 1⟩, ⟨2, 1⟩]) && (okAnd (destroyFound demo true s (.readonly [4]) [] 5) (fun s' =>
        decide (s'.getFirstOrdered 3 = .ok (some ⟨1, 1⟩))) && okAnd (tagFound demo true s (.readonly [4]) [] 5 7) fun s'' =>
        decide (s''.hasTag 7 ⟨2, 1⟩ = .ok true) && decide (s''.hasTag 7 ⟨1, 1⟩ = .ok false))) = true := by decide
  obtain ⟨s, hs, h⟩ := any_some h
  obtain ⟨items, h1, h⟩ := okAnd_iff h
  simp only [Bool.and_eq_true, decide_eq_true_eq] at h
  obtain ⟨h2, h3, h4⟩ := h
  obtain ⟨s', h3, h5⟩ := okAnd_iff h3
  obtain ⟨s'', h4, h6⟩ := okAnd_iff h4
  simp only [Bool.and_eq_true, decide_eq_true_eq] at h5 h6
  exact ⟨s, items, s', s'', runExec_sound hs, by decide, by decide, h1, h2, h3, h5, h4, h6.1, h6.2⟩

end Ecs.Props
