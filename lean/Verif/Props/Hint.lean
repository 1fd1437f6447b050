import Verif.Proofs.HintSee
import Verif.Proofs.Independent
import Verif.Spec.Run

/-! **C79** The initial capacity of a store is a hint: a program that runs with one capacity runs with every other, gets the same
handles and reads the same. -/

namespace Ecs.Props
open Spec

variable {U : Universe} {dbg : Bool} {cap cap' : Nat} {h : List Event} {s s' : Store}

/-- **C79** What a program does with a store of capacity `cap` it can do with a store of any capacity `cap'` accepted by
`with_capacity`: all calls return, with the same handles, and at the end nothing but the capacity tells the stores apart. (The
entity and ordered queries may read uninitialised memory in one of them: see `C79_capacity_shows`.) -/
theorem C79_any_capacity (hx : LooseExec U dbg cap h s) (ho : ownHandles h) {s0 : Store}
    (hs : Store.withCapacity dbg cap' = .ok s0) : ∃ s', LooseExec U dbg cap' h s' ∧ SameFor U dbg (handles h) s s' := by
  obtain ⟨s', hx', hT⟩ := Twins.exists_twin hx ho hs
  exact ⟨s', hx', hT.sameFor hx hx'⟩

theorem loose_runs (hx : LooseExec U dbg cap h s) : Runs U dbg cap h s := by
  induction hx with
  | init hs => exact .init hs
  | step ev _ _ hr ih => exact .step ev ih hr

theorem sameCall_refl (ev : Event) : SameCall ev ev := by
  cases ev <;> trivial

theorem loose_unique (hx : LooseExec U dbg cap h s) (hy : LooseExec U dbg cap h s') : s = s' :=
  (same_runs (loose_runs hx) (loose_runs hy) (List.forall₂_same.2 fun ev _ => sameCall_refl ev)).1

theorem loose_start (hx : LooseExec U dbg cap h s) : ∃ s0, Store.withCapacity dbg cap = .ok s0 := by
  induction hx with
  | init hs => exact ⟨_, hs⟩
  | step _ _ _ _ ih => exact ih

theorem loose_twins (hx : LooseExec U dbg cap h s) (hx' : LooseExec U dbg cap' h s') (ho : ownHandles h) : Twins s s' := by
  obtain ⟨s0, hs⟩ := loose_start hx'
  obtain ⟨t, ht, hT⟩ := Twins.exists_twin hx ho hs
  rw [loose_unique hx' ht]
  exact hT

/-- **C79** Two stores of different capacities, after the same calls: the program cannot tell them apart. -/
theorem C79_capacity_is_a_hint (hx : LooseExec U dbg cap h s) (hx' : LooseExec U dbg cap' h s') (ho : ownHandles h) :
    SameFor U dbg (handles h) s s' := (loose_twins hx hx' ho).sameFor hx hx'

/-- **C79** A call returns in one of them exactly if it returns in the other. -/
theorem C79_same_calls_return (hx : LooseExec U dbg cap h s) (hx' : LooseExec U dbg cap' h s') {ev : Event}
    (hl : Loose (world h) ev) (ho : ownHandles (ev :: h)) :
    (∃ t, Returns U dbg s ev t) ↔ ∃ t', Returns U dbg s' ev t' := by
  have ho' := Twins.ownHandles_tail ho
  constructor
  · rintro ⟨t, hr⟩
    obtain ⟨t', hr', _⟩ := (loose_twins hx hx' ho').step hx hx' hl ho hr
    exact ⟨t', hr'⟩
  · rintro ⟨t', hr'⟩
    obtain ⟨t, hr, _⟩ := (loose_twins hx' hx ho').step hx' hx hl ho hr'
    exact ⟨t, hr⟩

/-- Growth, a change of type set, a swap removal, a reused id, a tag and a group. -/
def hinted : List Event :=
  [.orderedLast 7 ⟨2, 1⟩, .tagged 5 ⟨2, 1⟩, .added ⟨0, 2⟩ [(1, [7])], .created ⟨0, 2⟩, .destroyed ⟨0, 1⟩, .orderedLast 7 ⟨1, 1⟩,
   .added ⟨2, 1⟩ [(1, [2])], .created ⟨2, 1⟩, .added ⟨1, 1⟩ [(1, [2])], .created ⟨1, 1⟩, .added ⟨0, 1⟩ [(1, [1])], .created ⟨0, 1⟩]

/-- The hypotheses of the theorems above: the store of capacity 1 has grown twice, that of capacity 10 has not. -/
example : ∃ s s', LooseExec demo true 1 hinted s ∧ LooseExec demo true 10 hinted s' ∧ ownHandles hinted ∧
    s.entitiesCapacity = 4 ∧ s'.entitiesCapacity = 10 ∧ s.getComponents demo true ⟨0, 2⟩ [1] = .ok (some [[some 7]]) := by
  have h : ((runLoose demo true 1 hinted).any fun s =>
      decide (s.entitiesCapacity = 4 ∧ s.getComponents demo true ⟨0, 2⟩ [1] = .ok (some [[some 7]]))) = true := by decide +kernel
  have h' : ((runLoose demo true 10 hinted).any fun s => decide (s.entitiesCapacity = 10)) = true := by decide +kernel
  obtain ⟨s, hs, h⟩ := any_some h
  obtain ⟨s', hs', h'⟩ := any_some h'
  have h := of_decide_eq_true h
  exact ⟨s, s', runLoose_sound hs, runLoose_sound hs', by simp [hinted, ownHandles, handles], h.1, of_decide_eq_true h', h.2⟩

/-- Two entities, the second without components. -/
def bareSecond : List Event := [.created ⟨1, 1⟩, .added ⟨0, 1⟩ [(1, [7])], .created ⟨0, 1⟩]

/-- **C79**, violated by one defect: an entity query looks at the row recorded for an entity without components. A store that had to
grow has uninitialised memory there, a store that was large enough has zeroes. -/
theorem C79_capacity_shows : ∃ s s', LooseExec demo true 1 bareSecond s ∧ LooseExec demo true 10 bareSecond s' ∧
    ownHandles bareSecond ∧
    runEntityQuery demo true s [⟨0, 1⟩, ⟨1, 1⟩] (.readonly [1]) [] 5 = .error (.ub .uninit) ∧
    (∃ l, runEntityQuery demo true s' [⟨0, 1⟩, ⟨1, 1⟩] (.readonly [1]) [] 5 = .ok l) := by
  have h : ((runLoose demo true 1 bareSecond).any fun s =>
      decide (runEntityQuery demo true s [⟨0, 1⟩, ⟨1, 1⟩] (.readonly [1]) [] 5 = .error (.ub .uninit))) = true := by decide +kernel
  have h' : ((runLoose demo true 10 bareSecond).any fun s =>
      (runEntityQuery demo true s [⟨0, 1⟩, ⟨1, 1⟩] (.readonly [1]) [] 5).toOption.isSome) = true := by decide +kernel
  obtain ⟨s, hs, h⟩ := any_some h
  obtain ⟨s', hs', h'⟩ := any_some h'
  refine ⟨s, s', runLoose_sound hs, runLoose_sound hs', by simp [bareSecond, ownHandles, handles], of_decide_eq_true h, ?_⟩
  cases hr : runEntityQuery demo true s' [⟨0, 1⟩, ⟨1, 1⟩] (.readonly [1]) [] 5 with
  | error _ => rw [hr] at h'; cases h'
  | ok l => exact ⟨l, rfl⟩

end Ecs.Props
