import Verif.Spec.HeapCalls

/-! When a call asks the allocator for memory. -/

namespace Ecs.Spec

/-- The store has room for a row of component set `T`: the set is registered, and one of its pages is not full or there is an unused
page. -/
def Room (s : Store) (T : List TypeId) : Prop :=
  ∃ (i : Nat) (a : Archetype), s.archs.archetypes[i]? = some a ∧ (∀ t, t ∈ a.ids ↔ t ∈ T) ∧
    (s.archs.freePages ≠ [] ∨ ∃ ps, s.archs.archPages[i]? = some ps ∧ ∃ p ∈ ps, ∃ pg, s.archs.pages[p]? = some pg ∧
      pg.hasFreeSpace = true)

/-- Performing the operations makes at least one request for memory, whatever the pointers and the heap are. -/
def AskSomething (ops : List HeapOp) : Prop :=
  ∀ p H p' H', ops.foldlM StorePtrs.caught p H = .ok p' H' → H.asked.length < H'.asked.length

/-- Performing the operations does nothing to the heap and to the pointers. -/
def AskNothing (ops : List HeapOp) : Prop :=
  ∀ p H, ops.foldlM StorePtrs.caught p H = .ok p H

/-- An order call has named group `g`. -/
def groupNamed (h : List Event) (g : Nat) : Prop :=
  ∃ e, .orderedLast g e ∈ h ∨ ∃ x, .orderedAfter g e x ∈ h ∨ .orderedBefore g e x ∈ h

/-- The call asks for memory exactly if `C`. -/
def AsksIff (U : Universe) (dbg : Bool) (s : Store) (c : Call) (C : Prop) : Prop :=
  (C → AskSomething (heapOps U dbg s c)) ∧ (¬ C → AskNothing (heapOps U dbg s c))

end Ecs.Spec
