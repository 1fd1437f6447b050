import Verif.Model.Refusal

/-! Notions for C102. -/

namespace Ecs

/-- No block of the heap has the null address 0, and none will. -/
def NoNull (H : Heap) : Prop := 0 < H.next ∧ ∀ b ∈ H.blocks, b.1 ≠ 0

/-- A request between the heaps `H` and `H'` is refused. -/
def RefusedIn (R : Nat → Bool) (H H' : Heap) : Prop := ∃ i, H.asked.length ≤ i ∧ i < H'.asked.length ∧ R i = true

/-- The heap after a run, whether it failed or not. -/
def heapAfter {α : Type} : EStateM.Result Fault Heap α → Heap
  | .ok _ H => H
  | .error _ H => H

/-- Operations that do not make a page. -/
def HeapOp.noPage : HeapOp → Prop
  | .place _ _ page => page = false
  | _ => True

end Ecs
