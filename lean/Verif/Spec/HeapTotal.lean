import Verif.Spec.HeapSizes
import Verif.Spec.HeapCalls

/-! How many bytes a store has asked the allocator for, in all. -/

namespace Ecs

/-- The sizes of all requests made so far, added up. (Blocks that were given back are counted too.) -/
def Heap.total (H : Heap) : Nat := (H.asked.map fun q => q.1 * q.2).sum

namespace HeapOp

/-- The bytes that an operation asks for to store component types (48 for each type of a temporary archetype, 56 for each type of
an archetype that is kept, with its layout) and rows (one page). -/
def extra : HeapOp → Nat
  | .place temporary archetype page =>
    48 * temporary.getD 0 + 56 * (archetype.map (·.1)).getD 0 + if page then 16384 else 0
  | _ => 0

/-- The operation registers a tag. -/
def isTag : HeapOp → Bool
  | .tag _ => true
  | _ => false

/-- The operation registers an order group. -/
def isGroup : HeapOp → Bool
  | .group _ => true
  | _ => false

end HeapOp
end Ecs
