import Verif.Model.Heap

/-! What decides the sizes of the requests that a store makes to the allocator. -/

namespace Ecs

/-- The capacity after an operation that starts with capacity `c`. -/
def HeapOp.capacity (c : Nat) : HeapOp → Nat
  | .create true => max c 1 * 2
  | _ => c

/-- The numbers of types of the archetypes that an operation makes. -/
def HeapOp.counts : HeapOp → List Nat
  | .place temporary archetype _ => temporary.toList ++ archetype.toList.map (·.1)
  | _ => []

end Ecs
