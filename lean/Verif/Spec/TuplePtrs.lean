import Verif.Spec.Address
import Verif.Model.TuplePtrs

/-! When a place in a page can be referred to as a component. -/

namespace Ecs.Spec

/-- The bytes of a value of type `t` at this place are inside the page, the address is not 0 and suits the alignment of the type. -/
def ValidAt (U : Universe) (base : Nat → Nat) (t : TypeId) (r : Ref) : Prop :=
  r.off + U.size t ≤ PAGE_SIZE ∧ r.address base ≠ 0 ∧ AlignedAt U base t r

instance (U : Universe) (base : Nat → Nat) (t : TypeId) (r : Ref) : Decidable (ValidAt U base t r) := by
  unfold ValidAt; infer_instance

/-- The tuples of an access have instances of the macro: at most 12 types each. -/
def HasInstances : Access → Prop
  | .readonly ts | .write ts => ts.length ≤ 12
  | .readWrite rs ws => rs.length ≤ 12 ∧ ws.length ≤ 12

end Ecs.Spec
