import Verif.Spec.World

/-! Assigning components again. -/

namespace Ecs.Spec

/-- As many bytes as each type has, as is the case for all values of Rust types. -/
def Sized (U : Universe) (vals : TupleVal) : Prop := ∀ x ∈ vals, x.2.length = U.size x.1

instance (U : Universe) (vals : TupleVal) : Decidable (Sized U vals) := by unfold Sized; infer_instance

/-- The types of a tuple. -/
def typesOf (vals : TupleVal) : List TypeId := vals.map (·.1)

/-- The bytes of a tuple. -/
def bytesOf (vals : TupleVal) : List (List Cell) := vals.map fun x => x.2.map some

end Ecs.Spec
