import Verif.Model.Together
import Verif.Spec.Update
import Verif.Spec.Sequence

/-! When several queries may run at the same time. -/

namespace Ecs.Spec

/-- Neither of the two writes a component which the other reads or writes. -/
def Compatible (a b : Access) : Prop := (∀ t ∈ a.writes, t ∉ b.types) ∧ ∀ t ∈ b.writes, t ∉ a.types

instance (a b : Access) : Decidable (Compatible a b) := by unfold Compatible; infer_instance

/-- The number of items a query can have after the history. -/
def mostItems (h : List Event) : Query → Nat
  | .component _ | .componentWith _ | .tagged _ _ => (alive h).length
  | .entities L _ | .entitiesWith L _ => L.length
  | .ordered g _ | .orderedWith g _ => (sequence g h).length

end Ecs.Spec
