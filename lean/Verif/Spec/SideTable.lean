import Verif.Spec.Alloc
import Verif.Spec.Tags

/-! Tables that clients keep beside a store, indexed by the ids of entities. -/

namespace Ecs.Spec

/-- A vector indexed by ids. Each cell is empty or holds a version and a value. -/
abbrev SideTable (α : Type) := Nat → Option (Nat × α)

variable {α : Type}

/-- Put a value in the cell of the entity, with its version. -/
def SideTable.put (t : SideTable α) (e : Entity) (v : α) : SideTable α := at' t e.id (some (e.version, v))

/-- The value in the cell of the entity, if it is there with its version. -/
def SideTable.get (t : SideTable α) (e : Entity) : Option α :=
  match t e.id with
  | some (version, v) => if version = e.version then some v else none
  | none => none

/-- What a client does: calls of the store, and puts. Newest first. -/
abbrev ClientLog (α : Type) := List (Event ⊕ Entity × α)

/-- The calls of the store. -/
def ClientLog.calls : ClientLog α → List Event
  | [] => []
  | .inl ev :: k => ev :: calls k
  | .inr _ :: k => calls k

/-- The table after the puts. -/
def ClientLog.table : ClientLog α → SideTable α
  | [] => fun _ => none
  | .inl _ :: k => table k
  | .inr (e, v) :: k => (table k).put e v

/-- The value that was put last for exactly this handle. -/
def ClientLog.lastPut (e : Entity) : ClientLog α → Option α
  | [] => none
  | .inl _ :: k => lastPut e k
  | .inr (x, v) :: k => if x = e then some v else lastPut e k

/-- Values are put only for entities that are alive then. -/
def ClientLog.Proper : ClientLog α → Prop
  | [] => True
  | .inl _ :: k => Proper k
  | .inr (e, _) :: k => e ∈ alive (calls k) ∧ Proper k

end Ecs.Spec
