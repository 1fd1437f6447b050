import Verif.Spec.Handles
import Verif.Spec.Tags

/-! Which handle a creation returns, as a function of the creations and destructions so far. -/

namespace Ecs.Spec

/-- The ids available for reuse: `next` and all larger ids, and the ids on the stack `gaps`. -/
structure FreeIds where
  next : Nat
  gaps : List Nat
deriving DecidableEq

/-- The ids available after a history. A creation takes an id from the stack, or `next` if the stack is empty. A
destruction puts the id on the stack, except that the id just below `next` becomes `next`. -/
def freeIds : History → FreeIds
  | [] => ⟨0, []⟩
  | .created _ :: h =>
    match (freeIds h).gaps with
    | [] => ⟨(freeIds h).next + 1, []⟩
    | _ :: g => ⟨(freeIds h).next, g⟩
  | .destroyed e :: h =>
    if e.id + 1 = (freeIds h).next then ⟨e.id, (freeIds h).gaps⟩ else ⟨(freeIds h).next, e.id :: (freeIds h).gaps⟩

/-- How often id `i` has been given out. -/
def uses (h : History) (i : Nat) : Nat := ((issued h).filter (·.id = i)).length

/-- The handle returned by the next creation: an available id, with the number of its uses as version. -/
def nextHandle (h : History) : Entity :=
  let i := (freeIds h).gaps.head?.getD (freeIds h).next
  ⟨i, uses h i + 1⟩

/-- The creations and destructions in a history of a store. -/
def entHistory : List Event → History
  | [] => []
  | .created e :: h => .created e :: entHistory h
  | .createdWith e _ _ :: h => .created e :: entHistory h
  | .destroyed e :: h => .destroyed e :: entHistory h
  | _ :: h => entHistory h

example : nextHandle [.destroyed ⟨0, 1⟩, .created ⟨2, 1⟩, .created ⟨1, 1⟩, .created ⟨0, 1⟩] = ⟨0, 2⟩ := by decide
example : nextHandle [.destroyed ⟨2, 1⟩, .destroyed ⟨0, 1⟩, .created ⟨2, 1⟩, .created ⟨1, 1⟩, .created ⟨0, 1⟩] = ⟨0, 2⟩ := by
  decide
example : nextHandle [.destroyed ⟨2, 1⟩, .created ⟨2, 1⟩, .created ⟨1, 1⟩, .created ⟨0, 1⟩] = ⟨2, 2⟩ := by decide

end Ecs.Spec
