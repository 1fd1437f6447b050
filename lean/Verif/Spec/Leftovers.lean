import Verif.Spec.World
import Verif.Spec.Run
import Verif.Spec.Observe

/-! Which value a component was given by the program, if any, according to the history. -/

namespace Ecs.Spec

/-- The value that the program last stored in component `t` of `e`, since the entity got this component; `none` if it stored
none. Calls with handles of destroyed entities do nothing, and so do assignments through references that do not exist. -/
def lastGiven (e : Entity) (t : TypeId) : List Event → Option (List UInt8)
  | [] => none
  | .created e' :: h => if e' = e then none else lastGiven e t h
  | .createdWith e' _ _ :: h => if e' = e then none else lastGiven e t h
  | .added e' vals :: h => if e' = e ∧ e ∈ (world h).live then (TupleVal.find vals t).or (lastGiven e t h) else lastGiven e t h
  | .assigned e' vals :: h =>
    if e' = e ∧ e ∈ (world h).live ∧ ∀ p ∈ vals, p.1 ∈ (world h).types e then (TupleVal.find vals t).or (lastGiven e t h)
    else lastGiven e t h
  | .removed e' ts :: h => if e' = e ∧ e ∈ (world h).live ∧ t ∈ ts then none else lastGiven e t h
  | _ :: h => lastGiven e t h

/-- Every component of every live entity was given a value. -/
def AllStored (h : List Event) : Prop := ∀ e ∈ (world h).live, ∀ t ∈ (world h).types e, (lastGiven e t h).isSome = true

/-- The byte `b` is part of a component value that the program gave to the store in one of its calls. -/
def GivenByte (h : List Event) (b : UInt8) : Prop :=
  ∃ e vals, (Event.added e vals ∈ h ∨ Event.assigned e vals ∈ h) ∧ ∃ p ∈ vals, b ∈ p.2

/-- The entities that came with components from `create_entity_with_archetype`. -/
def fromArchetype : List Event → List Entity
  | [] => []
  | .createdWith e _ _ :: h => e :: fromArchetype h
  | _ :: h => fromArchetype h

end Ecs.Spec
