import Verif.Model.Archetype

/-! `src/archetype_builder.rs` once more, with the capacity of the vector in the builder, and with the panic of a vector that grows
beyond `isize::MAX` bytes. How a vector chooses a new capacity is a parameter (`policy`); `CapVec.grownCap` is what the standard
library does. -/

namespace Ecs

/-- `size_of::<ComponentType>()` on a 64-bit target (`src/component_type.rs:3-9`): a `TypeId` of 16 bytes, two `usize` and a
`&str`. -/
def componentTypeBytes : Nat := 48

/-- Panics of a builder. -/
inductive BuilderPanic where
  /-- a vector would need more than `isize::MAX` bytes -/
  | capacityOverflow
  /-- `src/archetype.rs:30`: an archetype without types -/
  | noTypes
deriving DecidableEq, Repr

/-- `src/archetype_builder.rs:5-7` with the capacity of the vector. -/
structure BuilderVec where
  items : List ComponentType
  cap : Nat
deriving DecidableEq, Repr

namespace BuilderVec

/-- `src/archetype_builder.rs:10-14` `new`: an empty vector without memory. -/
def new : BuilderVec := { items := [], cap := 0 }

/-- `RawVec` grows to the capacity that `policy` chooses for the present capacity and the required one. -/
def grow (policy : Nat → Nat → Nat) (v : BuilderVec) (required : Nat) : Except BuilderPanic BuilderVec :=
  if 2 ^ 63 ≤ componentTypeBytes * policy v.cap required then .error .capacityOverflow
  else .ok { v with cap := policy v.cap required }

/-- `Vec::reserve(additional)`. -/
def reserve (policy : Nat → Nat → Nat) (v : BuilderVec) (additional : Nat) : Except BuilderPanic BuilderVec :=
  if additional ≤ v.cap - v.items.length then .ok v else v.grow policy (v.items.length + additional)

/-- Room for one more element: `Vec::push` grows a full vector. -/
def makeRoom (policy : Nat → Nat → Nat) (v : BuilderVec) : Except BuilderPanic BuilderVec :=
  if v.items.length = v.cap then v.grow policy (v.items.length + 1) else .ok v

/-- `Vec::push`. -/
def push (policy : Nat → Nat → Nat) (v : BuilderVec) (c : ComponentType) : Except BuilderPanic BuilderVec := do
  let v ← v.makeRoom policy
  return { v with items := v.items ++ [c] }

/-- Loop body shared by `include_component_types` (`src/archetype_builder.rs:25-29`) and `include_archetype` (`:48-52`). -/
def includeOne (policy : Nat → Nat → Nat) (v : BuilderVec) (c : ComponentType) : Except BuilderPanic BuilderVec :=
  if v.items.any (fun d => d.eqv c) then .ok v else v.push policy c

/-- `src/archetype_builder.rs:24-32` `include_component_types`. -/
def includeComponentTypes (policy : Nat → Nat → Nat) (v : BuilderVec) (cs : List ComponentType) :
    Except BuilderPanic BuilderVec :=
  cs.foldlM (includeOne policy) v

/-- `src/archetype_builder.rs:34-42` `exclude_component_types`: removing keeps the capacity. -/
def excludeComponentTypes (v : BuilderVec) (cs : List ComponentType) : BuilderVec :=
  { v with items := cs.foldl ArchetypeBuilder.excludeOne v.items }

/-- `src/archetype_builder.rs:44-55` `include_archetype`. It reserves room for as many more types as the vector has *capacity*
and the archetype has types. -/
def includeArchetype (policy : Nat → Nat → Nat) (v : BuilderVec) (a : Archetype) : Except BuilderPanic BuilderVec := do
  let v ← v.reserve policy (v.cap + a.componentCount)
  v.includeComponentTypes policy a.componentsIter

/-- `src/archetype_builder.rs:57-61` `build`, which sorts in place, with the assertion of `src/archetype.rs:30`. -/
def build (v : BuilderVec) : Except BuilderPanic BuilderVec :=
  if v.items = [] then .error .noTypes else .ok { v with items := sortByKey (·.id) v.items }

end BuilderVec

end Ecs
