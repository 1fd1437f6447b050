import Verif.Model.Std

/-! Model of `src/component_type.rs`, `src/archetype.rs`, `src/archetype_builder.rs` and of the
archetype-related functions of `src/component_tuple.rs`. -/

namespace Ecs

/-- `std::any::TypeId`: opaque and totally ordered; modelled as a natural number. (A macro rather than
a definition so that arithmetic tactics see `Nat`.) -/
macro "TypeId" : term => `(Nat)

/-- The Rust types that occur as components: size and alignment of the type with a given `TypeId`.
Rust guarantees that an alignment is positive and divides the size. -/
structure Universe where
  size : TypeId → Nat
  align : TypeId → Nat
  align_pos : ∀ t, 0 < align t
  align_dvd : ∀ t, align t ∣ size t

/-- `src/component_type.rs:3-9` `ComponentType` (the `name` field is not modelled). -/
structure ComponentType where
  id : TypeId
  size : Nat
  align : Nat
deriving DecidableEq, Repr

/-- `src/component_type.rs:12-19` `ComponentType::of::<T>()`. -/
def ComponentType.of (U : Universe) (t : TypeId) : ComponentType :=
  { id := t, size := U.size t, align := U.align t }

/-- `src/component_type.rs:56-60`: equality of component types is equality of ids. -/
def ComponentType.eqv (a b : ComponentType) : Bool := a.id == b.id

/-- `src/archetype.rs:10-16` `Archetype` (parallel arrays of the same length `component_count`;
the `names` array is not modelled). -/
structure Archetype where
  ids : List TypeId
  sizes : List Nat
  aligns : List Nat
deriving DecidableEq, Repr

namespace Archetype

/-- `src/archetype.rs:95-98` `component_count`. -/
def componentCount (a : Archetype) : Nat := a.ids.length

/-- `src/archetype.rs:28-62` `Archetype::new`. -/
def new (sortedComponents : List ComponentType) : Res Archetype := do
  rassert (decide (sortedComponents.length > 0))
  return { ids := sortedComponents.map (·.id)
           sizes := sortedComponents.map (·.size)
           aligns := sortedComponents.map (·.align) }

/-- `src/archetype.rs:69-79` `components_iter`. -/
def componentsIter (a : Archetype) : List ComponentType :=
  (List.range a.ids.length).map fun i =>
    { id := a.ids.getD i 0, size := a.sizes.getD i 0, align := a.aligns.getD i 0 }

/-- `src/archetype.rs:81-93` `find_component_index_of` / `find_component_index`. -/
def findComponentIndex (a : Archetype) (t : TypeId) : Option Nat :=
  match binarySearch a.ids t with
  | .found i => some i
  | .notFound _ => none

/-- `src/archetype.rs:64-67` `has_component`. -/
def hasComponent (a : Archetype) (t : TypeId) : Bool := (a.findComponentIndex t).isSome

/-- `src/archetype.rs:110-120` `is_same_as`. -/
def isSameAs (a b : Archetype) : Bool :=
  if a.componentCount != b.componentCount then false else a.ids == b.ids

/-- `copy_to_nonoverlapping` of `count` elements out of an array, into a new one. -/
def copyArray (src : List Nat) (count : Nat) : Res (List Nat) := (List.range count).mapM fun i => idxUnchecked src i

/-- `src/archetype.rs:241-268` `clone`: each array is copied up to `component_count`. -/
def clone (a : Archetype) : Res Archetype := do
  let ids ← copyArray a.ids a.componentCount
  let sizes ← copyArray a.sizes a.componentCount
  let aligns ← copyArray a.aligns a.componentCount
  return { ids := ids, sizes := sizes, aligns := aligns }

/-- `src/archetype.rs:280-288` `hash`: what is fed to the hasher, one `TypeId` per component. -/
def hashed (a : Archetype) : Res (List TypeId) := (List.range a.componentCount).mapM fun i => idxUnchecked a.ids i

/-- Loop of `is_include_ids` / `is_include_only_ids` (`src/archetype.rs:134-141`, `151-158`). -/
def allFound (selfIds : List TypeId) : List TypeId → Bool
  | [] => true
  | id :: rest =>
    match binarySearch selfIds id with
    | .found _ => allFound selfIds rest
    | .notFound _ => false

/-- `src/archetype.rs:127-142` `is_include_ids`. -/
def isIncludeIds (a : Archetype) (idsToCheck : List TypeId) : Bool :=
  if a.ids.length < idsToCheck.length then false else allFound a.ids idsToCheck

/-- `src/archetype.rs:122-125` `is_include`. -/
def isInclude (a other : Archetype) : Bool := a.isIncludeIds other.ids

/-- `src/archetype.rs:144-159` `is_include_only_ids`. -/
def isIncludeOnlyIds (a : Archetype) (idsToCheck : List TypeId) : Bool :=
  if a.ids.length ≠ idsToCheck.length then false else allFound a.ids idsToCheck

/-- Loop of `is_exclude_ids` (`src/archetype.rs:169-184`). Note that `found_idx` is relative to the
sub-slice `self_ids[left_idx..]` but is stored as an absolute index, as in the code. -/
def excludeLoop (selfIds : List TypeId) : (leftIdx : Nat) → List TypeId → Res Bool
  | _, [] => .ok true
  | leftIdx, id :: rest =>
    if leftIdx ≤ selfIds.length then
      match binarySearch (selfIds.drop leftIdx) id with
      | .found _ => .ok false
      | .notFound foundIdx =>
        if foundIdx ≥ selfIds.length then .ok true
        else excludeLoop selfIds foundIdx rest
    else .error (.panic .indexOutOfBounds)

/-- `src/archetype.rs:166-185` `is_exclude_ids`. -/
def isExcludeIds (a : Archetype) (idsToCheck : List TypeId) : Res Bool :=
  excludeLoop a.ids 0 idsToCheck

/-- `src/archetype.rs:161-164` `is_exclude`. -/
def isExclude (a other : Archetype) : Res Bool := a.isExcludeIds other.ids

end Archetype

/-- `src/archetype.rs:18-21` `ArchetypesUnion`. -/
structure ArchetypesUnion where
  lhsIndices : List Nat
  rhsIndices : List Nat
deriving DecidableEq, Repr

namespace ArchetypesUnion

/-- Inner `while` loop of `calculate` (`src/archetype.rs:210-224`), from index `i` on: the indices
pushed to `inner_indices`. -/
def innerLoop (outerTypeId : TypeId) : (i : Nat) → List TypeId → List Nat
  | _, [] => []
  | i, innerTypeId :: rest =>
    if innerTypeId > outerTypeId then []
    else if innerTypeId = outerTypeId then i :: innerLoop outerTypeId (i + 1) rest
    else innerLoop outerTypeId (i + 1) rest

/-- Outer `while` loop of `calculate` (`src/archetype.rs:207-227`), from index `o` on: the pairs
(outer index, inner index) pushed. -/
def outerLoop (inner : List TypeId) : (o : Nat) → List TypeId → List (Nat × Nat)
  | _, [] => []
  | o, outerTypeId :: rest =>
    (innerLoop outerTypeId 0 inner).map (fun i => (o, i)) ++ outerLoop inner (o + 1) rest

/-- `src/archetype.rs:194-233` `calculate`. -/
def calculate (lhs rhs : Archetype) : ArchetypesUnion :=
  if lhs.componentCount > rhs.componentCount then
    let ps := outerLoop rhs.ids 0 lhs.ids
    { lhsIndices := ps.map (·.1), rhsIndices := ps.map (·.2) }
  else
    let ps := outerLoop lhs.ids 0 rhs.ids
    { lhsIndices := ps.map (·.2), rhsIndices := ps.map (·.1) }

/-- `src/archetype.rs:235-238` `len`. -/
def len (u : ArchetypesUnion) : Nat := u.lhsIndices.length

end ArchetypesUnion

/-- `src/archetype_builder.rs:5-7` `ArchetypeBuilder`. -/
structure ArchetypeBuilder where
  componentTypes : List ComponentType
deriving Repr

namespace ArchetypeBuilder

/-- `src/archetype_builder.rs:10-14` `new`. -/
def new : ArchetypeBuilder := { componentTypes := [] }

/-- Loop body shared by `include_component_types` (`src/archetype_builder.rs:25-29`) and
`include_archetype` (`:48-52`). -/
def includeOne (l : List ComponentType) (c : ComponentType) : List ComponentType :=
  if l.any (fun d => d.eqv c) then l else l ++ [c]

/-- `src/archetype_builder.rs:24-32` `include_component_types`. -/
def includeComponentTypes (b : ArchetypeBuilder) (cs : List ComponentType) : ArchetypeBuilder :=
  { componentTypes := cs.foldl includeOne b.componentTypes }

/-- Loop body of `exclude_component_types` (`src/archetype_builder.rs:36-38`): removes the first
entry equal to `c`. -/
def excludeOne (l : List ComponentType) (c : ComponentType) : List ComponentType :=
  l.eraseP (fun d => d.eqv c)

/-- `src/archetype_builder.rs:34-42` `exclude_component_types`. -/
def excludeComponentTypes (b : ArchetypeBuilder) (cs : List ComponentType) : ArchetypeBuilder :=
  { componentTypes := cs.foldl excludeOne b.componentTypes }

/-- `src/archetype_builder.rs:16-18` `include_components::<T>`, via
`src/component_tuple.rs:263-268`. A component tuple is the list of its type ids. -/
def includeComponents (U : Universe) (b : ArchetypeBuilder) (ts : List TypeId) : ArchetypeBuilder :=
  b.includeComponentTypes (ts.map (ComponentType.of U))

/-- `src/archetype_builder.rs:20-22` `exclude_components::<T>`, via
`src/component_tuple.rs:270-275`. -/
def excludeComponents (U : Universe) (b : ArchetypeBuilder) (ts : List TypeId) : ArchetypeBuilder :=
  b.excludeComponentTypes (ts.map (ComponentType.of U))

/-- `src/archetype_builder.rs:44-55` `include_archetype`. -/
def includeArchetype (b : ArchetypeBuilder) (a : Archetype) : ArchetypeBuilder :=
  b.includeComponentTypes a.componentsIter

/-- `src/archetype_builder.rs:57-61` `build` (sorts in place, so the builder changes too). -/
def build (b : ArchetypeBuilder) : Res (Archetype × ArchetypeBuilder) := do
  let sorted := sortByKey (·.id) b.componentTypes
  let a ← Archetype.new sorted
  return (a, { componentTypes := sorted })

end ArchetypeBuilder

/-- `src/component_tuple.rs:251-256` `into_archetype`, which is `Archetype::with_components::<T>()`
(`src/archetype.rs:24-26`). -/
def Archetype.withComponents (U : Universe) (ts : List TypeId) : Res Archetype :=
  Archetype.new (sortByKey (·.id) (ts.map (ComponentType.of U)))

/-- `src/component_tuple.rs:258-261` `is_archetype_include_types`. -/
def tupleIncluded (ts : List TypeId) (a : Archetype) : Bool := a.isIncludeIds ts

end Ecs
