import Verif.Model.Archetype

/-! The parts of `src/component_type.rs`, `src/archetype.rs` and `src/archetype_builder.rs` that carry type names, which
`Model/Archetype.lean` leaves out. -/

namespace Ecs

/-- `src/component_type.rs:3-9` `ComponentType`, with its name. -/
structure NamedType where
  id : TypeId
  size : Nat
  align : Nat
  name : String
deriving DecidableEq, Repr

/-- `src/component_type.rs:12-19` `ComponentType::of::<T>()`; `N` gives `std::any::type_name`. -/
def NamedType.of (U : Universe) (N : TypeId → String) (t : TypeId) : NamedType :=
  { id := t, size := U.size t, align := U.align t, name := N t }

/-- `src/component_type.rs:56-60`. -/
def NamedType.eqv (a b : NamedType) : Bool := a.id == b.id

/-- `src/archetype.rs:10-16` `Archetype`, with its array of names. -/
structure NamedArchetype where
  ids : List TypeId
  sizes : List Nat
  aligns : List Nat
  names : List String
deriving DecidableEq, Repr

namespace NamedArchetype

/-- `component_count` (`src/archetype.rs:95-98`). -/
def componentCount (a : NamedArchetype) : Nat := a.ids.length

/-- `src/archetype.rs:28-62` `Archetype::new`. -/
def new (sortedComponents : List NamedType) : Res NamedArchetype := do
  rassert (decide (sortedComponents.length > 0))
  return { ids := sortedComponents.map (·.id)
           sizes := sortedComponents.map (·.size)
           aligns := sortedComponents.map (·.align)
           names := sortedComponents.map (·.name) }

/-- The body of the closure in `components_iter` (`src/archetype.rs:70-78`): raw reads from the four arrays. -/
def componentAt (a : NamedArchetype) (i : Nat) : Res NamedType := do
  let id ← idxUnchecked a.ids i
  let size ← idxUnchecked a.sizes i
  let align ← idxUnchecked a.aligns i
  let name ← idxUnchecked a.names i
  return { id := id, size := size, align := align, name := name }

/-- `src/archetype.rs:69-79` `components_iter`, all items. -/
def componentsIter (a : NamedArchetype) : Res (List NamedType) := (List.range a.componentCount).mapM a.componentAt

/-- `copy_to_nonoverlapping` of `count` elements into a new array; also what a slice made by `from_raw_parts` shows. -/
def firstOf {α : Type} (src : List α) (count : Nat) : Res (List α) := (List.range count).mapM fun i => idxUnchecked src i

/-- `src/archetype.rs:241-268` `clone`. -/
def clone (a : NamedArchetype) : Res NamedArchetype := do
  let ids ← firstOf a.ids a.componentCount
  let sizes ← firstOf a.sizes a.componentCount
  let aligns ← firstOf a.aligns a.componentCount
  let names ← firstOf a.names a.componentCount
  return { ids := ids, sizes := sizes, aligns := aligns, names := names }

/-- `src/archetype.rs:270-278` `Display`: what `{}` prints. `debug_struct` prints the name of the struct, then in braces the name
of the field, a colon and the value; the name of the field ends with a colon already. `quote` is what `{:?}` prints for a string. -/
def display (quote : String → String) (a : NamedArchetype) : Res String := do
  let names ← firstOf a.names a.componentCount
  return "Archetype { Components:: [" ++ ", ".intercalate (names.map quote) ++ "] }"

end NamedArchetype

/-- `src/archetype_builder.rs:5-7` `ArchetypeBuilder`. -/
structure NamedBuilder where
  componentTypes : List NamedType
deriving Repr

namespace NamedBuilder

/-- `src/archetype_builder.rs:10-14` `new`. -/
def new : NamedBuilder := { componentTypes := [] }

/-- `src/archetype_builder.rs:25-29` and `:48-52`. -/
def includeOne (l : List NamedType) (c : NamedType) : List NamedType :=
  if l.any (fun d => d.eqv c) then l else l ++ [c]

/-- `src/archetype_builder.rs:24-32` `include_component_types`. -/
def includeComponentTypes (b : NamedBuilder) (cs : List NamedType) : NamedBuilder :=
  { componentTypes := cs.foldl includeOne b.componentTypes }

/-- `src/archetype_builder.rs:36-38`. -/
def excludeOne (l : List NamedType) (c : NamedType) : List NamedType := l.eraseP (fun d => d.eqv c)

/-- `src/archetype_builder.rs:34-42` `exclude_component_types`. -/
def excludeComponentTypes (b : NamedBuilder) (cs : List NamedType) : NamedBuilder :=
  { componentTypes := cs.foldl excludeOne b.componentTypes }

/-- `src/archetype_builder.rs:44-55` `include_archetype`. -/
def includeArchetype (b : NamedBuilder) (a : NamedArchetype) : Res NamedBuilder := do
  let cs ← a.componentsIter
  return b.includeComponentTypes cs

/-- `src/archetype_builder.rs:57-61` `build`. -/
def build (b : NamedBuilder) : Res (NamedArchetype × NamedBuilder) := do
  let sorted := sortByKey (·.id) b.componentTypes
  let a ← NamedArchetype.new sorted
  return (a, { componentTypes := sorted })

end NamedBuilder

/-- `src/component_tuple.rs:251-256` `into_archetype`. -/
def NamedArchetype.withComponents (U : Universe) (N : TypeId → String) (ts : List TypeId) : Res NamedArchetype :=
  NamedArchetype.new (sortByKey (·.id) (ts.map (NamedType.of U N)))

end Ecs
