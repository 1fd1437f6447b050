import Verif.Model.Heap
import Verif.Model.Store

/-! Which operations of `Model/Heap.lean` the calls on a store perform, read off the state of the store before the call. The
conditions follow the definitions of `Model/Archs.lean`, `Model/Entities.lean` and `Model/Store.lean` and cite the same
lines. Operations of calls that panic are the ones performed before the panic. -/

namespace Ecs

/-- `src/entities_container.rs:74-85`: whether `create_entity` grows the buffers; `none` if no id is left. -/
def Ents.heapCreate (dbg : Bool) (c : Ents) : Option Bool :=
  match c.takeId dbg with
  | .ok (_, c') => some (decide (c'.capacity ≠ c.capacity))
  | .error _ => none

namespace Archs

/-- `src/archetypes_container.rs:207-236` `reserve_archetype`: the arguments of `ArchsPtrs.reserveArchetype`, if it is called and
gets as far as its first allocation (`src/archetype_layout.rs:11-28`: the capacity is computed before the offsets are
allocated). -/
def heapReserve (dbg : Bool) (c : Archs) (a : Archetype) : Option (Nat × Nat × Bool) :=
  match findSame a 0 c.archetypes with
  | some _ => none
  | none =>
    match Layout.calcCapacity dbg a.sizes a.aligns with
    | .error _ => none
    | .ok cap =>
      some (a.componentCount, c.freeArchetypes.getLast?.getD c.archetypes.length, (Layout.calcOffsets a.sizes a.aligns cap).isOk)

/-- `src/archetypes_container.rs:238-270`: whether `reserve_page` makes a new page. -/
def needsPage (c : Archs) (archIndex : Nat) : Bool :=
  match idx c.archPages archIndex with
  | .error _ => false
  | .ok pageList =>
    match findFreePage c.pages pageList.reverse with
    | .ok none => c.freePages.isEmpty
    | _ => false

/-- `src/archetypes_container.rs:61-68, 95-104`: a new row in the archetype. -/
def heapPlace (dbg : Bool) (c : Archs) (temporary : Option Nat) (a : Archetype) : HeapOp :=
  .place temporary (c.heapReserve dbg a)
    (match c.reserveArchetype dbg a with
    | .ok (c', i) => c'.needsPage i
    | .error _ => false)

end Archs

namespace Store

/-- `src/store.rs:53-61` `create_entity`. -/
def createOps (dbg : Bool) (s : Store) : List HeapOp :=
  match s.ents.heapCreate dbg with
  | some grows => [.create grows]
  | none => []

/-- `src/store.rs:63-74` `create_entity_with_archetype`. -/
def createWithOps (dbg : Bool) (s : Store) (a : Archetype) : List HeapOp :=
  match s.registerNewEntity dbg with
  | .ok _ => s.createOps dbg ++ [s.archs.heapPlace dbg none a]
  | .error _ => s.createOps dbg

/-- `src/store.rs:106-139`: the archetype that `add_components` makes, if it makes one. -/
def addArchetype (U : Universe) (dbg : Bool) (s : Store) (e : Entity) (ts : List TypeId) : Res (Option Archetype) := do
  if !(← s.isAlive dbg e) then
    return none
  let hasArchetype ← s.hasArch.isOn e.id
  if hasArchetype then
    let loc ← s.getLocUnchecked e.id
    let archIndex ← idx s.archs.pageToArch loc.page
    let arch ← idxUnchecked s.archs.archetypes archIndex
    if tupleIncluded ts arch then
      return none
    else
      let (newArch, _) ← ((ArchetypeBuilder.new.includeArchetype arch).includeComponents U ts).build
      return some newArch
  else
    let archetype ← Archetype.withComponents U ts
    return some archetype

/-- `src/store.rs:163-182`: the archetype that `remove_components` makes, if it makes one. -/
def removeArchetype (U : Universe) (dbg : Bool) (s : Store) (e : Entity) (ts : List TypeId) : Res (Option Archetype) := do
  if !(← s.isValidEntityWithArchetype dbg e) then
    return none
  let prev ← s.getLocUnchecked e.id
  let prevArchIndex ← idx s.archs.pageToArch prev.page
  let prevArch ← idxUnchecked s.archs.archetypes prevArchIndex
  let (newArch, _) ← ((ArchetypeBuilder.new.includeArchetype prevArch).excludeComponents U ts).build
  return some newArch

/-- `add_components` and `remove_components`, given the archetype they make. -/
def placeOps (dbg : Bool) (s : Store) : Res (Option Archetype) → List HeapOp
  | .ok (some a) => [s.archs.heapPlace dbg (some a.componentCount) a]
  | _ => []

/-- `src/tag_container.rs:32-44`. -/
def tagOps (s : Store) (tag : Nat) : List HeapOp :=
  match binarySearch s.tags.tagIds tag with
  | .found _ => []
  | .notFound i => [.tag i]

/-- `src/order_group_container.rs:197-215`. -/
def groupOps (s : Store) (group : Nat) : List HeapOp :=
  match binarySearch s.orders.groupIds group with
  | .found _ => []
  | .notFound i => [.group i]

end Store
end Ecs
