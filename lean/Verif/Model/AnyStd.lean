import Verif.Model.Archs
import Verif.Model.Tags
import Verif.Model.Orders

/-! The functions of the library that search or sort once more, with the standard library's function as a parameter: `bs` is
`slice::binary_search`, `sort` is `slice::sort_by_key` with the type ids as keys, `policy` chooses the new capacity of a `Vec`. -/

namespace Ecs

/-- The loop of `core::slice::binary_search_by` up to Rust 1.81, which stops as soon as it sees the element. `fuel` only bounds the
recursion. -/
def bsLoop181 (l : List Nat) (x : Nat) : (fuel left right : Nat) → Search
  | 0, left, _ => .notFound left
  | fuel + 1, left, right =>
    if left < right then
      let mid := left + (right - left) / 2
      let v := l.getD mid 0
      if v = x then .found mid
      else if v < x then bsLoop181 l x fuel (mid + 1) right
      else bsLoop181 l x fuel left mid
    else .notFound left

/-- `core::slice::binary_search` up to Rust 1.81. -/
def binarySearch181 (l : List Nat) (x : Nat) : Search := bsLoop181 l x (l.length + 1) 0 l.length

section
variable (bs : List Nat → Nat → Search)

namespace Archetype

/-- `src/archetype.rs:81-93` `find_component_index_of` / `find_component_index`. -/
def findComponentIndexBy (a : Archetype) (t : TypeId) : Option Nat :=
  match bs a.ids t with
  | .found i => some i
  | .notFound _ => none

/-- Loop of `is_include_ids` / `is_include_only_ids` (`src/archetype.rs:134-141`, `151-158`). -/
def allFoundBy (selfIds : List TypeId) : List TypeId → Bool
  | [] => true
  | id :: rest =>
    match bs selfIds id with
    | .found _ => allFoundBy selfIds rest
    | .notFound _ => false

/-- `src/archetype.rs:127-142` `is_include_ids`. -/
def isIncludeIdsBy (a : Archetype) (idsToCheck : List TypeId) : Bool :=
  if a.ids.length < idsToCheck.length then false else allFoundBy bs a.ids idsToCheck

/-- `src/archetype.rs:144-159` `is_include_only_ids`. -/
def isIncludeOnlyIdsBy (a : Archetype) (idsToCheck : List TypeId) : Bool :=
  if a.ids.length ≠ idsToCheck.length then false else allFoundBy bs a.ids idsToCheck

/-- Loop of `is_exclude_ids` (`src/archetype.rs:169-184`). -/
def excludeLoopBy (selfIds : List TypeId) : (leftIdx : Nat) → List TypeId → Res Bool
  | _, [] => .ok true
  | leftIdx, id :: rest =>
    if leftIdx ≤ selfIds.length then
      match bs (selfIds.drop leftIdx) id with
      | .found _ => .ok false
      | .notFound foundIdx =>
        if foundIdx ≥ selfIds.length then .ok true
        else excludeLoopBy selfIds foundIdx rest
    else .error (.panic .indexOutOfBounds)

/-- `src/archetype.rs:166-185` `is_exclude_ids`. -/
def isExcludeIdsBy (a : Archetype) (idsToCheck : List TypeId) : Res Bool := excludeLoopBy bs a.ids 0 idsToCheck

end Archetype

namespace Tags

/-- `src/tag_container.rs:20-30` `has_tag_bitvec`. -/
def hasTagBitvecBy (c : Tags) (tag : Nat) : Res Words :=
  match bs c.tagIds tag with
  | .found i => idxUnchecked c.bitvecs i
  | .notFound _ => .error (.panic .missingTag)

/-- The registration part of `add_tag` (`src/tag_container.rs:35-44`). -/
def reserveTagBy (c : Tags) (tag : Nat) : Tags × Nat :=
  match bs c.tagIds tag with
  | .found i => (c, i)
  | .notFound i =>
    ({ c with tagIds := c.tagIds.insertIdx i tag
              bitvecs := c.bitvecs.insertIdx i (Words.alloc c.entityCapacity) }, i)

/-- `src/tag_container.rs:32-52` `add_tag`. -/
def addTagBy (c : Tags) (tag entityId : Nat) : Res Tags := do
  let (c, i) := c.reserveTagBy bs tag
  let bv ← idxUnchecked c.bitvecs i
  let bv ← bv.setOn entityId
  return { c with bitvecs := c.bitvecs.set i bv }

/-- `src/tag_container.rs:54-63` `remove_tag`. -/
def removeTagBy (c : Tags) (tag entityId : Nat) : Res Tags :=
  match bs c.tagIds tag with
  | .found i => do
    let bv ← idxUnchecked c.bitvecs i
    let bv ← bv.setOff entityId
    return { c with bitvecs := c.bitvecs.set i bv }
  | .notFound _ => .ok c

/-- `src/tag_container.rs:65-74` `has_tag`. -/
def hasTagBy (c : Tags) (tag entityId : Nat) : Res Bool :=
  match bs c.tagIds tag with
  | .found i => do
    let bv ← idxUnchecked c.bitvecs i
    bv.isOn entityId
  | .notFound _ => .ok false

end Tags

namespace Orders

/-- `src/order_group_container.rs:197-215` `reserve_group`. -/
def reserveGroupBy (c : Orders) (group : Nat) : Orders × Nat :=
  match bs c.groupIds group with
  | .found i => (c, i)
  | .notFound i =>
    ({ c with groupIds := c.groupIds.insertIdx i group
              groups := c.groups.insertIdx i (Group.new c.entityCapacity) }, i)

/-- `src/order_group_container.rs:35-62` `add_id_ordered_by`. -/
def addBy (dbg : Bool) (c : Orders) (group entityId : Nat) : Res Orders :=
  let (c, i) := c.reserveGroupBy bs group
  c.onGroup i (fun g => g.add dbg entityId)

/-- `src/order_group_container.rs:64-94` `add_id_next_to_ordered_by`. -/
def addNextToBy (dbg : Bool) (c : Orders) (group entityId nextToId : Nat) : Res Orders :=
  let (c, i) := c.reserveGroupBy bs group
  c.onGroup i (fun g => g.addNextTo dbg entityId nextToId)

/-- `src/order_group_container.rs:96-130` `add_id_previous_to_ordered_by`. -/
def addPreviousToBy (dbg : Bool) (c : Orders) (group entityId previousToId : Nat) : Res Orders :=
  let (c, i) := c.reserveGroupBy bs group
  c.onGroup i (fun g => g.addPreviousTo dbg entityId previousToId)

/-- `src/order_group_container.rs:144-154` `remove_id_ordered_by`. -/
def removeBy (c : Orders) (group entityId : Nat) : Res Orders :=
  match bs c.groupIds group with
  | .notFound _ => .ok c
  | .found i => c.onGroup i (fun g => g.remove entityId)

/-- `src/order_group_container.rs:271-279` `get_group_index`. -/
def getGroupIndexBy (c : Orders) (group : Nat) : Option Nat :=
  match bs c.groupIds group with
  | .found i => some i
  | .notFound _ => none

/-- `src/order_group_container.rs:156-159` `get_next_id_ordered_by`, via `get_link` (`:226-245`). -/
def getNextBy (c : Orders) (group entityId : Nat) : Res (Option Nat) :=
  match bs c.groupIds group with
  | .found i => do
    let g ← idxUnchecked c.groups i
    let t ← Raw.read g.fwd entityId
    return nullToNone t
  | .notFound _ => .ok none

/-- `src/order_group_container.rs:161-164` `get_previous_id_ordered_by`, via `get_link`. -/
def getPreviousBy (c : Orders) (group entityId : Nat) : Res (Option Nat) :=
  match bs c.groupIds group with
  | .found i => do
    let g ← idxUnchecked c.groups i
    let t ← Raw.read g.bwd entityId
    return nullToNone t
  | .notFound _ => .ok none

/-- `src/order_group_container.rs:247-257` `get_head_id`. -/
def getHeadBy (c : Orders) (group : Nat) : Res (Option Nat) :=
  match c.getGroupIndexBy bs group with
  | some i => do
    let g ← idxUnchecked c.groups i
    return nullToNone g.head
  | none => .ok none

/-- `src/order_group_container.rs:259-269` `get_tail_id`. -/
def getTailBy (c : Orders) (group : Nat) : Res (Option Nat) :=
  match c.getGroupIndexBy bs group with
  | some i => do
    let g ← idxUnchecked c.groups i
    return nullToNone g.tail
  | none => .ok none

end Orders

/-- `src/archetypes_container.rs:207-236` `reserve_archetype`. -/
def Archs.reserveArchetypeBy (dbg : Bool) (c : Archs) (archetype : Archetype) : Res (Archs × Nat) :=
  match findSame archetype 0 c.archetypes with
  | some i =>
    match bs c.freeArchetypes i with
    | .found k => .ok ({ c with freeArchetypes := c.freeArchetypes.eraseIdx k }, i)
    | .notFound _ => .ok (c, i)
  | none => do
    let layout ← Layout.new dbg archetype
    match c.freeArchetypes.getLast? with
    | some freeIdx =>
      let archetypes ← idxSet c.archetypes freeIdx archetype
      let layouts ← idxSet c.layouts freeIdx layout
      return ({ c with archetypes := archetypes, layouts := layouts,
                       freeArchetypes := c.freeArchetypes.dropLast }, freeIdx)
    | none =>
      return ({ c with archetypes := c.archetypes ++ [archetype]
                       layouts := c.layouts ++ [layout]
                       archPages := c.archPages ++ [[]] },
              (c.archetypes ++ [archetype]).length - 1)

end

/-- `src/archetype_builder.rs:57-61` `build`. -/
def ArchetypeBuilder.buildBy (sort : List ComponentType → List ComponentType) (b : ArchetypeBuilder) :
    Res (Archetype × ArchetypeBuilder) := do
  let a ← Archetype.new (sort b.componentTypes)
  return (a, { componentTypes := sort b.componentTypes })

/-- `src/component_tuple.rs:251-256` `into_archetype`. -/
def Archetype.withComponentsBy (sort : List ComponentType → List ComponentType) (U : Universe) (ts : List TypeId) : Res Archetype :=
  Archetype.new (sort (ts.map (ComponentType.of U)))

/-- `Vec::reserve` on a vector of ids. -/
def CapVec.reserveBy (policy : Nat → Nat → Nat) (v : CapVec) (additional : Nat) : CapVec :=
  if additional ≤ v.cap - v.items.length then v else { v with cap := policy v.cap (v.items.length + additional) }

/-- `Vec::push` on a vector of ids. -/
def CapVec.pushBy (policy : Nat → Nat → Nat) (v : CapVec) (x : Nat) : CapVec :=
  if v.items.length = v.cap then { items := v.items ++ [x], cap := policy v.cap (v.items.length + 1) }
  else { v with items := v.items ++ [x] }

/-- `src/archetype_data_page.rs:27-30` `set_layout`. -/
def Page.setLayoutBy (policy : Nat → Nat → Nat) (p : Page) (l : Layout) : Page :=
  { p with ids := p.ids.reserveBy policy l.entitiesCapacity }

/-- `src/archetype_data_page.rs:52-56` `add_entity_id`. -/
def Page.addEntityIdBy (policy : Nat → Nat → Nat) (dbg : Bool) (p : Page) (id : Nat) : Res (Page × Nat) := do
  dassert dbg p.hasFreeSpace
  let p' := { p with ids := p.ids.pushBy policy id }
  return (p', p'.ids.items.length - 1)

end Ecs
