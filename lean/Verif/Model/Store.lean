import Verif.Model.Archs
import Verif.Model.Tags
import Verif.Model.Orders

/-! Model of `src/store.rs`, `src/archetype_data_page_view.rs`, the reference-producing part of
`src/component_tuple.rs`, and the `Store` methods in `src/tag_container.rs` and
`src/order_group_container.rs`. -/

namespace Ecs

/-- `src/store.rs:13-22` `Store`. -/
structure Store where
  ents : Ents
  archs : Archs
  tags : Tags
  orders : Orders
  toPage : Raw Nat
  toIndex : Raw Nat
  hasArch : Words

/-- A reference `&T` / `&mut T` to a component: `size` bytes at offset `off` of page `page`. -/
structure Ref where
  page : Nat
  off : Nat
  size : Nat
deriving DecidableEq, Repr

/-- `src/archetype_data_page_view.rs:3-8` `ArchetypeDataPageView`. -/
structure PageView where
  archetype : Archetype
  layout : Layout
  page : Nat

/-- The values of a component tuple: type id and object representation of each element. -/
abbrev TupleVal := List (TypeId × List UInt8)

/-- `src/component_tuple.rs:101-114` `get_offsets`. -/
def getOffsets (a : Archetype) (l : Layout) : List TypeId → Res (Option (List Nat))
  | [] => .ok (some [])
  | t :: ts =>
    match a.findComponentIndex t with
    | none => .ok none
    | some i => do
      let o ← idxUnchecked l.offsets i
      match ← getOffsets a l ts with
      | none => return none
      | some os => return some (o :: os)

/-- `src/component_tuple.rs:85-99` `get_offsets_unchecked`. -/
def getOffsetsUnchecked (a : Archetype) (l : Layout) : List TypeId → Res (List Nat)
  | [] => .ok []
  | t :: ts =>
    match a.findComponentIndex t with
    | none => .error (.ub .unwrapUnchecked)
    | some i => do
      let o ← idxUnchecked l.offsets i
      let os ← getOffsetsUnchecked a l ts
      return o :: os

/-- `src/component_tuple.rs:116-150` `get_refs` / `get_refs_mut`. -/
def getRefs (U : Universe) (page entityIndex : Nat) (ts : List TypeId) (offsets : List Nat) : List Ref :=
  (ts.zip offsets).map fun p =>
    { page := page, off := Page.dataPtr entityIndex p.2 (U.size p.1), size := U.size p.1 }

/-- Dereferencing a component reference for reading. -/
def readRef (pages : List Page) (r : Ref) : Res (List Cell) := do
  let p ← idxUnchecked pages r.page
  readBytes p.data r.off r.size

/-- `*r = v`. -/
def writeRef (pages : List Page) (r : Ref) (v : List UInt8) : Res (List Page) := do
  let p ← idxUnchecked pages r.page
  let d ← writeBytes p.data r.off (v.map some)
  return pages.set r.page { p with data := d }

/-- `src/component_tuple.rs:239-249` `assign_to_refs`. -/
def assignToRefs : List Ref → List (List UInt8) → List Page → Res (List Page)
  | r :: rs, v :: vs, pages => do
    let pages ← writeRef pages r v
    assignToRefs rs vs pages
  | _, _, pages => .ok pages

namespace Store

/-- `src/store.rs:29-42` `with_capacity`. -/
def withCapacity (dbg : Bool) (capacity : Nat) : Res Store := do
  dassert dbg (decide (capacity > 0))
  return { ents := Ents.new capacity
           archs := Archs.new
           tags := Tags.new capacity
           orders := Orders.new capacity
           hasArch := Words.alloc capacity
           toIndex := Raw.allocZeroed 0 capacity
           toPage := Raw.allocZeroed 0 capacity }

/-- `src/store.rs:25-27` `new` (`ENTITIES_DEFAULT_CAPACITY = 10`, line 11). -/
def new (dbg : Bool) : Res Store := withCapacity dbg 10

/-- `src/store.rs:48-51` `entities_capacity`. -/
def entitiesCapacity (s : Store) : Nat := s.ents.capacity

/-- `src/store.rs:290-312` `grow_entities_internal`. -/
def growEntitiesInternal (dbg : Bool) (s : Store) (oldCapacity : Nat) : Res Store := do
  let newCapacity := s.entitiesCapacity
  let toPage ← Raw.realloc s.toPage oldCapacity newCapacity
  let toIndex ← Raw.realloc s.toIndex oldCapacity newCapacity
  let hasArch ← s.hasArch.realloc oldCapacity newCapacity
  let tags ← s.tags.grow newCapacity
  let orders ← s.orders.grow dbg newCapacity
  return { s with toPage := toPage, toIndex := toIndex, hasArch := hasArch, tags := tags,
                  orders := orders }

/-- `src/store.rs:76-83` `register_new_entity`. -/
def registerNewEntity (dbg : Bool) (s : Store) : Res (Store × Entity) := do
  let (ents, creation) ← s.ents.create dbg
  let s := { s with ents := ents }
  let s ← if creation.wasGrow then s.growEntitiesInternal dbg creation.capacityBefore else pure s
  return (s, creation.entity)

/-- `src/store.rs:53-61` `create_entity`, with `disable_archetype_unchecked` (`:368-371`). -/
def createEntity (dbg : Bool) (s : Store) : Res (Store × Entity) := do
  let (s, e) ← s.registerNewEntity dbg
  let hasArch ← s.hasArch.setOff e.id
  return ({ s with hasArch := hasArch }, e)

/-- The three writes recording an entity's row (`src/store.rs:68-70` and `144-146`): page index, index
in page (`:353-361`) and the has-archetype bit (`:363-366`). -/
def recordRow (s : Store) (id : Nat) (loc : Loc) : Res Store := do
  let toPage ← Raw.write s.toPage id loc.page
  let toIndex ← Raw.write s.toIndex id loc.index
  let hasArch ← s.hasArch.setOn id
  return { s with toPage := toPage, toIndex := toIndex, hasArch := hasArch }

/-- `src/store.rs:63-74` `create_entity_with_archetype`. -/
def createEntityWithArchetype (dbg : Bool) (s : Store) (a : Archetype) : Res (Store × Entity) := do
  let (s, e) ← s.registerNewEntity dbg
  let (archs, loc) ← s.archs.addEntity dbg e.id a
  let s ← { s with archs := archs }.recordRow e.id loc
  return (s, e)

/-- `src/store.rs:322-331` `get_entity_in_archetype_unchecked`. -/
def getLocUnchecked (s : Store) (id : Nat) : Res Loc := do
  let page ← Raw.read s.toPage id
  let index ← Raw.read s.toIndex id
  return ⟨page, index⟩

/-- `src/store.rs:214-227` `swap_remove_internal`. -/
def swapRemoveInternal (s : Store) (loc : Loc) : Res Store := do
  let (archs, info) ← s.archs.swapRemoveEntity loc
  let s := { s with archs := archs }
  match info with
  | some idToReplace =>
    let toIndex ← Raw.write s.toIndex idToReplace loc.index
    return { s with toIndex := toIndex }
  | none => return s

/-- `src/store.rs:86-98`: first part of `destroy_entity`, executed before the handle is validated. -/
def destroyRow (s : Store) (e : Entity) : Res Store := do
  let hasArchetype ← s.hasArch.isOn e.id
  if hasArchetype then
    let loc ← s.getLocUnchecked e.id
    s.swapRemoveInternal loc
  else
    return s

/-- `src/store.rs:85-104` `destroy_entity`. -/
def destroyEntity (dbg : Bool) (s : Store) (e : Entity) : Res Store := do
  let s ← s.destroyRow e
  let ents ← s.ents.destroy dbg e
  let tags ← s.tags.removeAllTagsForEntity e.id
  let orders ← s.orders.removeAll e.id
  return { s with ents := ents, tags := tags, orders := orders }

/-- `src/store.rs:229-232` `is_alive`. -/
def isAlive (dbg : Bool) (s : Store) (e : Entity) : Res Bool := s.ents.isAlive dbg e

/-- `src/store.rs:285-288` `is_valid_entity_with_archetype`. -/
def isValidEntityWithArchetype (dbg : Bool) (s : Store) (e : Entity) : Res Bool := do
  if ← s.isAlive dbg e then s.hasArch.isOn e.id else return false

/-- `src/store.rs:187-212` `move_entity_to_other_archetype`. -/
def moveEntityToOtherArchetype (dbg : Bool) (s : Store) (e : Entity) (newArch : Archetype) :
    Res (Store × Loc) := do
  let prev ← s.getLocUnchecked e.id
  let prevArchIndex ← idx s.archs.pageToArch prev.page
  let (archs, loc) ← s.archs.moveEntityToOtherArchetype dbg e.id prev prevArchIndex newArch
  let toPage ← Raw.write s.toPage e.id loc.page
  let toIndex ← Raw.write s.toIndex e.id loc.index
  let s := { s with archs := archs, toPage := toPage, toIndex := toIndex }
  let s ← s.swapRemoveInternal prev
  return (s, loc)

/-- `src/archetypes_container.rs:128-139` `get_page_view_unchecked`. -/
def getPageViewUnchecked (s : Store) (pageIndex : Nat) : Res PageView := do
  let ai ← idxUnchecked s.archs.pageToArch pageIndex
  let a ← idxUnchecked s.archs.archetypes ai
  let l ← idxUnchecked s.archs.layouts ai
  let _ ← idxUnchecked s.archs.pages pageIndex
  return { archetype := a, layout := l, page := pageIndex }

/-- `src/store.rs:115-149`: the first part of `add_components`, which makes sure the entity sits in an
archetype containing the types `ts` and returns its row. -/
def ensureComponents (U : Universe) (dbg : Bool) (s : Store) (e : Entity) (ts : List TypeId) :
    Res (Store × Loc) := do
  let hasArchetype ← s.hasArch.isOn e.id
  if hasArchetype then
    let loc ← s.getLocUnchecked e.id
    let archIndex ← idx s.archs.pageToArch loc.page
    let arch ← idxUnchecked s.archs.archetypes archIndex
    if tupleIncluded ts arch then
      return (s, loc)
    else
      let (newArch, _) ← ((ArchetypeBuilder.new.includeArchetype arch).includeComponents U ts).build
      s.moveEntityToOtherArchetype dbg e newArch
  else
    let archetype ← Archetype.withComponents U ts
    let (archs, loc) ← s.archs.addEntity dbg e.id archetype
    let s ← { s with archs := archs }.recordRow e.id loc
    return (s, loc)

/-- `src/store.rs:106-161` `add_components`. `get_components_refs_mut_unchecked` is
`src/archetype_data_page_view.rs:27-36`. -/
def addComponents (U : Universe) (dbg : Bool) (s : Store) (e : Entity) (vals : TupleVal) :
    Res Store := do
  if !(← s.isAlive dbg e) then
    return s
  let ts := vals.map (·.1)
  let (s, loc) ← s.ensureComponents U dbg e ts
  let view ← s.getPageViewUnchecked loc.page
  let offsets ← getOffsetsUnchecked view.archetype view.layout ts
  let refs := getRefs U loc.page loc.index ts offsets
  let pages ← assignToRefs refs (vals.map (·.2)) s.archs.pages
  return { s with archs := { s.archs with pages := pages } }

/-- `src/store.rs:163-185` `remove_components`. -/
def removeComponents (U : Universe) (dbg : Bool) (s : Store) (e : Entity) (ts : List TypeId) :
    Res Store := do
  if !(← s.isValidEntityWithArchetype dbg e) then
    return s
  let prev ← s.getLocUnchecked e.id
  let prevArchIndex ← idx s.archs.pageToArch prev.page
  let prevArch ← idxUnchecked s.archs.archetypes prevArchIndex
  let (newArch, _) ← ((ArchetypeBuilder.new.includeArchetype prevArch).excludeComponents U ts).build
  let (s, _) ← s.moveEntityToOtherArchetype dbg e newArch
  return s

/-- `src/store.rs:234-245` and `:247-258` `get_components_refs` / `get_components_refs_mut` (the model
does not distinguish shared from mutable references), via `get_page_info` (`:260-272`) and
`src/archetype_data_page_view.rs:11-25`. -/
def getComponentsRefs (U : Universe) (dbg : Bool) (s : Store) (e : Entity) (ts : List TypeId) :
    Res (Option (List Ref)) := do
  if ← s.isValidEntityWithArchetype dbg e then
    let page ← Raw.read s.toPage e.id
    let view ← s.getPageViewUnchecked page
    let index ← Raw.read s.toIndex e.id
    match ← getOffsets view.archetype view.layout ts with
    | none => return none
    | some offsets => return some (getRefs U page index ts offsets)
  else
    return none

/-- Reading all references of `get_components_refs`: what `store.get_components_refs::<T>(e).cloned()`
returns (`src/component_tuple.rs:280-292`), byte by byte. -/
def getComponents (U : Universe) (dbg : Bool) (s : Store) (e : Entity) (ts : List TypeId) :
    Res (Option (List (List Cell))) := do
  match ← s.getComponentsRefs U dbg e ts with
  | none => return none
  | some refs =>
    let vs ← refs.mapM (readRef s.archs.pages)
    return some vs

/-- Assigning through `get_components_refs_mut`:
`if let Some((a, b)) = store.get_components_refs_mut::<(A, B)>(e) { *a = x; *b = y }`. Returns whether
the references were available. -/
def setComponents (U : Universe) (dbg : Bool) (s : Store) (e : Entity) (vals : TupleVal) :
    Res (Store × Bool) := do
  match ← s.getComponentsRefs U dbg e (vals.map (·.1)) with
  | none => return (s, false)
  | some refs =>
    let pages ← assignToRefs refs (vals.map (·.2)) s.archs.pages
    return ({ s with archs := { s.archs with pages := pages } }, true)

/-- `src/store.rs:274-283` `get_entity_archetype`. -/
def getEntityArchetype (dbg : Bool) (s : Store) (e : Entity) : Res (Option Archetype) := do
  if !(← s.isValidEntityWithArchetype dbg e) then
    return none
  let page ← Raw.read s.toPage e.id
  let ai ← idx s.archs.pageToArch page
  let a ← idx s.archs.archetypes ai
  return some a

/-- `src/store.rs:314-320` `get_entity_by_id_unchecked`. -/
def getEntityById (s : Store) (id : Nat) : Res Entity := do
  let v ← Raw.read s.ents.versions id
  return ⟨id, v⟩

/-- `src/tag_container.rs:97-100` `Store::add_tag`. -/
def addTag (s : Store) (tag : Nat) (e : Entity) : Res Store := do
  let tags ← s.tags.addTag tag e.id
  return { s with tags := tags }

/-- `src/tag_container.rs:102-105` `Store::remove_tag`. -/
def removeTag (s : Store) (tag : Nat) (e : Entity) : Res Store := do
  let tags ← s.tags.removeTag tag e.id
  return { s with tags := tags }

/-- `src/tag_container.rs:107-110` `Store::has_tag`. -/
def hasTag (s : Store) (tag : Nat) (e : Entity) : Res Bool := s.tags.hasTag tag e.id

/-- `src/order_group_container.rs:343-345` `add_entity_order_by`. -/
def addOrder (dbg : Bool) (s : Store) (group : Nat) (e : Entity) : Res Store := do
  let orders ← s.orders.add dbg group e.id
  return { s with orders := orders }

/-- `src/order_group_container.rs:347-354` `add_entity_next_to_order_by`. -/
def addOrderNextTo (dbg : Bool) (s : Store) (group : Nat) (e next : Entity) : Res Store := do
  let orders ← s.orders.addNextTo dbg group e.id next.id
  return { s with orders := orders }

/-- `src/order_group_container.rs:356-363` `add_entity_previous_to_order_by`. -/
def addOrderPreviousTo (dbg : Bool) (s : Store) (group : Nat) (e prev : Entity) : Res Store := do
  let orders ← s.orders.addPreviousTo dbg group e.id prev.id
  return { s with orders := orders }

/-- `src/order_group_container.rs:365-368` `remove_entity_order_by`. -/
def removeOrder (s : Store) (group : Nat) (e : Entity) : Res Store := do
  let orders ← s.orders.remove group e.id
  return { s with orders := orders }

/-- The `.map(|id| get_entity_by_id_unchecked(id))` of `src/order_group_container.rs:370-395`. -/
def mapEntity (s : Store) : Option Nat → Res (Option Entity)
  | none => .ok none
  | some id => do
    let e ← s.getEntityById id
    return some e

/-- `src/order_group_container.rs:370-374` `get_next_entity_ordered_by`. -/
def getNextOrdered (s : Store) (group : Nat) (e : Entity) : Res (Option Entity) := do
  s.mapEntity (← s.orders.getNext group e.id)

/-- `src/order_group_container.rs:376-383` `get_previous_entity_ordered_by`. -/
def getPreviousOrdered (s : Store) (group : Nat) (e : Entity) : Res (Option Entity) := do
  s.mapEntity (← s.orders.getPrevious group e.id)

/-- `src/order_group_container.rs:385-389` `get_first_entity_ordered_by`. -/
def getFirstOrdered (s : Store) (group : Nat) : Res (Option Entity) := do
  s.mapEntity (← s.orders.getHead group)

/-- `src/order_group_container.rs:391-395` `get_last_entity_ordered_by`. -/
def getLastOrdered (s : Store) (group : Nat) : Res (Option Entity) := do
  s.mapEntity (← s.orders.getTail group)

/-- `src/store.rs:374-384` `drop`, followed by the drops of the fields that own raw buffers. (Pages,
archetypes and layouts are deallocated with constant or immutable sizes and are not modelled.) -/
def drop (s : Store) : Res Unit := do
  s.toIndex.dealloc s.ents.capacity
  s.toPage.dealloc s.ents.capacity
  s.hasArch.dealloc s.ents.capacity
  s.ents.drop
  s.tags.drop
  s.orders.drop

end Store
end Ecs
