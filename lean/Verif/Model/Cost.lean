import Verif.Model.Store

/-! The calls that look for a place for an entity, once more, with a count of what their loops examine. Each function is the one of
the same name (without `M`) in `Model/Archs.lean`, `Model/Tags.lean`, `Model/Orders.lean` or `Model/Store.lean`. Counted are the
iterations of the loops over archetypes, pages, tags and order groups; binary searches, the moving of vector elements and the
copying of bytes are not counted. -/

namespace Ecs

/-- How many archetypes, pages, tags, order groups and entities (of a list or a group) were examined. -/
structure Work where
  archetypes : Nat := 0
  pages : Nat := 0
  tags : Nat := 0
  groups : Nat := 0
  entities : Nat := 0
deriving DecidableEq, Repr

instance : Add Work := ⟨fun v w => ⟨v.archetypes + w.archetypes, v.pages + w.pages, v.tags + w.tags, v.groups + w.groups,
  v.entities + w.entities⟩⟩

/-- Calls with a count of their work. -/
abbrev Meter := StateT Work (Except Fault)

namespace Meter

/-- One more iteration. -/
def tick (w : Work) : Meter Unit := fun w0 => .ok ((), w0 + w)

/-- A step without counted iterations. -/
def step {α : Type} (r : Res α) : Meter α := fun w0 => r.map fun a => (a, w0)

end Meter

open Meter

namespace Archs

/-- Loop of `reserve_archetype` (`src/archetypes_container.rs:208-217`). -/
def findSameM (archetype : Archetype) : (i : Nat) → List Archetype → Meter (Option Nat)
  | _, [] => pure none
  | i, a :: rest => do
    tick { archetypes := 1 }
    if a.isSameAs archetype then pure (some i) else findSameM archetype (i + 1) rest

/-- `src/archetypes_container.rs:207-236` `reserve_archetype`. -/
def reserveArchetypeM (dbg : Bool) (c : Archs) (archetype : Archetype) : Meter (Archs × Nat) := do
  match ← findSameM archetype 0 c.archetypes with
  | some i =>
    match binarySearch c.freeArchetypes i with
    | .found k => pure ({ c with freeArchetypes := c.freeArchetypes.eraseIdx k }, i)
    | .notFound _ => pure (c, i)
  | none => do
    let layout ← step (Layout.new dbg archetype)
    match c.freeArchetypes.getLast? with
    | some freeIdx =>
      let archetypes ← step (idxSet c.archetypes freeIdx archetype)
      let layouts ← step (idxSet c.layouts freeIdx layout)
      return ({ c with archetypes := archetypes, layouts := layouts,
                       freeArchetypes := c.freeArchetypes.dropLast }, freeIdx)
    | none =>
      return ({ c with archetypes := c.archetypes ++ [archetype]
                       layouts := c.layouts ++ [layout]
                       archPages := c.archPages ++ [[]] },
              (c.archetypes ++ [archetype]).length - 1)

/-- Loop of `reserve_page` (`src/archetypes_container.rs:247-259`). -/
def findFreePageM (pages : List Page) : (candidates : List Nat) → Meter (Option Nat)
  | [] => pure none
  | p :: rest => do
    tick { pages := 1 }
    let page ← step (idx pages p)
    if page.hasFreeSpace then pure (some p) else findFreePageM pages rest

/-- `src/archetypes_container.rs:238-286` `reserve_page`. -/
def reservePageM (dbg : Bool) (c : Archs) (entityId archIndex : Nat) : Meter (Archs × Loc) := do
  let pageList ← step (idx c.archPages archIndex)
  match ← findFreePageM c.pages pageList.reverse with
  | some pageIndex =>
    let page ← step (idx c.pages pageIndex)
    let (page, index) ← step (page.addEntityId dbg entityId)
    return ({ c with pages := c.pages.set pageIndex page }, ⟨pageIndex, index⟩)
  | none =>
    let (c, pageIndex) ← (match c.freePages.getLast? with
      | some pageIndex => pure ({ c with freePages := c.freePages.dropLast }, pageIndex)
      | none => do
        let pageIndex := c.pages.length
        let pages ← step (vecInsert c.pages pageIndex Page.new)
        let pageToArch ← step (vecInsert c.pageToArch pageIndex archIndex)
        pure ({ c with pages := pages, pageToArch := pageToArch }, pageIndex) : Meter (Archs × Nat))
    let layout ← step (idx c.layouts archIndex)
    let page ← step (idx c.pages pageIndex)
    let page := page.setLayout layout
    let pageList ← step (idx c.archPages archIndex)
    let archPages := c.archPages.set archIndex (pageList ++ [pageIndex])
    let pageToArch ← step (idxSet c.pageToArch pageIndex archIndex)
    let (page, index) ← step (page.addEntityId dbg entityId)
    return ({ c with pages := c.pages.set pageIndex page, archPages := archPages,
                     pageToArch := pageToArch }, ⟨pageIndex, index⟩)

/-- `src/archetypes_container.rs:61-68` `add_entity`. -/
def addEntityM (dbg : Bool) (c : Archs) (entityId : Nat) (archetype : Archetype) : Meter (Archs × Loc) := do
  let (c, archIndex) ← c.reserveArchetypeM dbg archetype
  c.reservePageM dbg entityId archIndex

/-- Loop of `free_page` (`src/archetypes_container.rs:194-202`): is the page in the list? -/
def findPageM (pageIndex : Nat) : List Nat → Meter Bool
  | [] => pure false
  | p :: rest => do
    tick { pages := 1 }
    if p = pageIndex then pure true else findPageM pageIndex rest

/-- `src/archetypes_container.rs:186-205` `free_page`. -/
def freePageM (c : Archs) (pageIndex : Nat) : Meter Archs := do
  let archIndex ← step (idx c.pageToArch pageIndex)
  if archIndex = 0 then
    return c
  let pageList ← step (idx c.archPages archIndex)
  let found ← findPageM pageIndex pageList
  let c := if found then
      let rest := pageList.erase pageIndex
      { c with archPages := c.archPages.set archIndex rest
               freeArchetypes := if rest.length = 0 then c.freeArchetypes ++ [archIndex]
                                 else c.freeArchetypes }
    else c
  return { c with freePages := c.freePages ++ [pageIndex] }

/-- `src/archetypes_container.rs:70-93` `swap_remove_entity`. -/
def swapRemoveEntityM (c : Archs) (loc : Loc) : Meter (Archs × Option Nat) := do
  let archIndex ← step (idx c.pageToArch loc.page)
  let page ← step (idx c.pages loc.page)
  let pageWillEmpty := page.entityCount == 1
  let arch ← step (idx c.archetypes archIndex)
  let layout ← step (idx c.layouts archIndex)
  let (page, info) ← step (page.swapRemoveEntityAtIndex loc.index arch layout)
  let c := { c with pages := c.pages.set loc.page page }
  let c ← if pageWillEmpty then c.freePageM loc.page else pure c
  return (c, info)

/-- `src/archetypes_container.rs:95-126` `move_entity_to_other_archetype`. -/
def moveEntityToOtherArchetypeM (dbg : Bool) (c : Archs) (entityId : Nat) (prev : Loc)
    (prevArchIndex : Nat) (newArchetype : Archetype) : Meter (Archs × Loc) := do
  let (c, newArchIndex) ← c.reserveArchetypeM dbg newArchetype
  let (c, newLoc) ← c.reservePageM dbg entityId newArchIndex
  let _ ← step (idx c.pages prev.page)
  let _ ← step (idx c.pages newLoc.page)
  let prevArchetype ← step (idx c.archetypes prevArchIndex)
  let prevLayout ← step (idx c.layouts prevArchIndex)
  let newLayout ← step (idx c.layouts newArchIndex)
  let u := ArchetypesUnion.calculate prevArchetype newArchetype
  let pages ← step (copyLoop prev newLoc prevArchetype newArchetype prevLayout newLayout
    (u.lhsIndices.zip u.rhsIndices) c.pages)
  return ({ c with pages := pages }, newLoc)

end Archs

/-- `src/tag_container.rs:76-82` `remove_all_tags_for_entity`. -/
def Tags.removeAllTagsForEntityM (c : Tags) (entityId : Nat) : Meter Tags := do
  let bvs ← c.bitvecs.mapM (fun bv => do tick { tags := 1 }; step (bv.setOff entityId))
  return { c with bitvecs := bvs }

/-- `src/tag_container.rs:84-93` `grow`. -/
def Tags.growM (c : Tags) (newCapacity : Nat) : Meter Tags := do
  let bvs ← c.bitvecs.mapM (fun bv => do tick { tags := 1 }; step (bv.realloc c.entityCapacity newCapacity))
  return { c with bitvecs := bvs, entityCapacity := newCapacity }

/-- `src/order_group_container.rs:191-195` `remove_all_orders_for_id`. -/
def Orders.removeAllM (c : Orders) (id : Nat) : Meter Orders := do
  let groups ← c.groups.mapM (fun g => do tick { groups := 1 }; step (g.remove id))
  return { c with groups := groups }

/-- `src/order_group_container.rs:166-189` `grow`. -/
def Orders.growM (dbg : Bool) (c : Orders) (newCapacity : Nat) : Meter Orders := do
  let _ ← step (subUsize dbg newCapacity c.entityCapacity)
  let groups ← c.groups.mapM (fun g => do tick { groups := 1 }; step (g.grow c.entityCapacity newCapacity))
  return { c with groups := groups, entityCapacity := newCapacity }

namespace Store

/-- `src/store.rs:290-312` `grow_entities_internal`. -/
def growEntitiesInternalM (dbg : Bool) (s : Store) (oldCapacity : Nat) : Meter Store := do
  let newCapacity := s.entitiesCapacity
  let toPage ← step (Raw.realloc s.toPage oldCapacity newCapacity)
  let toIndex ← step (Raw.realloc s.toIndex oldCapacity newCapacity)
  let hasArch ← step (s.hasArch.realloc oldCapacity newCapacity)
  let tags ← s.tags.growM newCapacity
  let orders ← s.orders.growM dbg newCapacity
  return { s with toPage := toPage, toIndex := toIndex, hasArch := hasArch, tags := tags,
                  orders := orders }

/-- `src/store.rs:76-83` `register_new_entity`. -/
def registerNewEntityM (dbg : Bool) (s : Store) : Meter (Store × Entity) := do
  let (ents, creation) ← step (s.ents.create dbg)
  let s := { s with ents := ents }
  let s ← if creation.wasGrow then s.growEntitiesInternalM dbg creation.capacityBefore else pure s
  return (s, creation.entity)

/-- `src/store.rs:53-61` `create_entity`. -/
def createEntityM (dbg : Bool) (s : Store) : Meter (Store × Entity) := do
  let (s, e) ← s.registerNewEntityM dbg
  let hasArch ← step (s.hasArch.setOff e.id)
  return ({ s with hasArch := hasArch }, e)

/-- `src/store.rs:63-74` `create_entity_with_archetype`. -/
def createEntityWithArchetypeM (dbg : Bool) (s : Store) (a : Archetype) : Meter (Store × Entity) := do
  let (s, e) ← s.registerNewEntityM dbg
  let (archs, loc) ← s.archs.addEntityM dbg e.id a
  let s ← step ({ s with archs := archs }.recordRow e.id loc)
  return (s, e)

/-- `src/store.rs:214-227` `swap_remove_internal`. -/
def swapRemoveInternalM (s : Store) (loc : Loc) : Meter Store := do
  let (archs, info) ← s.archs.swapRemoveEntityM loc
  let s := { s with archs := archs }
  match info with
  | some idToReplace =>
    let toIndex ← step (Raw.write s.toIndex idToReplace loc.index)
    return { s with toIndex := toIndex }
  | none => return s

/-- `src/store.rs:86-98`: first part of `destroy_entity`. -/
def destroyRowM (s : Store) (e : Entity) : Meter Store := do
  let hasArchetype ← step (s.hasArch.isOn e.id)
  if hasArchetype then
    let loc ← step (s.getLocUnchecked e.id)
    s.swapRemoveInternalM loc
  else
    return s

/-- `src/store.rs:85-104` `destroy_entity`. -/
def destroyEntityM (dbg : Bool) (s : Store) (e : Entity) : Meter Store := do
  let s ← s.destroyRowM e
  let ents ← step (s.ents.destroy dbg e)
  let tags ← s.tags.removeAllTagsForEntityM e.id
  let orders ← s.orders.removeAllM e.id
  return { s with ents := ents, tags := tags, orders := orders }

/-- `src/store.rs:187-212` `move_entity_to_other_archetype`. -/
def moveEntityToOtherArchetypeM (dbg : Bool) (s : Store) (e : Entity) (newArch : Archetype) : Meter (Store × Loc) := do
  let prev ← step (s.getLocUnchecked e.id)
  let prevArchIndex ← step (idx s.archs.pageToArch prev.page)
  let (archs, loc) ← s.archs.moveEntityToOtherArchetypeM dbg e.id prev prevArchIndex newArch
  let toPage ← step (Raw.write s.toPage e.id loc.page)
  let toIndex ← step (Raw.write s.toIndex e.id loc.index)
  let s := { s with archs := archs, toPage := toPage, toIndex := toIndex }
  let s ← s.swapRemoveInternalM prev
  return (s, loc)

/-- `src/store.rs:115-149`: the first part of `add_components`. -/
def ensureComponentsM (U : Universe) (dbg : Bool) (s : Store) (e : Entity) (ts : List TypeId) : Meter (Store × Loc) := do
  let hasArchetype ← step (s.hasArch.isOn e.id)
  if hasArchetype then
    let loc ← step (s.getLocUnchecked e.id)
    let archIndex ← step (idx s.archs.pageToArch loc.page)
    let arch ← step (idxUnchecked s.archs.archetypes archIndex)
    if tupleIncluded ts arch then
      return (s, loc)
    else
      let (newArch, _) ← step ((ArchetypeBuilder.new.includeArchetype arch).includeComponents U ts).build
      s.moveEntityToOtherArchetypeM dbg e newArch
  else
    let archetype ← step (Archetype.withComponents U ts)
    let (archs, loc) ← s.archs.addEntityM dbg e.id archetype
    let s ← step ({ s with archs := archs }.recordRow e.id loc)
    return (s, loc)

/-- `src/store.rs:106-161` `add_components`. -/
def addComponentsM (U : Universe) (dbg : Bool) (s : Store) (e : Entity) (vals : TupleVal) : Meter Store := do
  if !(← step (s.isAlive dbg e)) then
    return s
  let ts := vals.map (·.1)
  let (s, loc) ← s.ensureComponentsM U dbg e ts
  let view ← step (s.getPageViewUnchecked loc.page)
  let offsets ← step (getOffsetsUnchecked view.archetype view.layout ts)
  let refs := getRefs U loc.page loc.index ts offsets
  let pages ← step (assignToRefs refs (vals.map (·.2)) s.archs.pages)
  return { s with archs := { s.archs with pages := pages } }

/-- `src/store.rs:163-185` `remove_components`. -/
def removeComponentsM (U : Universe) (dbg : Bool) (s : Store) (e : Entity) (ts : List TypeId) : Meter Store := do
  if !(← step (s.isValidEntityWithArchetype dbg e)) then
    return s
  let prev ← step (s.getLocUnchecked e.id)
  let prevArchIndex ← step (idx s.archs.pageToArch prev.page)
  let prevArch ← step (idxUnchecked s.archs.archetypes prevArchIndex)
  let (newArch, _) ← step ((ArchetypeBuilder.new.includeArchetype prevArch).excludeComponents U ts).build
  let (s, _) ← s.moveEntityToOtherArchetypeM dbg e newArch
  return s

end Store
end Ecs
