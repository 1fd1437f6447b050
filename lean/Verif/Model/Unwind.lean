import Verif.Model.Store

/-! The mutating calls of `Store` once more, keeping the state that a caught panic
(`std::panic::catch_unwind`) leaves behind. Every definition here follows the definition of the same
name (without the final `U`) in the other model files and cites the same lines; the order of the writes
and of the checks that can panic is the order of the code. `Proofs/Unwind.lean` shows that the two
models agree on the calls that return and on the faults.

A step that contains no check which can panic after its first write is written as one `step`. -/

namespace Ecs

/-- A call that ends with a result or a fault, and leaves a state in both cases. (After undefined
behaviour the state means nothing.) -/
def Unw (σ α : Type) : Type := σ → Res α × σ

namespace Unw
variable {σ τ α β : Type}

/-- Run on a state. -/
def run (m : Unw σ α) (s : σ) : Res α × σ := m s

/-- Continue after a result; a fault leaves the state as it is at that moment. -/
def bind (m : Unw σ α) (f : α → Unw σ β) : Unw σ β := fun s =>
  match m s with
  | (.ok a, s') => f a s'
  | (.error e, s') => (.error e, s')

instance : Monad (Unw σ) where
  pure a := fun s => (.ok a, s)
  bind := bind

/-- The current state. -/
def get : Unw σ σ := fun s => (.ok s, s)

/-- A computation that writes nothing. -/
def lift (r : Res α) : Unw σ α := fun s => (r, s)

/-- Write, unless the computation of the new state faults. -/
def step (f : σ → Res σ) : Unw σ Unit := fun s =>
  match f s with
  | .ok s' => (.ok (), s')
  | .error e => (.error e, s)

/-- Write and return a value, unless the computation faults. -/
def step' (f : σ → Res (σ × α)) : Unw σ α := fun s =>
  match f s with
  | .ok (s', a) => (.ok a, s')
  | .error e => (.error e, s)

/-- A call on a part of the state. -/
def on (get : σ → τ) (set : σ → τ → σ) (m : Unw τ α) : Unw σ α := fun s =>
  match m (get s) with
  | (r, t) => (r, set s t)

/-- The outcome in the form used by the other model: the state is lost when the call does not return. -/
def result (m : Unw σ α) (s : σ) : Res (σ × α) :=
  match m s with
  | (.ok a, s') => .ok (s', a)
  | (.error e, _) => .error e

end Unw

namespace Ents

/-- `src/entities_container.rs:71-102` `create_entity`. The id is chosen before anything can go wrong (an
overflow of `next_free_id` panics before the write); the alive bit is flipped before the version is
increased. -/
def createU (dbg : Bool) : Unw Ents EntityCreation := do
  let capacityBefore := (← Unw.get).capacity
  let id ← Unw.step' fun c => do
    let (id, c) ← takeId dbg c
    return (c, id)
  Unw.step fun c => do
    let bits ← c.aliveBits.toggle id
    return { c with aliveBits := bits }
  let v ← Unw.lift (Raw.read (← Unw.get).versions id)
  let version ← Unw.lift (addU32 dbg v 1)
  Unw.step fun c => do
    let versions ← Raw.write c.versions id version
    return { c with versions := versions }
  let c ← Unw.get
  return { entity := ⟨id, version⟩, capacityBefore := capacityBefore, capacityAfter := c.capacity }

/-- `src/entities_container.rs:104-118` `destroy_entity`. The alive bit is flipped before
`next_free_id - 1` is computed. -/
def destroyU (dbg : Bool) (e : Entity) : Unw Ents Unit := do
  let c ← Unw.get
  Unw.lift (c.validateVersionWithPanic dbg e)
  if dbg then
    let alive ← Unw.lift (c.isAlive dbg e)
    Unw.lift (dassert dbg alive)
  Unw.step fun c => do
    let bits ← c.aliveBits.toggle e.id
    return { c with aliveBits := bits }
  let lastId ← Unw.lift (subU32 dbg (← Unw.get).nextFreeId 1)
  Unw.step fun c =>
    if e.id = lastId then return { c with nextFreeId := e.id }
    else return { c with gapIds := c.gapIds ++ [e.id] }

end Ents

namespace Archs

/-- `src/archetypes_container.rs:207-236` `reserve_archetype`. The layout is computed before anything is
written. -/
def reserveArchetypeU (dbg : Bool) (archetype : Archetype) : Unw Archs Nat := do
  let c ← Unw.get
  match findSame archetype 0 c.archetypes with
  | some i =>
    match binarySearch c.freeArchetypes i with
    | .found k => Unw.step fun c => return { c with freeArchetypes := c.freeArchetypes.eraseIdx k }
    | .notFound _ => pure ()
    return i
  | none =>
    let layout ← Unw.lift (Layout.new dbg archetype)
    match c.freeArchetypes.getLast? with
    | some freeIdx =>
      Unw.step fun c => return { c with freeArchetypes := c.freeArchetypes.dropLast }
      Unw.step fun c => do
        let archetypes ← idxSet c.archetypes freeIdx archetype
        return { c with archetypes := archetypes }
      Unw.step fun c => do
        let layouts ← idxSet c.layouts freeIdx layout
        return { c with layouts := layouts }
      return freeIdx
    | none =>
      Unw.step fun c => return { c with archetypes := c.archetypes ++ [archetype]
                                        layouts := c.layouts ++ [layout]
                                        archPages := c.archPages ++ [[]] }
      return (← Unw.get).archetypes.length - 1

/-- `src/archetypes_container.rs:262-270`: the page that `reserve_page` takes when no page of the archetype
has room. -/
def takePageU (archIndex : Nat) : Unw Archs Nat := do
  let c ← Unw.get
  match c.freePages.getLast? with
  | some pageIndex =>
    Unw.step fun c => return { c with freePages := c.freePages.dropLast }
    return pageIndex
  | none =>
    let pageIndex := c.pages.length
    Unw.step fun c => do
      let pages ← vecInsert c.pages pageIndex Page.new
      return { c with pages := pages }
    Unw.step fun c => do
      let pageToArch ← vecInsert c.pageToArch pageIndex archIndex
      return { c with pageToArch := pageToArch }
    return pageIndex

/-- `add_entity_id` on page `pageIndex` (`src/archetype_data_page.rs:52-56`): the assertion comes before
the push. -/
def pushIdU (dbg : Bool) (pageIndex entityId : Nat) : Unw Archs Nat :=
  Unw.step' fun c => do
    let page ← idx c.pages pageIndex
    let (page, index) ← page.addEntityId dbg entityId
    return ({ c with pages := c.pages.set pageIndex page }, index)

/-- `src/archetypes_container.rs:238-286` `reserve_page`. -/
def reservePageU (dbg : Bool) (entityId archIndex : Nat) : Unw Archs Loc := do
  let c ← Unw.get
  let pageList ← Unw.lift (idx c.archPages archIndex)
  match ← Unw.lift (findFreePage c.pages pageList.reverse) with
  | some pageIndex =>
    let index ← pushIdU dbg pageIndex entityId
    return ⟨pageIndex, index⟩
  | none =>
    let pageIndex ← takePageU archIndex
    Unw.step fun c => do
      let layout ← idx c.layouts archIndex
      let page ← idx c.pages pageIndex
      return { c with pages := c.pages.set pageIndex (page.setLayout layout) }
    Unw.step fun c => do
      let pageList ← idx c.archPages archIndex
      return { c with archPages := c.archPages.set archIndex (pageList ++ [pageIndex]) }
    Unw.step fun c => do
      let pageToArch ← idxSet c.pageToArch pageIndex archIndex
      return { c with pageToArch := pageToArch }
    let index ← pushIdU dbg pageIndex entityId
    return ⟨pageIndex, index⟩

/-- `src/archetypes_container.rs:61-68` `add_entity`. -/
def addEntityU (dbg : Bool) (entityId : Nat) (archetype : Archetype) : Unw Archs Loc := do
  let archIndex ← reserveArchetypeU dbg archetype
  reservePageU dbg entityId archIndex

/-- `src/archetypes_container.rs:70-93` `swap_remove_entity`: the row is removed from its page before an
emptied page is given back. In `swap_remove_entity_at_index` (`src/archetype_data_page.rs:58-77`) the
`swap_remove` panics before it writes, and `entities_ids[index]` is checked to be in bounds by the `if`. -/
def swapRemoveEntityU (loc : Loc) : Unw Archs (Option Nat) := do
  let c ← Unw.get
  let archIndex ← Unw.lift (idx c.pageToArch loc.page)
  let page ← Unw.lift (idx c.pages loc.page)
  let arch ← Unw.lift (idx c.archetypes archIndex)
  let layout ← Unw.lift (idx c.layouts archIndex)
  let info ← Unw.step' fun c => do
    let (page, info) ← page.swapRemoveEntityAtIndex loc.index arch layout
    return ({ c with pages := c.pages.set loc.page page }, info)
  if page.entityCount == 1 then
    Unw.step fun c => c.freePage loc.page
  return info

/-- `src/archetypes_container.rs:95-126` `move_entity_to_other_archetype`. -/
def moveEntityToOtherArchetypeU (dbg : Bool) (entityId : Nat) (prev : Loc) (prevArchIndex : Nat)
    (newArchetype : Archetype) : Unw Archs Loc := do
  let newArchIndex ← reserveArchetypeU dbg newArchetype
  let newLoc ← reservePageU dbg entityId newArchIndex
  Unw.step fun c => do
    let _ ← idx c.pages prev.page
    let _ ← idx c.pages newLoc.page
    let prevArchetype ← idx c.archetypes prevArchIndex
    let prevLayout ← idx c.layouts prevArchIndex
    let newLayout ← idx c.layouts newArchIndex
    let u := ArchetypesUnion.calculate prevArchetype newArchetype
    let pages ← copyLoop prev newLoc prevArchetype newArchetype prevLayout newLayout
      (u.lhsIndices.zip u.rhsIndices) c.pages
    return { c with pages := pages }
  return newLoc

end Archs

namespace Store

/-- A call on the entity container. -/
def onEnts {α : Type} (m : Unw Ents α) : Unw Store α := m.on (·.ents) fun s c => { s with ents := c }

/-- A call on the archetype container. -/
def onArchs {α : Type} (m : Unw Archs α) : Unw Store α := m.on (·.archs) fun s c => { s with archs := c }

/-- `src/store.rs:290-312` `grow_entities_internal`. -/
def growEntitiesInternalU (dbg : Bool) (oldCapacity : Nat) : Unw Store Unit := do
  let newCapacity := (← Unw.get).entitiesCapacity
  Unw.step fun s => do
    let toPage ← Raw.realloc s.toPage oldCapacity newCapacity
    return { s with toPage := toPage }
  Unw.step fun s => do
    let toIndex ← Raw.realloc s.toIndex oldCapacity newCapacity
    return { s with toIndex := toIndex }
  Unw.step fun s => do
    let hasArch ← s.hasArch.realloc oldCapacity newCapacity
    return { s with hasArch := hasArch }
  Unw.step fun s => do
    let tags ← s.tags.grow newCapacity
    return { s with tags := tags }
  Unw.step fun s => do
    let orders ← s.orders.grow dbg newCapacity
    return { s with orders := orders }

/-- `src/store.rs:76-83` `register_new_entity`. -/
def registerNewEntityU (dbg : Bool) : Unw Store Entity := do
  let creation ← onEnts (Ents.createU dbg)
  if creation.wasGrow then growEntitiesInternalU dbg creation.capacityBefore
  return creation.entity

/-- `src/store.rs:53-61` `create_entity`. -/
def createEntityU (dbg : Bool) : Unw Store Entity := do
  let e ← registerNewEntityU dbg
  Unw.step fun s => do
    let hasArch ← s.hasArch.setOff e.id
    return { s with hasArch := hasArch }
  return e

/-- `src/store.rs:63-74` `create_entity_with_archetype`. -/
def createEntityWithArchetypeU (dbg : Bool) (archetype : Archetype) : Unw Store Entity := do
  let e ← registerNewEntityU dbg
  let loc ← onArchs (Archs.addEntityU dbg e.id archetype)
  Unw.step fun s => s.recordRow e.id loc
  return e

/-- `src/store.rs:214-227` `swap_remove_internal`. -/
def swapRemoveInternalU (loc : Loc) : Unw Store Unit := do
  match ← onArchs (Archs.swapRemoveEntityU loc) with
  | some idToReplace =>
    Unw.step fun s => do
      let toIndex ← Raw.write s.toIndex idToReplace loc.index
      return { s with toIndex := toIndex }
  | none => return ()

/-- `src/store.rs:85-104` `destroy_entity`. -/
def destroyEntityU (dbg : Bool) (e : Entity) : Unw Store Unit := do
  let s ← Unw.get
  let hasArchetype ← Unw.lift (s.hasArch.isOn e.id)
  if hasArchetype then
    let loc ← Unw.lift (s.getLocUnchecked e.id)
    swapRemoveInternalU loc
  onEnts (Ents.destroyU dbg e)
  Unw.step fun s => do
    let tags ← s.tags.removeAllTagsForEntity e.id
    return { s with tags := tags }
  Unw.step fun s => do
    let orders ← s.orders.removeAll e.id
    return { s with orders := orders }

/-- `src/store.rs:187-212` `move_entity_to_other_archetype`. -/
def moveEntityToOtherArchetypeU (dbg : Bool) (e : Entity) (newArch : Archetype) : Unw Store Loc := do
  let s ← Unw.get
  let prev ← Unw.lift (s.getLocUnchecked e.id)
  let prevArchIndex ← Unw.lift (idx s.archs.pageToArch prev.page)
  let loc ← onArchs (Archs.moveEntityToOtherArchetypeU dbg e.id prev prevArchIndex newArch)
  Unw.step fun s => do
    let toPage ← Raw.write s.toPage e.id loc.page
    let toIndex ← Raw.write s.toIndex e.id loc.index
    return { s with toPage := toPage, toIndex := toIndex }
  swapRemoveInternalU prev
  return loc

/-- `src/store.rs:115-149`: the first part of `add_components`. -/
def ensureComponentsU (U : Universe) (dbg : Bool) (e : Entity) (ts : List TypeId) : Unw Store Loc := do
  let s ← Unw.get
  let hasArchetype ← Unw.lift (s.hasArch.isOn e.id)
  if hasArchetype then
    let loc ← Unw.lift (s.getLocUnchecked e.id)
    let archIndex ← Unw.lift (idx s.archs.pageToArch loc.page)
    let arch ← Unw.lift (idxUnchecked s.archs.archetypes archIndex)
    if tupleIncluded ts arch then
      return loc
    else
      let (newArch, _) ←
        Unw.lift ((ArchetypeBuilder.new.includeArchetype arch).includeComponents U ts).build
      moveEntityToOtherArchetypeU dbg e newArch
  else
    let archetype ← Unw.lift (Archetype.withComponents U ts)
    let loc ← onArchs (Archs.addEntityU dbg e.id archetype)
    Unw.step fun s => s.recordRow e.id loc
    return loc

/-- `src/store.rs:106-161` `add_components`. -/
def addComponentsU (U : Universe) (dbg : Bool) (e : Entity) (vals : TupleVal) : Unw Store Unit := do
  let alive ← Unw.lift ((← Unw.get).isAlive dbg e)
  if alive then
    let ts := vals.map (·.1)
    let loc ← ensureComponentsU U dbg e ts
    Unw.step fun s => do
      let view ← s.getPageViewUnchecked loc.page
      let offsets ← getOffsetsUnchecked view.archetype view.layout ts
      let refs := getRefs U loc.page loc.index ts offsets
      let pages ← assignToRefs refs (vals.map (·.2)) s.archs.pages
      return { s with archs := { s.archs with pages := pages } }

/-- `src/store.rs:163-185` `remove_components`. -/
def removeComponentsU (U : Universe) (dbg : Bool) (e : Entity) (ts : List TypeId) : Unw Store Unit := do
  let s ← Unw.get
  let valid ← Unw.lift (s.isValidEntityWithArchetype dbg e)
  if valid then
    let prev ← Unw.lift (s.getLocUnchecked e.id)
    let prevArchIndex ← Unw.lift (idx s.archs.pageToArch prev.page)
    let prevArch ← Unw.lift (idxUnchecked s.archs.archetypes prevArchIndex)
    let (newArch, _) ←
      Unw.lift ((ArchetypeBuilder.new.includeArchetype prevArch).excludeComponents U ts).build
    let _ ← moveEntityToOtherArchetypeU dbg e newArch

/-- Assigning through `get_components_refs_mut` (see `setComponents`). -/
def setComponentsU (U : Universe) (dbg : Bool) (e : Entity) (vals : TupleVal) : Unw Store Bool :=
  Unw.step' fun s => s.setComponents U dbg e vals

/-- A call of `OrderGroupContainer` that first reserves the group (`src/order_group_container.rs:35-130`);
the assertions of the call on the group come before its writes. -/
def onGroupU (group : Nat) (f : Group → Res Group) : Unw Store Unit := do
  let i ← Unw.step' fun s =>
    let (orders, i) := s.orders.reserveGroup group
    return ({ s with orders := orders }, i)
  Unw.step fun s => do
    let orders ← s.orders.onGroup i f
    return { s with orders := orders }

/-- `src/order_group_container.rs:343-345` `add_entity_order_by`. -/
def addOrderU (dbg : Bool) (group : Nat) (e : Entity) : Unw Store Unit :=
  onGroupU group fun g => g.add dbg e.id

/-- `src/order_group_container.rs:347-354` `add_entity_next_to_order_by`. -/
def addOrderNextToU (dbg : Bool) (group : Nat) (e next : Entity) : Unw Store Unit :=
  onGroupU group fun g => g.addNextTo dbg e.id next.id

/-- `src/order_group_container.rs:356-363` `add_entity_previous_to_order_by`. -/
def addOrderPreviousToU (dbg : Bool) (group : Nat) (e prev : Entity) : Unw Store Unit :=
  onGroupU group fun g => g.addPreviousTo dbg e.id prev.id

/-- `src/tag_container.rs:97-100` `add_tag`: contains no check that panics. -/
def addTagU (tag : Nat) (e : Entity) : Unw Store Unit := Unw.step fun s => s.addTag tag e

/-- `src/tag_container.rs:102-105` `remove_tag`: contains no check that panics. -/
def removeTagU (tag : Nat) (e : Entity) : Unw Store Unit := Unw.step fun s => s.removeTag tag e

/-- `src/order_group_container.rs:365-368` `remove_entity_order_by`: contains no check that panics. -/
def removeOrderU (group : Nat) (e : Entity) : Unw Store Unit := Unw.step fun s => s.removeOrder group e

end Store
end Ecs
