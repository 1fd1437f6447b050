import Verif.Model.Entities
import Verif.Model.Std

/-! Model of `src/order_group_container.rs` (the container part, lines 1-340 and 398-410; the `Store`
methods of lines 342-396 are in `Model/Store.lean`). An order group is identified by the `TypeId` of
its tag type. -/

namespace Ecs

/-- One order group: the entries of the five parallel vectors of
`src/order_group_container.rs:5-12` at one group index. -/
structure Group where
  fwd : Raw Nat
  bwd : Raw Nat
  head : Nat
  tail : Nat
deriving Repr

/-- `src/order_group_container.rs:5-12` `OrderGroupContainer`. The parallel vectors
`group_index_to_{forward_links,backward_links,head,tail}` are always modified together and are
modelled as one vector of `Group`s. -/
structure Orders where
  groupIds : List Nat
  groups : List Group
  entityCapacity : Nat
deriving Repr

/-- `src/order_group_container.rs:132-142` `assert_entity_has_no_order`. -/
def assertEntityHasNoOrder (dbg : Bool) (fwdId bwdId : Nat) : Res Unit := do
  dassert dbg (fwdId == NULL_ID)
  dassert dbg (bwdId == NULL_ID)

namespace Group

/-- `src/order_group_container.rs:217-224` `alloc_links_map`: all links `NULL_ID` (bytes `0xFF`). -/
def allocLinks (cap : Nat) : Raw Nat := List.replicate cap (some NULL_ID)

/-- A freshly registered group (`src/order_group_container.rs:203-210`). -/
def new (cap : Nat) : Group :=
  { fwd := allocLinks cap, bwd := allocLinks cap, head := NULL_ID, tail := NULL_ID }

/-- `src/order_group_container.rs:46-61`: body of `add_id_ordered_by`. -/
def add (dbg : Bool) (g : Group) (entityId : Nat) : Res Group := do
  if g.head = NULL_ID then
    return { g with head := entityId, tail := entityId }
  else
    let fwdId ← Raw.read g.fwd entityId
    let bwdId ← Raw.read g.bwd entityId
    assertEntityHasNoOrder dbg fwdId bwdId
    let fwd ← Raw.write g.fwd g.tail entityId
    let bwd ← Raw.write g.bwd entityId g.tail
    return { g with fwd := fwd, bwd := bwd, tail := entityId }

/-- `src/order_group_container.rs:75-93`: body of `add_id_next_to_ordered_by`. -/
def addNextTo (dbg : Bool) (g : Group) (entityId nextToId : Nat) : Res Group := do
  let fwdEntity ← Raw.read g.fwd entityId
  let bwdEntity ← Raw.read g.bwd entityId
  assertEntityHasNoOrder dbg fwdEntity bwdEntity
  let fwdAfter ← Raw.read g.fwd nextToId
  let (fwd, bwd) ← (if fwdAfter ≠ NULL_ID then do
      let bwd ← Raw.write g.bwd fwdAfter entityId
      let fwd ← Raw.write g.fwd entityId fwdAfter
      pure (fwd, bwd)
    else pure (g.fwd, g.bwd) : Res (Raw Nat × Raw Nat))
  let fwd ← Raw.write fwd nextToId entityId
  let bwd ← Raw.write bwd entityId nextToId
  return { g with fwd := fwd, bwd := bwd, tail := if g.tail = nextToId then entityId else g.tail }

/-- `src/order_group_container.rs:111-129`: body of `add_id_previous_to_ordered_by`. -/
def addPreviousTo (dbg : Bool) (g : Group) (entityId previousToId : Nat) : Res Group := do
  let fwdEntity ← Raw.read g.fwd entityId
  let bwdEntity ← Raw.read g.bwd entityId
  assertEntityHasNoOrder dbg fwdEntity bwdEntity
  let bwdPrev ← Raw.read g.bwd previousToId
  let (fwd, bwd) ← (if bwdPrev ≠ NULL_ID then do
      let fwd ← Raw.write g.fwd bwdPrev entityId
      let bwd ← Raw.write g.bwd entityId bwdPrev
      pure (fwd, bwd)
    else pure (g.fwd, g.bwd) : Res (Raw Nat × Raw Nat))
  let bwd ← Raw.write bwd previousToId entityId
  let fwd ← Raw.write fwd entityId previousToId
  return { g with fwd := fwd, bwd := bwd, head := if g.head = previousToId then entityId else g.head }

/-- `src/order_group_container.rs:308-339` `remove_entity_order_by_internal` for one group. `*fwd` and
`*bwd` are re-read wherever the code dereferences them. -/
def remove (g : Group) (entityId : Nat) : Res Group := do
  let f ← Raw.read g.fwd entityId
  let b ← Raw.read g.bwd entityId
  let bwd ← if f ≠ NULL_ID then Raw.write g.bwd f b else pure g.bwd
  let b ← Raw.read bwd entityId
  let fwd ← if b ≠ NULL_ID then Raw.write g.fwd b f else pure g.fwd
  let f ← Raw.read fwd entityId
  let head := if g.head = entityId then f else g.head
  let tail := if g.tail = entityId then b else g.tail
  let bwd ← Raw.write bwd entityId NULL_ID
  let fwd ← Raw.write fwd entityId NULL_ID
  return { fwd := fwd, bwd := bwd, head := head, tail := tail }

/-- Loop body of `grow` (`src/order_group_container.rs:173-185`): both link arrays are reallocated
and the new part is filled with `NULL_ID`. -/
def growLinks (a : Raw Nat) (oldCap newCap : Nat) : Res (Raw Nat) := do
  let a ← Raw.realloc a oldCap newCap
  return a.take oldCap ++ List.replicate (newCap - oldCap) (some NULL_ID)

/-- See `growLinks`. -/
def grow (g : Group) (oldCap newCap : Nat) : Res Group := do
  let bwd ← growLinks g.bwd oldCap newCap
  let fwd ← growLinks g.fwd oldCap newCap
  return { g with fwd := fwd, bwd := bwd }

end Group

namespace Orders

/-- `src/order_group_container.rs:24-33` `new`. -/
def new (entityCapacity : Nat) : Orders :=
  { groupIds := [], groups := [], entityCapacity := entityCapacity }

/-- `src/order_group_container.rs:197-215` `reserve_group`. -/
def reserveGroup (c : Orders) (group : Nat) : Orders × Nat :=
  match binarySearch c.groupIds group with
  | .found i => (c, i)
  | .notFound i =>
    ({ c with groupIds := c.groupIds.insertIdx i group
              groups := c.groups.insertIdx i (Group.new c.entityCapacity) }, i)

/-- Read group `i`, run `f`, store the result back (the pattern of
`get_order_group_info_unchecked_mut`, `src/order_group_container.rs:291-306`). -/
def onGroup (c : Orders) (i : Nat) (f : Group → Res Group) : Res Orders := do
  let g ← idxUnchecked c.groups i
  let g ← f g
  return { c with groups := c.groups.set i g }

/-- `src/order_group_container.rs:35-62` `add_id_ordered_by`. -/
def add (dbg : Bool) (c : Orders) (group entityId : Nat) : Res Orders :=
  let (c, i) := c.reserveGroup group
  c.onGroup i (fun g => g.add dbg entityId)

/-- `src/order_group_container.rs:64-94` `add_id_next_to_ordered_by`. -/
def addNextTo (dbg : Bool) (c : Orders) (group entityId nextToId : Nat) : Res Orders :=
  let (c, i) := c.reserveGroup group
  c.onGroup i (fun g => g.addNextTo dbg entityId nextToId)

/-- `src/order_group_container.rs:96-130` `add_id_previous_to_ordered_by`. -/
def addPreviousTo (dbg : Bool) (c : Orders) (group entityId previousToId : Nat) : Res Orders :=
  let (c, i) := c.reserveGroup group
  c.onGroup i (fun g => g.addPreviousTo dbg entityId previousToId)

/-- `src/order_group_container.rs:144-154` `remove_id_ordered_by`. -/
def remove (c : Orders) (group entityId : Nat) : Res Orders :=
  match binarySearch c.groupIds group with
  | .notFound _ => .ok c
  | .found i => c.onGroup i (fun g => g.remove entityId)

/-- `src/order_group_container.rs:191-195` `remove_all_orders_for_id`. -/
def removeAll (c : Orders) (id : Nat) : Res Orders := do
  let groups ← c.groups.mapM (fun g => g.remove id)
  return { c with groups := groups }

/-- `src/order_group_container.rs:166-189` `grow`. `new_capacity - self.entity_capacity` is a checked
subtraction. -/
def grow (dbg : Bool) (c : Orders) (newCapacity : Nat) : Res Orders := do
  let _ ← subUsize dbg newCapacity c.entityCapacity
  let groups ← c.groups.mapM (fun g => g.grow c.entityCapacity newCapacity)
  return { c with groups := groups, entityCapacity := newCapacity }

/-- `NULL_ID` means "no entity" (`src/order_group_container.rs:237-241`). -/
def nullToNone (id : Nat) : Option Nat := if id ≠ NULL_ID then some id else none

/-- `src/order_group_container.rs:271-279` `get_group_index`. -/
def getGroupIndex (c : Orders) (group : Nat) : Option Nat :=
  match binarySearch c.groupIds group with
  | .found i => some i
  | .notFound _ => none

/-- `src/order_group_container.rs:156-159` `get_next_id_ordered_by`, via `get_link` (`:226-245`). -/
def getNext (c : Orders) (group entityId : Nat) : Res (Option Nat) :=
  match binarySearch c.groupIds group with
  | .found i => do
    let g ← idxUnchecked c.groups i
    let t ← Raw.read g.fwd entityId
    return nullToNone t
  | .notFound _ => .ok none

/-- `src/order_group_container.rs:161-164` `get_previous_id_ordered_by`, via `get_link`. -/
def getPrevious (c : Orders) (group entityId : Nat) : Res (Option Nat) :=
  match binarySearch c.groupIds group with
  | .found i => do
    let g ← idxUnchecked c.groups i
    let t ← Raw.read g.bwd entityId
    return nullToNone t
  | .notFound _ => .ok none

/-- `src/order_group_container.rs:247-257` `get_head_id`. -/
def getHead (c : Orders) (group : Nat) : Res (Option Nat) :=
  match c.getGroupIndex group with
  | some i => do
    let g ← idxUnchecked c.groups i
    return nullToNone g.head
  | none => .ok none

/-- `src/order_group_container.rs:259-269` `get_tail_id`. -/
def getTail (c : Orders) (group : Nat) : Res (Option Nat) :=
  match c.getGroupIndex group with
  | some i => do
    let g ← idxUnchecked c.groups i
    return nullToNone g.tail
  | none => .ok none

/-- Deallocation loop of `drop`. -/
def dropLoop (cap : Nat) : List Group → Res Unit
  | [] => .ok ()
  | g :: rest => do
    g.bwd.dealloc cap
    g.fwd.dealloc cap
    dropLoop cap rest

/-- `src/order_group_container.rs:398-410` `drop`. -/
def drop (c : Orders) : Res Unit := dropLoop c.entityCapacity c.groups

end Orders
end Ecs
