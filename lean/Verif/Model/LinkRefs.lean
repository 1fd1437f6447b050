import Verif.Model.Orders

/-! The functions of `src/order_group_container.rs` once more, now with a record of how each link is accessed. The code takes
some links by mutable reference (`let fwd = &mut *forward_links.add(i)`) and accesses others, through the same pointers, while
it still uses these references. The values computed are those of `Model/Orders.lean`
(`traced_add`, … in `Proofs/LinkRefs.lean`). -/

namespace Ecs

/-- The link of an id in a group: an element of `group_index_to_forward_links[group]` or
`group_index_to_backward_links[group]`. -/
structure Link where
  group : Nat
  forward : Bool
  id : Nat
deriving DecidableEq, Repr

/-- The local variables that are references to links. -/
inductive LinkVar
  | bwdId
  | fwdEntityId
  | bwdEntityId
  | fwdAfterId
  | bwdPreviousToId
  | fwd
  | bwd
deriving DecidableEq, Repr

/-- An access to a link. -/
inductive Use
  /-- `let v = &mut *links.add(i)` -/
  | borrow (v : LinkVar) (l : Link)
  /-- `*v`, read or assigned -/
  | via (v : LinkVar)
  /-- `*links.add(i)`, read or assigned -/
  | raw (l : Link)
deriving DecidableEq, Repr

/-- What a function computes, and the accesses to links that it made, up to a panic if it panics. -/
structure Traced (α : Type) where
  uses : List Use
  result : Res α

namespace Traced

instance : Monad Traced where
  pure a := ⟨[], .ok a⟩
  bind t f :=
    match t.result with
    | .ok a => ⟨t.uses ++ (f a).uses, (f a).result⟩
    | .error x => ⟨t.uses, .error x⟩

/-- A computation that accesses no links. -/
def silent (r : Res α) : Traced α := ⟨[], r⟩

/-- `let v = &mut *links.add(i)`. -/
def borrow (v : LinkVar) (l : Link) : Traced Unit := ⟨[.borrow v l], .ok ()⟩

/-- Read `*v`, where `v` refers to element `i` of `a`. -/
def readVia (v : LinkVar) (a : Raw Nat) (i : Nat) : Traced Nat := ⟨[.via v], Raw.read a i⟩

/-- `*v = x`, where `v` refers to element `i` of `a`. -/
def writeVia (v : LinkVar) (a : Raw Nat) (i x : Nat) : Traced (Raw Nat) := ⟨[.via v], Raw.write a i x⟩

/-- Read `*links.add(i)`. -/
def readRaw (l : Link) (a : Raw Nat) : Traced Nat := ⟨[.raw l], Raw.read a l.id⟩

/-- `*links.add(i) = x`. -/
def writeRaw (l : Link) (a : Raw Nat) (x : Nat) : Traced (Raw Nat) := ⟨[.raw l], Raw.write a l.id x⟩

end Traced

open Traced

namespace Group

/-- `src/order_group_container.rs:46-61`: body of `add_id_ordered_by` for group `k`. -/
def addT (dbg : Bool) (k : Nat) (g : Group) (entityId : Nat) : Traced Group :=
  if g.head = NULL_ID then
    pure { g with head := entityId, tail := entityId }
  else do
    let fwdId ← readRaw ⟨k, true, entityId⟩ g.fwd
    borrow .bwdId ⟨k, false, entityId⟩
    let b ← readVia .bwdId g.bwd entityId
    silent (assertEntityHasNoOrder dbg fwdId b)
    let fwd ← writeRaw ⟨k, true, g.tail⟩ g.fwd entityId
    let bwd ← writeVia .bwdId g.bwd entityId g.tail
    pure { g with fwd := fwd, bwd := bwd, tail := entityId }

/-- `src/order_group_container.rs:82-85`: if the link of `next_to_id` leads somewhere, put the entity in between. -/
def linkNextT (k : Nat) (g : Group) (entityId nextToId : Nat) : Traced (Raw Nat × Raw Nat) := do
  let after ← readVia .fwdAfterId g.fwd nextToId
  if after = NULL_ID then pure (g.fwd, g.bwd)
  else do
    let after ← readVia .fwdAfterId g.fwd nextToId
    let bwd ← writeRaw ⟨k, false, after⟩ g.bwd entityId
    let after ← readVia .fwdAfterId g.fwd nextToId
    let fwd ← writeVia .fwdEntityId g.fwd entityId after
    pure (fwd, bwd)

/-- `src/order_group_container.rs:75-93`: body of `add_id_next_to_ordered_by` for group `k`. -/
def addNextToT (dbg : Bool) (k : Nat) (g : Group) (entityId nextToId : Nat) : Traced Group := do
  borrow .fwdEntityId ⟨k, true, entityId⟩
  borrow .bwdEntityId ⟨k, false, entityId⟩
  let f ← readVia .fwdEntityId g.fwd entityId
  let b ← readVia .bwdEntityId g.bwd entityId
  silent (assertEntityHasNoOrder dbg f b)
  borrow .fwdAfterId ⟨k, true, nextToId⟩
  let links ← linkNextT k g entityId nextToId
  let fwd ← writeVia .fwdAfterId links.1 nextToId entityId
  let bwd ← writeVia .bwdEntityId links.2 entityId nextToId
  pure { g with fwd := fwd, bwd := bwd, tail := if g.tail = nextToId then entityId else g.tail }

/-- `src/order_group_container.rs:118-121`: if the link of `previous_to_id` leads somewhere, put the entity in between. -/
def linkPreviousT (k : Nat) (g : Group) (entityId previousToId : Nat) : Traced (Raw Nat × Raw Nat) := do
  let before ← readVia .bwdPreviousToId g.bwd previousToId
  if before = NULL_ID then pure (g.fwd, g.bwd)
  else do
    let before ← readVia .bwdPreviousToId g.bwd previousToId
    let fwd ← writeRaw ⟨k, true, before⟩ g.fwd entityId
    let before ← readVia .bwdPreviousToId g.bwd previousToId
    let bwd ← writeVia .bwdEntityId g.bwd entityId before
    pure (fwd, bwd)

/-- `src/order_group_container.rs:111-129`: body of `add_id_previous_to_ordered_by` for group `k`. -/
def addPreviousToT (dbg : Bool) (k : Nat) (g : Group) (entityId previousToId : Nat) : Traced Group := do
  borrow .fwdEntityId ⟨k, true, entityId⟩
  borrow .bwdEntityId ⟨k, false, entityId⟩
  let f ← readVia .fwdEntityId g.fwd entityId
  let b ← readVia .bwdEntityId g.bwd entityId
  silent (assertEntityHasNoOrder dbg f b)
  borrow .bwdPreviousToId ⟨k, false, previousToId⟩
  let links ← linkPreviousT k g entityId previousToId
  let bwd ← writeVia .bwdPreviousToId links.2 previousToId entityId
  let fwd ← writeVia .fwdEntityId links.1 entityId previousToId
  pure { g with fwd := fwd, bwd := bwd, head := if g.head = previousToId then entityId else g.head }

/-- `src/order_group_container.rs:320-322`: `if *fwd != NULL_ID { *backward_links.add(*fwd as usize) = *bwd }`. -/
def unlinkNextT (k : Nat) (g : Group) (entityId : Nat) : Traced (Raw Nat) := do
  let f ← readVia .fwd g.fwd entityId
  if f = NULL_ID then pure g.bwd
  else do
    let b ← readVia .bwd g.bwd entityId
    let f ← readVia .fwd g.fwd entityId
    writeRaw ⟨k, false, f⟩ g.bwd b

/-- `src/order_group_container.rs:324-326`: `if *bwd != NULL_ID { *forward_links.add(*bwd as usize) = *fwd }`. -/
def unlinkPreviousT (k : Nat) (g : Group) (bwd : Raw Nat) (entityId : Nat) : Traced (Raw Nat) := do
  let b ← readVia .bwd bwd entityId
  if b = NULL_ID then pure g.fwd
  else do
    let f ← readVia .fwd g.fwd entityId
    let b ← readVia .bwd bwd entityId
    writeRaw ⟨k, true, b⟩ g.fwd f

/-- `src/order_group_container.rs:328-334`: `if *end == entity_id { *end = *v }`, where `v` refers to element `entity_id`
of `a`. -/
def endT (v : LinkVar) (a : Raw Nat) (entityId old : Nat) : Traced Nat :=
  if old = entityId then readVia v a entityId else pure old

/-- `src/order_group_container.rs:308-339` `remove_entity_order_by_internal` for group `k`. -/
def removeT (k : Nat) (g : Group) (entityId : Nat) : Traced Group := do
  borrow .fwd ⟨k, true, entityId⟩
  borrow .bwd ⟨k, false, entityId⟩
  let bwd ← unlinkNextT k g entityId
  let fwd ← unlinkPreviousT k g bwd entityId
  let head ← endT .fwd fwd entityId g.head
  let tail ← endT .bwd bwd entityId g.tail
  let bwd ← writeVia .bwd bwd entityId NULL_ID
  let fwd ← writeVia .fwd fwd entityId NULL_ID
  pure { fwd := fwd, bwd := bwd, head := head, tail := tail }

end Group

namespace Orders

/-- See `Orders.onGroup`. -/
def onGroupT (c : Orders) (i : Nat) (f : Group → Traced Group) : Traced Orders := do
  let g ← silent (idxUnchecked c.groups i)
  let g ← f g
  pure { c with groups := c.groups.set i g }

/-- `src/order_group_container.rs:35-62` `add_id_ordered_by`. -/
def addT (dbg : Bool) (c : Orders) (group entityId : Nat) : Traced Orders :=
  let (c, i) := c.reserveGroup group
  c.onGroupT i (fun g => g.addT dbg i entityId)

/-- `src/order_group_container.rs:64-94` `add_id_next_to_ordered_by`. -/
def addNextToT (dbg : Bool) (c : Orders) (group entityId nextToId : Nat) : Traced Orders :=
  let (c, i) := c.reserveGroup group
  c.onGroupT i (fun g => g.addNextToT dbg i entityId nextToId)

/-- `src/order_group_container.rs:96-130` `add_id_previous_to_ordered_by`. -/
def addPreviousToT (dbg : Bool) (c : Orders) (group entityId previousToId : Nat) : Traced Orders :=
  let (c, i) := c.reserveGroup group
  c.onGroupT i (fun g => g.addPreviousToT dbg i entityId previousToId)

/-- `src/order_group_container.rs:144-154` `remove_id_ordered_by`. -/
def removeT (c : Orders) (group entityId : Nat) : Traced Orders :=
  match binarySearch c.groupIds group with
  | .notFound _ => pure c
  | .found i => c.onGroupT i (fun g => g.removeT i entityId)

/-- The loop of `remove_all_orders_for_id`, from group `k` on. -/
def removeAllLoopT (id k : Nat) : List Group → Traced (List Group)
  | [] => pure []
  | g :: gs => do
    let g ← g.removeT k id
    let gs ← removeAllLoopT id (k + 1) gs
    pure (g :: gs)

/-- `src/order_group_container.rs:191-195` `remove_all_orders_for_id`. -/
def removeAllT (c : Orders) (id : Nat) : Traced Orders := do
  let groups ← removeAllLoopT id 0 c.groups
  pure { c with groups := groups }

end Orders
end Ecs
