import Verif.Model.BitVecUtils

/-! Model of `src/entity.rs` and `src/entities_container.rs`. -/

namespace Ecs

/-- `Entity::NULL_ID = u32::MAX` (`src/entity.rs:8`). -/
notation "NULL_ID" => (4294967295 : Nat)

/-- `src/entity.rs:1-5` `Entity`. Both fields are `u32`; the model keeps them as naturals and
checks the 32-bit bound where they are computed. -/
structure Entity where
  id : Nat
  version : Nat
deriving DecidableEq, Repr

/-- `src/entity.rs:20-26` `Entity::null()` (`NULL_ID = u32::MAX`, line 8). -/
def Entity.null : Entity := { id := NULL_ID, version := 0 }

/-- `src/entities_container.rs:4-10` `EntitiesContainer`. `gap_ids` is a stack whose top is the end
of the list. -/
structure Ents where
  gapIds : List Nat
  capacity : Nat
  versions : Raw Nat
  aliveBits : Words
  nextFreeId : Nat
deriving Repr

/-- `src/entities_container.rs:12-16` `EntityCreation`. -/
structure EntityCreation where
  entity : Entity
  capacityBefore : Nat
  capacityAfter : Nat
deriving Repr

/-- `src/entities_container.rs:177-182` `container_was_grow`. -/
def EntityCreation.wasGrow (c : EntityCreation) : Bool := c.capacityAfter != c.capacityBefore

namespace Ents

/-- `src/entities_container.rs:19-36` `new`. -/
def new (capacity : Nat) : Ents where
  gapIds := []
  capacity := capacity
  versions := Raw.allocZeroed 0 capacity
  aliveBits := Words.alloc capacity
  nextFreeId := 0

/-- `src/entities_container.rs:42-64` `grow`. -/
def grow (c : Ents) (newCapacity : Nat) : Res Ents := do
  if newCapacity ≤ c.capacity then
    return c
  let versions ← Raw.reallocZeroing 0 c.versions c.capacity newCapacity
  let aliveBits ← c.aliveBits.realloc c.capacity newCapacity
  return { c with versions := versions, aliveBits := aliveBits, capacity := newCapacity }

/-- `src/entities_container.rs:66-69` `will_grow_with_id`, including the truncation
`self.capacity as u32`. -/
def willGrowWithId (c : Ents) (id : Nat) : Bool := decide (id ≥ c.capacity % u32Size)

/-- `src/entities_container.rs:74-85`: the id selection part of `create_entity`. -/
def takeId (dbg : Bool) (c : Ents) : Res (Nat × Ents) :=
  match c.gapIds.getLast? with
  | some id => .ok (id, { c with gapIds := c.gapIds.dropLast })
  | none => do
    let id := c.nextFreeId
    let next ← addU32 dbg id 1
    let c := { c with nextFreeId := next }
    if c.willGrowWithId id then
      let c ← c.grow (max c.capacity 1 * 2)
      return (id, c)
    else
      return (id, c)

/-- `src/entities_container.rs:71-102` `create_entity`. -/
def create (dbg : Bool) (c : Ents) : Res (Ents × EntityCreation) := do
  let capacityBefore := c.capacity
  let (id, c) ← takeId dbg c
  let bits ← c.aliveBits.toggle id
  let v ← Raw.read c.versions id
  let version ← addU32 dbg v 1
  let versions ← Raw.write c.versions id version
  let c := { c with aliveBits := bits, versions := versions }
  return (c, { entity := ⟨id, version⟩, capacityBefore := capacityBefore, capacityAfter := c.capacity })

/-- `src/entities_container.rs:142-145` `validate_id`. -/
def validateId (c : Ents) (id : Nat) : Bool := decide (id < c.capacity)

/-- `src/entities_container.rs:147-150` `validate_entity_version`. -/
def validateVersion (c : Ents) (e : Entity) : Res Bool := do
  let v ← Raw.read c.versions e.id
  return v == e.version

/-- `src/entities_container.rs:120-130` `is_alive`. -/
def isAlive (dbg : Bool) (c : Ents) (e : Entity) : Res Bool := do
  dassert dbg (c.validateId e.id)
  let vOk ← c.validateVersion e
  let bit ← c.aliveBits.isOn e.id
  return vOk && bit

/-- `src/entities_container.rs:152-158` `validate_entity_version_with_panic`. The argument of
`debug_assert!` is not evaluated in release builds. -/
def validateVersionWithPanic (dbg : Bool) (c : Ents) (e : Entity) : Res Unit := do
  if dbg then
    dassert dbg (c.validateId e.id)
    let ok ← c.validateVersion e
    dassert dbg ok

/-- `src/entities_container.rs:104-118` `destroy_entity`. -/
def destroy (dbg : Bool) (c : Ents) (e : Entity) : Res Ents := do
  c.validateVersionWithPanic dbg e
  if dbg then
    let alive ← c.isAlive dbg e
    dassert dbg alive
  let bits ← c.aliveBits.toggle e.id
  let c := { c with aliveBits := bits }
  let lastId ← subU32 dbg c.nextFreeId 1
  if e.id = lastId then
    return { c with nextFreeId := e.id }
  else
    return { c with gapIds := c.gapIds ++ [e.id] }

/-- `src/entities_container.rs:132-135` `is_alive_at_index`. -/
def isAliveAtIndex (c : Ents) (i : Nat) : Res Bool := c.aliveBits.isOn i

/-- `src/entities_container.rs:168-175` `drop`. -/
def drop (c : Ents) : Res Unit := do
  c.aliveBits.dealloc c.capacity
  c.versions.dealloc c.capacity

end Ents
end Ecs
