import Verif.Model.Entities
import Verif.Model.Std

/-! Model of `src/tag_container.rs`. A tag type is its `TypeId` (a natural number). -/

namespace Ecs

/-- `src/tag_container.rs:5-9` `TagContainer`. -/
structure Tags where
  tagIds : List Nat
  bitvecs : List Words
  entityCapacity : Nat
deriving Repr

namespace Tags

/-- `src/tag_container.rs:12-18` `new`. -/
def new (entityCapacity : Nat) : Tags :=
  { tagIds := [], bitvecs := [], entityCapacity := entityCapacity }

/-- `src/tag_container.rs:20-30` `has_tag_bitvec`. -/
def hasTagBitvec (c : Tags) (tag : Nat) : Res Words :=
  match binarySearch c.tagIds tag with
  | .found i => idxUnchecked c.bitvecs i
  | .notFound _ => .error (.panic .missingTag)

/-- The registration part of `add_tag` (`src/tag_container.rs:35-44`). -/
def reserveTag (c : Tags) (tag : Nat) : Tags × Nat :=
  match binarySearch c.tagIds tag with
  | .found i => (c, i)
  | .notFound i =>
    ({ c with tagIds := c.tagIds.insertIdx i tag
              bitvecs := c.bitvecs.insertIdx i (Words.alloc c.entityCapacity) }, i)

/-- `src/tag_container.rs:32-52` `add_tag`. (`Vec::insert` cannot panic here: `binary_search` returns
an index at most the length and the two vectors have equal length.) -/
def addTag (c : Tags) (tag entityId : Nat) : Res Tags := do
  let (c, i) := c.reserveTag tag
  let bv ← idxUnchecked c.bitvecs i
  let bv ← bv.setOn entityId
  return { c with bitvecs := c.bitvecs.set i bv }

/-- `src/tag_container.rs:54-63` `remove_tag`. -/
def removeTag (c : Tags) (tag entityId : Nat) : Res Tags :=
  match binarySearch c.tagIds tag with
  | .found i => do
    let bv ← idxUnchecked c.bitvecs i
    let bv ← bv.setOff entityId
    return { c with bitvecs := c.bitvecs.set i bv }
  | .notFound _ => .ok c

/-- `src/tag_container.rs:65-74` `has_tag`. -/
def hasTag (c : Tags) (tag entityId : Nat) : Res Bool :=
  match binarySearch c.tagIds tag with
  | .found i => do
    let bv ← idxUnchecked c.bitvecs i
    bv.isOn entityId
  | .notFound _ => .ok false

/-- `src/tag_container.rs:76-82` `remove_all_tags_for_entity`. -/
def removeAllTagsForEntity (c : Tags) (entityId : Nat) : Res Tags := do
  let bvs ← c.bitvecs.mapM (fun bv => bv.setOff entityId)
  return { c with bitvecs := bvs }

/-- `src/tag_container.rs:84-93` `grow`. -/
def grow (c : Tags) (newCapacity : Nat) : Res Tags := do
  let bvs ← c.bitvecs.mapM (fun bv => bv.realloc c.entityCapacity newCapacity)
  return { c with bitvecs := bvs, entityCapacity := newCapacity }

/-- Deallocation loop of `drop`. -/
def dropLoop (cap : Nat) : List Words → Res Unit
  | [] => .ok ()
  | bv :: rest => do
    bv.dealloc cap
    dropLoop cap rest

/-- `src/tag_container.rs:113-121` `drop`. -/
def drop (c : Tags) : Res Unit := dropLoop c.entityCapacity c.bitvecs

end Tags
end Ecs
