import Verif.Model.Layout

/-! Model of `src/archetype_data_page.rs`: byte-level pages. -/

namespace Ecs

/-- One byte of page memory; `none` is allocated but never written. -/
abbrev Cell := Option UInt8

/-- Contents of a page's data buffer, by byte offset. Every access is checked against
`PAGE_SIZE`. -/
abbrev Bytes := Nat → Cell

/-- Read `n` bytes at offset `a` of a page buffer. -/
def readBytes (d : Bytes) (a n : Nat) : Res (List Cell) :=
  if a + n ≤ PAGE_SIZE then .ok ((List.range n).map fun j => d (a + j)) else .error (.ub .oob)

/-- Write the bytes `bs` at offset `a` of a page buffer. -/
def writeBytes (d : Bytes) (a : Nat) (bs : List Cell) : Res Bytes :=
  if a + bs.length ≤ PAGE_SIZE then
    .ok fun x => if a ≤ x ∧ x < a + bs.length then bs.getD (x - a) none else d x
  else .error (.ub .oob)

/-- Do the ranges `[a, a+n)` and `[b, b+n)` overlap? -/
def overlaps (a b n : Nat) : Bool := decide (a < b + n ∧ b < a + n)

/-- `src/archetype_data_page.rs:6-9` `ArchetypeDataPage`. -/
structure Page where
  ids : CapVec
  data : Bytes

namespace Page

/-- `src/archetype_data_page.rs:18-25` `new`. -/
def new : Page := { ids := CapVec.new, data := fun _ => none }

/-- `src/archetype_data_page.rs:27-30` `set_layout`. -/
def setLayout (p : Page) (l : Layout) : Page := { p with ids := p.ids.reserve l.entitiesCapacity }

/-- `src/archetype_data_page.rs:32-35` `entity_count`. -/
def entityCount (p : Page) : Nat := p.ids.items.length

/-- `src/archetype_data_page.rs:37-40` `entity_capacity`: the *vector's* capacity. -/
def entityCapacity (p : Page) : Nat := p.ids.cap

/-- `src/archetype_data_page.rs:47-50` `has_free_space`. -/
def hasFreeSpace (p : Page) : Bool := decide (p.entityCount < p.entityCapacity)

/-- `src/archetype_data_page.rs:52-56` `add_entity_id`. -/
def addEntityId (dbg : Bool) (p : Page) (id : Nat) : Res (Page × Nat) := do
  dassert dbg p.hasFreeSpace
  let p' := { p with ids := p.ids.push id }
  return (p', p'.ids.items.length - 1)

/-- `src/archetype_data_page.rs:131-155` `get_component_data_ptr(_mut)`, as an offset into the page
buffer. -/
def dataPtr (entityIndex componentOffset typeSize : Nat) : Nat :=
  componentOffset + entityIndex * typeSize

/-- `src_comp.copy_to_nonoverlapping(dst_comp, size)` inside one page
(`src/archetype_data_page.rs:96`). -/
def copyWithin (d : Bytes) (src dst n : Nat) : Res Bytes := do
  let bs ← readBytes d src n
  if overlaps src dst n then throw (.ub .overlap)
  writeBytes d dst bs

/-- Loop of `move_component_data` (`src/archetype_data_page.rs:90-97`) over the component indices. -/
def moveLoop (a : Archetype) (l : Layout) (src dst : Nat) : List Nat → Bytes → Res Bytes
  | [], d => .ok d
  | i :: is, d => do
    let size ← idxUnchecked a.sizes i
    let offset ← idxUnchecked l.offsets i
    let d ← copyWithin d (dataPtr src offset size) (dataPtr dst offset size) size
    moveLoop a l src dst is d

/-- `src/archetype_data_page.rs:79-98` `move_component_data`. -/
def moveComponentData (p : Page) (src dst : Nat) (a : Archetype) (l : Layout) : Res Page := do
  let d ← moveLoop a l src dst (List.range a.componentCount) p.data
  return { p with data := d }

/-- `src/archetype_data_page.rs:58-77` `swap_remove_entity_at_index`; the result's second component is
`SwapRemoveInfo::id_to_replace`. -/
def swapRemoveEntityAtIndex (p : Page) (index : Nat) (a : Archetype) (l : Layout) :
    Res (Page × Option Nat) := do
  let ids ← p.ids.swapRemove index
  let p := { p with ids := ids }
  let lastSwappedIndex := p.ids.items.length
  if index < lastSwappedIndex then
    let p ← p.moveComponentData lastSwappedIndex index a l
    let idToReplace ← idx p.ids.items index
    return (p, some idToReplace)
  else
    return (p, none)

end Page
end Ecs
