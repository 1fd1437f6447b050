import Verif.Model.BitVecUtils

/-! A second, coarser model of the code: only its calls of the allocator. It follows the functions that call
`mem_utils::{alloc, alloc_zeroed, realloc, realloc_with_uninit_capacity_zeroing, dealloc}` and
`bitvec_utils::{alloc, realloc, dealloc}`, and all the `Drop` implementations. The contents of the buffers
are not modelled; decisions that depend on them (does a creation grow the store, is a tag new, is a slot
for an archetype reused, is a new page needed) are taken from the list of operations `HeapOp`, so that every execution
of the code is covered by some list. Memory that belongs to `Vec` and `ArchetypeBuilder` is managed by the
standard library and not modelled. -/

namespace Ecs

/-- An allocated block: its address and its size in bytes. -/
abbrev Block := Nat × Nat

/-- The global allocator. Addresses are never used twice (so that a second `dealloc` of a block is always
visible). -/
structure Heap where
  next : Nat
  blocks : List Block
  /-- all requests so far, newest first: the size of an element and the number of elements -/
  asked : List (Nat × Nat)
deriving Repr

/-- Code that calls the allocator. The state survives a panic. -/
abbrev HeapM := EStateM Fault Heap

namespace HeapM

/-- `std::alloc::dealloc`. The block must be allocated, with the same layout. -/
def freeBytes (p bytes : Nat) : HeapM Unit := fun H =>
  if (p, bytes) ∈ H.blocks then .ok () { H with blocks := H.blocks.erase (p, bytes) }
  else .error (.ub .badDealloc) H

/-- `src/mem_utils.rs:54-59` `layout_of`: the size in bytes for `capacity` elements of `size` bytes on a 64-bit target. The product
overflows with a panic in debug builds and wraps in release builds; `Layout::from_size_align_unchecked` must not be called with a
size above `isize::MAX` (rounding up to the alignment, at most 16 here, is ignored). -/
def layoutOf (dbg : Bool) (size capacity : Nat) : Res Nat :=
  if dbg && decide (2 ^ 64 ≤ size * capacity) then .error (.panic .arithOverflow)
  else if 2 ^ 63 ≤ size * capacity % 2 ^ 64 then .error (.ub .badLayout)
  else .ok (size * capacity % 2 ^ 64)

/-- `src/mem_utils.rs:13-19` `alloc` and `alloc_zeroed`, for elements of `size` bytes. Here the size of the block is the product as a
natural number (see `layoutOf`). For `std::alloc::alloc` and `alloc_zeroed`, a request of zero bytes is undefined behaviour. -/
def alloc (size capacity : Nat) : HeapM Nat := fun H =>
  if size * capacity = 0 then .error (.ub .zeroAlloc) H
  else .ok H.next { next := H.next + 1, blocks := (H.next, size * capacity) :: H.blocks, asked := (size, capacity) :: H.asked }

/-- `src/mem_utils.rs:50-52` `dealloc`. -/
def dealloc (size p capacity : Nat) : HeapM Unit := freeBytes p (size * capacity)

/-- `src/mem_utils.rs:21-35` `realloc`. -/
def realloc (size p oldCap newCap : Nat) : HeapM Nat := do
  if oldCap = newCap then return p
  let q ← alloc size newCap
  dealloc size p oldCap
  return q

/-- `src/mem_utils.rs:37-48` `realloc_with_uninit_capacity_zeroing`. -/
def reallocZeroing (size p oldCap newCap : Nat) : HeapM Nat := do
  let q ← alloc size newCap
  dealloc size p oldCap
  return q

/-- `src/bitvec_utils.rs:3-6` `alloc`. -/
def bitsAlloc (len : Nat) : HeapM Nat := alloc 4 (Words.getLen len)

/-- `src/bitvec_utils.rs:8-11` `dealloc`. -/
def bitsDealloc (p len : Nat) : HeapM Unit := dealloc 4 p (Words.getLen len)

/-- `src/bitvec_utils.rs:13-27` `realloc`. -/
def bitsRealloc (p oldLen newLen : Nat) : HeapM Nat := do
  if Words.getLen oldLen = Words.getLen newLen then return p
  let q ← alloc 4 (Words.getLen newLen)
  dealloc 4 p (Words.getLen oldLen)
  return q

end HeapM
open HeapM

/-! ### `EntitiesContainer` -/

/-- The pointers of `src/entities_container.rs:4-10` `EntitiesContainer`. -/
structure EntsPtrs where
  capacity : Nat
  versions : Nat
  alive : Nat

namespace EntsPtrs

/-- `src/entities_container.rs:19-36` `new`. -/
def new (capacity : Nat) : HeapM EntsPtrs := do
  let versions ← alloc 4 capacity
  let alive ← bitsAlloc capacity
  return { capacity := capacity, versions := versions, alive := alive }

/-- `src/entities_container.rs:42-64` `grow`. -/
def grow (c : EntsPtrs) (newCap : Nat) : HeapM EntsPtrs := do
  if newCap ≤ c.capacity then return c
  let versions ← reallocZeroing 4 c.versions c.capacity newCap
  let alive ← bitsRealloc c.alive c.capacity newCap
  return { capacity := newCap, versions := versions, alive := alive }

/-- `src/entities_container.rs:71-102` `create_entity`; `grows` tells whether `will_grow_with_id` holds. -/
def create (c : EntsPtrs) (grows : Bool) : HeapM EntsPtrs :=
  if grows then c.grow (max c.capacity 1 * 2) else pure c

/-- `src/entities_container.rs:168-175` `drop`. -/
def drop (c : EntsPtrs) : HeapM Unit := do
  bitsDealloc c.alive c.capacity
  dealloc 4 c.versions c.capacity

end EntsPtrs

/-! ### Archetypes, layouts and pages -/

/-- `size_of::<TypeId>()`; the value does not matter. -/
def typeIdSize : Nat := 16

/-- `size_of::<&'static str>()` on a 64-bit target. -/
def strSize : Nat := 16

/-- The pointers of `src/archetype.rs:10-16` `Archetype`. -/
structure ArchPtrs where
  count : Nat
  ids : Nat
  sizes : Nat
  aligns : Nat
  names : Nat

namespace ArchPtrs

/-- Allocations of `src/archetype.rs:28-62` `new` and of `clone` (`:241-268`). -/
def new (count : Nat) : HeapM ArchPtrs := do
  let ids ← alloc typeIdSize count
  let sizes ← alloc 8 count
  let aligns ← alloc 8 count
  let names ← alloc strSize count
  return { count := count, ids := ids, sizes := sizes, aligns := aligns, names := names }

/-- `src/archetype.rs:290-299` `drop`. -/
def drop (a : ArchPtrs) : HeapM Unit := do
  dealloc typeIdSize a.ids a.count
  dealloc 8 a.sizes a.count
  dealloc 8 a.aligns a.count
  dealloc strSize a.names a.count

end ArchPtrs

/-- The pointer of `src/archetype_layout.rs:3-8` `ArchetypeLayout`. -/
structure LayoutPtr where
  count : Nat
  offsets : Nat

namespace LayoutPtr

/-- `src/archetype_layout.rs:11-29` `new`: the offsets are allocated before the `assert!` that the rows fit into a page
(`:70-93`), whose outcome is `fits`. -/
def new (count : Nat) (fits : Bool) : HeapM LayoutPtr := do
  let offsets ← alloc 8 count
  if !fits then throw (.panic .assertFailed)
  return { count := count, offsets := offsets }

/-- `src/archetype_layout.rs:92-98` `drop`. -/
def drop (l : LayoutPtr) : HeapM Unit := dealloc 8 l.offsets l.count

end LayoutPtr

/-- `src/archetype_data_page.rs:18-25` `new`. -/
def pageNew : HeapM Nat := alloc 1 16384

/-- `src/archetype_data_page.rs:158-162` `drop`. -/
def pageDrop (p : Nat) : HeapM Unit := dealloc 1 p 16384

/-- The pointers of `src/archetypes_container.rs:9-20` `ArchetypesContainer`. -/
structure ArchsPtrs where
  archetypes : List ArchPtrs
  layouts : List LayoutPtr
  pages : List Nat

namespace ArchsPtrs

/-- `src/archetypes_container.rs:31-59` `new`. -/
def new : HeapM ArchsPtrs := do
  let p0 ← pageNew
  let p1 ← pageNew
  let p2 ← pageNew
  let p3 ← pageNew
  let p4 ← pageNew
  return { archetypes := [], layouts := [], pages := [p0, p1, p2, p3, p4] }

/-- `src/archetypes_container.rs:207-236` `reserve_archetype` of an archetype of `count` types that is not found: the
free slot is `slot` if there is such a slot, otherwise the archetype is pushed. Assigning to a slot of a `Vec` drops
what was in it. -/
def reserveArchetype (c : ArchsPtrs) (count slot : Nat) (fits : Bool) : HeapM ArchsPtrs := do
  let layout ← LayoutPtr.new count fits
  match c.archetypes[slot]?, c.layouts[slot]? with
  | some oldA, some oldL =>
    let a ← ArchPtrs.new count
    oldA.drop
    oldL.drop
    return { c with archetypes := c.archetypes.set slot a, layouts := c.layouts.set slot layout }
  | _, _ =>
    let a ← ArchPtrs.new count
    return { c with archetypes := c.archetypes ++ [a], layouts := c.layouts ++ [layout] }

/-- `src/archetypes_container.rs:266-272` (in `reserve_page`): a new page. -/
def newPage (c : ArchsPtrs) : HeapM ArchsPtrs := do
  let p ← pageNew
  return { c with pages := c.pages ++ [p] }

/-- Drop of the fields, in the order of declaration. -/
def drop (c : ArchsPtrs) : HeapM Unit := do
  c.archetypes.forM ArchPtrs.drop
  c.layouts.forM LayoutPtr.drop
  c.pages.forM pageDrop

end ArchsPtrs

/-! ### Tags and order groups -/

/-- The pointers of `src/tag_container.rs:5-9` `TagContainer`. -/
structure TagsPtrs where
  bitvecs : List Nat
  capacity : Nat

namespace TagsPtrs

/-- `src/tag_container.rs:32-52` `add_tag` of a tag that is not found, to be inserted at `i`. -/
def newTag (c : TagsPtrs) (i : Nat) : HeapM TagsPtrs := do
  let p ← bitsAlloc c.capacity
  return { c with bitvecs := c.bitvecs.take i ++ p :: c.bitvecs.drop i }

/-- `src/tag_container.rs:84-93` `grow`. -/
def grow (c : TagsPtrs) (newCap : Nat) : HeapM TagsPtrs := do
  let ps ← c.bitvecs.mapM fun p => bitsRealloc p c.capacity newCap
  return { bitvecs := ps, capacity := newCap }

/-- `src/tag_container.rs:113-121` `drop`. -/
def drop (c : TagsPtrs) : HeapM Unit := c.bitvecs.forM fun p => bitsDealloc p c.capacity

end TagsPtrs

/-- The pointers of `src/order_group_container.rs:5-12` `OrderGroupContainer`: forward and backward links of each
group. -/
structure OrdersPtrs where
  links : List (Nat × Nat)
  capacity : Nat

namespace OrdersPtrs

/-- `src/order_group_container.rs:198-225` `reserve_group` of a group that is not found, with `alloc_links_map`. -/
def newGroup (c : OrdersPtrs) (i : Nat) : HeapM OrdersPtrs := do
  let fwd ← alloc 4 c.capacity
  let bwd ← alloc 4 c.capacity
  return { c with links := c.links.take i ++ (fwd, bwd) :: c.links.drop i }

/-- `src/order_group_container.rs:166-189` `grow`. -/
def grow (c : OrdersPtrs) (newCap : Nat) : HeapM OrdersPtrs := do
  let ps ← c.links.mapM fun p => do
    let bwd ← realloc 4 p.2 c.capacity newCap
    let fwd ← realloc 4 p.1 c.capacity newCap
    return (fwd, bwd)
  return { links := ps, capacity := newCap }

/-- `src/order_group_container.rs:398-410` `drop`. -/
def drop (c : OrdersPtrs) : HeapM Unit := c.links.forM fun p => do
  dealloc 4 p.2 c.capacity
  dealloc 4 p.1 c.capacity

end OrdersPtrs

/-! ### `Store` -/

/-- The pointers of `src/store.rs:13-22` `Store`. -/
structure StorePtrs where
  ents : EntsPtrs
  archs : ArchsPtrs
  tags : TagsPtrs
  orders : OrdersPtrs
  toPage : Nat
  toIndex : Nat
  hasArch : Nat

/-- What a call on a store does to the heap. `create_entity` performs `create`; `create_entity_with_archetype`
performs `create` and then `place` without a temporary archetype; `add_components` and `remove_components` perform
`place` with a temporary archetype, or nothing; `add_tag` may perform `tag`; the three calls that add to a group may
perform `group`; all other calls perform none. -/
inductive HeapOp where
  /-- `register_new_entity`, which grows the buffers or not -/
  | create (grows : Bool)
  /-- a new row: `temporary` is the number of types of an archetype made for the call, `archetype` are the
  arguments of `ArchsPtrs.reserveArchetype` if the archetype is not found, and `page` tells whether a new page is
  needed -/
  | place (temporary : Option Nat) (archetype : Option (Nat × Nat × Bool)) (page : Bool)
  | tag (i : Nat)
  | group (i : Nat)
deriving Repr

namespace StorePtrs

/-- `src/store.rs:29-42` `with_capacity`. -/
def withCapacity (dbg : Bool) (capacity : Nat) : HeapM StorePtrs := do
  if dbg && decide (capacity = 0) then throw (.panic .debugAssert)
  let ents ← EntsPtrs.new capacity
  let archs ← ArchsPtrs.new
  let hasArch ← bitsAlloc capacity
  let toIndex ← alloc 4 capacity
  let toPage ← alloc 4 capacity
  return { ents := ents, archs := archs, tags := ⟨[], capacity⟩, orders := ⟨[], capacity⟩, toPage := toPage,
           toIndex := toIndex, hasArch := hasArch }

/-- `src/store.rs:76-83, 290-312` `register_new_entity` with `grow_entities_internal`. -/
def create (s : StorePtrs) (grows : Bool) : HeapM StorePtrs := do
  let old := s.ents.capacity
  let ents ← s.ents.create grows
  if ents.capacity = old then return { s with ents := ents }
  let toPage ← realloc 4 s.toPage old ents.capacity
  let toIndex ← realloc 4 s.toIndex old ents.capacity
  let hasArch ← bitsRealloc s.hasArch old ents.capacity
  let tags ← s.tags.grow ents.capacity
  let orders ← s.orders.grow ents.capacity
  return { s with ents := ents, toPage := toPage, toIndex := toIndex, hasArch := hasArch, tags := tags,
                  orders := orders }

/-- The part of `add_entity` and `move_entity_to_other_archetype` that calls the allocator
(`src/archetypes_container.rs:61-68, 95-101`). -/
def place (s : StorePtrs) (archetype : Option (Nat × Nat × Bool)) (page : Bool) : HeapM StorePtrs := do
  let archs ← match archetype with
    | some (count, slot, fits) => s.archs.reserveArchetype count slot fits
    | none => pure s.archs
  let archs ← if page then archs.newPage else pure archs
  return { s with archs := archs }

/-- One operation. A temporary archetype (`src/store.rs:131-134, 139, 179-182`) is dropped at the end of the call, also when
the call panics. -/
def step (s : StorePtrs) : HeapOp → HeapM StorePtrs
  | .create grows => s.create grows
  | .place none archetype page => s.place archetype page
  | .place (some count) archetype page => do
    let a ← ArchPtrs.new count
    let s ← tryCatch (s.place archetype page) fun f => do
      a.drop
      throw f
    a.drop
    return s
  | .tag i => do
    let tags ← s.tags.newTag i
    return { s with tags := tags }
  | .group i => do
    let orders ← s.orders.newGroup i
    return { s with orders := orders }

/-- `src/store.rs:374-384` `drop`, then the drops of the fields in the order of declaration. -/
def drop (s : StorePtrs) : HeapM Unit := do
  dealloc 4 s.toIndex s.ents.capacity
  dealloc 4 s.toPage s.ents.capacity
  bitsDealloc s.hasArch s.ents.capacity
  s.ents.drop
  s.archs.drop
  s.tags.drop
  s.orders.drop

/-- One operation of a program that catches panics (`std::panic::catch_unwind`). The only operation that panics is the one whose
rows do not fit into a page, and then the store has not been written to. -/
def caught (s : StorePtrs) (op : HeapOp) : HeapM StorePtrs :=
  tryCatch (s.step op) fun
    | .panic _ => return s
    | f => throw f

/-- The life of a store: creation, any operations, drop. -/
def life (dbg : Bool) (capacity : Nat) (ops : List HeapOp) : HeapM Unit := do
  let s ← withCapacity dbg capacity
  let s ← ops.foldlM caught s
  s.drop

end StorePtrs

/-! ### `ResourceStore` -/

/-- The pointers of `src/resource_store.rs:5-8` `ResourceStore<T>`, and `size_of::<T>()`; address 0 stands for the
null pointer. -/
structure ResPtrs where
  elements : Nat
  ents : EntsPtrs
  size : Nat

namespace ResPtrs

/-- `src/resource_store.rs:11-16` `new`. -/
def new (size : Nat) : HeapM ResPtrs := do
  let ents ← EntsPtrs.new 0
  return { elements := 0, ents := ents, size := size }

/-- `src/resource_store.rs:18-23` `with_capacity`. -/
def withCapacity (size capacity : Nat) : HeapM ResPtrs := do
  let elements ← alloc size capacity
  let ents ← EntsPtrs.new capacity
  return { elements := elements, ents := ents, size := size }

/-- `src/resource_store.rs:25-45` `create`. -/
def create (r : ResPtrs) (grows : Bool) : HeapM ResPtrs := do
  let old := r.ents.capacity
  let ents ← r.ents.create grows
  if ents.capacity = old then return { r with ents := ents }
  let elements ← realloc r.size r.elements old ents.capacity
  return { r with ents := ents, elements := elements }

/-- `src/resource_store.rs:82-92` `drop`, followed by the drop of the field `entities_container`. There is no
`dealloc` of `elements`. -/
def drop (r : ResPtrs) : HeapM Unit := r.ents.drop

/-- The life of a resource store: creation, any number of calls of `create` that grow or do not, drop. (`release` and
indexing do not call the allocator.) -/
def life (size capacity : Nat) (ops : List Bool) : HeapM Unit := do
  let r ← withCapacity size capacity
  let r ← ops.foldlM create r
  r.drop

end ResPtrs

end Ecs
