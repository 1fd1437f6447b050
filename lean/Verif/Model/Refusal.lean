import Verif.Model.Heap

/-! The calls of the allocator (`Model/Heap.lean`) when the allocator may refuse a request. `std::alloc::alloc` and
`alloc_zeroed` report this by a null pointer, which the library does not check (`src/mem_utils.rs:13-19`): it stores the
pointer, or writes through it at once. `R n` tells whether request number `n` of the program is refused. Address 0 is the null
pointer. Only the accesses that the function that asked makes itself are modelled; later accesses to a null
pointer, for example when the first row of a page is written, are not (they are undefined behaviour, too). The
functions that only free memory are those of `Model/Heap.lean`. -/

namespace Ecs

namespace HeapM

/-- `src/mem_utils.rs:13-19` `alloc` and `alloc_zeroed`: null if the request is refused. -/
def allocR (R : Nat → Bool) (size capacity : Nat) : HeapM Nat := fun H =>
  if size * capacity = 0 then .error (.ub .zeroAlloc) H
  else if R H.asked.length then .ok 0 { H with asked := (size, capacity) :: H.asked }
  else .ok H.next { next := H.next + 1, blocks := (H.next, size * capacity) :: H.blocks, asked := (size, capacity) :: H.asked }

/-- A write through a pointer. Null is invalid. -/
def writeTo (p : Nat) : HeapM Unit := fun H => if p = 0 then .error (.ub .oob) H else .ok () H

/-- `src/mem_utils.rs:21-35` `realloc`: the old contents, not empty, are copied to the new block. -/
def reallocR (R : Nat → Bool) (size p oldCap newCap : Nat) : HeapM Nat := do
  if oldCap = newCap then return p
  let q ← allocR R size newCap
  writeTo q
  dealloc size p oldCap
  return q

/-- `src/mem_utils.rs:37-48` `realloc_with_uninit_capacity_zeroing`, for a block that is not empty. -/
def reallocZeroingR (R : Nat → Bool) (size p oldCap newCap : Nat) : HeapM Nat := do
  let q ← allocR R size newCap
  writeTo q
  dealloc size p oldCap
  return q

/-- `src/bitvec_utils.rs:3-6` `alloc`. -/
def bitsAllocR (R : Nat → Bool) (len : Nat) : HeapM Nat := allocR R 4 (Words.getLen len)

/-- `src/bitvec_utils.rs:13-27` `realloc`. -/
def bitsReallocR (R : Nat → Bool) (p oldLen newLen : Nat) : HeapM Nat := do
  if Words.getLen oldLen = Words.getLen newLen then return p
  let q ← allocR R 4 (Words.getLen newLen)
  writeTo q
  dealloc 4 p (Words.getLen oldLen)
  return q

end HeapM
open HeapM

/-- `src/entities_container.rs:19-36` `new`: nothing is written to the new blocks. -/
def EntsPtrs.newR (R : Nat → Bool) (capacity : Nat) : HeapM EntsPtrs := do
  let versions ← allocR R 4 capacity
  let alive ← bitsAllocR R capacity
  return { capacity := capacity, versions := versions, alive := alive }

/-- `src/entities_container.rs:42-64` `grow`. -/
def EntsPtrs.growR (R : Nat → Bool) (c : EntsPtrs) (newCap : Nat) : HeapM EntsPtrs := do
  if newCap ≤ c.capacity then return c
  let versions ← reallocZeroingR R 4 c.versions c.capacity newCap
  let alive ← bitsReallocR R c.alive c.capacity newCap
  return { capacity := newCap, versions := versions, alive := alive }

/-- `src/entities_container.rs:71-102` `create_entity`. -/
def EntsPtrs.createR (R : Nat → Bool) (c : EntsPtrs) (grows : Bool) : HeapM EntsPtrs :=
  if grows then c.growR R (max c.capacity 1 * 2) else pure c

/-- `src/archetype.rs:28-62` `new` and `clone` (`:241-268`): all four arrays are filled. -/
def ArchPtrs.newR (R : Nat → Bool) (count : Nat) : HeapM ArchPtrs := do
  let ids ← allocR R typeIdSize count
  let sizes ← allocR R 8 count
  let aligns ← allocR R 8 count
  let names ← allocR R strSize count
  writeTo ids
  writeTo sizes
  writeTo aligns
  writeTo names
  return { count := count, ids := ids, sizes := sizes, aligns := aligns, names := names }

/-- `src/archetype_layout.rs:11-29, 53-79` `new`: the first offset is written before anything can panic. -/
def LayoutPtr.newR (R : Nat → Bool) (count : Nat) (fits : Bool) : HeapM LayoutPtr := do
  let offsets ← allocR R 8 count
  writeTo offsets
  if !fits then throw (.panic .assertFailed)
  return { count := count, offsets := offsets }

/-- `src/archetype_data_page.rs:18-25` `new`: nothing is written. -/
def pageNewR (R : Nat → Bool) : HeapM Nat := allocR R 1 16384

/-- `src/archetypes_container.rs:31-59` `new`. -/
def ArchsPtrs.newR (R : Nat → Bool) : HeapM ArchsPtrs := do
  let p0 ← pageNewR R
  let p1 ← pageNewR R
  let p2 ← pageNewR R
  let p3 ← pageNewR R
  let p4 ← pageNewR R
  return { archetypes := [], layouts := [], pages := [p0, p1, p2, p3, p4] }

/-- `src/archetypes_container.rs:207-236` `reserve_archetype`. -/
def ArchsPtrs.reserveArchetypeR (R : Nat → Bool) (c : ArchsPtrs) (count slot : Nat) (fits : Bool) : HeapM ArchsPtrs := do
  let layout ← LayoutPtr.newR R count fits
  match c.archetypes[slot]?, c.layouts[slot]? with
  | some oldA, some oldL =>
    let a ← ArchPtrs.newR R count
    oldA.drop
    oldL.drop
    return { c with archetypes := c.archetypes.set slot a, layouts := c.layouts.set slot layout }
  | _, _ =>
    let a ← ArchPtrs.newR R count
    return { c with archetypes := c.archetypes ++ [a], layouts := c.layouts ++ [layout] }

/-- `src/archetypes_container.rs:266-272` (in `reserve_page`): a new page. -/
def ArchsPtrs.newPageR (R : Nat → Bool) (c : ArchsPtrs) : HeapM ArchsPtrs := do
  let p ← pageNewR R
  return { c with pages := c.pages ++ [p] }

/-- `src/tag_container.rs:32-52` `add_tag` of a new tag; the bit of the entity is set in the new array. -/
def TagsPtrs.newTagR (R : Nat → Bool) (c : TagsPtrs) (i : Nat) : HeapM TagsPtrs := do
  let p ← bitsAllocR R c.capacity
  writeTo p
  return { c with bitvecs := c.bitvecs.take i ++ p :: c.bitvecs.drop i }

/-- `src/tag_container.rs:84-93` `grow`. -/
def TagsPtrs.growR (R : Nat → Bool) (c : TagsPtrs) (newCap : Nat) : HeapM TagsPtrs := do
  let ps ← c.bitvecs.mapM fun p => bitsReallocR R p c.capacity newCap
  return { bitvecs := ps, capacity := newCap }

/-- `src/order_group_container.rs:198-225` `reserve_group` of a new group; `alloc_links_map` fills each array. -/
def OrdersPtrs.newGroupR (R : Nat → Bool) (c : OrdersPtrs) (i : Nat) : HeapM OrdersPtrs := do
  let fwd ← allocR R 4 c.capacity
  writeTo fwd
  let bwd ← allocR R 4 c.capacity
  writeTo bwd
  return { c with links := c.links.take i ++ (fwd, bwd) :: c.links.drop i }

/-- `src/order_group_container.rs:166-189` `grow`. -/
def OrdersPtrs.growR (R : Nat → Bool) (c : OrdersPtrs) (newCap : Nat) : HeapM OrdersPtrs := do
  let ps ← c.links.mapM fun p => do
    let bwd ← reallocR R 4 p.2 c.capacity newCap
    let fwd ← reallocR R 4 p.1 c.capacity newCap
    return (fwd, bwd)
  return { links := ps, capacity := newCap }

namespace StorePtrs

/-- `src/store.rs:29-42` `with_capacity`. -/
def withCapacityR (R : Nat → Bool) (dbg : Bool) (capacity : Nat) : HeapM StorePtrs := do
  if dbg && decide (capacity = 0) then throw (.panic .debugAssert)
  let ents ← EntsPtrs.newR R capacity
  let archs ← ArchsPtrs.newR R
  let hasArch ← bitsAllocR R capacity
  let toIndex ← allocR R 4 capacity
  let toPage ← allocR R 4 capacity
  return { ents := ents, archs := archs, tags := ⟨[], capacity⟩, orders := ⟨[], capacity⟩, toPage := toPage,
           toIndex := toIndex, hasArch := hasArch }

/-- `src/store.rs:76-83, 290-312` `register_new_entity` with `grow_entities_internal`. -/
def createR (R : Nat → Bool) (s : StorePtrs) (grows : Bool) : HeapM StorePtrs := do
  let old := s.ents.capacity
  let ents ← s.ents.createR R grows
  if ents.capacity = old then return { s with ents := ents }
  let toPage ← reallocR R 4 s.toPage old ents.capacity
  let toIndex ← reallocR R 4 s.toIndex old ents.capacity
  let hasArch ← bitsReallocR R s.hasArch old ents.capacity
  let tags ← s.tags.growR R ents.capacity
  let orders ← s.orders.growR R ents.capacity
  return { s with ents := ents, toPage := toPage, toIndex := toIndex, hasArch := hasArch, tags := tags,
                  orders := orders }

/-- `src/archetypes_container.rs:61-68, 95-101`, see `StorePtrs.place`. -/
def placeR (R : Nat → Bool) (s : StorePtrs) (archetype : Option (Nat × Nat × Bool)) (page : Bool) : HeapM StorePtrs := do
  let archs ← match archetype with
    | some (count, slot, fits) => s.archs.reserveArchetypeR R count slot fits
    | none => pure s.archs
  let archs ← if page then archs.newPageR R else pure archs
  return { s with archs := archs }

/-- One operation, see `StorePtrs.step`. -/
def stepR (R : Nat → Bool) (s : StorePtrs) : HeapOp → HeapM StorePtrs
  | .create grows => s.createR R grows
  | .place none archetype page => s.placeR R archetype page
  | .place (some count) archetype page => do
    let a ← ArchPtrs.newR R count
    let s ← tryCatch (s.placeR R archetype page) fun f => do
      a.drop
      throw f
    a.drop
    return s
  | .tag i => do
    let tags ← s.tags.newTagR R i
    return { s with tags := tags }
  | .group i => do
    let orders ← s.orders.newGroupR R i
    return { s with orders := orders }

/-- See `StorePtrs.caught`. -/
def caughtR (R : Nat → Bool) (s : StorePtrs) (op : HeapOp) : HeapM StorePtrs :=
  tryCatch (s.stepR R op) fun
    | .panic _ => return s
    | f => throw f

/-- The life of a store: creation, any operations, drop. -/
def lifeR (R : Nat → Bool) (dbg : Bool) (capacity : Nat) (ops : List HeapOp) : HeapM Unit := do
  let s ← withCapacityR R dbg capacity
  let s ← ops.foldlM (caughtR R) s
  s.drop

end StorePtrs

namespace ResPtrs

/-- `src/resource_store.rs:18-23` `with_capacity`. -/
def withCapacityR (R : Nat → Bool) (size capacity : Nat) : HeapM ResPtrs := do
  let elements ← allocR R size capacity
  let ents ← EntsPtrs.newR R capacity
  return { elements := elements, ents := ents, size := size }

/-- `src/resource_store.rs:25-45` `create`: at last the value is written into the array of elements. -/
def createR (R : Nat → Bool) (r : ResPtrs) (grows : Bool) : HeapM ResPtrs := do
  let old := r.ents.capacity
  let ents ← r.ents.createR R grows
  if ents.capacity = old then
    writeTo r.elements
    return { r with ents := ents }
  let elements ← reallocR R r.size r.elements old ents.capacity
  writeTo elements
  return { r with ents := ents, elements := elements }

/-- The life of a resource store, see `ResPtrs.life`. -/
def lifeR (R : Nat → Bool) (size capacity : Nat) (ops : List Bool) : HeapM Unit := do
  let r ← withCapacityR R size capacity
  let r ← ops.foldlM (createR R) r
  r.drop

end ResPtrs

end Ecs
