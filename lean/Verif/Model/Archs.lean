import Verif.Model.Page

/-! Model of `src/archetypes_container.rs`. -/

namespace Ecs

/-- `src/entity_in_archetype.rs:1-5` `EntityInArchetype` (both `u32`; the truncations `as u32` of
page and row indices are not modelled). -/
structure Loc where
  page : Nat
  index : Nat
deriving DecidableEq, Repr

/-- `src/archetypes_container.rs:9-20` `ArchetypesContainer`. -/
structure Archs where
  archetypes : List Archetype
  layouts : List Layout
  archPages : List (List Nat)
  pages : List Page
  pageToArch : List Nat
  freeArchetypes : List Nat
  freePages : List Nat

/-- `Vec::insert(index, x)`. -/
def vecInsert {α : Type} (v : List α) (index : Nat) (x : α) : Res (List α) :=
  if index ≤ v.length then .ok (v.insertIdx index x) else .error (.panic .indexOutOfBounds)

/-- Bounds-checked assignment `v[i] = x`. -/
def idxSet {α : Type} (v : List α) (i : Nat) (x : α) : Res (List α) :=
  if i < v.length then .ok (v.set i x) else .error (.panic .indexOutOfBounds)

namespace Archs

/-- `src/archetypes_container.rs:28-59` `new` (5 preallocated pages). -/
def new : Archs where
  archetypes := []
  layouts := []
  archPages := []
  pages := List.replicate 5 Page.new
  pageToArch := List.replicate 5 0
  freeArchetypes := []
  freePages := List.range 5

/-- The search of `reserve_archetype` (`src/archetypes_container.rs:208-217`): index of the first
archetype that `is_same_as` the given one, counting from `i`. -/
def findSame (archetype : Archetype) : (i : Nat) → List Archetype → Option Nat
  | _, [] => none
  | i, a :: rest => if a.isSameAs archetype then some i else findSame archetype (i + 1) rest

/-- `src/archetypes_container.rs:207-236` `reserve_archetype`. -/
def reserveArchetype (dbg : Bool) (c : Archs) (archetype : Archetype) : Res (Archs × Nat) :=
  match findSame archetype 0 c.archetypes with
  | some i =>
    match binarySearch c.freeArchetypes i with
    | .found k => .ok ({ c with freeArchetypes := c.freeArchetypes.eraseIdx k }, i)
    | .notFound _ => .ok (c, i)
  | none => do
    let layout ← Layout.new dbg archetype
    match c.freeArchetypes.getLast? with
    | some freeIdx =>
      let archetypes ← idxSet c.archetypes freeIdx archetype
      let layouts ← idxSet c.layouts freeIdx layout
      return ({ c with archetypes := archetypes, layouts := layouts,
                       freeArchetypes := c.freeArchetypes.dropLast }, freeIdx)
    | none =>
      return ({ c with archetypes := c.archetypes ++ [archetype]
                       layouts := c.layouts ++ [layout]
                       archPages := c.archPages ++ [[]] },
              (c.archetypes ++ [archetype]).length - 1)

/-- The reverse search of `reserve_page` (`src/archetypes_container.rs:247-259`): the first page in
`candidates` with free space. -/
def findFreePage (pages : List Page) : (candidates : List Nat) → Res (Option Nat)
  | [] => .ok none
  | p :: rest => do
    let page ← idx pages p
    if page.hasFreeSpace then return some p else findFreePage pages rest

/-- `src/archetypes_container.rs:238-286` `reserve_page`. -/
def reservePage (dbg : Bool) (c : Archs) (entityId archIndex : Nat) : Res (Archs × Loc) := do
  let pageList ← idx c.archPages archIndex
  match ← findFreePage c.pages pageList.reverse with
  | some pageIndex =>
    let page ← idx c.pages pageIndex
    let (page, index) ← page.addEntityId dbg entityId
    return ({ c with pages := c.pages.set pageIndex page }, ⟨pageIndex, index⟩)
  | none =>
    let (c, pageIndex) ← (match c.freePages.getLast? with
      | some pageIndex => pure ({ c with freePages := c.freePages.dropLast }, pageIndex)
      | none => do
        let pageIndex := c.pages.length
        let pages ← vecInsert c.pages pageIndex Page.new
        let pageToArch ← vecInsert c.pageToArch pageIndex archIndex
        pure ({ c with pages := pages, pageToArch := pageToArch }, pageIndex) : Res (Archs × Nat))
    let layout ← idx c.layouts archIndex
    let page ← idx c.pages pageIndex
    let page := page.setLayout layout
    let pageList ← idx c.archPages archIndex
    let archPages := c.archPages.set archIndex (pageList ++ [pageIndex])
    let pageToArch ← idxSet c.pageToArch pageIndex archIndex
    let (page, index) ← page.addEntityId dbg entityId
    return ({ c with pages := c.pages.set pageIndex page, archPages := archPages,
                     pageToArch := pageToArch }, ⟨pageIndex, index⟩)

/-- `src/archetypes_container.rs:61-68` `add_entity`. -/
def addEntity (dbg : Bool) (c : Archs) (entityId : Nat) (archetype : Archetype) :
    Res (Archs × Loc) := do
  let (c, archIndex) ← c.reserveArchetype dbg archetype
  c.reservePage dbg entityId archIndex

/-- `src/archetypes_container.rs:186-205` `free_page`. The loop removes the first entry equal to
`page_index` from the archetype's page list; pages of archetype 0 are never freed. -/
def freePage (c : Archs) (pageIndex : Nat) : Res Archs := do
  let archIndex ← idx c.pageToArch pageIndex
  if archIndex = 0 then
    return c
  let pageList ← idx c.archPages archIndex
  let c := if pageList.contains pageIndex then
      let rest := pageList.erase pageIndex
      { c with archPages := c.archPages.set archIndex rest
               freeArchetypes := if rest.length = 0 then c.freeArchetypes ++ [archIndex]
                                 else c.freeArchetypes }
    else c
  return { c with freePages := c.freePages ++ [pageIndex] }

/-- `src/archetypes_container.rs:70-93` `swap_remove_entity`. -/
def swapRemoveEntity (c : Archs) (loc : Loc) : Res (Archs × Option Nat) := do
  let archIndex ← idx c.pageToArch loc.page
  let page ← idx c.pages loc.page
  let pageWillEmpty := page.entityCount == 1
  let arch ← idx c.archetypes archIndex
  let layout ← idx c.layouts archIndex
  let (page, info) ← page.swapRemoveEntityAtIndex loc.index arch layout
  let c := { c with pages := c.pages.set loc.page page }
  let c ← if pageWillEmpty then c.freePage loc.page else pure c
  return (c, info)

/-- `src_ptr.copy_to_nonoverlapping(dst_ptr, n)` from page `srcPage` to page `dstPage`
(`src/archetype_data_page.rs:127`); source and destination may be the same page. -/
def copyBetween (pages : List Page) (srcPage src dstPage dst n : Nat) : Res (List Page) := do
  let sp ← idx pages srcPage
  let bs ← readBytes sp.data src n
  if srcPage = dstPage && overlaps src dst n then throw (.ub .overlap)
  let dp ← idx pages dstPage
  let d ← writeBytes dp.data dst bs
  return pages.set dstPage { dp with data := d }

/-- Loop of `copy_component_data_to_page_with_new_archetype`
(`src/archetype_data_page.rs:113-128`) over the pairs of component indices. -/
def copyLoop (src dst : Loc) (srcArch dstArch : Archetype) (srcLayout dstLayout : Layout) :
    List (Nat × Nat) → List Page → Res (List Page)
  | [], pages => .ok pages
  | (si, di) :: rest, pages => do
    let srcOffset ← idxUnchecked srcLayout.offsets si
    let srcSize ← idxUnchecked srcArch.sizes si
    let dstOffset ← idxUnchecked dstLayout.offsets di
    let dstSize ← idxUnchecked dstArch.sizes di
    let pages ← copyBetween pages src.page (Page.dataPtr src.index srcOffset srcSize)
      dst.page (Page.dataPtr dst.index dstOffset dstSize) dstSize
    copyLoop src dst srcArch dstArch srcLayout dstLayout rest pages

/-- `src/archetypes_container.rs:95-126` `move_entity_to_other_archetype`, with
`src/archetype_data_page.rs:100-129` `copy_component_data_to_page_with_new_archetype`.
`lhs_indices` and `rhs_indices` always have the same length, so they are zipped. -/
def moveEntityToOtherArchetype (dbg : Bool) (c : Archs) (entityId : Nat) (prev : Loc)
    (prevArchIndex : Nat) (newArchetype : Archetype) : Res (Archs × Loc) := do
  let (c, newArchIndex) ← c.reserveArchetype dbg newArchetype
  let (c, newLoc) ← c.reservePage dbg entityId newArchIndex
  let _ ← idx c.pages prev.page
  let _ ← idx c.pages newLoc.page
  let prevArchetype ← idx c.archetypes prevArchIndex
  let prevLayout ← idx c.layouts prevArchIndex
  let newLayout ← idx c.layouts newArchIndex
  let u := ArchetypesUnion.calculate prevArchetype newArchetype
  let pages ← copyLoop prev newLoc prevArchetype newArchetype prevLayout newLayout
    (u.lhsIndices.zip u.rhsIndices) c.pages
  return ({ c with pages := pages }, newLoc)

end Archs
end Ecs
