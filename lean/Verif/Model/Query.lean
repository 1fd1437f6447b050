import Verif.Model.Store

/-! Model of `src/query/*.rs`. Iterators are explicit state machines; `drain` runs one to
exhaustion. A query borrows the store immutably while its iterator exists, so the row and entity
tables cannot change during an iteration (component bytes can, through the yielded references). -/

namespace Ecs

/-- The three access kinds of `src/query/access.rs:8-19`. -/
inductive Access where
  | readonly (reads : List TypeId)
  | write (writes : List TypeId)
  | readWrite (reads writes : List TypeId)
deriving DecidableEq, Repr

namespace Access

/-- All component types of the access, reads first. -/
def types : Access → List TypeId
  | readonly r => r
  | write w => w
  | readWrite r w => r ++ w

/-- `is_archetype_include_types` (`src/query/access.rs:68-72, 124-127, 169-172`). -/
def included (acc : Access) (a : Archetype) : Bool :=
  match acc with
  | readonly r => tupleIncluded r a
  | write w => tupleIncluded w a
  | readWrite r w => tupleIncluded r a && tupleIncluded w a

/-- `get_offsets` (`src/query/access.rs:60-66, 138-141, 183-186`). The pair of tuples of a read-write
access is kept as one list. -/
def getOffsets (acc : Access) (a : Archetype) (l : Layout) : Res (List Nat) :=
  match acc with
  | readonly r => getOffsetsUnchecked a l r
  | write w => getOffsetsUnchecked a l w
  | readWrite r w => do
    let ro ← getOffsetsUnchecked a l r
    let wo ← getOffsetsUnchecked a l w
    return ro ++ wo

/-- `get_ptrs` (`src/query/access.rs:86-95, 143-146, 188-191`, via `src/component_tuple.rs:152-180`):
pointers to the components of row 0. -/
def getPtrs (U : Universe) (acc : Access) (page : Nat) (offsets : List Nat) : List Ref :=
  getRefs U page 0 acc.types offsets

end Access

/-- `add_to_ptrs` followed by `ptrs_to_refs` (`src/component_tuple.rs:182-237`). -/
def addToPtrs (ptrs : List Ref) (entityIndex : Nat) : List Ref :=
  ptrs.map fun r => { r with off := r.off + entityIndex * r.size }

/-- `src/query/component_page_iter_view.rs:6-10` `ComponentPageIterView`; `entityIds` is what the raw
pointer `entity_ids` points to. -/
structure IterView where
  ptrs : List Ref
  entityIds : List Nat
  entityCount : Nat
deriving Repr

/-- `src/query/component_page_iter_view.rs:21-27` `empty`. -/
def IterView.empty : IterView := { ptrs := [], entityIds := [], entityCount := 0 }

/-- `src/query/component_page_iter_view.rs:13-19` `new`. -/
def IterView.new (U : Universe) (acc : Access) (pageIndex : Nat) (page : Page) (offsets : List Nat) :
    IterView :=
  { ptrs := acc.getPtrs U pageIndex offsets
    entityIds := page.ids.items
    entityCount := page.entityCount }

/-- Run an iterator until it returns `None`. `outOfFuel` if that takes more than `fuel` calls. -/
def drain {σ α : Type} (next : σ → Res (Option α × σ)) : (fuel : Nat) → σ → Res (List α)
  | 0, _ => .error .outOfFuel
  | fuel + 1, it => do
    match ← next it with
    | (none, _) => return []
    | (some a, it) =>
      let rest ← drain next fuel it
      return a :: rest

/-! ### Component queries (`src/query/component.rs`, `src/query/component_page_iter.rs`) -/

/-- `src/query/component_page_iter.rs:5-10` `ComponentPageIter`. -/
structure PageIter where
  view : IterView
  nextEntityIndex : Nat

namespace PageIter

/-- `src/query/component_page_iter.rs:13-23` `new`. -/
def new (v : IterView) : PageIter := { view := v, nextEntityIndex := 0 }

/-- `src/query/component_page_iter.rs:25-28` `empty`. -/
def empty : PageIter := new IterView.empty

/-- `src/query/component_page_iter.rs:30-32` `current_entity_id`. -/
def currentEntityId (dbg : Bool) (it : PageIter) : Res Nat := do
  let i ← subUsize dbg it.nextEntityIndex 1
  idxUnchecked it.view.entityIds i

/-- `src/query/component_page_iter.rs:38-50` `next`. -/
def next (it : PageIter) : Option (List Ref) × PageIter :=
  if it.nextEntityIndex ≥ it.view.entityCount then (none, it)
  else (some (addToPtrs it.view.ptrs it.nextEntityIndex),
        { it with nextEntityIndex := it.nextEntityIndex + 1 })

/-- `src/query/component_page_iter.rs:53-57` `len`. -/
def len (it : PageIter) : Nat := it.view.entityCount

end PageIter

/-- `src/query/component.rs:21-28` `ComponentsQueryIter` (the store borrow is passed separately). -/
structure CompIter where
  pageViews : List IterView
  cur : PageIter
  currentPageIndex : Nat
  queriedEntitiesCount : Nat

/-- Inner loop of `component_query_iter` (`src/query/component.rs:86-99`) over the pages of one
archetype: appends the views and counts the entities. -/
def collectPages (U : Universe) (acc : Access) (pages : List Page) (offsets : List Nat) :
    List Nat → (List IterView × Nat) → Res (List IterView × Nat)
  | [], acc' => .ok acc'
  | p :: rest, (views, count) => do
    let page ← idx pages p
    if page.entityCount = 0 then
      collectPages U acc pages offsets rest (views, count)
    else
      collectPages U acc pages offsets rest
        (views ++ [IterView.new U acc p page offsets], count + page.entityCount)

/-- Outer loop of `component_query_iter` (`src/query/component.rs:72-100`) over the archetype
indices. -/
def collectArchetypes (U : Universe) (acc : Access) (c : Archs) :
    List Nat → (List IterView × Nat) → Res (List IterView × Nat)
  | [], r => .ok r
  | ai :: rest, r => do
    let arch ← idxUnchecked c.archetypes ai
    let layout ← idxUnchecked c.layouts ai
    if acc.included arch = false then
      collectArchetypes U acc c rest r
    else
      let offsets ← acc.getOffsets arch layout
      let archPages ← idx c.archPages ai
      let r ← collectPages U acc c.pages offsets archPages r
      collectArchetypes U acc c rest r

/-- `src/query/component.rs:62-117` `component_query_iter`. `old` is the content of the reused query
object (`query.page_views`), which is cleared. -/
def componentQueryIter (U : Universe) (s : Store) (acc : Access) (old : List IterView) : Res CompIter := do
  let cleared := old.take 0
  let (views, count) ← collectArchetypes U acc s.archs (List.range s.archs.archetypes.length) (cleared, 0)
  let pageIter ← if views.length > 0 then do
      let v ← idx views 0
      pure (PageIter.new v)
    else pure PageIter.empty
  return { pageViews := views, cur := pageIter, currentPageIndex := 0, queriedEntitiesCount := count }

namespace CompIter

/-- `src/query/component.rs:123-142` `next`. -/
def next (it : CompIter) : Res (Option (List Ref) × CompIter) := do
  match it.cur.next with
  | (some v, cur) => return (some v, { it with cur := cur })
  | (none, cur) =>
    let it := { it with cur := cur, currentPageIndex := it.currentPageIndex + 1 }
    if it.currentPageIndex < it.pageViews.length then
      let view ← idxUnchecked it.pageViews it.currentPageIndex
      match (PageIter.new view).next with
      | (r, cur) => return (r, { it with cur := cur })
    else
      return (none, { it with cur := PageIter.empty })

/-- `src/query/component.rs:145-149` `len`. -/
def len (it : CompIter) : Nat := it.queriedEntitiesCount

/-- `src/query/component.rs:162-173` `WithEntitiesIter::next`. -/
def nextWithEntity (dbg : Bool) (s : Store) (it : CompIter) :
    Res (Option (Entity × List Ref) × CompIter) := do
  match ← it.next with
  | (none, it) => return (none, it)
  | (some refs, it) =>
    let id ← it.cur.currentEntityId dbg
    let version ← Raw.read s.ents.versions id
    return (some (⟨id, version⟩, refs), it)

/-- `src/query/component.rs:187-199` `FilterTagIter::next` (recursive; `fuel` bounds the recursion). -/
def nextFiltered (dbg : Bool) (s : Store) (bv : Words) :
    (fuel : Nat) → CompIter → Res (Option (Entity × List Ref) × CompIter)
  | 0, _ => .error .outOfFuel
  | fuel + 1, it => do
    match ← it.nextWithEntity dbg s with
    | (none, it) => return (none, it)
    | (some (e, refs), it) =>
      if ← bv.isOn e.id then return (some (e, refs), it)
      else nextFiltered dbg s bv fuel it

end CompIter

/-- The component query as a user runs it: all items of `store.component_query_iter(&mut q)`. -/
def runComponentQuery (U : Universe) (s : Store) (acc : Access) (old : List IterView) (fuel : Nat) :
    Res (List (List Ref)) := do
  let it ← componentQueryIter U s acc old
  drain CompIter.next fuel it

/-- All items of `store.component_query_iter(&mut q).with_entities()`. -/
def runComponentQueryWithEntities (U : Universe) (dbg : Bool) (s : Store) (acc : Access)
    (old : List IterView) (fuel : Nat) : Res (List (Entity × List Ref)) := do
  let it ← componentQueryIter U s acc old
  drain (CompIter.nextWithEntity dbg s) fuel it

/-- All items of `store.component_query_iter(&mut q).with_entities().filter_tag::<T>()`
(`src/query/component.rs:175-185`). -/
def runComponentQueryFilterTag (U : Universe) (dbg : Bool) (s : Store) (acc : Access) (tag : Nat)
    (old : List IterView) (fuel : Nat) : Res (List (Entity × List Ref)) := do
  let it ← componentQueryIter U s acc old
  let bv ← s.tags.hasTagBitvec tag
  drain (CompIter.nextFiltered dbg s bv fuel) fuel it

/-! ### Entity queries (`src/query/entity_component.rs`) -/

/-- A half-open range `start..end`. -/
structure Range where
  start : Nat
  stop : Nat
deriving DecidableEq, Repr

/-- `src/query/entity_component.rs:123-128` `is_valid_entity_for_query`. -/
def isValidEntityForQuery (dbg : Bool) (s : Store) (acc : Access) (e : Entity) : Res Bool := do
  match ← s.getEntityArchetype dbg e with
  | none => return false
  | some a => return acc.included a

/-- Inner `while` loop of `entity_component_query_iter` (`src/query/entity_component.rs:91-102`):
`rest` is `entities[range_end..]`; returns the final `range_end` and the remaining suffix. -/
def entityRangeLoop (dbg : Bool) (s : Store) (rangePage : Nat) :
    (rest : List Entity) → (rangeEnd : Nat) → Res (Nat × List Entity)
  | [], rangeEnd => .ok (rangeEnd, [])
  | inner :: rest, rangeEnd => do
    let page ← Raw.read s.toPage inner.id
    let alive ← s.isAlive dbg inner
    if !alive || rangePage != page then
      return (rangeEnd, inner :: rest)
    else
      entityRangeLoop dbg s rangePage rest (rangeEnd + 1)

/-- Outer `while` loop of `entity_component_query_iter` (`src/query/entity_component.rs:67-110`):
`rest` is `entities[range_start..]`. -/
def entityOuterLoop (U : Universe) (dbg : Bool) (s : Store) (acc : Access) :
    (fuel : Nat) → (rest : List Entity) → (rangeStart : Nat) → Res (List (Range × IterView))
  | _, [], _ => .ok []
  | 0, _ :: _, _ => .error .outOfFuel
  | fuel + 1, e :: rest, rangeStart => do
    if (← isValidEntityForQuery dbg s acc e) = false then
      entityOuterLoop U dbg s acc fuel rest (rangeStart + 1)
    else
      let rangePage ← Raw.read s.toPage e.id
      let ai ← idx s.archs.pageToArch rangePage
      let arch ← idxUnchecked s.archs.archetypes ai
      let layout ← idxUnchecked s.archs.layouts ai
      let page ← idxUnchecked s.archs.pages rangePage
      let offsets ← acc.getOffsets arch layout
      let (rangeEnd, rest') ← entityRangeLoop dbg s rangePage rest (rangeStart + 1)
      let more ← entityOuterLoop U dbg s acc fuel rest' rangeEnd
      return (⟨rangeStart, rangeEnd⟩, IterView.new U acc rangePage page offsets) :: more

/-- `src/query/entity_component.rs:21-30` `EntityComponentQueryIter`. The vectors
`entity_ranges` and `range_pages` always have equal length and are kept as one list of pairs. -/
structure EntIter where
  entities : List Entity
  ranges : List (Range × IterView)
  currentEntityIndex : Nat
  nextRangeIndex : Nat
  nextOffsetFromRange : Nat

/-- `src/query/entity_component.rs:59-121` `entity_component_query_iter`; `old` is the previous
content of the query object, which is cleared. -/
def entityQueryIter (U : Universe) (dbg : Bool) (s : Store) (entities : List Entity) (acc : Access)
    (old : List (Range × IterView)) : Res EntIter := do
  let cleared := old.take 0
  let ranges ← entityOuterLoop U dbg s acc entities.length entities 0
  return { entities := entities, ranges := cleared ++ ranges, currentEntityIndex := 0,
           nextRangeIndex := 0, nextOffsetFromRange := 0 }

namespace EntIter

/-- `src/query/entity_component.rs:134-161` `next`. -/
def next (dbg : Bool) (s : Store) (it : EntIter) : Res (Option (List Ref) × EntIter) := do
  if it.nextRangeIndex ≥ it.ranges.length then
    return (none, it)
  let (range, view) ← idxUnchecked it.ranges it.nextRangeIndex
  let it := { it with currentEntityIndex := range.start + it.nextOffsetFromRange }
  let e ← idxUnchecked it.entities it.currentEntityIndex
  let indexInPage ← Raw.read s.toIndex e.id
  let last ← subUsize dbg range.stop 1
  let it := if it.currentEntityIndex ≥ last then
      { it with nextRangeIndex := it.nextRangeIndex + 1, nextOffsetFromRange := 0 }
    else
      { it with nextOffsetFromRange := it.nextOffsetFromRange + 1 }
  return (some (addToPtrs view.ptrs indexInPage), it)

/-- `src/query/entity_component.rs:170-183` `WithEntitiesIter::next`. -/
def nextWithEntity (dbg : Bool) (s : Store) (it : EntIter) :
    Res (Option (Entity × List Ref) × EntIter) := do
  match ← it.next dbg s with
  | (none, it) => return (none, it)
  | (some refs, it) =>
    let e ← idxUnchecked it.entities it.currentEntityIndex
    return (some (e, refs), it)

end EntIter

/-- All items of `store.entity_component_query_iter(&entities, &mut q)`. -/
def runEntityQuery (U : Universe) (dbg : Bool) (s : Store) (entities : List Entity) (acc : Access)
    (old : List (Range × IterView)) (fuel : Nat) : Res (List (List Ref)) := do
  let it ← entityQueryIter U dbg s entities acc old
  drain (EntIter.next dbg s) fuel it

/-- All items of `store.entity_component_query_iter(&entities, &mut q).with_entities()`. -/
def runEntityQueryWithEntities (U : Universe) (dbg : Bool) (s : Store) (entities : List Entity)
    (acc : Access) (old : List (Range × IterView)) (fuel : Nat) : Res (List (Entity × List Ref)) := do
  let it ← entityQueryIter U dbg s entities acc old
  drain (EntIter.nextWithEntity dbg s) fuel it

/-! ### Ordered queries (`src/query/ordered_component.rs`) -/

/-- Inner `while` loop of `ordered_query_iter` (`src/query/ordered_component.rs:122-139`). Returns the
final `next_entity` and `range_end`. -/
def orderedRangeLoop (s : Store) (links : Raw Nat) (currPage : Nat) :
    (fuel : Nat) → (nextEntity rangeEnd : Nat) → Res (Nat × Nat)
  | 0, _, _ => .error .outOfFuel
  | fuel + 1, nextEntity, rangeEnd => do
    if nextEntity = NULL_ID then
      return (nextEntity, rangeEnd)
    let nextPage ← Raw.read s.toPage nextEntity
    let nextIndex ← Raw.read s.toIndex nextEntity
    if nextPage != currPage || nextIndex != rangeEnd then
      return (nextEntity, rangeEnd)
    let nextEntity ← Raw.read links nextEntity
    orderedRangeLoop s links currPage fuel nextEntity (rangeEnd + 1)

/-- Outer `while` loop of `ordered_query_iter` (`src/query/ordered_component.rs:90-149`). Returns the
ranges with their page views and the entity count. -/
def orderedOuterLoop (U : Universe) (s : Store) (acc : Access) (links : Raw Nat) :
    (fuel : Nat) → (currEntity : Nat) → Res (List (Range × IterView) × Nat)
  | 0, _ => .error .outOfFuel
  | fuel + 1, currEntity => do
    if currEntity = NULL_ID then
      return ([], 0)
    let currPage ← Raw.read s.toPage currEntity
    let currIndex ← Raw.read s.toIndex currEntity
    let page ← idxUnchecked s.archs.pages currPage
    let ai ← idx s.archs.pageToArch currPage
    let arch ← idxUnchecked s.archs.archetypes ai
    let layout ← idxUnchecked s.archs.layouts ai
    if !(acc.included arch) then
      let currEntity ← Raw.read links currEntity
      orderedOuterLoop U s acc links fuel currEntity
    else
      let offsets ← acc.getOffsets arch layout
      let nextEntity ← Raw.read links currEntity
      let (nextEntity, rangeEnd) ← orderedRangeLoop s links currPage fuel nextEntity (currIndex + 1)
      let (more, count) ← orderedOuterLoop U s acc links fuel nextEntity
      return ((⟨currIndex, rangeEnd⟩, IterView.new U acc currPage page offsets) :: more,
              rangeEnd - currIndex + count)

/-- `src/query/ordered_component.rs:18-29` `OrderedComponentQueryIter`. -/
structure OrdIter where
  ranges : List (Range × IterView)
  nextRangeIndex : Nat
  currentIndexInPage : Nat
  nextOffsetFromRange : Nat
  len : Nat

/-- `src/query/ordered_component.rs:66-169` `ordered_query_iter` with `iter_from_query`; `old` is the
previous content of the query object, which is cleared. `fuel` bounds the walk along the links. -/
def orderedQueryIter (U : Universe) (s : Store) (group : Nat) (acc : Access)
    (old : List (Range × IterView)) (fuel : Nat) : Res OrdIter := do
  let cleared := old.take 0
  match s.orders.getGroupIndex group with
  | none =>
    return { ranges := cleared, nextRangeIndex := 0, currentIndexInPage := 0, nextOffsetFromRange := 0,
             len := 0 }
  | some gi =>
    let g ← idxUnchecked s.orders.groups gi
    let (ranges, count) ← orderedOuterLoop U s acc g.fwd fuel g.head
    return { ranges := cleared ++ ranges, nextRangeIndex := 0, currentIndexInPage := 0,
             nextOffsetFromRange := 0, len := count }

namespace OrdIter

/-- `src/query/ordered_component.rs:175-195` `next`. -/
def next (dbg : Bool) (it : OrdIter) : Res (Option (List Ref) × OrdIter) := do
  if it.nextRangeIndex ≥ it.ranges.length then
    return (none, it)
  let (range, view) ← idxUnchecked it.ranges it.nextRangeIndex
  let it := { it with currentIndexInPage := range.start + it.nextOffsetFromRange }
  let last ← subU32 dbg range.stop 1
  let it := if it.currentIndexInPage ≥ last then
      { it with nextRangeIndex := it.nextRangeIndex + 1, nextOffsetFromRange := 0 }
    else
      { it with nextOffsetFromRange := it.nextOffsetFromRange + 1 }
  return (some (addToPtrs view.ptrs it.currentIndexInPage), it)

/-- `src/query/ordered_component.rs:207-229` `WithEntitiesIter::next`, including the
`next_range_index.saturating_sub(1)`. -/
def nextWithEntity (dbg : Bool) (s : Store) (it : OrdIter) :
    Res (Option (Entity × List Ref) × OrdIter) := do
  match ← it.next dbg with
  | (none, it) => return (none, it)
  | (some refs, it) =>
    let (_, view) ← idxUnchecked it.ranges (it.nextRangeIndex - 1)
    let id ← idxUnchecked view.entityIds it.currentIndexInPage
    let version ← Raw.read s.ents.versions id
    return (some (⟨id, version⟩, refs), it)

end OrdIter

/-- All items of `store.ordered_query_iter(&mut q)`. -/
def runOrderedQuery (U : Universe) (dbg : Bool) (s : Store) (group : Nat) (acc : Access)
    (old : List (Range × IterView)) (fuel : Nat) : Res (List (List Ref)) := do
  let it ← orderedQueryIter U s group acc old fuel
  drain (OrdIter.next dbg) fuel it

/-- All items of `store.ordered_query_iter(&mut q).with_entities()`. -/
def runOrderedQueryWithEntities (U : Universe) (dbg : Bool) (s : Store) (group : Nat) (acc : Access)
    (old : List (Range × IterView)) (fuel : Nat) : Res (List (Entity × List Ref)) := do
  let it ← orderedQueryIter U s group acc old fuel
  drain (OrdIter.nextWithEntity dbg s) fuel it

end Ecs
