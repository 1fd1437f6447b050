import Verif.Model.Query
import Verif.Model.Cost

/-! The functions that start a query, once more, with a count of what their loops examine. Each function is the one of the same name
(without `M`) in `Model/Query.lean`. Counted are the iterations of the loops over archetypes, pages, and the entities of a list or a
group; binary searches in the types of an archetype are not counted. -/

namespace Ecs
open Meter

/-- Inner loop of `component_query_iter` (`src/query/component.rs:86-99`). -/
def collectPagesM (U : Universe) (acc : Access) (pages : List Page) (offsets : List Nat) :
    List Nat → (List IterView × Nat) → Meter (List IterView × Nat)
  | [], acc' => pure acc'
  | p :: rest, (views, count) => do
    tick { pages := 1 }
    let page ← step (idx pages p)
    if page.entityCount = 0 then
      collectPagesM U acc pages offsets rest (views, count)
    else
      collectPagesM U acc pages offsets rest
        (views ++ [IterView.new U acc p page offsets], count + page.entityCount)

/-- Outer loop of `component_query_iter` (`src/query/component.rs:72-100`). -/
def collectArchetypesM (U : Universe) (acc : Access) (c : Archs) :
    List Nat → (List IterView × Nat) → Meter (List IterView × Nat)
  | [], r => pure r
  | ai :: rest, r => do
    tick { archetypes := 1 }
    let arch ← step (idxUnchecked c.archetypes ai)
    let layout ← step (idxUnchecked c.layouts ai)
    if acc.included arch = false then
      collectArchetypesM U acc c rest r
    else
      let offsets ← step (acc.getOffsets arch layout)
      let archPages ← step (idx c.archPages ai)
      let r ← collectPagesM U acc c.pages offsets archPages r
      collectArchetypesM U acc c rest r

/-- `src/query/component.rs:62-117` `component_query_iter`. -/
def componentQueryIterM (U : Universe) (s : Store) (acc : Access) (old : List IterView) : Meter CompIter := do
  let cleared := old.take 0
  let (views, count) ← collectArchetypesM U acc s.archs (List.range s.archs.archetypes.length) (cleared, 0)
  let pageIter ← step (if views.length > 0 then do
      let v ← idx views 0
      pure (PageIter.new v)
    else pure PageIter.empty)
  return { pageViews := views, cur := pageIter, currentPageIndex := 0, queriedEntitiesCount := count }

/-- Inner `while` loop of `entity_component_query_iter` (`src/query/entity_component.rs:91-102`). -/
def entityRangeLoopM (dbg : Bool) (s : Store) (rangePage : Nat) :
    (rest : List Entity) → (rangeEnd : Nat) → Meter (Nat × List Entity)
  | [], rangeEnd => pure (rangeEnd, [])
  | inner :: rest, rangeEnd => do
    tick { entities := 1 }
    let page ← step (Raw.read s.toPage inner.id)
    let alive ← step (s.isAlive dbg inner)
    if !alive || rangePage != page then
      return (rangeEnd, inner :: rest)
    else
      entityRangeLoopM dbg s rangePage rest (rangeEnd + 1)

/-- Outer `while` loop of `entity_component_query_iter` (`src/query/entity_component.rs:67-110`). -/
def entityOuterLoopM (U : Universe) (dbg : Bool) (s : Store) (acc : Access) :
    (fuel : Nat) → (rest : List Entity) → (rangeStart : Nat) → Meter (List (Range × IterView))
  | _, [], _ => pure []
  | 0, _ :: _, _ => step (.error .outOfFuel)
  | fuel + 1, e :: rest, rangeStart => do
    tick { entities := 1 }
    if (← step (isValidEntityForQuery dbg s acc e)) = false then
      entityOuterLoopM U dbg s acc fuel rest (rangeStart + 1)
    else
      let rangePage ← step (Raw.read s.toPage e.id)
      let ai ← step (idx s.archs.pageToArch rangePage)
      let arch ← step (idxUnchecked s.archs.archetypes ai)
      let layout ← step (idxUnchecked s.archs.layouts ai)
      let page ← step (idxUnchecked s.archs.pages rangePage)
      let offsets ← step (acc.getOffsets arch layout)
      let (rangeEnd, rest') ← entityRangeLoopM dbg s rangePage rest (rangeStart + 1)
      let more ← entityOuterLoopM U dbg s acc fuel rest' rangeEnd
      return (⟨rangeStart, rangeEnd⟩, IterView.new U acc rangePage page offsets) :: more

/-- `src/query/entity_component.rs:59-121` `entity_component_query_iter`. -/
def entityQueryIterM (U : Universe) (dbg : Bool) (s : Store) (entities : List Entity) (acc : Access)
    (old : List (Range × IterView)) : Meter EntIter := do
  let cleared := old.take 0
  let ranges ← entityOuterLoopM U dbg s acc entities.length entities 0
  return { entities := entities, ranges := cleared ++ ranges, currentEntityIndex := 0,
           nextRangeIndex := 0, nextOffsetFromRange := 0 }

/-- Inner `while` loop of `ordered_query_iter` (`src/query/ordered_component.rs:122-139`). -/
def orderedRangeLoopM (s : Store) (links : Raw Nat) (currPage : Nat) :
    (fuel : Nat) → (nextEntity rangeEnd : Nat) → Meter (Nat × Nat)
  | 0, _, _ => step (.error .outOfFuel)
  | fuel + 1, nextEntity, rangeEnd => do
    if nextEntity = NULL_ID then
      return (nextEntity, rangeEnd)
    tick { entities := 1 }
    let nextPage ← step (Raw.read s.toPage nextEntity)
    let nextIndex ← step (Raw.read s.toIndex nextEntity)
    if nextPage != currPage || nextIndex != rangeEnd then
      return (nextEntity, rangeEnd)
    let nextEntity ← step (Raw.read links nextEntity)
    orderedRangeLoopM s links currPage fuel nextEntity (rangeEnd + 1)

/-- Outer `while` loop of `ordered_query_iter` (`src/query/ordered_component.rs:90-149`). -/
def orderedOuterLoopM (U : Universe) (s : Store) (acc : Access) (links : Raw Nat) :
    (fuel : Nat) → (currEntity : Nat) → Meter (List (Range × IterView) × Nat)
  | 0, _ => step (.error .outOfFuel)
  | fuel + 1, currEntity => do
    if currEntity = NULL_ID then
      return ([], 0)
    tick { entities := 1 }
    let currPage ← step (Raw.read s.toPage currEntity)
    let currIndex ← step (Raw.read s.toIndex currEntity)
    let page ← step (idxUnchecked s.archs.pages currPage)
    let ai ← step (idx s.archs.pageToArch currPage)
    let arch ← step (idxUnchecked s.archs.archetypes ai)
    let layout ← step (idxUnchecked s.archs.layouts ai)
    if !(acc.included arch) then
      let currEntity ← step (Raw.read links currEntity)
      orderedOuterLoopM U s acc links fuel currEntity
    else
      let offsets ← step (acc.getOffsets arch layout)
      let nextEntity ← step (Raw.read links currEntity)
      let (nextEntity, rangeEnd) ← orderedRangeLoopM s links currPage fuel nextEntity (currIndex + 1)
      let (more, count) ← orderedOuterLoopM U s acc links fuel nextEntity
      return ((⟨currIndex, rangeEnd⟩, IterView.new U acc currPage page offsets) :: more,
              rangeEnd - currIndex + count)

/-- `src/query/ordered_component.rs:66-169` `ordered_query_iter` with `iter_from_query`. -/
def orderedQueryIterM (U : Universe) (s : Store) (group : Nat) (acc : Access)
    (old : List (Range × IterView)) (fuel : Nat) : Meter OrdIter := do
  let cleared := old.take 0
  match s.orders.getGroupIndex group with
  | none =>
    return { ranges := cleared, nextRangeIndex := 0, currentIndexInPage := 0, nextOffsetFromRange := 0,
             len := 0 }
  | some gi =>
    let g ← step (idxUnchecked s.orders.groups gi)
    let (ranges, count) ← orderedOuterLoopM U s acc g.fwd fuel g.head
    return { ranges := cleared ++ ranges, nextRangeIndex := 0, currentIndexInPage := 0,
             nextOffsetFromRange := 0, len := count }

end Ecs
