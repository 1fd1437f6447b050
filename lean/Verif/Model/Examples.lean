import Verif.Model.Query

/-! The two example programs of the repository, `examples/cache_test.rs` and `examples/query_bench.rs`, for component data of
any kind and any number of entities. Time measurement and printing are left out, and instead of floating-point sums the
programs return the component values from which they are computed, in the order of the additions. -/

namespace Ecs

/-- Reading the components behind the references of the items of a query. -/
def readItems (s : Store) (items : List (List Ref)) : Res (List (List (List Cell))) :=
  items.mapM fun refs => refs.mapM (readRef s.archs.pages)

/-- The loop of `populate_ecs` (`examples/cache_test.rs:120-128`); `ts` are the types `Position`, `Rotation`, `MovingUnit`, and
an element of the data gives their bytes in this order. -/
def populateLoop (U : Universe) (dbg : Bool) (ts : List TypeId) (a : Archetype) : List (List (List UInt8)) → Store → Res Store
  | [], s => return s
  | d :: data, s => do
    let (s, e) ← s.createEntityWithArchetype dbg a
    let (s, found) ← s.setComponents U dbg e (ts.zip d)
    if !found then
      throw (.panic .unwrapNone)
    populateLoop U dbg ts a data s

/-- `examples/cache_test.rs:115-129` `populate_ecs`. -/
def populateEcs (U : Universe) (dbg : Bool) (ts : List TypeId) (data : List (List (List UInt8))) (s : Store) : Res Store := do
  let (a, _) ← (ArchetypeBuilder.new.includeComponents U ts).build
  populateLoop U dbg ts a data s

/-- `examples/cache_test.rs:43-68` `main`, without `iterate_oop`. Returns the sum of the ids computed by `warmup_ecs` (`:101-112`)
and the values that `iterate_ecs` (`:132-145`) reads. The query object is used twice. -/
def cacheTest (U : Universe) (dbg : Bool) (ts : List TypeId) (data : List (List (List UInt8))) :
    Res (Nat × List (List (List Cell))) := do
  let s ← Store.new dbg
  let s ← populateEcs U dbg ts data s
  let fuel := data.length + 1
  let query ← componentQueryIter U s (.readonly ts) []
  let items ← drain (CompIter.nextWithEntity dbg s) fuel query
  let sum := items.foldl (fun r x => (r + x.1.id) % u32Size) 0
  let items ← runComponentQuery U s (.readonly ts) query.pageViews fuel
  let values ← readItems s items
  return (sum, values)

/-- The loop that fills the store (`examples/query_bench.rs:28-50`) from iteration `i` on; `ts` are the types `TestComponent1` and
`TestComponent2`, and `tag` is `TestTag`. -/
def benchLoop (U : Universe) (dbg : Bool) (ts : List TypeId) (tag : Nat) : Nat → List (List (List UInt8)) → Store → Res Store
  | _, [], s => return s
  | i, d :: data, s => do
    let (s, e) ← s.createEntity dbg
    let s ← s.addComponents U dbg e (ts.zip d)
    if i % 10 ≠ 0 then
      let s ← s.addOrder dbg tag e
      let s ← s.addTag tag e
      benchLoop U dbg ts tag (i + 1) data s
    else
      benchLoop U dbg ts tag (i + 1) data s

/-- `examples/query_bench.rs:25-82` `main`. Returns the values read in the first loop (`:57-63`), which selects by tag, and in the
second one (`:75-77`), which follows the order group. -/
def queryBench (U : Universe) (dbg : Bool) (ts : List TypeId) (tag : Nat) (data : List (List (List UInt8))) :
    Res (List (List (List Cell)) × List (List (List Cell))) := do
  let s ← Store.new dbg
  let s ← benchLoop U dbg ts tag 0 data s
  let fuel := data.length + 1
  let items ← runComponentQueryFilterTag U dbg s (.readonly ts) tag [] fuel
  let tagged ← readItems s (items.map (·.2))
  let items ← runOrderedQueryWithEntities U dbg s tag (.readonly ts) [] fuel
  let ordered ← readItems s (items.map (·.2))
  return (tagged, ordered)

end Ecs
