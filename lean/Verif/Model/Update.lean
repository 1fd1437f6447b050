import Verif.Model.Query

/-! Loops that write through the references a query returns, such as
`for (e, (reads, writes)) in store.component_query_iter(&mut q).with_entities() { *writes = f(e, reads, writes) }`
(`src/query/access.rs:8-19, 51-207`). The iterator and the
assignments take turns, so each call of `next` sees the bytes written so far. -/

namespace Ecs

namespace Access

/-- The types to which the access gives shared references (`src/query/access.rs:8-19`). -/
def reads : Access → List TypeId
  | readonly r => r
  | write _ => []
  | readWrite r _ => r

/-- The types to which the access gives mutable references (`src/query/access.rs:8-19`). -/
def writes : Access → List TypeId
  | readonly _ => []
  | write w => w
  | readWrite _ w => w

end Access

/-- One turn of the loop: read all the references of an item, of which the first `reads` are shared, compute
new values, and assign them through the mutable ones. -/
def updateItem (reads : Nat) (f : List (List Cell) → List (List UInt8)) (s : Store) (refs : List Ref) :
    Res Store := do
  let vs ← refs.mapM (readRef s.archs.pages)
  let pages ← assignToRefs (refs.drop reads) (f vs) s.archs.pages
  return { s with archs := { s.archs with pages := pages } }

/-- The loop, for any iterator `next`. -/
def updateLoop {σ α : Type} (next : Store → σ → Res (Option α × σ)) (refs : α → List Ref) (reads : Nat)
    (f : α → List (List Cell) → List (List UInt8)) : (fuel : Nat) → σ → Store → Res Store
  | 0, _, _ => .error .outOfFuel
  | fuel + 1, it, s => do
    match ← next s it with
    | (none, _) => return s
    | (some a, it) =>
      let s ← updateItem reads (f a) s (refs a)
      updateLoop next refs reads f fuel it s

/-- The loop over `store.component_query_iter(&mut q).with_entities()`
(`src/query/component.rs:62-117, 162-173`). -/
def updateComponents (U : Universe) (dbg : Bool) (s : Store) (acc : Access) (old : List IterView)
    (f : Entity → List (List Cell) → List (List UInt8)) (fuel : Nat) : Res Store := do
  let it ← componentQueryIter U s acc old
  updateLoop (CompIter.nextWithEntity dbg) Prod.snd acc.reads.length (fun x => f x.1) fuel it s

/-- The loop over `store.entity_component_query_iter(&entities, &mut q).with_entities()`
(`src/query/entity_component.rs:59-121, 170-183`). -/
def updateEntities (U : Universe) (dbg : Bool) (s : Store) (entities : List Entity) (acc : Access)
    (old : List (Range × IterView)) (f : Entity → List (List Cell) → List (List UInt8)) (fuel : Nat) : Res Store := do
  let it ← entityQueryIter U dbg s entities acc old
  updateLoop (EntIter.nextWithEntity dbg) Prod.snd acc.reads.length (fun x => f x.1) fuel it s

/-- The loop over `store.ordered_query_iter(&mut q)`, without entities
(`src/query/ordered_component.rs:66-169, 175-195`). -/
def updateOrdered (U : Universe) (dbg : Bool) (s : Store) (group : Nat) (acc : Access)
    (old : List (Range × IterView)) (f : List (List Cell) → List (List UInt8)) (fuel : Nat) : Res Store := do
  let it ← orderedQueryIter U s group acc old fuel
  updateLoop (fun _ => OrdIter.next dbg) id acc.reads.length (fun _ => f) fuel it s

end Ecs
