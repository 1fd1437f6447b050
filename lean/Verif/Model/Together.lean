import Verif.Model.Update

/-! Several loops over one store at the same time. All three query functions borrow the store with `&self`
(`src/query/component.rs:62-65`, `src/query/entity_component.rs:59-63`, `src/query/ordered_component.rs:66-69`), also
for write access, so a program may hold several iterators, and advance them in any order. -/

namespace Ecs

/-- A query, with the arguments it is given: without and with entities (`with_entities()`), and for component queries also with a tag
(`with_entities().filter_tag::<T>()`). The query objects are new. -/
inductive Query where
  | component (acc : Access)
  | componentWith (acc : Access)
  | tagged (tag : Nat) (acc : Access)
  | entities (L : List Entity) (acc : Access)
  | entitiesWith (L : List Entity) (acc : Access)
  | ordered (group : Nat) (acc : Access)
  | orderedWith (group : Nat) (acc : Access)

/-- An item: its entity, for iterators with entities, and the references. -/
structure Item where
  entity : Option Entity
  refs : List Ref
deriving DecidableEq, Repr

namespace Query

def access : Query → Access
  | component acc => acc
  | componentWith acc => acc
  | tagged _ acc => acc
  | entities _ acc => acc
  | entitiesWith _ acc => acc
  | ordered _ acc => acc
  | orderedWith _ acc => acc

/-- All items of an iteration. -/
def run (U : Universe) (dbg : Bool) (s : Store) (fuel : Nat) : Query → Res (List Item)
  | component acc => (runComponentQuery U s acc [] fuel).map (·.map (Item.mk none))
  | componentWith acc => (runComponentQueryWithEntities U dbg s acc [] fuel).map (·.map fun x => ⟨some x.1, x.2⟩)
  | tagged t acc => (runComponentQueryFilterTag U dbg s acc t [] fuel).map (·.map fun x => ⟨some x.1, x.2⟩)
  | entities L acc => (runEntityQuery U dbg s L acc [] fuel).map (·.map (Item.mk none))
  | entitiesWith L acc => (runEntityQueryWithEntities U dbg s L acc [] fuel).map (·.map fun x => ⟨some x.1, x.2⟩)
  | ordered g acc => (runOrderedQuery U dbg s g acc [] fuel).map (·.map (Item.mk none))
  | orderedWith g acc => (runOrderedQueryWithEntities U dbg s g acc [] fuel).map (·.map fun x => ⟨some x.1, x.2⟩)

end Query

/-- An iterator of one of the kinds. That of a filter holds the bits of the tag, and here a bound for its recursion. -/
inductive Iter where
  | component (it : CompIter)
  | componentWith (it : CompIter)
  | tagged (bits : Words) (fuel : Nat) (it : CompIter)
  | entities (it : EntIter)
  | entitiesWith (it : EntIter)
  | ordered (it : OrdIter)
  | orderedWith (it : OrdIter)

/-- `next` of all kinds. -/
def Iter.next (dbg : Bool) (s : Store) : Iter → Res (Option Item × Iter)
  | component it => do
    let (r, it) ← it.next
    return (r.map (Item.mk none), .component it)
  | componentWith it => do
    let (r, it) ← it.nextWithEntity dbg s
    return (r.map fun x => ⟨some x.1, x.2⟩, .componentWith it)
  | tagged bits fuel it => do
    let (r, it) ← it.nextFiltered dbg s bits fuel
    return (r.map fun x => ⟨some x.1, x.2⟩, .tagged bits fuel it)
  | entities it => do
    let (r, it) ← it.next dbg s
    return (r.map (Item.mk none), .entities it)
  | entitiesWith it => do
    let (r, it) ← it.nextWithEntity dbg s
    return (r.map fun x => ⟨some x.1, x.2⟩, .entitiesWith it)
  | ordered it => do
    let (r, it) ← it.next dbg
    return (r.map (Item.mk none), .ordered it)
  | orderedWith it => do
    let (r, it) ← it.nextWithEntity dbg s
    return (r.map fun x => ⟨some x.1, x.2⟩, .orderedWith it)

/-- The calls that return the iterator. -/
def Query.start (U : Universe) (dbg : Bool) (s : Store) (fuel : Nat) : Query → Res Iter
  | .component acc => do
    let it ← componentQueryIter U s acc []
    return .component it
  | .componentWith acc => do
    let it ← componentQueryIter U s acc []
    return .componentWith it
  | .tagged t acc => do
    let it ← componentQueryIter U s acc []
    let bits ← s.tags.hasTagBitvec t
    return .tagged bits fuel it
  | .entities L acc => do
    let it ← entityQueryIter U dbg s L acc []
    return .entities it
  | .entitiesWith L acc => do
    let it ← entityQueryIter U dbg s L acc []
    return .entitiesWith it
  | .ordered g acc => do
    let it ← orderedQueryIter U s g acc [] fuel
    return .ordered it
  | .orderedWith g acc => do
    let it ← orderedQueryIter U s g acc [] fuel
    return .orderedWith it

/-- Where a loop `for item in query { body }` is. -/
inductive Phase where
  | waiting
  | running (it : Iter)
  | ended

/-- A loop, and its variables. -/
structure Loop (τ : Type) where
  phase : Phase
  vars : τ

/-- The body of a loop: it is given the entity of an item, for iterators with entities, the values of all its components, and its own
variables, and returns new values for the components it may write. -/
abbrev Body (τ : Type) := Option Entity → List (List Cell) → τ → List (List UInt8) × τ

/-- One turn of a loop: the first asks for the iterator, each further one calls `next` and runs the body; nothing happens
once `next` has returned `None`. The first references of an item, for the components that are read, are shared. -/
def turn {τ : Type} (U : Universe) (dbg : Bool) (fuel : Nat) (query : Query) (body : Body τ) (s : Store) (l : Loop τ) :
    Res (Store × Loop τ) :=
  match l.phase with
  | .waiting => do
    let it ← query.start U dbg s fuel
    return (s, { l with phase := .running it })
  | .running it => do
    match ← it.next dbg s with
    | (none, _) => return (s, { l with phase := .ended })
    | (some item, it) =>
      let vs ← item.refs.mapM (readRef s.archs.pages)
      let (values, vars) := body item.entity vs l.vars
      let pages ← assignToRefs (item.refs.drop query.access.reads.length) values s.archs.pages
      return ({ s with archs := { s.archs with pages := pages } }, { phase := .running it, vars := vars })
  | .ended => .ok (s, l)

/-- Loops with names in `ι`, which take turns as given by `turns`. -/
def together {ι τ : Type} [DecidableEq ι] (U : Universe) (dbg : Bool) (fuel : Nat) (query : ι → Query) (body : ι → Body τ) :
    (turns : List ι) → Store → (ι → Loop τ) → Res (Store × (ι → Loop τ))
  | [], s, l => .ok (s, l)
  | i :: turns, s, l => do
    let (s, r) ← turn U dbg fuel (query i) (body i) s (l i)
    together U dbg fuel query body turns s fun j => if j = i then r else l j

end Ecs
