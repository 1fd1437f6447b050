import Verif.Model.AnyStd
import Verif.Spec.Archetype
import Verif.Spec.BuilderMemory

/-! What the documentation of the standard library promises about searching and sorting, and sequences of calls on the containers
that search. -/

namespace Ecs.Spec

/-- `slice::binary_search`: on a sorted slice, `Ok(i)` is the index of some element equal to `x`, and `Err(i)` is where `x` could be
inserted; nothing is promised on other slices. -/
def SearchContract (bs : List Nat → Nat → Search) : Prop := ∀ l x, l.Pairwise (· ≤ ·) →
  match bs l x with
  | .found i => l[i]? = some x
  | .notFound i => i ≤ l.length ∧ (∀ y ∈ l.take i, y < x) ∧ ∀ y ∈ l.drop i, x < y

/-- `slice::sort_by_key`: the same elements, sorted. (It is also stable, which is not needed.) -/
def SortContract (sort : List ComponentType → List ComponentType) : Prop :=
  ∀ l, (sort l).Perm l ∧ (sort l).Pairwise (fun c d => c.id ≤ d.id)

/-- Calls that change a `TagContainer`. -/
inductive TagOp where
  | add (tag id : Nat)
  | remove (tag id : Nat)
  | removeAll (id : Nat)
  | grow (cap : Nat)

/-- The effect of one call. -/
def TagOp.run (c : Tags) : TagOp → Res Tags
  | .add tag id => c.addTag tag id
  | .remove tag id => c.removeTag tag id
  | .removeAll id => c.removeAllTagsForEntity id
  | .grow cap => c.grow cap

/-- The effect of one call with a given search. -/
def TagOp.runBy (bs : List Nat → Nat → Search) (c : Tags) : TagOp → Res Tags
  | .add tag id => c.addTagBy bs tag id
  | .remove tag id => c.removeTagBy bs tag id
  | .removeAll id => c.removeAllTagsForEntity id
  | .grow cap => c.grow cap

/-- Calls that change an `OrderGroupContainer`. -/
inductive OrderOp where
  | add (group id : Nat)
  | addNextTo (group id nextTo : Nat)
  | addPreviousTo (group id previousTo : Nat)
  | remove (group id : Nat)
  | removeAll (id : Nat)
  | grow (cap : Nat)

/-- The effect of one call. -/
def OrderOp.run (dbg : Bool) (c : Orders) : OrderOp → Res Orders
  | .add g id => c.add dbg g id
  | .addNextTo g id x => c.addNextTo dbg g id x
  | .addPreviousTo g id x => c.addPreviousTo dbg g id x
  | .remove g id => c.remove g id
  | .removeAll id => c.removeAll id
  | .grow cap => c.grow dbg cap

/-- The effect of one call with a given search. -/
def OrderOp.runBy (bs : List Nat → Nat → Search) (dbg : Bool) (c : Orders) : OrderOp → Res Orders
  | .add g id => c.addBy bs dbg g id
  | .addNextTo g id x => c.addNextToBy bs dbg g id x
  | .addPreviousTo g id x => c.addPreviousToBy bs dbg g id x
  | .remove g id => c.removeBy bs g id
  | .removeAll id => c.removeAll id
  | .grow cap => c.grow dbg cap

/-- The effect of a call on a builder with a given sort. -/
def BuilderOp.runBy (sort : List ComponentType → List ComponentType) (U : Universe) (b : ArchetypeBuilder) :
    BuilderOp → Res ArchetypeBuilder
  | .includeTypes ts => .ok (b.includeComponents U ts)
  | .excludeTypes ts => .ok (b.excludeComponents U ts)
  | .includeArchetype a => .ok (b.includeArchetype a)
  | .build => do let (_, b') ← b.buildBy sort; return b'

/-- Rows put into a new page of the given layout, in a debug build. -/
def fillPage (policy : Nat → Nat → Nat) (l : Layout) (ids : List Nat) : Res Page :=
  ids.foldlM (fun p id => do let (p', _) ← p.addEntityIdBy policy true id; return p') (Page.new.setLayoutBy policy l)

end Ecs.Spec
