import Verif.Spec.Opaque
import Mathlib.Order.Monotone.Basic

/-! What it means that a program is run with other `TypeId`s: the compiler chooses them, and only promises that they are
different for different types. -/

namespace Ecs

/-- An archetype of the same component types under their other ids. -/
def Archetype.rename (ρ : TypeId → TypeId) (a : Archetype) : Archetype := { a with ids := a.ids.map ρ }

/-- An access to the same component types. -/
def Access.rename (ρ : TypeId → TypeId) : Access → Access
  | .readonly r => .readonly (r.map ρ)
  | .write w => .write (w.map ρ)
  | .readWrite r w => .readWrite (r.map ρ) (w.map ρ)

namespace Spec

/-- `U'` has the types of `U` under other ids: the type `t` of `U` is called `ρ t` in `U'`. -/
structure Transported (ρ : TypeId → TypeId) (U U' : Universe) : Prop where
  size : ∀ t, U'.size (ρ t) = U.size t
  align : ∀ t, U'.align (ρ t) = U.align t

/-- Component values of the same types. -/
def renameTuple (ρ : TypeId → TypeId) (v : TupleVal) : TupleVal := v.map fun p => (ρ p.1, p.2)

/-- The same call, all component, tag and group types under their other ids. (The initial values in `createdWith` are not
an argument of the call; `Returns` does not look at them.) -/
def rename (ρ : TypeId → TypeId) : Event → Event
  | .created e => .created e
  | .createdWith e ts init => .createdWith e (ts.map ρ) init
  | .destroyed e => .destroyed e
  | .added e v => .added e (renameTuple ρ v)
  | .removed e ts => .removed e (ts.map ρ)
  | .assigned e v => .assigned e (renameTuple ρ v)
  | .tagged t e => .tagged (ρ t) e
  | .untagged t e => .untagged (ρ t) e
  | .orderedLast g e => .orderedLast (ρ g) e
  | .orderedAfter g e x => .orderedAfter (ρ g) e x
  | .orderedBefore g e x => .orderedBefore (ρ g) e x
  | .unordered g e => .unordered (ρ g) e

/-- The same call, as a call that need not return. -/
def renameCall (ρ : TypeId → TypeId) : Call → Call
  | .create => .create
  | .createWith a => .createWith (a.rename ρ)
  | .destroy e => .destroy e
  | .add e v => .add e (renameTuple ρ v)
  | .remove e ts => .remove e (ts.map ρ)
  | .assign e v => .assign e (renameTuple ρ v)
  | .tag t e => .tag (ρ t) e
  | .untag t e => .untag (ρ t) e
  | .orderLast g e => .orderLast (ρ g) e
  | .orderAfter g e x => .orderAfter (ρ g) e x
  | .orderBefore g e x => .orderBefore (ρ g) e x
  | .unorder g e => .unorder (ρ g) e

/-- Everything a program can find out is the same in both stores, up to the names of types. -/
structure SeesRenamed (ρ : TypeId → TypeId) (U U' : Universe) (dbg : Bool) (s s' : Store) : Prop where
  capacity : s'.entitiesCapacity = s.entitiesCapacity
  alive : ∀ e, s'.isAlive dbg e = s.isAlive dbg e
  archetype : ∀ e, s'.getEntityArchetype dbg e = (s.getEntityArchetype dbg e).map (Option.map (Archetype.rename ρ))
  refs : ∀ e ts, s'.getComponentsRefs U' dbg e (ts.map ρ) = s.getComponentsRefs U dbg e ts
  values : ∀ e ts, s'.getComponents U' dbg e (ts.map ρ) = s.getComponents U dbg e ts
  query : ∀ acc old fuel, runComponentQuery U' s' (acc.rename ρ) old fuel = runComponentQuery U s acc old fuel
  queryWithEntities : ∀ acc old fuel,
    runComponentQueryWithEntities U' dbg s' (acc.rename ρ) old fuel = runComponentQueryWithEntities U dbg s acc old fuel
  entities : ∀ es acc old fuel,
    runEntityQuery U' dbg s' es (acc.rename ρ) old fuel = runEntityQuery U dbg s es acc old fuel
  entitiesWithEntities : ∀ es acc old fuel,
    runEntityQueryWithEntities U' dbg s' es (acc.rename ρ) old fuel = runEntityQueryWithEntities U dbg s es acc old fuel
  hasTag : ∀ tag e, s'.hasTag (ρ tag) e = s.hasTag tag e
  filterTag : ∀ acc tag old fuel, runComponentQueryFilterTag U' dbg s' (acc.rename ρ) (ρ tag) old fuel =
    runComponentQueryFilterTag U dbg s acc tag old fuel
  next : ∀ g e, s'.getNextOrdered (ρ g) e = s.getNextOrdered g e
  previous : ∀ g e, s'.getPreviousOrdered (ρ g) e = s.getPreviousOrdered g e
  first : ∀ g, s'.getFirstOrdered (ρ g) = s.getFirstOrdered g
  last : ∀ g, s'.getLastOrdered (ρ g) = s.getLastOrdered g
  ordered : ∀ g acc old fuel,
    runOrderedQuery U' dbg s' (ρ g) (acc.rename ρ) old fuel = runOrderedQuery U dbg s g acc old fuel
  orderedWithEntities : ∀ g acc old fuel, runOrderedQueryWithEntities U' dbg s' (ρ g) (acc.rename ρ) old fuel =
    runOrderedQueryWithEntities U dbg s g acc old fuel

end Spec
end Ecs
