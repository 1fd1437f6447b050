import Verif.Spec.World
import Verif.Spec.Tags
import Verif.Model.Query

/-! What it means that the initial capacity of a store is only a hint. -/

namespace Ecs.Spec

/-- Component calls only get handles that were returned before, dead or alive. (Tag, order and destroy calls of a `LooseExec`
get live entities anyway.) -/
def ownHandles : List Event → Prop
  | [] => True
  | .added e _ :: h | .removed e _ :: h | .assigned e _ :: h => e ∈ handles h ∧ ownHandles h
  | _ :: h => ownHandles h

/-- The same outcome, unless uninitialised memory is read in one of the two cases. -/
def SameUnlessUninit {α : Type} (r r' : Res α) : Prop :=
  r = r' ∨ r = .error (.ub .uninit) ∨ r' = .error (.ub .uninit)

/-- A program that knows the handles `H` cannot tell the two stores apart, except by the capacity. -/
structure SameFor (U : Universe) (dbg : Bool) (H : List Entity) (s s' : Store) : Prop where
  alive : ∀ e ∈ H, s.isAlive dbg e = s'.isAlive dbg e
  archetype : ∀ e ∈ H, s.getEntityArchetype dbg e = s'.getEntityArchetype dbg e
  refs : ∀ e ∈ H, ∀ ts, s.getComponentsRefs U dbg e ts = s'.getComponentsRefs U dbg e ts
  values : ∀ e ∈ H, ∀ ts, s.getComponents U dbg e ts = s'.getComponents U dbg e ts
  tags : ∀ e ∈ H, ∀ tag, s.hasTag tag e = s'.hasTag tag e
  next : ∀ e ∈ H, ∀ g, s.getNextOrdered g e = s'.getNextOrdered g e
  previous : ∀ e ∈ H, ∀ g, s.getPreviousOrdered g e = s'.getPreviousOrdered g e
  first : ∀ g, s.getFirstOrdered g = s'.getFirstOrdered g
  last : ∀ g, s.getLastOrdered g = s'.getLastOrdered g
  query : ∀ acc old fuel, runComponentQuery U s acc old fuel = runComponentQuery U s' acc old fuel
  queryWithEntities : ∀ acc old fuel,
    runComponentQueryWithEntities U dbg s acc old fuel = runComponentQueryWithEntities U dbg s' acc old fuel
  queryFilterTag : ∀ acc tag old fuel,
    runComponentQueryFilterTag U dbg s acc tag old fuel = runComponentQueryFilterTag U dbg s' acc tag old fuel
  entities : ∀ es, (∀ e ∈ es, e ∈ H) → ∀ acc old fuel,
    SameUnlessUninit (runEntityQuery U dbg s es acc old fuel) (runEntityQuery U dbg s' es acc old fuel)
  entitiesWithEntities : ∀ es, (∀ e ∈ es, e ∈ H) → ∀ acc old fuel,
    SameUnlessUninit (runEntityQueryWithEntities U dbg s es acc old fuel) (runEntityQueryWithEntities U dbg s' es acc old fuel)
  ordered : ∀ g acc old fuel,
    SameUnlessUninit (runOrderedQuery U dbg s g acc old fuel) (runOrderedQuery U dbg s' g acc old fuel)
  orderedWithEntities : ∀ g acc old fuel,
    SameUnlessUninit (runOrderedQueryWithEntities U dbg s g acc old fuel) (runOrderedQueryWithEntities U dbg s' g acc old fuel)

end Ecs.Spec
