import Verif.Spec.World
import Verif.Model.Query
import Verif.Spec.Tags

/-! What it means that tags and order groups do not influence the rest of a store. -/

namespace Ecs.Spec

/-- Executions of any calls with any arguments that all returned. Nothing is asked of the arguments. -/
inductive Runs (U : Universe) (dbg : Bool) (cap : Nat) : List Event → Store → Prop
  | init {s} : Store.withCapacity dbg cap = .ok s → Runs U dbg cap [] s
  | step {h s s'} (ev : Event) : Runs U dbg cap h s → Returns U dbg s ev s' → Runs U dbg cap (ev :: h) s'

/-- The call is about tags. -/
def aboutTags : Event → Bool
  | .tagged _ _ | .untagged _ _ => true
  | _ => false

/-- The call is about order groups. -/
def aboutOrders : Event → Bool
  | .orderedLast _ _ | .orderedAfter _ _ _ | .orderedBefore _ _ _ | .unordered _ _ => true
  | _ => false

/-- A history without the calls about tags (unless `tags`) and about order groups (unless `orders`). -/
def without (tags orders : Bool) (h : List Event) : List Event :=
  h.filter fun ev => (tags || !aboutTags ev) && (orders || !aboutOrders ev)

/-- The same call with the same arguments; what the two calls returned may differ. -/
def SameCall : Event → Event → Prop
  | .created _, .created _ => True
  | .createdWith _ ts _, .createdWith _ ts' _ => ts = ts'
  | ev, ev' => ev = ev'

/-- Everything a program can find out about entities and components is the same in both stores: each call without effect on
the store has the same outcome, be it a value or a panic, with all arguments. -/
structure SeesSame (U : Universe) (dbg : Bool) (s s' : Store) : Prop where
  capacity : s.entitiesCapacity = s'.entitiesCapacity
  alive : ∀ e, s.isAlive dbg e = s'.isAlive dbg e
  archetype : ∀ e, s.getEntityArchetype dbg e = s'.getEntityArchetype dbg e
  refs : ∀ e ts, s.getComponentsRefs U dbg e ts = s'.getComponentsRefs U dbg e ts
  values : ∀ e ts, s.getComponents U dbg e ts = s'.getComponents U dbg e ts
  query : ∀ acc old fuel, runComponentQuery U s acc old fuel = runComponentQuery U s' acc old fuel
  queryWithEntities : ∀ acc old fuel,
    runComponentQueryWithEntities U dbg s acc old fuel = runComponentQueryWithEntities U dbg s' acc old fuel
  entities : ∀ es acc old fuel, runEntityQuery U dbg s es acc old fuel = runEntityQuery U dbg s' es acc old fuel
  entitiesWithEntities : ∀ es acc old fuel,
    runEntityQueryWithEntities U dbg s es acc old fuel = runEntityQueryWithEntities U dbg s' es acc old fuel

/-- Everything a program can find out about tags is the same in both stores. -/
structure SameTags (U : Universe) (dbg : Bool) (s s' : Store) : Prop where
  has : ∀ tag e, s.hasTag tag e = s'.hasTag tag e
  query : ∀ acc tag old fuel,
    runComponentQueryFilterTag U dbg s acc tag old fuel = runComponentQueryFilterTag U dbg s' acc tag old fuel

/-- Everything a program can find out about order groups is the same in both stores. -/
structure SameOrders (U : Universe) (dbg : Bool) (s s' : Store) : Prop where
  next : ∀ g e, s.getNextOrdered g e = s'.getNextOrdered g e
  previous : ∀ g e, s.getPreviousOrdered g e = s'.getPreviousOrdered g e
  first : ∀ g, s.getFirstOrdered g = s'.getFirstOrdered g
  last : ∀ g, s.getLastOrdered g = s'.getLastOrdered g
  query : ∀ g acc old fuel, runOrderedQuery U dbg s g acc old fuel = runOrderedQuery U dbg s' g acc old fuel
  queryWithEntities : ∀ g acc old fuel,
    runOrderedQueryWithEntities U dbg s g acc old fuel = runOrderedQueryWithEntities U dbg s' g acc old fuel

end Ecs.Spec
