import Verif.Spec.Alone

/-! Vocabulary for C115: programs without their calls about components. -/

namespace Ecs.Spec

/-- The call without components: creating with an archetype becomes creating, and calls about components are left out. -/
def bareCall : Event → Option Event
  | .createdWith e _ _ => some (.created e)
  | .added _ _ | .removed _ _ | .assigned _ _ => none
  | ev => some ev

/-- The program without components. -/
def componentless (h : List Event) : List Event := h.filterMap bareCall

/-- Everything a program can find out about entities, tags and order groups other than by queries for components is the same in
both stores. -/
structure SameWithoutComponents (dbg : Bool) (s s' : Store) : Prop where
  capacity : s'.entitiesCapacity = s.entitiesCapacity
  alive : ∀ e, s'.isAlive dbg e = s.isAlive dbg e
  has : ∀ tag e, s'.hasTag tag e = s.hasTag tag e
  next : ∀ g e, s'.getNextOrdered g e = s.getNextOrdered g e
  previous : ∀ g e, s'.getPreviousOrdered g e = s.getPreviousOrdered g e
  first : ∀ g, s'.getFirstOrdered g = s.getFirstOrdered g
  last : ∀ g, s'.getLastOrdered g = s.getLastOrdered g

/-- The call creates an entity without components or is about a tag or group. -/
def needsNoComponents : Call → Bool
  | .create | .tag _ _ | .untag _ _ | .orderLast _ _ | .orderAfter _ _ _ | .orderBefore _ _ _ | .unorder _ _ => true
  | _ => false

end Ecs.Spec
