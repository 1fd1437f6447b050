import Verif.Spec.World

/-! What can be read from a store: equality of two states entity by entity, and agreement with a world. -/

namespace Ecs.Spec

/-- Two states of a store cannot be told apart by reading component data, archetype or liveness of `x`. -/
def SameComponents (U : Universe) (dbg : Bool) (s s' : Store) (x : Entity) : Prop :=
  s'.isAlive dbg x = s.isAlive dbg x ∧
  s'.getEntityArchetype dbg x = s.getEntityArchetype dbg x ∧
  (∀ ts, s'.getComponentsRefs U dbg x ts = s.getComponentsRefs U dbg x ts) ∧
  (∀ ts, s'.getComponents U dbg x ts = s.getComponents U dbg x ts)

/-- Two states of a store cannot be told apart by reading tags and order positions of `x`. -/
def SameTagsAndOrder (s s' : Store) (x : Entity) : Prop :=
  (∀ tag, s'.hasTag tag x = s.hasTag tag x) ∧
  (∀ g, s'.getNextOrdered g x = s.getNextOrdered g x ∧ s'.getPreviousOrdered g x = s.getPreviousOrdered g x)

/-- Two states of a store cannot be told apart by reading liveness, archetype or component values of `x`
(where the components are stored may differ). -/
def SameData (U : Universe) (dbg : Bool) (s s' : Store) (x : Entity) : Prop :=
  s'.isAlive dbg x = s.isAlive dbg x ∧
  s'.getEntityArchetype dbg x = s.getEntityArchetype dbg x ∧
  (∀ ts, ts ≠ [] → s'.getComponents U dbg x ts = s.getComponents U dbg x ts)

/-- Two states of a store cannot be told apart by reading tags of the entities `L` or order groups. -/
def SameGroups (s s' : Store) (L : List Entity) : Prop :=
  (∀ x ∈ L, SameTagsAndOrder s s' x) ∧
  (∀ g, s'.getFirstOrdered g = s.getFirstOrdered g ∧ s'.getLastOrdered g = s.getLastOrdered g)

/-- Everything that can be read from the store without a query is what the world says. -/
structure Agrees (U : Universe) (dbg : Bool) (s : Store) (w : World) : Prop where
  /-- `is_alive` -/
  alive : ∀ e ∈ w.issued, s.isAlive dbg e = .ok (decide (e ∈ w.live))
  /-- `get_components_refs` and reading: all the components, or nothing if one is missing -/
  read : ∀ e ∈ w.issued, ∀ ts, ts ≠ [] → s.getComponents U dbg e ts = .ok (ts.mapM (w.get e))
  /-- `get_entity_archetype`: nothing, or an archetype with the entity's type set -/
  arch : ∀ e ∈ w.issued,
    if e ∈ w.live ∧ w.types e ≠ [] then
      ∃ a, s.getEntityArchetype dbg e = .ok (some a) ∧ ∀ t, t ∈ a.ids ↔ t ∈ w.types e
    else s.getEntityArchetype dbg e = .ok none
  /-- `has_tag` -/
  tag : ∀ e ∈ w.live, ∀ tag, s.hasTag tag e = .ok (w.tags tag e)
  /-- the four observers of order groups -/
  first : ∀ g, s.getFirstOrdered g = .ok (w.order g).head?
  last : ∀ g, s.getLastOrdered g = .ok (w.order g).getLast?
  next : ∀ e ∈ w.live, ∀ g, s.getNextOrdered g e = .ok (follower (w.order g) e)
  previous : ∀ e ∈ w.live, ∀ g, s.getPreviousOrdered g e = .ok (preceder (w.order g) e)

/-- Is the handle in the event chosen by the store? -/
def isCreation : Event → Bool
  | .created _ => true
  | .createdWith _ _ _ => true
  | _ => false

end Ecs.Spec
