import Verif.Spec.Independent
import Verif.Spec.Unwind

/-! What it means that a program uses other types for its tags and order groups. -/

namespace Ecs.Spec

/-- The same call, with the tags under the names `τ` and the groups under the names `γ`. -/
def rebrand (τ γ : Nat → Nat) : Event → Event
  | .tagged t e => .tagged (τ t) e
  | .untagged t e => .untagged (τ t) e
  | .orderedLast g e => .orderedLast (γ g) e
  | .orderedAfter g e x => .orderedAfter (γ g) e x
  | .orderedBefore g e x => .orderedBefore (γ g) e x
  | .unordered g e => .unordered (γ g) e
  | ev => ev

/-- The same call, as a call that need not return. -/
def rebrandCall (τ γ : Nat → Nat) : Call → Call
  | .tag t e => .tag (τ t) e
  | .untag t e => .untag (τ t) e
  | .orderLast g e => .orderLast (γ g) e
  | .orderAfter g e x => .orderAfter (γ g) e x
  | .orderBefore g e x => .orderBefore (γ g) e x
  | .unorder g e => .unorder (γ g) e
  | c => c

/-- What a program can find out about the tag `t` of `s` is what it can find out about the tag `τ t` of `s'`; and `s'` has no
other tags. -/
structure TagsNamed (τ : Nat → Nat) (U : Universe) (dbg : Bool) (s s' : Store) : Prop where
  has : ∀ tag e, s'.hasTag (τ tag) e = s.hasTag tag e
  query : ∀ acc tag old fuel,
    runComponentQueryFilterTag U dbg s' acc (τ tag) old fuel = runComponentQueryFilterTag U dbg s acc tag old fuel
  other : ∀ tag e, (∀ t, τ t ≠ tag) → s'.hasTag tag e = .ok false

/-- What a program can find out about the group `g` of `s` is what it can find out about the group `γ g` of `s'`; and `s'` has
no other groups. -/
structure OrdersNamed (γ : Nat → Nat) (U : Universe) (dbg : Bool) (s s' : Store) : Prop where
  next : ∀ g e, s'.getNextOrdered (γ g) e = s.getNextOrdered g e
  previous : ∀ g e, s'.getPreviousOrdered (γ g) e = s.getPreviousOrdered g e
  first : ∀ g, s'.getFirstOrdered (γ g) = s.getFirstOrdered g
  last : ∀ g, s'.getLastOrdered (γ g) = s.getLastOrdered g
  query : ∀ g acc old fuel, runOrderedQuery U dbg s' (γ g) acc old fuel = runOrderedQuery U dbg s g acc old fuel
  queryWithEntities : ∀ g acc old fuel,
    runOrderedQueryWithEntities U dbg s' (γ g) acc old fuel = runOrderedQueryWithEntities U dbg s g acc old fuel
  other : ∀ group, (∀ g, γ g ≠ group) → s'.getFirstOrdered group = .ok none

end Ecs.Spec
