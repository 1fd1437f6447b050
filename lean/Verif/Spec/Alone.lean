import Verif.Spec.Names

/-! Vocabulary for C114: programs from which the calls about some of the tags and some of the order groups are left out. -/

namespace Ecs.Spec

/-- The call is not about a tag or an order group outside the sets `kt` and `kg`. -/
def concernsOnly (kt kg : Nat → Bool) : Event → Bool
  | .tagged t _ | .untagged t _ => kt t
  | .orderedLast g _ | .orderedAfter g _ _ | .orderedBefore g _ _ | .unordered g _ => kg g
  | _ => true

/-- A history without the calls about other tags than those of `kt` and other groups than those of `kg`. -/
def only (kt kg : Nat → Bool) (h : List Event) : List Event := h.filter (concernsOnly kt kg)

/-- Everything a program can find out about the tag is the same in both stores. -/
structure SameOneTag (tag : Nat) (U : Universe) (dbg : Bool) (s s' : Store) : Prop where
  has : ∀ e, s'.hasTag tag e = s.hasTag tag e
  query : ∀ acc old fuel,
    runComponentQueryFilterTag U dbg s' acc tag old fuel = runComponentQueryFilterTag U dbg s acc tag old fuel

/-- Everything a program can find out about the group is the same in both stores. -/
structure SameOneGroup (g : Nat) (U : Universe) (dbg : Bool) (s s' : Store) : Prop where
  next : ∀ e, s'.getNextOrdered g e = s.getNextOrdered g e
  previous : ∀ e, s'.getPreviousOrdered g e = s.getPreviousOrdered g e
  first : s'.getFirstOrdered g = s.getFirstOrdered g
  last : s'.getLastOrdered g = s.getLastOrdered g
  query : ∀ acc old fuel, runOrderedQuery U dbg s' g acc old fuel = runOrderedQuery U dbg s g acc old fuel
  queryWithEntities : ∀ acc old fuel,
    runOrderedQueryWithEntities U dbg s' g acc old fuel = runOrderedQueryWithEntities U dbg s g acc old fuel

/-- The call neither creates nor destroys an entity, nor is it about a tag or group outside the sets. -/
def stays (kt kg : Nat → Bool) : Call → Bool
  | .create | .createWith _ | .destroy _ => false
  | .tag t _ | .untag t _ => kt t
  | .orderLast g _ | .orderAfter g _ _ | .orderBefore g _ _ | .unorder g _ => kg g
  | _ => true

end Ecs.Spec
