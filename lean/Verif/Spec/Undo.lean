import Verif.Spec.Independent
import Verif.Spec.HeapAsks

/-! Which part of the past a store remembers about tags and order groups. -/

namespace Ecs.Spec

/-- Some entity was given tag `tag`. -/
def tagNamed (h : List Event) (tag : Nat) : Prop := ∃ e, .tagged tag e ∈ h

/-- The same tags on the live entities, the same sequences of the groups, and the same tags and groups ever used. -/
structure SameMarks (h h' : List Event) : Prop where
  tags : ∀ tag, ∀ e ∈ alive h, lastTag tag e h = lastTag tag e h'
  sequences : ∀ g, sequence g h = sequence g h'
  tagNames : ∀ tag, tagNamed h tag ↔ tagNamed h' tag
  groupNames : ∀ g, groupNamed h g ↔ groupNamed h' g

/-- The two histories have the same calls, apart from those about tags and groups, in the same order. -/
def SameRest (h h' : List Event) : Prop := List.Forall₂ SameCall (without false false h) (without false false h')

/-- Both calls are about the same tag of the same entity, or about the same group. -/
def SameSubject : Event → Event → Prop
  | .tagged t e, .tagged t' e' | .tagged t e, .untagged t' e' | .untagged t e, .tagged t' e' | .untagged t e, .untagged t' e' =>
    t = t' ∧ e = e'
  | a, b => ∃ g, aboutGroup g a ∧ aboutGroup g b
where
  /-- The call is about group `g`. -/
  aboutGroup (g : Nat) : Event → Prop
    | .orderedLast g' _ | .orderedAfter g' _ _ | .orderedBefore g' _ _ | .unordered g' _ => g' = g
    | _ => False

/-- The call is about tags or about groups. -/
def aboutMarks (a : Event) : Bool := aboutTags a || aboutOrders a

/-- Everything a program can find out about tag `tag` is the same in both stores. -/
structure SameTag (U : Universe) (dbg : Bool) (s s' : Store) (tag : Nat) : Prop where
  has : ∀ e, s.hasTag tag e = s'.hasTag tag e
  query : ∀ acc old fuel,
    runComponentQueryFilterTag U dbg s acc tag old fuel = runComponentQueryFilterTag U dbg s' acc tag old fuel

/-- Everything a program can find out about group `g` is the same in both stores. -/
structure SameOrder (U : Universe) (dbg : Bool) (s s' : Store) (g : Nat) : Prop where
  next : ∀ e, s.getNextOrdered g e = s'.getNextOrdered g e
  previous : ∀ e, s.getPreviousOrdered g e = s'.getPreviousOrdered g e
  first : s.getFirstOrdered g = s'.getFirstOrdered g
  last : s.getLastOrdered g = s'.getLastOrdered g
  query : ∀ acc old fuel, runOrderedQuery U dbg s g acc old fuel = runOrderedQuery U dbg s' g acc old fuel
  queryWithEntities : ∀ acc old fuel,
    runOrderedQueryWithEntities U dbg s g acc old fuel = runOrderedQueryWithEntities U dbg s' g acc old fuel

end Ecs.Spec
