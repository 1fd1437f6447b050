import Verif.Spec.Tags
import Verif.Spec.Query
import Verif.Spec.World

/-! Groups whose links lead in a circle. -/

namespace Ecs.Spec

/-- Asking for the first member of group `g` and then again and again for the next one never comes to an end: there is always
another one. -/
def NeverEnds (s : Store) (g : Nat) : Prop :=
  ∃ S : List Entity, (∃ e ∈ S, s.getFirstOrdered g = .ok (some e)) ∧
    ∀ e ∈ S, ∃ y ∈ S, s.getNextOrdered g e = .ok (some y)

/-- No ordered query over group `g` can be started: `ordered_query_iter` does not return. -/
def NoQuery (U : Universe) (s : Store) (g : Nat) : Prop :=
  ∀ acc old fuel it, orderedQueryIter U s g acc old fuel ≠ .ok it

/-- `ordered_query_iter` over group `g` goes on for ever: however long one waits, it is still in one of its loops. -/
def LoopsForever (U : Universe) (s : Store) (g : Nat) : Prop :=
  ∀ acc old fuel, orderedQueryIter U s g acc old fuel = .error .outOfFuel

/-- Group `g` of the store has no end. `h` is what happened before its last call: if all members of the group had components
then, a query really goes on for ever; else it may also fail on a member without components (C36). -/
structure Stalled (U : Universe) (h : List Event) (g : Nat) (s : Store) : Prop where
  members : NeverEnds s g
  query : NoQuery U s g
  forever : (∀ x ∈ sequence g h, x ∈ given h) → LoopsForever U s g

/-- From the first member of group `g`, following `get_next_entity_ordered_by` passes through exactly the entities of `l`. -/
def GoesThrough (s : Store) (g : Nat) (l : List Entity) : Prop :=
  s.getFirstOrdered g = .ok l.head? ∧ WalksForward s g l.head? l

/-- Group `g` of the store, as queries and walks see it, is the list `l`. `h` is what happened before its last call. -/
structure Shrunk (U : Universe) (dbg : Bool) (h : List Event) (g : Nat) (s : Store) (l : List Entity) : Prop where
  members : GoesThrough s g l
  query : (∀ x ∈ l, x ∈ given h) → ∀ acc old fuel, l.length < fuel →
    ∃ items, runOrderedQuery U dbg s g acc old fuel = .ok items ∧
      List.Forall₂ (fun e refs => s.getComponentsRefs U dbg e acc.types = .ok (some refs))
        (l.filter (selected dbg s acc)) items

end Ecs.Spec
