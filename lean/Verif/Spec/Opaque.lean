import Verif.Spec.Independent
import Verif.Spec.Unwind

/-! What it means that the store does not look at the contents of components. `Q b b'` relates the contents of one byte of memory
in two runs of a program (`none`: never written). -/

namespace Ecs.Spec

/-- The same outcome: values related by `R`, or the same failure. -/
def Both {α β : Type} (R : α → β → Prop) : Res α → Res β → Prop
  | .ok a, .ok b => R a b
  | .error x, .error y => x = y
  | _, _ => False

/-- Tuples of the same component types, with related bytes. -/
def SameTuple (Q : Cell → Cell → Prop) (v v' : TupleVal) : Prop :=
  List.Forall₂ (fun p p' => p.1 = p'.1 ∧ List.Forall₂ (fun b b' => Q (some b) (some b')) p.2 p'.2) v v'

/-- Two computations of new component values from old ones that give related results for related arguments. -/
def Respects (Q : Cell → Cell → Prop) (f f' : List (List Cell) → List (List UInt8)) : Prop :=
  ∀ vs vs', List.Forall₂ (List.Forall₂ Q) vs vs' →
    List.Forall₂ (List.Forall₂ fun b b' => Q (some b) (some b')) (f vs) (f' vs')

/-- The same call, with other component values; what the two calls returned may differ. -/
def Recoded (Q : Cell → Cell → Prop) : Event → Event → Prop
  | .added e v, .added e' v' => e = e' ∧ SameTuple Q v v'
  | .assigned e v, .assigned e' v' => e = e' ∧ SameTuple Q v v'
  | ev, ev' => SameCall ev ev'

/-- The same call, with other component values, as a call that need not return. -/
def RecodedCall (Q : Cell → Cell → Prop) : Call → Call → Prop
  | .add e v, .add e' v' => e = e' ∧ SameTuple Q v v'
  | .assign e v, .assign e' v' => e = e' ∧ SameTuple Q v v'
  | c, c' => c = c'

/-- What is read from components is related by `Q`; everything else a program can find out is the same in both stores. -/
structure SeesRecoded (U : Universe) (dbg : Bool) (Q : Cell → Cell → Prop) (s s' : Store) : Prop where
  capacity : s.entitiesCapacity = s'.entitiesCapacity
  alive : ∀ e, s.isAlive dbg e = s'.isAlive dbg e
  archetype : ∀ e, s.getEntityArchetype dbg e = s'.getEntityArchetype dbg e
  refs : ∀ e ts, s.getComponentsRefs U dbg e ts = s'.getComponentsRefs U dbg e ts
  values : ∀ e ts, Both (Option.Rel (List.Forall₂ (List.Forall₂ Q))) (s.getComponents U dbg e ts) (s'.getComponents U dbg e ts)
  deref : ∀ r, Both (List.Forall₂ Q) (readRef s.archs.pages r) (readRef s'.archs.pages r)
  query : ∀ acc old fuel, runComponentQuery U s acc old fuel = runComponentQuery U s' acc old fuel
  queryWithEntities : ∀ acc old fuel,
    runComponentQueryWithEntities U dbg s acc old fuel = runComponentQueryWithEntities U dbg s' acc old fuel
  entities : ∀ es acc old fuel, runEntityQuery U dbg s es acc old fuel = runEntityQuery U dbg s' es acc old fuel
  entitiesWithEntities : ∀ es acc old fuel,
    runEntityQueryWithEntities U dbg s es acc old fuel = runEntityQueryWithEntities U dbg s' es acc old fuel
  tags : SameTags U dbg s s'
  orders : SameOrders U dbg s s'

end Ecs.Spec
