import Verif.Spec.Rebuild
import Verif.Spec.VisitOrder
import Verif.Spec.BuildUp

/-! Calls that can be exchanged. -/

namespace Ecs.Spec

/-- The entities that are named in a call. -/
def named : Event → List Entity
  | .orderedAfter _ e x => [e, x]
  | .orderedBefore _ e x => [e, x]
  | ev => [subject ev]

/-- The order group that a call puts an entity in. -/
def entered : Event → Option Nat
  | .orderedLast g _ => some g
  | .orderedAfter g _ _ => some g
  | .orderedBefore g _ _ => some g
  | _ => none

/-- The calls are made for different entities, none of which is the neighbour named in the other call, and do not both put one in the
same group. -/
def Unrelated (a b : Event) : Prop := subject a ∉ named b ∧ subject b ∉ named a ∧ ∀ g, entered a = some g → entered b ≠ some g

/-- One history becomes the other when neighbouring unrelated calls are exchanged, any number of times. -/
inductive Exchanged : List Event → List Event → Prop
  | same (h : List Event) : Exchanged h h
  | swap (k : List Event) (a b : Event) (h : List Event) : Unrelated a b → Exchanged (k ++ a :: b :: h) (k ++ b :: a :: h)
  | trans {h₁ h₂ h₃ : List Event} : Exchanged h₁ h₂ → Exchanged h₂ h₃ → Exchanged h₁ h₃

/-- `Interleaved k p q`: the calls in `k` are those in `p` and those in `q`, each in their order. -/
inductive Interleaved : List Event → List Event → List Event → Prop
  | none : Interleaved [] [] []
  | left {k p q} (ev : Event) : Interleaved k p q → Interleaved (ev :: k) (ev :: p) q
  | right {k p q} (ev : Event) : Interleaved k p q → Interleaved (ev :: k) p (ev :: q)

/-- At least four entities fit into a page, for every type set that the calls in `k`, made after `h`, look for room for. -/
def RoomFor (U : Universe) (dbg : Bool) : List Event → List Event → Prop
  | [], _ => True
  | ev :: k, h => (∀ T, needs (world (k ++ h)) ev = some T → Wide U dbg T) ∧ RoomFor U dbg k h

end Ecs.Spec
