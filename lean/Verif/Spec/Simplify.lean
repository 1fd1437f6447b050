import Verif.Spec.Exchange
import Verif.Spec.Reassign

/-! Calls for one entity that can be replaced by fewer calls. -/

namespace Ecs.Spec

/-- The components of both tuples; those of `B` where both have a type. -/
def overlay (B A : TupleVal) : TupleVal := B ++ A.filter fun p => p.1 ∉ typesOf B

/-- The call is about the components or the tags of `e`. -/
def adjusts (e : Entity) : Event → Bool
  | .added x _ => x = e
  | .removed x _ => x = e
  | .assigned x _ => x = e
  | .tagged _ x => x = e
  | .untagged _ x => x = e
  | _ => false

/-- `Simpler h p q`: after the history `h`, the calls `q` can be made instead of the calls `p` (newest first). -/
inductive Simpler (h : List Event) : List Event → List Event → Prop
  /-- two tuples can be added at once -/
  | addAdd (e : Entity) (A B : TupleVal) : Simpler h [.added e B, .added e A] [.added e (overlay B A)]
  /-- what is assigned to components just added can be added -/
  | addAssign (e : Entity) (A B : TupleVal) : typesOf B ⊆ typesOf A → Simpler h [.assigned e B, .added e A] [.added e (overlay B A)]
  /-- an assignment is lost when the components are added again -/
  | assignAdd (e : Entity) (A B : TupleVal) : typesOf A ⊆ typesOf B → Simpler h [.added e B, .assigned e A] [.added e B]
  /-- an assignment is lost when the same components are assigned to again -/
  | assignAssign (e : Entity) (A B : TupleVal) : typesOf A ⊆ typesOf B → typesOf B ⊆ typesOf A →
      Simpler h [.assigned e B, .assigned e A] [.assigned e B]
  /-- components can be removed at once -/
  | removeRemove (e : Entity) (ts ts' : List TypeId) : Simpler h [.removed e ts', .removed e ts] [.removed e (ts ++ ts')]
  /-- components that are removed again need not be added -/
  | addRemove (e : Entity) (A : TupleVal) (ts : List TypeId) : typesOf A ⊆ ts → Simpler h [.removed e ts, .added e A] [.removed e ts]
  /-- components that are removed need not be assigned to -/
  | assignRemove (e : Entity) (A : TupleVal) (ts : List TypeId) : typesOf A ⊆ ts →
      Simpler h [.removed e ts, .assigned e A] [.removed e ts]
  /-- components that are added again need not be removed -/
  | removeAdd (e : Entity) (A : TupleVal) (ts : List TypeId) : ts ⊆ typesOf A → Simpler h [.added e A, .removed e ts] [.added e A]
  /-- of two calls that add a tag or remove it, the last one counts -/
  | tagTag (e : Entity) (tag : Nat) {a b : Event} : (a = .tagged tag e ∨ a = .untagged tag e) → (b = .tagged tag e ∨ b = .untagged tag e) →
      Simpler h [b, a] [b]
  /-- an entity that is put in a group and taken out at once need not be put in it -/
  | orderUnorder (g : Nat) (e x : Entity) {a : Event} : (a = .orderedLast g e ∨ a = .orderedAfter g e x ∨ a = .orderedBefore g e x) →
      e ∉ (world h).order g → Simpler h [.unordered g e, a] []
  /-- components and tags of an entity that is destroyed need not be changed -/
  | destroy (e : Entity) {a : Event} : adjusts e a = true → Simpler h [.destroyed e, a] [.destroyed e]

/-- One history becomes the other by replacing calls by simpler ones, or the other way round, and by exchanging unrelated calls, any number
of times and anywhere. -/
inductive Simplified : List Event → List Event → Prop
  | exchanged {h h' : List Event} : Exchanged h h' → Simplified h h'
  | simpler (k : List Event) {p q h : List Event} : Simpler h p q → Simplified (k ++ (p ++ h)) (k ++ (q ++ h))
  | longer (k : List Event) {p q h : List Event} : Simpler h p q → Simplified (k ++ (q ++ h)) (k ++ (p ++ h))
  | trans {h₁ h₂ h₃ : List Event} : Simplified h₁ h₂ → Simplified h₂ h₃ → Simplified h₁ h₃

end Ecs.Spec
