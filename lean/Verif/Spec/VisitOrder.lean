import Verif.Spec.Healthy

/-! How the order of the entities in a query changes with a call. -/

namespace Ecs.Spec

/-- `l'` is `l` without `e`, and at most one other entry has another place than before: an entry behind `e` that now has the
place of `e`. -/
def Vacated {α : Type} (e : α) (l l' : List α) : Prop :=
  (e ∉ l ∧ l' = l) ∨
  (∃ a b, l = a ++ e :: b ∧ l' = a ++ b) ∨
  (∃ a b x c, l = a ++ e :: (b ++ x :: c) ∧ l' = a ++ x :: (b ++ c))

/-- The entity a call is about. -/
def subject : Event → Entity
  | .created e => e
  | .createdWith e _ _ => e
  | .destroyed e => e
  | .added e _ => e
  | .removed e _ => e
  | .assigned e _ => e
  | .tagged _ e => e
  | .untagged _ e => e
  | .orderedLast _ e => e
  | .orderedAfter _ e _ => e
  | .orderedBefore _ e _ => e
  | .unordered _ e => e

/-- Calls that neither give components to an entity nor take any away. -/
def movesNothing : Event → Bool
  | .createdWith _ _ _ => false
  | .destroyed _ => false
  | .added _ _ => false
  | .removed _ _ => false
  | _ => true

example : Vacated 3 [1, 3, 5, 7, 9] [1, 7, 5, 9] := .inr (.inr ⟨[1], [5], 7, [9], rfl, rfl⟩)

end Ecs.Spec
