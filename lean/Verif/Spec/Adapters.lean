import Verif.Model.Adapters

/-! What adapters do to a list of items. -/

namespace Ecs.Spec

/-- Every `k + 1`-st item, from the first on. -/
def everyNth (k : Nat) : List α → List α
  | [] => []
  | x :: l => x :: everyNth k (l.drop k)
termination_by l => l.length
decreasing_by simp only [List.length_drop, List.length_cons]; omega

/-- The items of a chain are as many as these, if every query yields as many items as it reports. -/
def count : Chain → Nat
  | .query n => n
  | .slice n => n
  | .each c => count c
  | .take n c => ((List.range (count c)).take n).length
  | .skip n c => ((List.range (count c)).drop n).length
  | .peekable c => count c
  | .stepBy k c => (everyNth k (List.range (count c))).length
  | .zip c d => ((List.range (count c)).zip (List.range (count d))).length

/-- A query occurs in the chain. -/
def hasQuery : Chain → Bool
  | .query _ => true
  | .slice _ => false
  | .each c | .take _ c | .skip _ c | .peekable c | .stepBy _ c => hasQuery c
  | .zip c d => hasQuery c || hasQuery d

/-- The chain is a query under adapters that ask the inner iterator for its length. -/
def asksQuery : Chain → Bool
  | .query _ => true
  | .each c => asksQuery c
  | _ => false

end Ecs.Spec
