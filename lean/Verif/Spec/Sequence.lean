/-! Specification vocabulary for sequences: neighbours and insertion next to a member. -/

namespace Ecs.Spec

variable {α : Type} [DecidableEq α]

/-- The element right after (the first occurrence of) `x` in `l`. -/
def follower : List α → α → Option α
  | [], _ => none
  | a :: l, x => if x = a then l.head? else follower l x

/-- The element right before `x` in `l`. -/
def preceder (l : List α) (x : α) : Option α := follower l.reverse x

/-- `l` with `y` inserted right after `x`. -/
def insertAfter (x y : α) : List α → List α
  | [] => []
  | a :: l => if a = x then a :: y :: l else a :: insertAfter x y l

/-- `l` with `y` inserted right before `x`. -/
def insertBefore (x y : α) : List α → List α
  | [] => []
  | a :: l => if a = x then y :: a :: l else a :: insertBefore x y l

example : follower [4, 7, 2] 7 = some 2 ∧ preceder [4, 7, 2] 7 = some 4 ∧ follower [4, 7, 2] 2 = none ∧
    preceder [4, 7, 2] 4 = none ∧ follower [4, 7, 2] 5 = none := by decide
example : insertAfter 7 9 [4, 7, 2] = [4, 7, 9, 2] ∧ insertBefore 7 9 [4, 7, 2] = [4, 9, 7, 2] := by decide

end Ecs.Spec
