import Verif.Model.Layout

/-! How much of a page columns can take in the worst case. -/

namespace Ecs.Layout

/-- The largest end of a column of at most `r` bytes with alignment 1, 2, 4 or 8 that is placed at the first possible offset
from `o` on. -/
def stepMax (r o : Nat) : Nat :=
  max (max (alignUp o 1 + r / 1 * 1) (alignUp o 2 + r / 2 * 2))
    (max (alignUp o 4 + r / 4 * 4) (alignUp o 8 + r / 8 * 8))

/-- The largest end of `k` such columns, one after the other. -/
def worst (r : Nat) : Nat → Nat → Nat
  | 0, o => o
  | k + 1, o => worst r k (stepMax r o)

/-- The largest end of `k` such columns, at least one of which has alignment 8. -/
def worst8 (r : Nat) : Nat → Nat → Nat
  | 0, _ => 0
  | k + 1, o => max (worst r k (alignUp o 8 + r / 8 * 8)) (worst8 r k (stepMax r o))

end Ecs.Layout
