import Verif.Model.Archetype

/-! When a set of component types has a layout, and which: stated without the functions of `Model/Layout.lean`. -/

namespace Ecs.Spec

/-- `start` is the first multiple of `align` from `o` on. -/
def FirstAligned (o align start : Nat) : Prop := align ∣ start ∧ o ≤ start ∧ ∀ k, align ∣ k → o ≤ k → start ≤ k

/-- Columns of `rows` components for the types, each at the first aligned offset after the one before; the first begins at or
after `o`, the last ends at `fin`. -/
inductive Packed (U : Universe) (rows : Nat) : Nat → List TypeId → List Nat → Nat → Prop
  | nil (o : Nat) : Packed U rows o [] [] o
  | cons {o : Nat} {t : TypeId} {ts : List TypeId} {start : Nat} {starts : List Nat} {fin : Nat} :
      FirstAligned o (U.align t) start → Packed U rows (start + rows * U.size t) ts starts fin →
      Packed U rows o (t :: ts) (start :: starts) fin

/-- The share of a page of each of `n` columns: 16384 / n bytes, less the largest alignment modulo 8. In release builds the
difference is computed modulo 2^64, in debug builds there is none if it would be negative. -/
def share (dbg : Bool) (n maxAlign : Nat) : Option Nat :=
  if maxAlign % 8 ≤ 16384 / n then some (16384 / n - maxAlign % 8)
  else if dbg then none
  else some (2 ^ 64 + 16384 / n - maxAlign % 8)

/-- `m` is the largest number in the list. -/
def Largest (m : Nat) (l : List Nat) : Prop := m ∈ l ∧ ∀ x ∈ l, x ≤ m

/-- The types `ids`, in this order, have a layout with `rows` rows and columns at `starts`: there is no type of size zero, as many
rows as the largest type has in its share of the page, and the columns fit into the page. -/
structure Accepted (U : Universe) (dbg : Bool) (ids : List TypeId) (rows : Nat) (starts : List Nat) : Prop where
  sized : ∀ t ∈ ids, 0 < U.size t
  count : ∃ m z r, Largest m (ids.map U.align) ∧ Largest z (ids.map U.size) ∧ share dbg ids.length m = some r ∧ rows = r / z
  packed : ∃ fin, fin ≤ 16384 ∧ Packed U rows 0 ids starts fin

end Ecs.Spec
