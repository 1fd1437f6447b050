import Verif.Model.Mem

/-! Models of the pieces of Rust's standard library the code depends on: `slice::binary_search`,
stable sorting by key, and `Vec` capacities. They are part of the trusted base (their source is not
in `/repo`). -/

namespace Ecs

/-- Result of `slice::binary_search`. -/
inductive Search where
  | found (i : Nat)
  | notFound (i : Nat)
deriving DecidableEq, Repr

/-- The loop of `core::slice::binary_search_by` (Rust ≥ 1.82): `while size > 1 { … }`.
`fuel` only bounds the recursion; `size` iterations always suffice. -/
def bsLoop (l : List Nat) (x : Nat) : (fuel size base : Nat) → Nat
  | 0, _, base => base
  | fuel + 1, size, base =>
    if size > 1 then
      let half := size / 2
      let mid := base + half
      bsLoop l x fuel (size - half) (if l.getD mid 0 > x then base else mid)
    else base

/-- `core::slice::binary_search` (Rust ≥ 1.82) on a slice of ordered keys. -/
def binarySearch (l : List Nat) (x : Nat) : Search :=
  if l.length = 0 then .notFound 0
  else
    let base := bsLoop l x l.length l.length 0
    let v := l.getD base 0
    if v = x then .found base
    else .notFound (base + if v < x then 1 else 0)

/-- Insertion into a list sorted by `key`, after equal keys. -/
def insertByKey {α : Type} (key : α → Nat) (a : α) : List α → List α
  | [] => [a]
  | b :: l => if key a < key b then a :: b :: l else b :: insertByKey key a l

/-- `slice::sort_by_key`: a stable sort. (Its result is determined by stability and sortedness; the
model computes it by insertion.) -/
def sortByKey {α : Type} (key : α → Nat) (l : List α) : List α :=
  l.foldl (fun acc a => insertByKey key a acc) []

/-- A `Vec<u32>` whose capacity is observable. -/
structure CapVec where
  items : List Nat
  cap : Nat
deriving DecidableEq, Repr

namespace CapVec

/-- `Vec::new`. -/
def new : CapVec := { items := [], cap := 0 }

/-- `RawVec::grow_amortized` for 4-byte elements: at least double, at least `required`, at least 4. -/
def grownCap (cap required : Nat) : Nat := max (max (cap * 2) required) 4

/-- `Vec::reserve(additional)`. -/
def reserve (v : CapVec) (additional : Nat) : CapVec :=
  if additional ≤ v.cap - v.items.length then v
  else { v with cap := grownCap v.cap (v.items.length + additional) }

/-- `Vec::push`. -/
def push (v : CapVec) (x : Nat) : CapVec :=
  { items := v.items ++ [x]
    cap := if v.items.length = v.cap then grownCap v.cap (v.items.length + 1) else v.cap }

/-- `Vec::swap_remove(index)`: panics if out of bounds; otherwise the last element takes the place of
the removed one. -/
def swapRemove (v : CapVec) (index : Nat) : Res CapVec :=
  match v.items.getLast? with
  | none => .error (.panic .indexOutOfBounds)
  | some last =>
    if index < v.items.length then
      .ok { v with items := (v.items.set index last).dropLast }
    else .error (.panic .indexOutOfBounds)

end CapVec
end Ecs
