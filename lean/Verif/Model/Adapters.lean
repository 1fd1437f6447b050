import Verif.Model.Query

/-! What the iterators of queries report about their length, and the length that iterator adapters of the standard library compute
from it. -/

namespace Ecs

/-- `size_hint` of the iterators of queries. None of the `impl Iterator` blocks overrides the method of the trait
(`src/query/component.rs:120-143`, `src/query/ordered_component.rs:172-195`, `src/query/component_page_iter.rs:35-51`,
`src/query/entity_component.rs:131-161`), and that one returns `(0, None)`. -/
def queryHint : Nat × Option Nat := (0, none)

/-- `len` of `ExactSizeIterator` in the standard library (`core::iter::ExactSizeIterator::len`), for iterators that do not override
it: `assert_eq!(upper, Some(lower))`, and `lower`. -/
def defaultLen (hint : Nat × Option Nat) : Res Nat := do
  rassert (decide (hint.2 = some hint.1))
  return hint.1

/-- Iterators made of queries and slices by adapters of the standard library that are `ExactSizeIterator`s. -/
inductive Chain where
  /-- a fresh iterator of a query that reports `n` as its length -/
  | query (n : Nat)
  /-- an iterator over a slice or vector of `n` elements -/
  | slice (n : Nat)
  /-- `map`, `enumerate`, `inspect`, `fuse`, `by_ref`: both methods are those of the inner iterator -/
  | each (c : Chain)
  | take (n : Nat) (c : Chain)
  | skip (n : Nat) (c : Chain)
  /-- `peekable`, before a call of `peek` -/
  | peekable (c : Chain)
  /-- `step_by(k + 1)` -/
  | stepBy (k : Nat) (c : Chain)
  | zip (c d : Chain)
deriving DecidableEq, Repr

namespace Chain

/-- `size_hint` of the adapters (`core::iter::adapters`); `q` is that of a query which reports a given length. -/
def hint (q : Nat → Nat × Option Nat) : Chain → Nat × Option Nat
  | query n => q n
  | slice n => (n, some n)
  | each c => c.hint q
  | take n c =>
    if n = 0 then (0, some 0)
    else (min (c.hint q).1 n, match (c.hint q).2 with
      | some x => if x < n then some x else some n
      | none => some n)
  | skip n c => ((c.hint q).1 - n, (c.hint q).2.map (· - n))
  | peekable c => c.hint q
  | stepBy k c => (if (c.hint q).1 = 0 then 0 else 1 + ((c.hint q).1 - 1) / (k + 1),
      (c.hint q).2.map fun n => if n = 0 then 0 else 1 + (n - 1) / (k + 1))
  | zip c d => (min (c.hint q).1 (d.hint q).1, match (c.hint q).2, (d.hint q).2 with
      | some x, some y => some (min x y)
      | some x, none => some x
      | none, some y => some y
      | none, none => none)

/-- `len` of the adapters. `src/query/component.rs:145-149` and `src/query/ordered_component.rs:231-235` override it. -/
def len (q : Nat → Nat × Option Nat) : Chain → Res Nat
  | query n => .ok n
  | slice n => .ok n
  | each c => c.len q
  | take n c => defaultLen ((take n c).hint q)
  | skip n c => defaultLen ((skip n c).hint q)
  | peekable c => defaultLen ((peekable c).hint q)
  | stepBy k c => defaultLen ((stepBy k c).hint q)
  | zip c d => defaultLen ((zip c d).hint q)

end Chain

end Ecs
