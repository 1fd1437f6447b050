/-
Model of `src/mem_utils.rs`, of Rust's failure modes, and of fixed-width integer arithmetic.

A Rust function that may panic or run into undefined behaviour is modelled as a function into
`Res α`.  `dbg : Bool` is the build mode: `debug_assert!` and integer-overflow checks are active
iff `dbg = true` (cargo's `dev` versus `release` profile; `Cargo.toml` does not override it).
-/

namespace Ecs

/-- The ways in which the modelled code can panic. -/
inductive Panic where
  /-- a failed `debug_assert!` -/
  | debugAssert
  /-- a failed `assert!` -/
  | assertFailed
  /-- a bounds-checked index, `Vec::swap_remove`, `Vec::remove` or slice range out of bounds -/
  | indexOutOfBounds
  /-- overflow of `+`/`-` with overflow checks on -/
  | arithOverflow
  /-- division or remainder by zero -/
  | divByZero
  /-- `Option::unwrap` of `None` -/
  | unwrapNone
  /-- the explicit `panic!` in `src/tag_container.rs:24` -/
  | missingTag
deriving DecidableEq, Repr

/-- The kinds of undefined behaviour the model makes visible. -/
inductive Ub where
  /-- raw pointer access, or `get_unchecked`, outside the buffer -/
  | oob
  /-- reading memory that was allocated but never written -/
  | uninit
  /-- `dealloc` with another layout than the one used for `alloc` -/
  | badDealloc
  /-- `Layout::from_size_align_unchecked` with a size above `isize::MAX` (only produced by `Model/Heap.lean`) -/
  | badLayout
  /-- `alloc` or `alloc_zeroed` of zero bytes (only produced by `Model/Heap.lean`) -/
  | zeroAlloc
  /-- `copy_to_nonoverlapping` on overlapping ranges -/
  | overlap
  /-- `unwrap_unchecked` of `None` -/
  | unwrapUnchecked
deriving DecidableEq, Repr

inductive Fault where
  | panic (p : Panic)
  | ub (u : Ub)
  /-- not a Rust outcome: the fuel given to the model of a `while` loop ran out -/
  | outOfFuel
deriving DecidableEq, Repr

/-- Result of a modelled function. -/
abbrev Res (α : Type) := Except Fault α

/-- `debug_assert!(c)`. -/
def dassert (dbg : Bool) (c : Bool) : Res Unit :=
  if dbg && !c then .error (.panic .debugAssert) else .ok ()

/-- `assert!(c)` (active in every build mode). -/
def rassert (c : Bool) : Res Unit :=
  if c then .ok () else .error (.panic .assertFailed)

/-- 2^32 -/
notation "u32Size" => (4294967296 : Nat)

/-- 2^64: the model assumes a 64-bit target. -/
notation "usizeSize" => (18446744073709551616 : Nat)

/-- `a + b` on `u32`: panics on overflow in debug builds, wraps in release builds. -/
def addU32 (dbg : Bool) (a b : Nat) : Res Nat :=
  if a + b < u32Size then .ok (a + b)
  else if dbg then .error (.panic .arithOverflow) else .ok ((a + b) % u32Size)

/-- `a - b` on `u32`. -/
def subU32 (dbg : Bool) (a b : Nat) : Res Nat :=
  if b ≤ a then .ok (a - b)
  else if dbg then .error (.panic .arithOverflow) else .ok (a + u32Size - b)

/-- `a - b` on `usize`. -/
def subUsize (dbg : Bool) (a b : Nat) : Res Nat :=
  if b ≤ a then .ok (a - b)
  else if dbg then .error (.panic .arithOverflow) else .ok (a + usizeSize - b)

/-- Bounds-checked indexing `v[i]` of a `Vec` or slice. -/
def idx {α : Type} (v : List α) (i : Nat) : Res α :=
  match v[i]? with
  | some x => .ok x
  | none => .error (.panic .indexOutOfBounds)

/-- `v.get_unchecked(i)`. -/
def idxUnchecked {α : Type} (v : List α) (i : Nat) : Res α :=
  match v[i]? with
  | some x => .ok x
  | none => .error (.ub .oob)

/-- A raw buffer of `T` (`*mut T` together with the element count it was allocated with).
`none` cells are allocated but not yet written. -/
abbrev Raw (α : Type) := List (Option α)

namespace Raw
variable {α : Type}

/-- `src/mem_utils.rs:13-15` `alloc`: contents uninitialised. -/
def alloc (capacity : Nat) : Raw α := List.replicate capacity none

/-- `src/mem_utils.rs:17-19` `alloc_zeroed`; `zero` is the all-zero-bytes value of the type. -/
def allocZeroed (zero : α) (capacity : Nat) : Raw α := List.replicate capacity (some zero)

/-- `src/mem_utils.rs:50-52` `dealloc`: the layout is recomputed from `capacity`, so it must be the
element count used for the allocation. -/
def dealloc (a : Raw α) (capacity : Nat) : Res Unit :=
  if a.length = capacity then .ok () else .error (.ub .badDealloc)

/-- `src/mem_utils.rs:21-35` `realloc`: copies the first `old_capacity` elements, the rest of the
new buffer is uninitialised. -/
def realloc (a : Raw α) (oldCap newCap : Nat) : Res (Raw α) := do
  if oldCap = newCap then
    return a
  if a.length < oldCap || newCap < oldCap then
    throw (.ub .oob)
  a.dealloc oldCap
  return a.take oldCap ++ List.replicate (newCap - oldCap) none

/-- `src/mem_utils.rs:37-48` `realloc_with_uninit_capacity_zeroing`. -/
def reallocZeroing (zero : α) (a : Raw α) (oldCap newCap : Nat) : Res (Raw α) := do
  if a.length < oldCap || newCap < oldCap then
    throw (.ub .oob)
  a.dealloc oldCap
  return a.take oldCap ++ List.replicate (newCap - oldCap) (some zero)

/-- `*ptr.add(i)` as a read. -/
def read (a : Raw α) (i : Nat) : Res α :=
  match a[i]? with
  | some (some x) => .ok x
  | some none => .error (.ub .uninit)
  | none => .error (.ub .oob)

/-- `*ptr.add(i) = x`. -/
def write (a : Raw α) (i : Nat) (x : α) : Res (Raw α) :=
  if i < a.length then .ok (a.set i (some x)) else .error (.ub .oob)

end Raw
end Ecs
