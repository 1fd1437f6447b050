import Verif.Model.Archetype

/-! Model of `src/archetype_layout.rs`. -/

namespace Ecs

/-- `ArchetypeDataPage::PAGE_SIZE_BYTES = 4096 * 4` (`src/archetype_data_page.rs:16`). -/
notation "PAGE_SIZE" => (16384 : Nat)

/-- `src/archetype_layout.rs:3-8` `ArchetypeLayout`. -/
structure Layout where
  offsets : List Nat
  entitiesCapacity : Nat
deriving DecidableEq, Repr

namespace Layout

/-- `Iterator::max().unwrap()` on a slice of `usize`. -/
def maxUnwrap : List Nat → Res Nat
  | [] => .error (.panic .unwrapNone)
  | a :: l => .ok (l.foldl max a)

/-- `Iterator::min().unwrap()`. -/
def minUnwrap : List Nat → Res Nat
  | [] => .error (.panic .unwrapNone)
  | a :: l => .ok (l.foldl min a)

/-- `a / b` on `usize`: panics when `b = 0`. -/
def divChecked (a b : Nat) : Res Nat :=
  if b = 0 then .error (.panic .divByZero) else .ok (a / b)

/-- `src/archetype_layout.rs:30-52` `calculate_entities_capacity` (`size_of::<usize>() = 8`). -/
def calcCapacity (dbg : Bool) (sizes aligns : List Nat) : Res Nat := do
  let maxAlign ← maxUnwrap aligns
  let maxAlign := maxAlign % 8
  let perRow ← divChecked PAGE_SIZE sizes.length
  let bytesPerRowApprox ← subUsize dbg perRow maxAlign
  let caps ← sizes.mapM (fun s => divChecked bytesPerRowApprox s)
  minUnwrap caps

/-- The rounding step of `calculate_offsets` (`src/archetype_layout.rs:66-70`). -/
def alignUp (offset align : Nat) : Nat :=
  if offset % align ≠ 0 then offset + (align - offset % align) else offset

/-- Loop of `calculate_offsets` (`src/archetype_layout.rs:63-75`): the offsets and the final value of
`offset`. `offset % align` cannot divide by zero because Rust alignments are positive. The sums are over `Nat`: `size * cap` is at most
16384 unless the subtraction in `calculate_entities_capacity` wrapped (release builds, more than 4096 component types). C97 compares
this with the loop on words. -/
def offsetsLoop (cap : Nat) : (offset : Nat) → List (Nat × Nat) → List Nat × Nat
  | offset, [] => ([], offset)
  | offset, (size, align) :: rest =>
    let start := alignUp offset align
    let r := offsetsLoop cap (start + size * cap) rest
    (start :: r.1, r.2)

/-- `src/archetype_layout.rs:54-79` `calculate_offsets`. -/
def calcOffsets (sizes aligns : List Nat) (cap : Nat) : Res (List Nat) := do
  let r := offsetsLoop cap 0 (sizes.zip aligns)
  rassert (decide (r.2 ≤ PAGE_SIZE))
  return r.1

/-- `src/archetype_layout.rs:11-28` `ArchetypeLayout::new`. -/
def new (dbg : Bool) (a : Archetype) : Res Layout := do
  let cap ← calcCapacity dbg a.sizes a.aligns
  let offsets ← calcOffsets a.sizes a.aligns cap
  return { offsets := offsets, entitiesCapacity := cap }

end Layout
end Ecs
