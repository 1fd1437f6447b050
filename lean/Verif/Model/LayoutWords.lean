import Verif.Model.Layout

/-! `src/archetype_layout.rs` with the arithmetic of 64-bit words throughout. `Model/Layout.lean` computes the offsets without
bounds. -/

namespace Ecs.Layout

/-- `a + b` on `usize`. -/
def addUsize (dbg : Bool) (a b : Nat) : Res Nat :=
  if a + b < usizeSize then .ok (a + b)
  else if dbg then .error (.panic .arithOverflow) else .ok ((a + b) % usizeSize)

/-- `a * b` on `usize`. -/
def mulUsize (dbg : Bool) (a b : Nat) : Res Nat :=
  if a * b < usizeSize then .ok (a * b)
  else if dbg then .error (.panic .arithOverflow) else .ok ((a * b) % usizeSize)

/-- `src/archetype_layout.rs:66-70`. `align - align_offset` is positive. -/
def alignUpWord (dbg : Bool) (offset align : Nat) : Res Nat :=
  if offset % align ≠ 0 then addUsize dbg offset (align - offset % align) else .ok offset

/-- `src/archetype_layout.rs:63-75`. -/
def offsetsLoopWord (dbg : Bool) (cap : Nat) : (offset : Nat) → List (Nat × Nat) → Res (List Nat × Nat)
  | offset, [] => .ok ([], offset)
  | offset, (size, align) :: rest => do
    let start ← alignUpWord dbg offset align
    let bytes ← mulUsize dbg size cap
    let next ← addUsize dbg start bytes
    let r ← offsetsLoopWord dbg cap next rest
    return (start :: r.1, r.2)

/-- `src/archetype_layout.rs:54-79` `calculate_offsets`. -/
def calcOffsetsWord (dbg : Bool) (sizes aligns : List Nat) (cap : Nat) : Res (List Nat) := do
  let r ← offsetsLoopWord dbg cap 0 (sizes.zip aligns)
  rassert (decide (r.2 ≤ PAGE_SIZE))
  return r.1

/-- `src/archetype_layout.rs:11-28` `ArchetypeLayout::new`. The capacity is computed as in `Model/Layout.lean`, where the
subtraction is one of words already. -/
def newWord (dbg : Bool) (a : Archetype) : Res Layout := do
  let cap ← calcCapacity dbg a.sizes a.aligns
  let offsets ← calcOffsetsWord dbg a.sizes a.aligns cap
  return { offsets := offsets, entitiesCapacity := cap }

end Ecs.Layout
