import Verif.Model.Mem

/-! Model of `src/bitvec_utils.rs`: bit vectors stored in buffers of 32-bit words. -/

namespace Ecs

/-- A `*mut u32` bit-vector buffer. The words are always initialised (they come from
`alloc_zeroed`), so no uninitialised cells are needed. -/
abbrev Words := List (BitVec 32)

namespace Words

/-- `src/bitvec_utils.rs:73-76` `get_len` (with `get_bitvec_base_bits() = 32`, lines 78-81). -/
def getLen (elements : Nat) : Nat := elements / 32 + 1

/-- `src/bitvec_utils.rs:3-6` `alloc`. -/
def alloc (len : Nat) : Words := List.replicate (getLen len) 0#32

/-- `src/bitvec_utils.rs:8-11` `dealloc`. -/
def dealloc (w : Words) (len : Nat) : Res Unit :=
  if w.length = getLen len then .ok () else .error (.ub .badDealloc)

/-- `src/bitvec_utils.rs:13-27` `realloc`. -/
def realloc (w : Words) (oldLen newLen : Nat) : Res Words := do
  let oldSize := getLen oldLen
  let newSize := getLen newLen
  if oldSize = newSize then
    return w
  if w.length < oldSize || newSize < oldSize then
    throw (.ub .oob)
  w.dealloc oldLen
  return w.take oldSize ++ List.replicate (newSize - oldSize) 0#32

/-- The one-bit mask `1 << (bit_index % 32)` used by all bit operations. -/
def mask (bitIndex : Nat) : BitVec 32 := 1#32 <<< (bitIndex % 32)

/-- `src/bitvec_utils.rs:29-38` `set_bit_off`. -/
def setOff (w : Words) (i : Nat) : Res Words :=
  match w[i / 32]? with
  | some v => .ok (w.set (i / 32) (v &&& ~~~(mask i)))
  | none => .error (.ub .oob)

/-- `src/bitvec_utils.rs:40-49` `set_bit_on`. -/
def setOn (w : Words) (i : Nat) : Res Words :=
  match w[i / 32]? with
  | some v => .ok (w.set (i / 32) (v ||| mask i))
  | none => .error (.ub .oob)

/-- `src/bitvec_utils.rs:51-60` `toggle_bit`. -/
def toggle (w : Words) (i : Nat) : Res Words :=
  match w[i / 32]? with
  | some v => .ok (w.set (i / 32) (v ^^^ mask i))
  | none => .error (.ub .oob)

/-- `src/bitvec_utils.rs:62-71` `is_bit_on`. -/
def isOn (w : Words) (i : Nat) : Res Bool :=
  match w[i / 32]? with
  | some v => .ok ((v &&& mask i) == mask i)
  | none => .error (.ub .oob)

end Words
end Ecs
