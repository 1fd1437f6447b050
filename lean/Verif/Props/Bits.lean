import Verif.Proofs.Bits

/-! Property C48: bit vectors are arrays of independent booleans. -/

namespace Ecs.Props

/-- One operation on a bit vector. -/
inductive BitOp where
  | on (i : Nat)
  | off (i : Nat)
  | toggle (i : Nat)
  | grow (newLen : Nat)

/-- Specification: an array of `len` booleans. -/
structure BoolArray where
  len : Nat
  get : Nat → Bool

/-- The operations on the specification array. -/
def BoolArray.step (a : BoolArray) : BitOp → BoolArray
  | .on i => { a with get := fun j => if j = i then true else a.get j }
  | .off i => { a with get := fun j => if j = i then false else a.get j }
  | .toggle i => { a with get := fun j => if j = i then !a.get j else a.get j }
  | .grow n => { len := n, get := fun j => if j < a.len then a.get j else false }

/-- Precondition of an operation: indices in range, growth does not shrink. -/
def BoolArray.Ok (a : BoolArray) : BitOp → Prop
  | .on i | .off i | .toggle i => i < a.len
  | .grow n => a.len ≤ n

/-- The operations of `src/bitvec_utils.rs`. -/
def bitStep (len : Nat) (w : Words) : BitOp → Res Words
  | .on i => w.setOn i
  | .off i => w.setOff i
  | .toggle i => w.toggle i
  | .grow n => w.realloc len n

/-- Run a list of operations on both sides. -/
def bitRun : Nat → Words → List BitOp → Res Words
  | _, w, [] => .ok w
  | len, w, op :: ops => do
    let w ← bitStep len w op
    bitRun (match op with | .grow n => n | _ => len) w ops

/-- Run a list of operations on the specification. -/
def BoolArray.run (a : BoolArray) : List BitOp → BoolArray
  | [] => a
  | op :: ops => (a.step op).run ops

/-- Every operation of the list meets its precondition when its turn comes. -/
def BoolArray.AllOk (a : BoolArray) : List BitOp → Prop
  | [] => True
  | op :: ops => a.Ok op ∧ (a.step op).AllOk ops

/-- `w` holds exactly the booleans of `a`, and no stray bits. -/
def Holds (w : Words) (a : BoolArray) : Prop :=
  w.length = Words.getLen a.len ∧ (∀ i, i < a.len → w.bit i = a.get i) ∧ ∀ i, a.len ≤ i → w.bit i = false

theorem holds_step {w : Words} {a : BoolArray} {op : BitOp} (h : Holds w a) (hok : a.Ok op) :
    ∃ w', bitStep a.len w op = .ok w' ∧ Holds w' (a.step op) := by
  obtain ⟨h1, h2, h3⟩ := h
  cases op with
  | on i =>
    obtain ⟨w', e, l, b⟩ := Words.setOn_of_lt (w := w) (i := i)
      (by rw [h1]; exact Words.div_lt_getLen hok)
    refine ⟨w', e, by rw [l, h1]; rfl, fun j hj => ?_, fun j hj => ?_⟩
    · rw [b, h2 j hj]; show _ = if j = i then true else a.get j; split <;> simp [*]
    · have hi : i < a.len := hok
      have hj' : a.len ≤ j := hj
      rw [b, h3 j hj']; simp; omega
  | off i =>
    obtain ⟨w', e, l, b⟩ := Words.setOff_of_lt (w := w) (i := i)
      (by rw [h1]; exact Words.div_lt_getLen hok)
    refine ⟨w', e, by rw [l, h1]; rfl, fun j hj => ?_, fun j hj => ?_⟩
    · rw [b, h2 j hj]; show _ = if j = i then false else a.get j; split <;> simp [*]
    · have hj' : a.len ≤ j := hj
      rw [b, h3 j hj']; simp
  | toggle i =>
    obtain ⟨w', e, l, b⟩ := Words.toggle_of_lt (w := w) (i := i)
      (by rw [h1]; exact Words.div_lt_getLen hok)
    refine ⟨w', e, by rw [l, h1]; rfl, fun j hj => ?_, fun j hj => ?_⟩
    · rw [b, h2 j hj]; show _ = if j = i then !a.get j else a.get j; split <;> simp [*]
    · have hi : i < a.len := hok
      have hj' : a.len ≤ j := hj
      rw [b, h3 j hj']; simp; omega
  | grow n =>
    obtain ⟨w', e, l, b⟩ := Words.realloc_of h1 hok
    refine ⟨w', e, l, fun j hj => ?_, fun j hj => ?_⟩
    · rw [b]
      show _ = if j < a.len then a.get j else false
      split
      · rename_i hh; exact h2 j hh
      · rename_i hh; exact h3 j (by omega)
    · have hn : a.len ≤ n := hok
      have hj' : n ≤ j := hj
      rw [b]; exact h3 j (by omega)

/-- **C48.** A bit vector of any length behaves, under any sequence of set / clear / toggle / grow
calls within range, as an array of independent booleans that starts all false: no call fails, and
`is_bit_on` reads exactly the array (growth keeps all old bits and adds false ones). -/
theorem C48_bitvec_refines_bool_array (len : Nat) (ops : List BitOp)
    (hok : BoolArray.AllOk ⟨len, fun _ => false⟩ ops) :
    ∃ w, bitRun len (Words.alloc len) ops = .ok w ∧
      ∀ i, i < (BoolArray.run ⟨len, fun _ => false⟩ ops).len →
        w.isOn i = .ok ((BoolArray.run ⟨len, fun _ => false⟩ ops).get i) := by
  have gen : ∀ (ops : List BitOp) (a : BoolArray) (w : Words), Holds w a → a.AllOk ops →
      ∃ w', bitRun a.len w ops = .ok w' ∧ Holds w' (a.run ops) := by
    intro ops
    induction ops with
    | nil => intro a w h _; exact ⟨w, rfl, h⟩
    | cons op ops ih =>
      intro a w h hok
      obtain ⟨w1, e1, h1⟩ := holds_step h hok.1
      obtain ⟨w2, e2, h2⟩ := ih _ w1 h1 hok.2
      refine ⟨w2, ?_, h2⟩
      simp only [bitRun, e1, ok_bind]
      cases op <;> exact e2
  obtain ⟨w, e, h⟩ := gen ops ⟨len, fun _ => false⟩ (Words.alloc len)
    ⟨Words.length_alloc _, fun _ _ => Words.bit_alloc _ _, fun _ _ => Words.bit_alloc _ _⟩ hok
  refine ⟨w, e, fun i hi => ?_⟩
  rw [Words.isOn_of_lt (by rw [h.1]; exact Words.div_lt_getLen hi), h.2.1 i hi]

/-- **C48**, single step on an arbitrary buffer: each update changes exactly the addressed bit. -/
theorem C48_update_changes_one_bit (w : Words) (i j : Nat) (hi : i / 32 < w.length) :
    (∃ w', w.setOn i = .ok w' ∧ w'.isOn j = if j = i then .ok true else w.isOn j) ∧
    (∃ w', w.setOff i = .ok w' ∧ w'.isOn j = if j = i then .ok false else w.isOn j) ∧
    (∃ w' b, w.toggle i = .ok w' ∧ w.isOn i = .ok b ∧
      w'.isOn j = if j = i then .ok (!b) else w.isOn j) := by
  have oob : ∀ w' : Words, w'.length = w.length → ¬ j / 32 < w.length → w'.isOn j = w.isOn j := by
    intro w' hl hj
    unfold Words.isOn
    rw [List.getElem?_eq_none (by omega), List.getElem?_eq_none (by omega)]
  refine ⟨?_, ?_, ?_⟩
  · obtain ⟨w', e, l, b⟩ := Words.setOn_of_lt hi
    refine ⟨w', e, ?_⟩
    by_cases hj : j / 32 < w.length
    · rw [Words.isOn_of_lt (by omega), b, Words.isOn_of_lt hj]
      split <;> simp [*]
    · rw [oob w' l hj, if_neg (show ¬ j = i from fun h => hj (h ▸ hi))]
  · obtain ⟨w', e, l, b⟩ := Words.setOff_of_lt hi
    refine ⟨w', e, ?_⟩
    by_cases hj : j / 32 < w.length
    · rw [Words.isOn_of_lt (by omega), b, Words.isOn_of_lt hj]
      split <;> simp [*]
    · rw [oob w' l hj, if_neg (show ¬ j = i from fun h => hj (h ▸ hi))]
  · obtain ⟨w', e, l, b⟩ := Words.toggle_of_lt hi
    refine ⟨w', w.bit i, e, Words.isOn_of_lt hi, ?_⟩
    by_cases hj : j / 32 < w.length
    · rw [Words.isOn_of_lt (by omega), b, Words.isOn_of_lt hj]
      split <;> simp [*]
    · rw [oob w' l hj, if_neg (show ¬ j = i from fun h => hj (h ▸ hi))]

/-- A concrete run across a word boundary. -/
example : BoolArray.AllOk ⟨33, fun _ => false⟩ [.on 31, .on 32, .grow 70, .toggle 64, .off 31] := by
  simp [BoolArray.AllOk, BoolArray.Ok, BoolArray.step]

example : ((bitRun 33 (Words.alloc 33) [.on 31, .on 32, .grow 70, .toggle 64, .off 31]).toOption.map
    fun w => [31, 32, 33, 64].map fun i => (w.isOn i).toOption) =
    some [some false, some true, some false, some true] := by decide

end Ecs.Props
