import Verif.Model.BitVecUtils
import Verif.Proofs.Basic

/-! Bit vectors as arrays of booleans. -/

namespace Ecs
namespace Words

/-- Bit `i` of a bit vector (false outside the buffer). -/
def bit (w : Words) (i : Nat) : Bool := (w[i / 32]?.getD 0#32).getLsbD (i % 32)

theorem getLsbD_mask (i k : Nat) (hk : k < 32) : (mask i).getLsbD k = decide (k = i % 32) := by
  have hi : i % 32 < 32 := Nat.mod_lt _ (by decide)
  unfold mask
  rw [BitVec.getLsbD_shiftLeft]
  simp only [BitVec.getLsbD_one]
  by_cases h : k = i % 32
  · subst h; simp [hi]
  · by_cases h2 : k < i % 32
    · simp [h2, h]
    · have : k - i % 32 ≠ 0 := by omega
      simp [hk, h2, h]; omega

theorem isOn_of_lt {w : Words} {i : Nat} (h : i / 32 < w.length) : w.isOn i = .ok (w.bit i) := by
  unfold isOn bit
  rw [List.getElem?_eq_getElem h]
  simp only [Option.getD_some]
  congr 1
  generalize w[i / 32] = v
  have hm : i % 32 < 32 := Nat.mod_lt _ (by decide)
  rw [Bool.eq_iff_iff, beq_iff_eq]
  constructor
  · intro he
    have := congrArg (fun b => BitVec.getLsbD b (i % 32)) he
    simpa [getLsbD_mask _ _ hm] using this
  · intro hb
    apply BitVec.eq_of_getLsbD_eq
    intro k hk
    rw [BitVec.getLsbD_and, getLsbD_mask _ _ hk]
    by_cases h : k = i % 32
    · subst h; simp [hb]
    · simp [h]

theorem isOn_ok {w : Words} {i : Nat} {b : Bool} :
    w.isOn i = .ok b ↔ i / 32 < w.length ∧ b = w.bit i := by
  constructor
  · intro h
    by_cases hl : i / 32 < w.length
    · rw [isOn_of_lt hl] at h; cases h; exact ⟨hl, rfl⟩
    · unfold isOn at h
      rw [List.getElem?_eq_none (by omega)] at h
      simp at h
  · rintro ⟨h, rfl⟩; exact isOn_of_lt h

theorem bit_set {w : Words} {i j : Nat} {v : BitVec 32} (h : i / 32 < w.length) :
    Words.bit (w.set (i / 32) v) j =
      if j / 32 = i / 32 then v.getLsbD (j % 32) else w.bit j := by
  unfold bit
  rw [List.getElem?_set]
  by_cases hj : j / 32 = i / 32
  · simp [hj, h]
  · have : ¬ i / 32 = j / 32 := fun e => hj e.symm
    simp [hj, this]

theorem eq_of_div_mod {i j : Nat} (h1 : j / 32 = i / 32) (h2 : j % 32 = i % 32) : j = i := by
  omega

theorem setOn_of_lt {w : Words} {i : Nat} (h : i / 32 < w.length) :
    ∃ w', w.setOn i = .ok w' ∧ w'.length = w.length ∧ ∀ j, w'.bit j = (decide (j = i) || w.bit j) := by
  unfold setOn
  rw [List.getElem?_eq_getElem h]
  refine ⟨_, rfl, by simp, fun j => ?_⟩
  rw [bit_set h]
  have hm : j % 32 < 32 := Nat.mod_lt _ (by decide)
  split
  · rename_i hj
    rw [BitVec.getLsbD_or, getLsbD_mask _ _ hm]
    have : w.bit j = (w[i / 32]).getLsbD (j % 32) := by
      unfold bit; rw [hj, List.getElem?_eq_getElem h]; rfl
    rw [this, Bool.or_comm]
    congr 1
    rw [decide_eq_decide]
    constructor
    · intro e; exact eq_of_div_mod hj e
    · intro e; rw [e]
  · rename_i hj
    have : j ≠ i := fun e => hj (by rw [e])
    simp [this]

theorem setOff_of_lt {w : Words} {i : Nat} (h : i / 32 < w.length) :
    ∃ w', w.setOff i = .ok w' ∧ w'.length = w.length ∧
      ∀ j, w'.bit j = (!decide (j = i) && w.bit j) := by
  unfold setOff
  rw [List.getElem?_eq_getElem h]
  refine ⟨_, rfl, by simp, fun j => ?_⟩
  rw [bit_set h]
  have hm : j % 32 < 32 := Nat.mod_lt _ (by decide)
  split
  · rename_i hj
    rw [BitVec.getLsbD_and, BitVec.getLsbD_not, getLsbD_mask _ _ hm]
    have : w.bit j = (w[i / 32]).getLsbD (j % 32) := by
      unfold bit; rw [hj, List.getElem?_eq_getElem h]; rfl
    rw [this, Bool.and_comm]
    congr 1
    simp only [hm, decide_true, Bool.true_and]
    congr 1
    rw [decide_eq_decide]
    constructor
    · intro e; exact eq_of_div_mod hj e
    · intro e; rw [e]
  · rename_i hj
    have : j ≠ i := fun e => hj (by rw [e])
    simp [this]

theorem toggle_of_lt {w : Words} {i : Nat} (h : i / 32 < w.length) :
    ∃ w', w.toggle i = .ok w' ∧ w'.length = w.length ∧
      ∀ j, w'.bit j = (decide (j = i) ^^ w.bit j) := by
  unfold toggle
  rw [List.getElem?_eq_getElem h]
  refine ⟨_, rfl, by simp, fun j => ?_⟩
  rw [bit_set h]
  have hm : j % 32 < 32 := Nat.mod_lt _ (by decide)
  split
  · rename_i hj
    rw [BitVec.getLsbD_xor, getLsbD_mask _ _ hm]
    have : w.bit j = (w[i / 32]).getLsbD (j % 32) := by
      unfold bit; rw [hj, List.getElem?_eq_getElem h]; rfl
    rw [this, Bool.xor_comm]
    congr 1
    rw [decide_eq_decide]
    constructor
    · intro e; exact eq_of_div_mod hj e
    · intro e; rw [e]
  · rename_i hj
    have : j ≠ i := fun e => hj (by rw [e])
    simp [this]

theorem bit_append_zeros (w : Words) (n i : Nat) :
    Words.bit (w ++ List.replicate n 0#32) i = w.bit i := by
  unfold bit
  by_cases h : i / 32 < w.length
  · rw [List.getElem?_append_left h]
  · rw [List.getElem?_append_right (by omega), List.getElem?_eq_none (l := w) (by omega)]
    rw [List.getElem?_replicate]
    split <;> simp

theorem bit_alloc (n i : Nat) : (alloc n).bit i = false := by
  unfold bit alloc
  rw [List.getElem?_replicate]
  split <;> simp

theorem length_alloc (n : Nat) : (alloc n).length = getLen n := by simp [alloc]

theorem bit_of_ge {w : Words} {i : Nat} (h : w.length ≤ i / 32) : w.bit i = false := by
  unfold bit; rw [List.getElem?_eq_none h]; simp

theorem realloc_of {w : Words} {o n : Nat} (hl : w.length = getLen o) (h : o ≤ n) :
    ∃ w', w.realloc o n = .ok w' ∧ w'.length = getLen n ∧ ∀ i, w'.bit i = w.bit i := by
  unfold realloc
  have hle : getLen o ≤ getLen n := by unfold getLen; omega
  by_cases he : getLen o = getLen n
  · exact ⟨w, by simp [he], by omega, fun _ => rfl⟩
  · have h1 : ¬ getLen n < getLen o := by omega
    refine ⟨w ++ List.replicate (getLen n - getLen o) 0#32, ?_, ?_, fun i => bit_append_zeros _ _ _⟩
    · have ht : w.take (getLen o) = w := List.take_of_length_le (by omega)
      simp [he, h1, dealloc, hl, ht]
    · simp; omega

theorem div_lt_getLen {i n : Nat} (h : i < n) : i / 32 < getLen n := by
  unfold getLen; omega

end Words
end Ecs
