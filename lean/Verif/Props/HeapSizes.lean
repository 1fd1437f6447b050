import Verif.Proofs.HeapSizes
import Verif.Props.HeapCalls

/-! Property C87: `layout_of` computes the size of a request without a check. -/

namespace Ecs.Props
open Spec StorePtrs HeapM

variable {U : Universe} {dbg : Bool} {cap : Nat} {quiet : Bool} {ops : List HeapOp} {s : Store}

/-- `layout_of` computes the size exactly and may do so. -/
def Exact (dbg : Bool) (q : Nat × Nat) : Prop := layoutOf dbg q.1 q.2 = .ok (q.1 * q.2)

/-- **C87**, what `layout_of` does, for all arguments: it is exact iff the product is at most `isize::MAX`. -/
theorem C87_layout_exact_iff (dbg : Bool) (size capacity : Nat) :
    layoutOf dbg size capacity = .ok (size * capacity) ↔ size * capacity < 2 ^ 63 := by
  unfold layoutOf
  generalize size * capacity = n
  constructor
  · intro h
    split at h
    · cases h
    · split at h
      · cases h
      · rename_i h2
        have h := Except.ok.inj h
        omega
  · intro h
    rw [if_neg (by simp; omega), Nat.mod_eq_of_lt (by omega), if_neg (by omega)]

/-- **C87**, for stores: whatever is done with a store with a positive initial capacity, as long as its capacity stays below 2^61 and
every archetype has fewer than 2^59 types, no size that the code computes for the allocator overflows or is too large. (The
operations need not come from a program: see `HeapOp`.) -/
theorem C87_store_sizes_partial (dbg : Bool) (hcap : 0 < cap) (ops : List HeapOp) (hops : ∀ op ∈ ops, Makeable op)
    (hc : ops.foldl HeapOp.capacity cap < 2 ^ 61) (hn : ∀ op ∈ ops, ∀ n ∈ op.counts, n < 2 ^ 59) (H : Heap) :
    ∃ H', StorePtrs.life dbg cap ops H = .ok () H' ∧ ∀ q ∈ H'.asked, q ∈ H.asked ∨ Exact dbg q := by
  obtain ⟨H', _, hl, -⟩ := C54_exact_leak dbg hcap ops hops H
  refine ⟨H', hl, ?_⟩
  have := requests_life (P := fun q => q ∈ H.asked ∨ Exact dbg q) dbg (cap := cap) ops
    (.inr ((C87_layout_exact_iff _ _ _).2 (by omega)))
    (fun c hc' => ⟨.inr ((C87_layout_exact_iff _ _ _).2 (by omega)), .inr ((C87_layout_exact_iff _ _ _).2 (by
      unfold Words.getLen; omega))⟩)
    (fun op hop n hm => by
      have := hn op hop n hm
      exact ⟨.inr ((C87_layout_exact_iff _ _ _).2 (by omega)), .inr ((C87_layout_exact_iff _ _ _).2 (by omega))⟩)
    H (fun q hq => .inl hq)
  rw [hl] at this
  exact this.1

/-- **C87**, for all programs that catch panics and whose capacity stays below 2^32. -/
theorem C87_program_sizes_partial (hcap : 0 < cap) (h : HeapExec U dbg cap quiet ops s)
    (hn : ∀ op ∈ ops, ∀ n ∈ op.counts, n < 2 ^ 59) (H : Heap) :
    ∃ H', StorePtrs.life dbg cap ops H = .ok () H' ∧ ∀ q ∈ H'.asked, q ∈ H.asked ∨ Exact dbg q := by
  obtain ⟨hs, hu, hf, -⟩ := Store.heapExec_sized h
  refine C87_store_sizes_partial dbg hcap ops (fun op hop => ?_) ?_ hn H
  · have := hf op hop
    cases op <;> exact this
  · have h1 := capacity_foldl ops ⟨cap, 0, 0, [], [], 5⟩
    have h2 := hs.cap
    dsimp only at h1
    rw [← h1, ← h2]
    omega

/-- **C87**, for resource stores of a type of `size` bytes. -/
theorem C87_resource_sizes_partial {size : Nat} (hs : 0 < size) (hcap : 0 < cap) (ops : List Bool)
    (hc : (ops.map HeapOp.create).foldl HeapOp.capacity cap < 2 ^ 61)
    (he : size * (ops.map HeapOp.create).foldl HeapOp.capacity cap < 2 ^ 63) (H : Heap) :
    ∃ H', ResPtrs.life size cap ops H = .ok () H' ∧ ∀ q ∈ H'.asked, q ∈ H.asked ∨ Exact dbg q := by
  have := ResPtrs.requests_life (P := fun q => q ∈ H.asked ∨ Exact dbg q) (size := size) (cap := cap) ops
    (fun c hc' => ⟨.inr ((C87_layout_exact_iff _ _ _).2 (by omega)), .inr ((C87_layout_exact_iff _ _ _).2 (by
      unfold Words.getLen; omega))⟩)
    (fun c hc' => .inr ((C87_layout_exact_iff _ _ _).2 (Nat.lt_of_le_of_lt (Nat.mul_le_mul_left size hc') he)))
    H (fun q hq => .inl hq)
  obtain ⟨H', _, _, hl, -⟩ := C55_drop_leaks_elements hs hcap ops H
  rw [hl] at this
  exact ⟨H', hl, this.1⟩

/-- **C87** is false of the code for large initial capacities: `Store::with_capacity(c)` asks for `c` entries of 4 bytes, whatever `c`
is. With 2^62 + 1 the request is one of 4 bytes in a release build and an overflow in a debug build; with 2^61 it is one that
must not be made, in all builds. -/
theorem C87_counterexample (hcap : 0 < cap) (H : Heap) :
    (∃ p H', StorePtrs.withCapacity dbg cap H = .ok p H' ∧ (4, cap) ∈ H'.asked) ∧
    layoutOf false 4 (2 ^ 62 + 1) = .ok 4 ∧ layoutOf true 4 (2 ^ 62 + 1) = .error (.panic .arithOverflow) ∧
    layoutOf dbg 4 (2 ^ 61) = .error (.ub .badLayout) := by
  refine ⟨?_, by decide, by decide, by cases dbg <;> decide⟩
  have h0 : cap ≠ 0 := by omega
  have h1 : Words.getLen cap ≠ 0 := by unfold Words.getLen; omega
  simp [withCapacity, EntsPtrs.new, ArchsPtrs.new, pageNew, bitsAlloc, alloc, bind, EStateM.bind, pure, EStateM.pure, h0, h1]

/-- The requests of a short life: a creation that grows the store, an archetype with two types, a tag and a group. -/
example : (∀ op ∈ [HeapOp.create true, .place (some 2) (some (2, 0, true)) true, .tag 0, .group 0], Makeable op) ∧
    (∀ op ∈ [HeapOp.create true, .place (some 2) (some (2, 0, true)) true, .tag 0, .group 0], ∀ n ∈ op.counts, n < 2 ^ 59) ∧
    [HeapOp.create true, .place (some 2) (some (2, 0, true)) true, .tag 0, .group 0].foldl HeapOp.capacity 40 = 80 :=
  ⟨by simp [Makeable], by simp [HeapOp.counts], by decide⟩

/-- The requests so far, oldest first. -/
def requested (r : EStateM.Result Fault Heap Unit) : Option (List (Nat × Nat)) :=
  match r with
  | .ok _ H => some H.asked.reverse
  | .error _ _ => none

example : requested (StorePtrs.life true 40 [.create true, .place none (some (2, 0, true)) true, .tag 0, .group 0] ⟨0, [], []⟩) = some
    [(4, 40), (4, 2), (1, 16384), (1, 16384), (1, 16384), (1, 16384), (1, 16384), (4, 2), (4, 40), (4, 40),
     (4, 80), (4, 3), (4, 80), (4, 80), (4, 3), (8, 2), (16, 2), (8, 2), (8, 2), (16, 2), (1, 16384), (4, 3), (4, 80), (4, 80)] := by
  decide +kernel

/-- A resource store of a type of 24 bytes. -/
example : requested (ResPtrs.life 24 1 [false, true, true] ⟨0, [], []⟩) = some
    [(24, 1), (4, 1), (4, 1), (4, 2), (24, 2), (4, 4), (24, 4)] := by decide +kernel

end Ecs.Props
