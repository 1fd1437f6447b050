import Verif.Model.Address

/-! What an allocator guarantees, and when a reference is aligned. -/

namespace Ecs.Spec

/-- The allocator put `n` blocks of the requested size and alignment at the addresses `base`: no block is at
address 0, and no two share a byte. -/
def Allocated (m : MemLayout) (n : Nat) (base : Nat → Nat) : Prop :=
  (∀ p < n, 0 < base p ∧ base p % m.align = 0) ∧
  ∀ p < n, ∀ q < n, p ≠ q → base p + m.size ≤ base q ∨ base q + m.size ≤ base p

instance (m : MemLayout) (n : Nat) (base : Nat → Nat) : Decidable (Allocated m n base) := by
  unfold Allocated; infer_instance

/-- The address of a reference to a component of type `t` is a multiple of the type's alignment. -/
def AlignedAt (U : Universe) (base : Nat → Nat) (t : TypeId) (r : Ref) : Prop := r.address base % U.align t = 0

/-- The bytes of two references do not overlap in memory. -/
def MemApart (base : Nat → Nat) (r r' : Ref) : Prop :=
  r.address base + r.size ≤ r'.address base ∨ r'.address base + r'.size ≤ r.address base

instance (U : Universe) (base : Nat → Nat) (t : TypeId) (r : Ref) : Decidable (AlignedAt U base t r) := by
  unfold AlignedAt; infer_instance

end Ecs.Spec
