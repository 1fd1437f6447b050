import Verif.Model.LinkRefs

/-! When a sequence of accesses respects the exclusiveness of mutable references. -/

namespace Ecs.Spec

/-- The references that can still be used, with the links they refer to, and the accesses to come. A reference can be used
until the link it refers to is accessed in any other way: directly, or by taking another reference to it. -/
def usable : List (LinkVar × Link) → List Use → Bool
  | _, [] => true
  | live, .borrow v l :: us => usable ((v, l) :: live.filter fun p => p.1 ≠ v ∧ p.2 ≠ l) us
  | live, .raw l :: us => usable (live.filter fun p => p.2 ≠ l) us
  | live, .via v :: us => live.any (fun p => p.1 = v) && usable live us

/-- No reference is used after its link was accessed in another way. -/
def Exclusive (us : List Use) : Prop := usable [] us = true

instance (us : List Use) : Decidable (Exclusive us) := inferInstanceAs (Decidable (_ = true))

/-- Another link may be written while a reference is in use. -/
example : Exclusive [.borrow .fwd ⟨0, true, 3⟩, .raw ⟨0, true, 4⟩, .via .fwd] := by decide

/-- The same link must not. -/
example : ¬ Exclusive [.borrow .fwd ⟨0, true, 3⟩, .raw ⟨0, true, 3⟩, .via .fwd] := by decide

/-- A second reference to the same link ends the first one, even if only the second one is used for a while. -/
example : Exclusive [.borrow .fwdEntityId ⟨0, true, 3⟩, .borrow .fwdAfterId ⟨0, true, 3⟩, .via .fwdAfterId] ∧
    ¬ Exclusive [.borrow .fwdEntityId ⟨0, true, 3⟩, .borrow .fwdAfterId ⟨0, true, 3⟩, .via .fwdAfterId, .via .fwdEntityId] := by
  decide

end Ecs.Spec
