import Verif.Model.Mem

/-! Comparing the two builds of one function. -/

namespace Ecs.Spec

/-- `rd` and `rr` are the outcomes of a call in a debug and in a release build: they are the same (be it a return, a panic
or undefined behaviour), or the debug build panics at a `debug_assert!` or at an overflow check. -/
def Stricter {α : Type} (rd rr : Res α) : Prop :=
  rr = rd ∨ rd = .error (.panic .debugAssert) ∨ rd = .error (.panic .arithOverflow)

example : Stricter (.ok 3 : Res Nat) (.ok 3) ∧ Stricter (.error (.panic .debugAssert) : Res Nat) (.ok 3) ∧
    ¬ Stricter (.ok 3 : Res Nat) (.ok 4) ∧ ¬ Stricter (.error (.panic .divByZero) : Res Nat) (.ok 4) := by
  refine ⟨.inl rfl, .inr (.inl rfl), ?_, ?_⟩ <;> rintro (h | h | h) <;> cases h

end Ecs.Spec
