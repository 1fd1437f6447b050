import Verif.Spec.Cost
import Verif.Spec.Undo

/-! Vocabulary for C113: how many tags and order groups the calls of a program examine. -/

namespace Ecs.Spec

/-- Exactly `n` numbers have the property. -/
def Count (P : Nat → Prop) (n : Nat) : Prop := ∃ l : List Nat, l.Nodup ∧ l.length = n ∧ ∀ x, x ∈ l ↔ P x

/-- The number of `destroy_entity` calls. -/
def destructions : List Event → Nat
  | [] => 0
  | .destroyed _ :: h => destructions h + 1
  | _ :: h => destructions h

/-- The executions of `LooseExec` with the count of all their calls. -/
inductive LooseCounted (U : Universe) (dbg : Bool) (cap : Nat) : List Event → Store → Work → Prop
  | init {s} : Store.withCapacity dbg cap = .ok s → LooseCounted U dbg cap [] s {}
  | step {h s s' w v} (ev : Event) : LooseCounted U dbg cap h s w → Loose (world h) ev → Takes U dbg s ev s' v →
      LooseCounted U dbg cap (ev :: h) s' (w + v)

end Ecs.Spec
