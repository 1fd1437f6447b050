import Verif.Spec.Archetype
import Verif.Model.BuilderMemory

/-! Sequences of calls on an `ArchetypeBuilder`, with the memory of its vector. -/

namespace Ecs.Spec

/-- The effect of one call. -/
def BuilderOp.runVec (policy : Nat → Nat → Nat) (U : Universe) (v : BuilderVec) : BuilderOp → Except BuilderPanic BuilderVec
  | .includeTypes ts => v.includeComponentTypes policy (ts.map (ComponentType.of U))
  | .excludeTypes ts => .ok (v.excludeComponentTypes (ts.map (ComponentType.of U)))
  | .includeArchetype a => v.includeArchetype policy a
  | .build => v.build

/-- A sequence of calls (first call first). -/
def runVec (policy : Nat → Nat → Nat) (U : Universe) (v : BuilderVec) : List BuilderOp → Except BuilderPanic BuilderVec
  | [] => .ok v
  | op :: ops => do let v' ← op.runVec policy U v; runVec policy U v' ops

/-- The call is one of `include_archetype`. -/
def BuilderOp.isArchetype : BuilderOp → Bool
  | .includeArchetype _ => true
  | _ => false

/-- The types a call includes. -/
def BuilderOp.named : BuilderOp → List TypeId
  | .includeTypes ts => ts
  | .includeArchetype a => a.ids
  | _ => []

/-- What `Vec` promises: the new capacity is at least the required one. -/
def Promised (policy : Nat → Nat → Nat) : Prop := ∀ cap required, required ≤ policy cap required

end Ecs.Spec
