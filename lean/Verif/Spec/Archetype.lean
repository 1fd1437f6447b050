import Verif.Model.Archetype

/-! Specification of archetypes: the ways an archetype can be built through the public API, and the set
expression described by a sequence of `ArchetypeBuilder` calls. -/

namespace Ecs.Spec

/-- Calls on an `ArchetypeBuilder`. -/
inductive BuilderOp where
  /-- `include_components::<T>()`, `T` any tuple (repetitions allowed) -/
  | includeTypes (ts : List TypeId)
  /-- `exclude_components::<T>()` -/
  | excludeTypes (ts : List TypeId)
  /-- `include_archetype(&a)` -/
  | includeArchetype (a : Archetype)
  /-- `build()`, whose result is discarded -/
  | build

/-- The effect of one call on the builder. -/
def BuilderOp.run (U : Universe) (b : ArchetypeBuilder) : BuilderOp → Res ArchetypeBuilder
  | .includeTypes ts => .ok (b.includeComponents U ts)
  | .excludeTypes ts => .ok (b.excludeComponents U ts)
  | .includeArchetype a => .ok (b.includeArchetype a)
  | .build => do let (_, b') ← b.build; return b'

/-- A sequence of calls (first call first). -/
def runBuilder (U : Universe) (b : ArchetypeBuilder) : List BuilderOp → Res ArchetypeBuilder
  | [] => .ok b
  | op :: ops => do let b' ← op.run U b; runBuilder U b' ops

/-- Unions and differences applied in call order. -/
def exprSet (S : TypeId → Prop) : List BuilderOp → (TypeId → Prop)
  | [] => S
  | .includeTypes ts :: ops => exprSet (fun t => S t ∨ t ∈ ts) ops
  | .excludeTypes ts :: ops => exprSet (fun t => S t ∧ t ∉ ts) ops
  | .includeArchetype a :: ops => exprSet (fun t => S t ∨ t ∈ a.ids) ops
  | .build :: ops => exprSet S ops

/-- Archetypes obtainable through the public API: from a tuple of distinct types, or from a builder fed
with types and obtainable archetypes. -/
inductive Built (U : Universe) : Archetype → Prop
  | tuple (ts : List TypeId) {a : Archetype} : ts.Nodup → Archetype.withComponents U ts = .ok a →
      Built U a
  | builder (ops : List BuilderOp) {b b' : ArchetypeBuilder} {a : Archetype} :
      (∀ x, .includeArchetype x ∈ ops → Built U x) →
      runBuilder U .new ops = .ok b → b.build = .ok (a, b') → Built U a

end Ecs.Spec
