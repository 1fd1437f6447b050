import Verif.Model.TypeNames
import Verif.Spec.Archetype

/-! The ways to obtain an archetype, with names. -/

namespace Ecs.Spec

/-- Calls on an `ArchetypeBuilder`. -/
inductive NamedOp where
  | includeTypes (ts : List TypeId)
  | excludeTypes (ts : List TypeId)
  | includeArchetype (a : NamedArchetype)
  | build

def NamedOp.run (U : Universe) (N : TypeId → String) (b : NamedBuilder) : NamedOp → Res NamedBuilder
  | .includeTypes ts => .ok (b.includeComponentTypes (ts.map (NamedType.of U N)))
  | .excludeTypes ts => .ok (b.excludeComponentTypes (ts.map (NamedType.of U N)))
  | .includeArchetype a => b.includeArchetype a
  | .build => do let (_, b') ← b.build; return b'

def runNamed (U : Universe) (N : TypeId → String) (b : NamedBuilder) : List NamedOp → Res NamedBuilder
  | [] => .ok b
  | op :: ops => do let b' ← op.run U N b; runNamed U N b' ops

/-- Archetypes obtainable through the public API: from a tuple of distinct types, from a builder, or as a clone. -/
inductive Named (U : Universe) (N : TypeId → String) : NamedArchetype → Prop
  | tuple (ts : List TypeId) {a : NamedArchetype} : ts.Nodup → NamedArchetype.withComponents U N ts = .ok a → Named U N a
  | builder (ops : List NamedOp) {b b' : NamedBuilder} {a : NamedArchetype} : (∀ x, .includeArchetype x ∈ ops → Named U N x) →
      runNamed U N .new ops = .ok b → b.build = .ok (a, b') → Named U N a
  | copy {a a' : NamedArchetype} : Named U N a → a.clone = .ok a' → Named U N a'

/-- The same archetype without the names. -/
def nameless (a : NamedArchetype) : Archetype := { ids := a.ids, sizes := a.sizes, aligns := a.aligns }

/-- The same call without the names. -/
def NamedOp.nameless : NamedOp → BuilderOp
  | .includeTypes ts => .includeTypes ts
  | .excludeTypes ts => .excludeTypes ts
  | .includeArchetype a => .includeArchetype (Spec.nameless a)
  | .build => .build

end Ecs.Spec
