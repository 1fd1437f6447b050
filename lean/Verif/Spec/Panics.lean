import Verif.Spec.World
import Verif.Spec.Tags

/-! When calls panic: the component sets the store cannot find a place for. -/

namespace Ecs.Spec

/-- Every tuple passed to `add_components` so far had distinct types. -/
def DistinctAdds (h : List Event) : Prop := ∀ e vals, .added e vals ∈ h → (vals.map (·.1)).Nodup

/-- The component types of `e`, as reported by `get_entity_archetype` (none if it reports nothing). -/
def heldTypes (dbg : Bool) (s : Store) (e : Entity) : List TypeId :=
  match s.getEntityArchetype dbg e with
  | .ok (some a) => a.ids
  | _ => []

/-- Component set `T` has no place in the store: no registered archetype has it, and there is no archetype or no layout
for it. -/
def NoPlace (U : Universe) (dbg : Bool) (s : Store) (T : List TypeId) : Prop :=
  (∀ a ∈ s.archs.archetypes, ¬ ∀ t, t ∈ a.ids ↔ t ∈ T) ∧ rowsPerPage U dbg T = none

/-- No debug assertion can fail for lack of rows: this is a release build, or pages have rows for set `T`. -/
def RowsIfDebug (U : Universe) (dbg : Bool) (T : List TypeId) : Prop := dbg = true → rowsPerPage U dbg T ≠ some 0

end Ecs.Spec
