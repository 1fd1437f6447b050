import Verif.Spec.Observe
import Verif.Spec.Query
import Verif.Model.Update

/-! Loops that write through the references returned by a query: what they should do. -/

namespace Ecs.Spec

/-- `f` returns values of the right number and sizes for the types `ts`. -/
def Gives (U : Universe) (ts : List TypeId) (vs : List (List UInt8)) : Prop :=
  List.Forall₂ (fun t v => v.length = U.size t) ts vs

/-- What a loop that assigns `f e values` to the components `acc.writes` of each entity of `L` in turn, having read
the components `acc.types`, does to a store: each entity of `L` has the new components, computed from the
values before the loop, and nothing else changes. -/
def Updated (U : Universe) (dbg : Bool) (s s' : Store) (known : List Entity) (acc : Access)
    (f : Entity → List (List Cell) → List (List UInt8)) (L : List Entity) : Prop :=
  (∀ e ∈ L, ∃ vs, s.getComponents U dbg e acc.types = .ok (some vs) ∧
    (acc.writes ≠ [] → s'.getComponents U dbg e acc.writes = .ok (some ((f e vs).map (·.map some)))) ∧
    (∀ t, t ∉ acc.writes → s'.getComponents U dbg e [t] = s.getComponents U dbg e [t]) ∧
    s'.isAlive dbg e = s.isAlive dbg e ∧ s'.getEntityArchetype dbg e = s.getEntityArchetype dbg e) ∧
  (∀ x ∈ known, x ∉ L → SameData U dbg s s' x)

end Ecs.Spec
