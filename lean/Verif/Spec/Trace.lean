import Verif.Spec.Agree
import Verif.Spec.VisitOrder

/-! Vocabulary for C112: calls after which the entities that had components are still where they were. -/

namespace Ecs.Spec

/-- None of these calls after the history `h` adds components to an entity that had components after `h`, takes any away from such an
entity, or destroys it. (They may assign to its components, tag it, and put it into groups. They may do anything with entities that
had no components after `h`, for example with all new ones.) -/
def LeavesInPlace (h calls : List Event) : Prop := ∀ ev ∈ calls, movesNothing ev = true ∨ subject ev ∉ furnished h

instance (h calls : List Event) : Decidable (LeavesInPlace h calls) := by unfold LeavesInPlace; infer_instance

/-- The entities these calls are about. -/
def subjects (calls : List Event) : List Entity := calls.map subject

end Ecs.Spec
