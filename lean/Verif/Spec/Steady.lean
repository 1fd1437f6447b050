import Verif.Spec.HeapCalls
import Verif.Spec.MarkCost
import Verif.Spec.Panics

/-! Vocabulary for C125: how much memory a store needs that is used for ever. -/

namespace Ecs.Spec

/-- The component type was given to some entity, at its creation or later. -/
def typeNamed (h : List Event) (t : Nat) : Prop :=
  (∃ e ts init, .createdWith e ts init ∈ h ∧ t ∈ ts) ∨ ∃ e vals, .added e vals ∈ h ∧ t ∈ vals.map (·.1)

/-- A number of bytes that suffices for a store created with room for `cap` entities of which at most `live` are alive at a time, that
have `types` component types, `tags` tags and `groups` order groups. -/
def steadyBytes (cap live types tags groups : Nat) : Nat :=
  let room := max cap (2 * live)
  12 * room + 4 * (2 + tags) * bitWords room + 8 * groups * room + 56 * types * (live + 2) + 16384 * (2 * live + 5)

end Ecs.Spec
