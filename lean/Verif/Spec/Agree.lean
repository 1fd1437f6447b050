import Verif.Spec.Query

/-! Vocabulary for comparing queries with one another (C111). -/

namespace Ecs.Spec

/-- A handle about which an entity query cannot be misled: inside the memory of the store, with an id that had components at
some time (or is among the first `cap`), and given components if it is alive. -/
def Usable (cap : Nat) (h : List Event) (s : Store) (e : Entity) : Prop :=
  e.id < s.ents.capacity ∧ (e.id < cap ∨ e.id ∈ stored h) ∧ (e ∈ alive h → e ∈ given h)

instance (cap : Nat) (h : List Event) (s : Store) (e : Entity) : Decidable (Usable cap h s e) := by
  unfold Usable; infer_instance

/-- The live entities that were given components, the newest first. -/
def furnished (h : List Event) : List Entity := (alive h).filter fun e => decide (e ∈ given h)

end Ecs.Spec
