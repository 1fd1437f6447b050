import Verif.Model.Entities

/-! Specification of entity handles: histories of creations and destructions and what they mean.
Nothing here refers to how the container stores its data. -/

namespace Ecs.Spec

/-- What an observer of the API sees: a handle was returned by a creation, or a destruction of a
handle returned normally. -/
inductive EntEvent where
  | created (e : Entity)
  | destroyed (e : Entity)
deriving DecidableEq, Repr

/-- A history, newest event first. -/
abbrev History := List EntEvent

/-- All handles issued during a history (newest first). -/
def issued : History → List Entity
  | [] => []
  | .created e :: h => e :: issued h
  | .destroyed _ :: h => issued h

/-- Handles created and not yet destroyed. -/
def live : History → List Entity
  | [] => []
  | .created e :: h => e :: live h
  | .destroyed e :: h => (live h).erase e

/-- The largest number of simultaneously live handles. -/
def peak : History → Nat
  | [] => 0
  | ev :: h => max (live (ev :: h)).length (peak h)

end Ecs.Spec
