import Verif.Spec.EntsExec

/-! Programs that create entities without destroying any. -/

namespace Ecs.Spec

/-- The history of `n` creations that return the handles with ids 0, 1, …, `n - 1`, each for the first time. -/
def firstCreations : Nat → History
  | 0 => []
  | n + 1 => .created ⟨n, 1⟩ :: firstCreations n

/-- The capacity one expects after `n` creations without destructions: it doubles when it is exhausted. -/
def expectedCapacity (cap : Nat) : Nat → Nat
  | 0 => cap
  | n + 1 => if n < expectedCapacity cap n then expectedCapacity cap n else 2 * max (expectedCapacity cap n) 1

end Ecs.Spec
