import Verif.Spec.Handles

/-! Executions of the entities container, with the observable history they produce. -/

namespace Ecs.Spec

/-- `EntsExec dbg cap h c`: a container created with capacity `cap` can reach state `c` through calls
that returned normally and produced the history `h`. In debug builds `destroy_entity` may be called
with any handle value whatsoever (a call that panics changes nothing and leaves no event); in release
builds, where the handle is not checked, only with live handles. -/
inductive EntsExec (dbg : Bool) (cap : Nat) : History → Ents → Prop
  | init : EntsExec dbg cap [] (Ents.new cap)
  | create {h c c' cr} : EntsExec dbg cap h c → c.create dbg = .ok (c', cr) →
      EntsExec dbg cap (.created cr.entity :: h) c'
  | destroy {h c c'} (e : Entity) : EntsExec dbg cap h c → c.destroy dbg e = .ok c' →
      (dbg = true ∨ e ∈ live h) → EntsExec dbg cap (.destroyed e :: h) c'

end Ecs.Spec
