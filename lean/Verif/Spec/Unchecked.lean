import Verif.Spec.EntsExec
import Verif.Spec.World
import Verif.Spec.Tags

/-! Programs that pass any handles to `destroy_entity`, dead ones included, and any arguments to all other calls. -/

namespace Ecs.Spec

/-- Executions of the entities container in a release build, where `destroy_entity` may get any handle that was returned by
`create_entity`, alive or not, any number of times. -/
inductive AnyExec (cap : Nat) : History → Ents → Prop
  | init : AnyExec cap [] (Ents.new cap)
  | create {h c c' cr} : AnyExec cap h c → c.create false = .ok (c', cr) → AnyExec cap (.created cr.entity :: h) c'
  | destroy {h c c'} (e : Entity) : AnyExec cap h c → c.destroy false e = .ok c' → e ∈ issued h →
      AnyExec cap (.destroyed e :: h) c'

/-- How many handles with id `i` were returned. -/
def births (i : Nat) (h : History) : Nat := ((issued h).filter fun e => e.id = i).length

/-- How many creations and destructions of handles with id `i` there were. -/
def flips (i : Nat) : History → Nat
  | [] => 0
  | .created e :: h => (if e.id = i then 1 else 0) + flips i h
  | .destroyed e :: h => (if e.id = i then 1 else 0) + flips i h

/-- The newest handle with id `i`. -/
def lastWithId (i : Nat) (h : History) : Option Entity := (issued h).find? fun e => e.id = i

/-- Executions of the store with any arguments in any call; only handles given to `destroy_entity` must have been returned
by the store. -/
inductive FreeExec (U : Universe) (dbg : Bool) (cap : Nat) : List Event → Store → Prop
  | init {s} : Store.withCapacity dbg cap = .ok s → FreeExec U dbg cap [] s
  | step {h s s'} (ev : Event) : FreeExec U dbg cap h s → (∀ e, ev = .destroyed e → e ∈ handles h) →
      Returns U dbg s ev s' → FreeExec U dbg cap (ev :: h) s'

/-- The creations and destructions of a history. -/
def lifecycle : List Event → History
  | [] => []
  | .created e :: h => .created e :: lifecycle h
  | .createdWith e _ _ :: h => .created e :: lifecycle h
  | .destroyed e :: h => .destroyed e :: lifecycle h
  | _ :: h => lifecycle h

end Ecs.Spec
