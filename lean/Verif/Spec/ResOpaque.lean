import Verif.Spec.Resource
import Verif.Spec.Opaque
import Verif.Spec.Alloc

/-! Vocabulary for C116: whole programs that use a `ResourceStore`, as functions of their calls. -/

namespace Ecs.Spec

/-- The calls. -/
inductive ResCall (α : Type) where
  | create (v : α)
  | release (e : Entity)
  | read (e : Entity)
  | assign (e : Entity) (v : α)

/-- What a call gives to the program: a handle, or the value released, read or replaced. -/
inductive ResResult (α : Type) where
  | handle (e : Entity)
  | value (v : α)

variable {α β : Type}

/-- One call. -/
def resCall (dbg : Bool) (r : ResStore α) : ResCall α → Res (ResStore α × ResResult α)
  | .create v => do let (r, e) ← r.create dbg v; return (r, .handle e)
  | .release e => do let (r, v) ← r.release dbg e; return (r, .value v)
  | .read e => do let v ← r.index dbg e; return (r, .value v)
  | .assign e v => do let (r, old) ← r.assign dbg e v; return (r, .value old)

/-- The results of the calls, first call first, and the values dropped with the store at the end. -/
def resRest (dbg : Bool) : ResStore α → List (ResCall α) → Res (List (ResResult α) × List α)
  | r, [] => do let d ← r.drop; return ([], d)
  | r, c :: cs => do
    let (r, x) ← resCall dbg r c
    let (xs, d) ← resRest dbg r cs
    return (x :: xs, d)

/-- A program: a store of capacity `cap`, the calls, and the end of the store. -/
def resProgram (dbg : Bool) (cap : Nat) (cs : List (ResCall α)) : Res (List (ResResult α) × List α) :=
  resRest dbg (ResStore.withCapacity cap) cs

/-- The same call with a related value. -/
inductive ResCallLike (R : α → β → Prop) : ResCall α → ResCall β → Prop
  | create {v w} : R v w → ResCallLike R (.create v) (.create w)
  | release (e) : ResCallLike R (.release e) (.release e)
  | read (e) : ResCallLike R (.read e) (.read e)
  | assign (e) {v w} : R v w → ResCallLike R (.assign e v) (.assign e w)

/-- The same handle, or related values. -/
inductive ResResultLike (R : α → β → Prop) : ResResult α → ResResult β → Prop
  | handle (e) : ResResultLike R (.handle e) (.handle e)
  | value {v w} : R v w → ResResultLike R (.value v) (.value w)

/-- The call with other values. -/
def ResCall.map (f : α → β) : ResCall α → ResCall β
  | .create v => .create (f v)
  | .release e => .release e
  | .read e => .read e
  | .assign e v => .assign e (f v)

/-- The result with other values. -/
def ResResult.map (f : α → β) : ResResult α → ResResult β
  | .handle e => .handle e
  | .value v => .value (f v)

/-- The creations and releases as a history of handles. -/
def resEntHistory : List (ResEvent α) → History
  | [] => []
  | .created e _ :: h => .created e :: resEntHistory h
  | .released e _ :: h => .destroyed e :: resEntHistory h
  | .assigned _ _ _ :: h => resEntHistory h

end Ecs.Spec
