import Verif.Model.ResourceStore

/-! Specification of `ResourceStore`: histories of API calls with the values they moved in and out. -/

namespace Ecs.Spec

/-- Calls that returned normally. -/
inductive ResEvent (α : Type) where
  /-- `create(v)` returned handle `e` -/
  | created (e : Entity) (v : α)
  /-- `release(e)` returned the value `v` -/
  | released (e : Entity) (v : α)
  /-- `store[e] = new` ran, dropping the value `old` -/
  | assigned (e : Entity) (old new : α)

variable {α : Type}

/-- All handles issued (newest first). -/
def resIssued : List (ResEvent α) → List Entity
  | [] => []
  | .created e _ :: h => e :: resIssued h
  | _ :: h => resIssued h

/-- The map from live handles to values described by a history (newest event first). -/
def resMap : List (ResEvent α) → Entity → Option α
  | [], _ => none
  | .created e v :: h, x => if x = e then some v else resMap h x
  | .released e _ :: h, x => if x = e then none else resMap h x
  | .assigned e _ new :: h, x => if x = e then some new else resMap h x

/-- The last value stored in the cell with index `i`. -/
def lastStored : List (ResEvent α) → Nat → Option α
  | [], _ => none
  | .created e v :: h, i => if i = e.id then some v else lastStored h i
  | .released _ _ :: h, i => lastStored h i
  | .assigned e _ new :: h, i => if i = e.id then some new else lastStored h i

/-- Values handed to the store. -/
def valuesIn : List (ResEvent α) → List α
  | [] => []
  | .created _ v :: h => v :: valuesIn h
  | .released _ _ :: h => valuesIn h
  | .assigned _ _ new :: h => new :: valuesIn h

/-- Values that left the store: returned by `release` or dropped by an assignment. -/
def valuesOut : List (ResEvent α) → List α
  | [] => []
  | .created _ _ :: h => valuesOut h
  | .released _ v :: h => v :: valuesOut h
  | .assigned _ old _ :: h => old :: valuesOut h

/-- `ResExec dbg cap h r`: a store created by `ResourceStore::with_capacity(cap)`, or by
`ResourceStore::new()` for `cap = 0`, reaches state `r` with history `h`. In debug builds every call may
be made with any handle value (calls that panic leave no event and change nothing); in release builds
only with live handles. -/
inductive ResExec (dbg : Bool) (cap : Nat) : List (ResEvent α) → ResStore α → Prop
  | init : ResExec dbg cap [] (ResStore.withCapacity cap)
  | create {h r r' e} (v : α) : ResExec dbg cap h r → r.create dbg v = .ok (r', e) →
      ResExec dbg cap (.created e v :: h) r'
  | release {h r r' v} (e : Entity) : ResExec dbg cap h r → r.release dbg e = .ok (r', v) →
      (dbg = true ∨ (resMap h e).isSome) → ResExec dbg cap (.released e v :: h) r'
  | assign {h r r' old} (e : Entity) (new : α) : ResExec dbg cap h r →
      r.assign dbg e new = .ok (r', old) → (dbg = true ∨ (resMap h e).isSome) →
      ResExec dbg cap (.assigned e old new :: h) r'

end Ecs.Spec
