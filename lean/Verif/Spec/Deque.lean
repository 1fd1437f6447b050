import Verif.Spec.Sorting

/-! An order group used as a double-ended queue; the programs only use the functions of the store. -/

namespace Ecs.Spec

/-- What a client does with a double-ended queue of entities. -/
inductive QueueOp where
  | pushBack (e : Entity)
  | pushFront (e : Entity)
  | popFront
  | popBack
  deriving DecidableEq

/-- The operation on a list, and what it hands out. -/
def QueueOp.onList (l : List Entity) : QueueOp → List Entity × Option Entity
  | .pushBack e => (l ++ [e], none)
  | .pushFront e => (e :: l, none)
  | .popFront => (l.tail, l.head?)
  | .popBack => (l.dropLast, l.getLast?)

/-- The operation on group `g` of a store. To put an entity in front of a group that is not empty, it is put before the first member. -/
def QueueOp.onGroup (dbg : Bool) (g : Nat) (s : Store) : QueueOp → Res (Store × Option Entity)
  | .pushBack e => do return (← s.addOrder dbg g e, none)
  | .pushFront e => do
    match ← s.getFirstOrdered g with
    | none => return (← s.addOrder dbg g e, none)
    | some x => return (← s.addOrderPreviousTo dbg g e x, none)
  | .popFront => do
    match ← s.getFirstOrdered g with
    | none => return (s, none)
    | some x => return (← s.removeOrder g x, some x)
  | .popBack => do
    match ← s.getLastOrdered g with
    | none => return (s, none)
    | some x => return (← s.removeOrder g x, some x)

/-- Operations one after the other on a list: the list in the end and everything handed out. -/
def queueList : List QueueOp → List Entity → List Entity × List (Option Entity)
  | [], l => (l, [])
  | op :: ops, l => ((queueList ops (op.onList l).1).1, (op.onList l).2 :: (queueList ops (op.onList l).1).2)

/-- The same on group `g` of a store. -/
def queueGroup (dbg : Bool) (g : Nat) : List QueueOp → Store → Res (Store × List (Option Entity))
  | [], s => .ok (s, [])
  | op :: ops, s => do
    let (s, o) ← op.onGroup dbg g s
    let (s, os) ← queueGroup dbg g ops s
    return (s, o :: os)

/-- Only entities of `live` are put into the queue, and only while they are not in it. -/
def QueueUse (live : List Entity) : List QueueOp → List Entity → Prop
  | [], _ => True
  | op :: ops, l => (∀ e, op = .pushBack e ∨ op = .pushFront e → e ∈ live ∧ e ∉ l) ∧ QueueUse live ops (op.onList l).1

end Ecs.Spec
