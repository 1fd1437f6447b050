import Verif.Spec.Observe

/-! What happened to one entity: the calls of a history that were made with its handle. -/

namespace Ecs.Spec

/-- A call, without the handle it was made with. Calls about order groups are not included. -/
inductive Deed where
  | create
  | createWith (ts : List TypeId) (init : TypeId → List Cell)
  | destroy
  | add (vals : TupleVal)
  | remove (ts : List TypeId)
  | assign (vals : TupleVal)
  | tag (tag : Nat)
  | untag (tag : Nat)

/-- What the call did to `e`, if it was made with this handle or returned it. -/
def deed (e : Entity) : Event → Option Deed
  | .created x => if x = e then some .create else none
  | .createdWith x ts init => if x = e then some (.createWith ts init) else none
  | .destroyed x => if x = e then some .destroy else none
  | .added x vals => if x = e then some (.add vals) else none
  | .removed x ts => if x = e then some (.remove ts) else none
  | .assigned x vals => if x = e then some (.assign vals) else none
  | .tagged t x => if x = e then some (.tag t) else none
  | .untagged t x => if x = e then some (.untag t) else none
  | _ => none

/-- The life of `e`: all that was done with this handle, newest first. -/
def life (e : Entity) (h : List Event) : List Deed := h.filterMap (deed e)

end Ecs.Spec
