import Verif.Spec.World

/-! Tags and order groups as functions of the history alone. -/

namespace Ecs.Spec

/-- Whether the last tag call for `tag` on `e` in the history (newest first) was an addition. -/
def lastTag (tag : Nat) (e : Entity) : List Event → Bool
  | [] => false
  | .tagged t x :: h => if t = tag ∧ x = e then true else lastTag tag e h
  | .untagged t x :: h => if t = tag ∧ x = e then false else lastTag tag e h
  | _ :: h => lastTag tag e h

/-- The handles created in a history and not destroyed in it. -/
def alive : List Event → List Entity
  | [] => []
  | .created e :: h => e :: alive h
  | .createdWith e _ _ :: h => e :: alive h
  | .destroyed e :: h => (alive h).erase e
  | _ :: h => alive h

/-- All handles returned by creation calls, newest first. -/
def handles : List Event → List Entity
  | [] => []
  | .created e :: h => e :: handles h
  | .createdWith e _ _ :: h => e :: handles h
  | _ :: h => handles h

/-- The sequence of group `g`: the calls replayed on a list. -/
def sequence (g : Nat) : List Event → List Entity
  | [] => []
  | .orderedLast g' e :: h => if g' = g then sequence g h ++ [e] else sequence g h
  | .orderedAfter g' e x :: h => if g' = g then insertAfter x e (sequence g h) else sequence g h
  | .orderedBefore g' e x :: h => if g' = g then insertBefore x e (sequence g h) else sequence g h
  | .unordered g' e :: h => if g' = g then (sequence g h).erase e else sequence g h
  | .destroyed e :: h => (sequence g h).erase e
  | _ :: h => sequence g h

/-- Following `get_next_entity_ordered_by` from `o` until it returns nothing passes through the
handles of `l`, in this order. -/
inductive WalksForward (s : Store) (g : Nat) : Option Entity → List Entity → Prop
  | done : WalksForward s g none []
  | step {e : Entity} {o : Option Entity} {l : List Entity} : s.getNextOrdered g e = .ok o →
      WalksForward s g o l → WalksForward s g (some e) (e :: l)

/-- The same for `get_previous_entity_ordered_by`. -/
inductive WalksBackward (s : Store) (g : Nat) : Option Entity → List Entity → Prop
  | done : WalksBackward s g none []
  | step {e : Entity} {o : Option Entity} {l : List Entity} : s.getPreviousOrdered g e = .ok o →
      WalksBackward s g o l → WalksBackward s g (some e) (e :: l)

/-- `e` is read as being in no position of group `g`. -/
def NotInGroup (s : Store) (g : Nat) (e : Entity) : Prop :=
  s.getNextOrdered g e = .ok none ∧ s.getPreviousOrdered g e = .ok none ∧
  s.getFirstOrdered g ≠ .ok (some e) ∧ s.getLastOrdered g ≠ .ok (some e)

end Ecs.Spec
