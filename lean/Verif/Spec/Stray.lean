import Verif.Spec.Tags

/-! Executions in which tag and order calls may get any handle that was ever returned, dead ones included,
and what tags and groups are then: functions of the history that look at ids only. -/

namespace Ecs.Spec

/-- Whether the last call of the history (newest first) that tagged or untagged a handle with id `i`, or
destroyed an entity with this id, was the addition of `tag`. -/
def idTag (tag i : Nat) : List Event → Bool
  | [] => false
  | .tagged t x :: h => if t = tag ∧ x.id = i then true else idTag tag i h
  | .untagged t x :: h => if t = tag ∧ x.id = i then false else idTag tag i h
  | .destroyed x :: h => if x.id = i then false else idTag tag i h
  | _ :: h => idTag tag i h

/-- The calls that concern group `g`, replayed on a list of ids. -/
def idSequence (g : Nat) : List Event → List Nat
  | [] => []
  | .orderedLast g' e :: h => if g' = g then idSequence g h ++ [e.id] else idSequence g h
  | .orderedAfter g' e x :: h => if g' = g then insertAfter x.id e.id (idSequence g h) else idSequence g h
  | .orderedBefore g' e x :: h => if g' = g then insertBefore x.id e.id (idSequence g h) else idSequence g h
  | .unordered g' e :: h => if g' = g then (idSequence g h).erase e.id else idSequence g h
  | .destroyed e :: h => (idSequence g h).erase e.id
  | _ :: h => idSequence g h

/-- The newest handle with id `i`. -/
def newest (i : Nat) (h : List Event) : Option Entity := (handles h).find? (fun e => e.id = i)

/-- Like `Loose`, but tag and order calls may get any handle that was returned by a creation call. A
handle may be put into a group if its id is not in it, next to a handle whose id is. -/
def Stray (h : List Event) : Event → Prop
  | .created _ => (handles h).length + 1 < u32Size
  | .createdWith _ _ _ => (handles h).length + 1 < u32Size
  | .destroyed e => e ∈ alive h
  | .added _ _ => True
  | .removed _ _ => True
  | .assigned _ _ => True
  | .tagged _ e => e ∈ handles h
  | .untagged _ e => e ∈ handles h
  | .orderedLast g e => e ∈ handles h ∧ e.id ∉ idSequence g h
  | .orderedAfter g e x => e ∈ handles h ∧ e.id ∉ idSequence g h ∧ x.id ∈ idSequence g h
  | .orderedBefore g e x => e ∈ handles h ∧ e.id ∉ idSequence g h ∧ x.id ∈ idSequence g h
  | .unordered _ e => e ∈ handles h

instance (h : List Event) (ev : Event) : Decidable (Stray h ev) := by
  cases ev <;> (unfold Stray; infer_instance)

/-- Executions whose tag and order calls may get dead handles. -/
inductive StrayExec (U : Universe) (dbg : Bool) (cap : Nat) : List Event → Store → Prop
  | init {s} : Store.withCapacity dbg cap = .ok s → StrayExec U dbg cap [] s
  | step {h s s'} (ev : Event) : StrayExec U dbg cap h s → Stray h ev → Returns U dbg s ev s' →
      StrayExec U dbg cap (ev :: h) s'

end Ecs.Spec
