import Verif.Spec.Stray

/-! Order groups when entities are put next to entities that are not in the group: beside the group there are then chains of
entities that know their neighbours but are not reached from the ends of the group. -/

namespace Ecs.Spec

/-- A group and the chains beside it, as lists of ids. -/
structure Chains where
  seq : List Nat
  side : List (List Nat)
deriving DecidableEq, Repr

namespace Chains

/-- The ids that have a place in the group or in a chain. -/
def placed (c : Chains) : List Nat := c.seq ++ c.side.flatten

/-- The list in which `i` has its place. -/
def around (c : Chains) (i : Nat) : List Nat := ((c.seq :: c.side).find? fun l => i ∈ l).getD []

/-- The group followed by `e`. -/
def append (e : Nat) (c : Chains) : Chains := { c with seq := c.seq ++ [e] }

/-- `e` right after `x`, wherever `x` has its place; if it has none, the two begin a new chain. -/
def putAfter (x e : Nat) (c : Chains) : Chains :=
  if x ∈ c.seq then { c with seq := insertAfter x e c.seq }
  else if x ∈ c.side.flatten then { c with side := c.side.map (insertAfter x e) }
  else { c with side := [x, e] :: c.side }

/-- `e` right before `x`, wherever `x` has its place; if it has none, the two begin a new chain. -/
def putBefore (x e : Nat) (c : Chains) : Chains :=
  if x ∈ c.seq then { c with seq := insertBefore x e c.seq }
  else if x ∈ c.side.flatten then { c with side := c.side.map (insertBefore x e) }
  else { c with side := [e, x] :: c.side }

/-- Without `e`. What remains of a chain of two is no chain. -/
def remove (e : Nat) (c : Chains) : Chains :=
  { seq := c.seq.erase e, side := (c.side.map (·.erase e)).filter fun l => 2 ≤ l.length }

end Chains

/-- The calls that concern group `g`, replayed on a group and the chains beside it. -/
def chains (g : Nat) : List Event → Chains
  | [] => ⟨[], []⟩
  | .orderedLast g' e :: h => if g' = g then (chains g h).append e.id else chains g h
  | .orderedAfter g' e x :: h => if g' = g then (chains g h).putAfter x.id e.id else chains g h
  | .orderedBefore g' e x :: h => if g' = g then (chains g h).putBefore x.id e.id else chains g h
  | .unordered g' e :: h => if g' = g then (chains g h).remove e.id else chains g h
  | .destroyed e :: h => (chains g h).remove e.id
  | _ :: h => chains g h

/-- Like `Stray`, but an entity may be put next to any other, whether this one is in the group or not. The entity itself must
not have a place yet, neither in the group nor beside it. -/
def Lax (h : List Event) : Event → Prop
  | .created _ => (handles h).length + 1 < u32Size
  | .createdWith _ _ _ => (handles h).length + 1 < u32Size
  | .destroyed e => e ∈ alive h
  | .added _ _ => True
  | .removed _ _ => True
  | .assigned _ _ => True
  | .tagged _ e => e ∈ handles h
  | .untagged _ e => e ∈ handles h
  | .orderedLast g e => e ∈ handles h ∧ e.id ∉ (chains g h).placed
  | .orderedAfter g e x => e ∈ handles h ∧ x.id ∈ (handles h).map (·.id) ∧ x.id ≠ e.id ∧ e.id ∉ (chains g h).placed
  | .orderedBefore g e x => e ∈ handles h ∧ x.id ∈ (handles h).map (·.id) ∧ x.id ≠ e.id ∧ e.id ∉ (chains g h).placed
  | .unordered _ e => e ∈ handles h

instance (h : List Event) (ev : Event) : Decidable (Lax h ev) := by
  cases ev <;> (unfold Lax; infer_instance)

/-- Executions whose order calls may refer to entities that are not in the group. -/
inductive LaxExec (U : Universe) (dbg : Bool) (cap : Nat) : List Event → Store → Prop
  | init {s} : Store.withCapacity dbg cap = .ok s → LaxExec U dbg cap [] s
  | step {h s s'} (ev : Event) : LaxExec U dbg cap h s → Lax h ev → Returns U dbg s ev s' →
      LaxExec U dbg cap (ev :: h) s'

/-- Two chains beside a group; the second one gets a third element, the first one is dissolved. -/
example : ((((((⟨[], []⟩ : Chains).append 1).putAfter 5 6).putBefore 7 8).putAfter 8 9).putAfter 1 2).remove 5 =
    ⟨[1, 2], [[8, 9, 7]]⟩ := by decide

end Ecs.Spec
