import Verif.Model.HeapCalls
import Verif.Spec.Unwind

/-! The memory of a store in executions of programs that catch panics. -/

namespace Ecs.Spec

/-- A call, with the state it leaves behind when it panics. -/
def Call.exec (U : Universe) (dbg : Bool) : Call → Unw Store Unit
  | .create => do let _ ← Store.createEntityU dbg
  | .createWith a => do let _ ← Store.createEntityWithArchetypeU dbg a
  | .destroy e => Store.destroyEntityU dbg e
  | .add e vals => Store.addComponentsU U dbg e vals
  | .remove e ts => Store.removeComponentsU U dbg e ts
  | .assign e vals => do let _ ← Store.setComponentsU U dbg e vals
  | .tag t e => Store.addTagU t e
  | .untag t e => Store.removeTagU t e
  | .orderLast g e => Store.addOrderU dbg g e
  | .orderAfter g e x => Store.addOrderNextToU dbg g e x
  | .orderBefore g e x => Store.addOrderPreviousToU dbg g e x
  | .unorder g e => Store.removeOrderU g e

/-- The operations on the heap that a call performs. -/
def heapOps (U : Universe) (dbg : Bool) (s : Store) : Call → List HeapOp
  | .create => s.createOps dbg
  | .createWith a => s.createWithOps dbg a
  | .add e vals => s.placeOps dbg (s.addArchetype U dbg e (vals.map (·.1)))
  | .remove e ts => s.placeOps dbg (s.removeArchetype U dbg e ts)
  | .tag t _ => s.tagOps t
  | .orderLast g _ | .orderAfter g _ _ | .orderBefore g _ _ => s.groupOps g
  | .destroy _ | .assign _ _ | .untag _ _ | .unorder _ _ => []

/-- The archetype handed to `create_entity_with_archetype` has a type (`Archetype::new` asserts it). -/
def Call.Sensible : Call → Prop
  | .createWith a => a.ids ≠ []
  | _ => True

/-- The call returned or panicked. -/
def Ended {α : Type} : Res α → Prop
  | .ok _ => True
  | .error (.panic _) => True
  | .error _ => False

/-- Executions of programs that make any calls, with any arguments, and catch all panics, as long as nothing undefined happens and
the capacity stays below 2^32. The list contains the operations on the heap, oldest first. If `quiet` is `true`, no call panics. -/
inductive HeapExec (U : Universe) (dbg : Bool) (cap : Nat) (quiet : Bool) : List HeapOp → Store → Prop
  | init {s} : Store.withCapacity dbg cap = .ok s → s.entitiesCapacity < u32Size → HeapExec U dbg cap quiet [] s
  | call {ops s r s'} (c : Call) : HeapExec U dbg cap quiet ops s → c.Sensible → (c.exec U dbg).run s = (r, s') → Ended r →
      (quiet = true → r = .ok ()) → s'.entitiesCapacity < u32Size → HeapExec U dbg cap quiet (ops ++ heapOps U dbg s c) s'

/-- The words of a bit vector with one bit for each entity. -/
def bitWords (capacity : Nat) : Nat := capacity / 32 + 1

/-- The sizes of the blocks of an archetype with `n` types and of its layout: ids, sizes, alignments and names, offsets. -/
def archetypeBlocks (n : Nat) : List Nat := [typeIdSize * n, 8 * n, 8 * n, strSize * n, 8 * n]

/-- The sizes of the blocks that a store owns: versions, page and row of each entity, the bits for "alive" and "has components";
the bits of each tag; two links for each entity and order group; the archetypes; the pages. -/
def ownedBlocks (s : Store) : List Nat :=
  [4 * s.entitiesCapacity, 4 * s.entitiesCapacity, 4 * s.entitiesCapacity, 4 * bitWords s.entitiesCapacity,
    4 * bitWords s.entitiesCapacity] ++
  s.tags.bitvecs.map (fun _ => 4 * bitWords s.entitiesCapacity) ++
  s.orders.groups.flatMap (fun _ => [4 * s.entitiesCapacity, 4 * s.entitiesCapacity]) ++
  s.archs.archetypes.flatMap (fun a => archetypeBlocks a.ids.length) ++
  s.archs.pages.map (fun _ => 16384)

end Ecs.Spec
