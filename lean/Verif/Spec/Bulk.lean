import Verif.Spec.Tags
import Verif.Model.Query

/-! Programs that do something to every entity that a query finds; they only use the functions of the store. -/

namespace Ecs.Spec

/-- The same call for one entity after the other. -/
def eachOf (call : Store → Entity → Res Store) : List Entity → Store → Res Store
  | [], s => .ok s
  | e :: l, s => do eachOf call l (← call s e)

/-- The entities that a component query finds are collected, then each is destroyed. -/
def destroyFound (U : Universe) (dbg : Bool) (s : Store) (acc : Access) (old : List IterView) (fuel : Nat) : Res Store := do
  let items ← runComponentQueryWithEntities U dbg s acc old fuel
  eachOf (fun s e => s.destroyEntity dbg e) (items.map (·.1)) s

/-- The entities that a component query finds are collected, then each is given the tag. -/
def tagFound (U : Universe) (dbg : Bool) (s : Store) (acc : Access) (old : List IterView) (fuel : Nat) (tag : Nat) : Res Store := do
  let items ← runComponentQueryWithEntities U dbg s acc old fuel
  eachOf (fun s e => s.addTag tag e) (items.map (·.1)) s

end Ecs.Spec
