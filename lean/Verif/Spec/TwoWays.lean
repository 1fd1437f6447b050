import Verif.Spec.Reassign

/-! Three client programs that create one entity with given components. -/

namespace Ecs.Spec

/-- `let e = store.create_entity(); store.add_components(e, vals); e` (`src/store.rs:53-61, 106-161`). -/
def createThenAdd (U : Universe) (dbg : Bool) (s : Store) (vals : TupleVal) : Res (Store × Entity) := do
  let (s, e) ← s.createEntity dbg
  let s ← s.addComponents U dbg e vals
  return (s, e)

/-- `let e = store.create_entity_with_archetype(&a); store.add_components(e, vals); e`
(`src/store.rs:63-74, 106-161`). -/
def createWithThenAdd (U : Universe) (dbg : Bool) (s : Store) (a : Archetype) (vals : TupleVal) : Res (Store × Entity) := do
  let (s, e) ← s.createEntityWithArchetype dbg a
  let s ← s.addComponents U dbg e vals
  return (s, e)

/-- `let e = store.create_entity_with_archetype(&a); if let Some(refs) = store.get_components_refs_mut(e) { … = vals }; e`
(`src/store.rs:63-74, 247-258`), with whether the references were there. -/
def createWithThenSet (U : Universe) (dbg : Bool) (s : Store) (a : Archetype) (vals : TupleVal) :
    Res (Store × Entity × Bool) := do
  let (s, e) ← s.createEntityWithArchetype dbg a
  let (s, b) ← s.setComponents U dbg e vals
  return (s, e, b)

end Ecs.Spec
