import Verif.Model.Unwind
import Verif.Model.ResourceStore

/-! `ResourceStore` once more, keeping the state that a panic leaves behind, and with destructors that
may panic. As in `Model/Unwind.lean`, every definition follows the one of the same name (without the final
`U`) in `Model/ResourceStore.lean`; `C83_models_agree` shows that the two models agree. -/

namespace Ecs.ResStore
variable {α : Type}

/-- A call on the entity container. -/
def onEnts {β : Type} (m : Unw Ents β) : Unw (ResStore α) β := m.on (·.ents) fun r c => { r with ents := c }

/-- `src/resource_store.rs:25-45` `create`. The argument, which is not yet in the store when
`create_entity` panics, is dropped by the unwinding. -/
def createU (dbg : Bool) (resource : α) : Unw (ResStore α) Entity := do
  let oldCapacity := (← Unw.get).ents.capacity
  let creation ← onEnts (Ents.createU dbg)
  if creation.wasGrow then
    Unw.step fun r => do
      let elements ← Raw.realloc r.elements oldCapacity r.ents.capacity
      return { r with elements := elements }
  Unw.step fun r => do
    let elements ← Raw.write r.elements creation.entity.id resource
    return { r with elements := elements }
  return creation.entity

/-- `src/resource_store.rs:47-53` `release`. -/
def releaseU (dbg : Bool) (e : Entity) : Unw (ResStore α) α := do
  if dbg then
    let alive ← Unw.lift ((← Unw.get).ents.isAlive dbg e)
    Unw.lift (dassert dbg alive)
  onEnts (Ents.destroyU dbg e)
  Unw.lift (Raw.read (← Unw.get).elements e.id)

/-- `src/resource_store.rs:70-80` `index_mut` followed by `store[e] = v`. The result is the old value, and
whether its destructor panicked (`bad old`): Rust stores the new value in both cases. -/
def assignU (dbg : Bool) (bad : α → Bool) (e : Entity) (v : α) : Unw (ResStore α) (α × Bool) := do
  if dbg then
    let alive ← Unw.lift ((← Unw.get).ents.isAlive dbg e)
    Unw.lift (dassert dbg alive)
  let old ← Unw.lift (Raw.read (← Unw.get).elements e.id)
  Unw.step fun r => do
    let elements ← Raw.write r.elements e.id v
    return { r with elements := elements }
  return (old, bad old)

/-- `src/resource_store.rs:84-90`: the loop of `drop` when the destructors of the values in `bad` panic.
A panic ends the loop. Returns the values whose destructor was run, and whether one of them panicked. -/
def dropLoopU (bad : α → Bool) (r : ResStore α) : List Nat → Res (List α × Bool)
  | [] => .ok ([], false)
  | i :: is => do
    let alive ← r.ents.isAliveAtIndex i
    if !alive then
      dropLoopU bad r is
    else
      let v ← Raw.read r.elements i
      if bad v then
        return ([v], true)
      else
        let (rest, panicked) ← dropLoopU bad r is
        return (v :: rest, panicked)

/-- `src/resource_store.rs:82-92` `drop`. The entities container is dropped after the body
(`src/entities_container.rs:168-175`), also while unwinding. -/
def dropU (bad : α → Bool) (r : ResStore α) : Res (List α × Bool) := do
  let result ← r.dropLoopU bad (List.range r.ents.capacity)
  r.ents.drop
  return result

end Ecs.ResStore
