import Verif.Model.Entities

/-! Model of `src/resource_store.rs`. -/

namespace Ecs

/-- `src/resource_store.rs:5-8` `ResourceStore<T>`. A null `elements` pointer is the empty buffer.
`ManuallyDrop<T>` is the bare value: nothing is dropped implicitly, a value stays in its cell (as
dead bits) after it has been moved out. -/
structure ResStore (α : Type) where
  elements : Raw α
  ents : Ents

namespace ResStore
variable {α : Type}

/-- `src/resource_store.rs:11-16` `new`. -/
def new : ResStore α := { elements := [], ents := Ents.new 0 }

/-- `src/resource_store.rs:18-23` `with_capacity`. -/
def withCapacity (capacity : Nat) : ResStore α :=
  { elements := Raw.alloc capacity, ents := Ents.new capacity }

/-- `src/resource_store.rs:25-45` `create`. -/
def create (dbg : Bool) (r : ResStore α) (resource : α) : Res (ResStore α × Entity) := do
  let oldCapacity := r.ents.capacity
  let (ents, creation) ← r.ents.create dbg
  let elements ← if creation.wasGrow then
      Raw.realloc r.elements oldCapacity ents.capacity
    else pure r.elements
  let elements ← Raw.write elements creation.entity.id resource
  return ({ elements := elements, ents := ents }, creation.entity)

/-- `src/resource_store.rs:47-53` `release`: the value is read out of its cell and handed to the
caller. The `debug_assert!` argument is evaluated only in debug builds. -/
def release (dbg : Bool) (r : ResStore α) (e : Entity) : Res (ResStore α × α) := do
  if dbg then
    let alive ← r.ents.isAlive dbg e
    dassert dbg alive
  let ents ← r.ents.destroy dbg e
  let value ← Raw.read r.elements e.id
  return ({ r with ents := ents }, value)

/-- `src/resource_store.rs:56-68` `index`. -/
def index (dbg : Bool) (r : ResStore α) (e : Entity) : Res α := do
  if dbg then
    let alive ← r.ents.isAlive dbg e
    dassert dbg alive
  Raw.read r.elements e.id

/-- `src/resource_store.rs:70-80` `index_mut` followed by the assignment `store[e] = v`.
The assignment drops the previous value, which is returned so that the value accounting can see it. -/
def assign (dbg : Bool) (r : ResStore α) (e : Entity) (v : α) : Res (ResStore α × α) := do
  if dbg then
    let alive ← r.ents.isAlive dbg e
    dassert dbg alive
  let old ← Raw.read r.elements e.id
  let elements ← Raw.write r.elements e.id v
  return ({ r with elements := elements }, old)

/-- `src/resource_store.rs:84-90`: loop body of `drop` for the indices in `is`; returns the values
dropped. -/
def dropLoop (r : ResStore α) : List Nat → Res (List α)
  | [] => .ok []
  | i :: is => do
    let alive ← r.ents.isAliveAtIndex i
    if !alive then
      dropLoop r is
    else
      let v ← Raw.read r.elements i
      let rest ← dropLoop r is
      return v :: rest

/-- `src/resource_store.rs:82-92` `drop`: the list of values dropped. The `elements` buffer itself is
never deallocated (a leak); the entities container is dropped after the body
(`src/entities_container.rs:168-175`). -/
def drop (r : ResStore α) : Res (List α) := do
  let dropped ← r.dropLoop (List.range r.ents.capacity)
  r.ents.drop
  return dropped

end ResStore
end Ecs
