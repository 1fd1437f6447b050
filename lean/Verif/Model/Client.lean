import Verif.Model.Update

/-! Programs that use a store: at each step the program chooses a call, depending on everything the
calls before it returned. The calls are those of `Model/Store.lean`, `Model/Query.lean` and
`Model/Update.lean`; nothing here is in the source except through them. -/

namespace Ecs

/-- A call of a program. -/
inductive Ask where
  /-- `src/store.rs:53-61` `create_entity` -/
  | create
  /-- `src/store.rs:63-83` `create_entity_with_archetype` -/
  | createWith (a : Archetype)
  /-- `src/store.rs:85-104` `destroy_entity` -/
  | destroy (e : Entity)
  /-- `src/store.rs:106-161` `add_components` -/
  | add (e : Entity) (vals : TupleVal)
  /-- `src/store.rs:163-228` `remove_components` -/
  | remove (e : Entity) (ts : List TypeId)
  /-- assignment through `get_components_refs_mut` (`src/store.rs:247-258`) -/
  | assign (e : Entity) (vals : TupleVal)
  /-- `src/tag_container.rs:97-100` `add_tag` -/
  | tag (tag : Nat) (e : Entity)
  /-- `src/tag_container.rs:102-105` `remove_tag` -/
  | untag (tag : Nat) (e : Entity)
  /-- `src/order_group_container.rs:343-345` `add_entity_order_by` -/
  | orderLast (g : Nat) (e : Entity)
  /-- `src/order_group_container.rs:347-354` `add_entity_next_to_order_by` -/
  | orderAfter (g : Nat) (e x : Entity)
  /-- `src/order_group_container.rs:356-363` `add_entity_previous_to_order_by` -/
  | orderBefore (g : Nat) (e x : Entity)
  /-- `src/order_group_container.rs:365-368` `remove_entity_order_by` -/
  | unorder (g : Nat) (e : Entity)
  /-- `src/store.rs:229-232` `is_alive` -/
  | isAlive (e : Entity)
  /-- reading through `get_components_refs` (`src/store.rs:234-244`) -/
  | read (e : Entity) (ts : List TypeId)
  /-- `src/store.rs:275-283` `get_entity_archetype`, and whether the archetype contains the type -/
  | hasType (e : Entity) (t : TypeId)
  /-- `src/tag_container.rs:107-110` `has_tag` -/
  | hasTag (tag : Nat) (e : Entity)
  /-- `src/order_group_container.rs:385-389` `get_first_entity_ordered_by` -/
  | first (g : Nat)
  /-- `src/order_group_container.rs:391-395` `get_last_entity_ordered_by` -/
  | last (g : Nat)
  /-- `src/order_group_container.rs:370-374` `get_next_entity_ordered_by` -/
  | next (g : Nat) (e : Entity)
  /-- `src/order_group_container.rs:376-383` `get_previous_entity_ordered_by` -/
  | previous (g : Nat) (e : Entity)
  /-- reading all the items of a component query with entities -/
  | query (acc : Access)
  /-- the same, filtered by a tag -/
  | queryTagged (acc : Access) (tag : Nat)
  /-- reading all the items of an entity query with entities -/
  | queryList (L : List Entity) (acc : Access)
  /-- reading all the items of an ordered query -/
  | queryGroup (g : Nat) (acc : Access)
  /-- a loop over a component query that assigns to the components -/
  | update (acc : Access) (f : Entity → List (List Cell) → List (List UInt8))
  /-- a loop over an entity query that assigns to the components -/
  | updateList (L : List Entity) (acc : Access) (f : Entity → List (List Cell) → List (List UInt8))
  /-- a loop over an ordered query that assigns to the components -/
  | updateGroup (g : Nat) (acc : Access) (f : List (List Cell) → List (List UInt8))

/-- What a call returned. -/
inductive Answer where
  | done
  | handle (e : Entity)
  | flag (b : Bool)
  | entity (e : Option Entity)
  | values (vs : Option (List (List Cell)))
  | rows (rs : List (Entity × List (List Cell)))
  | items (vs : List (List (List Cell)))
deriving DecidableEq

/-- A program: the next call, or none at the end, given the answers so far (newest first). -/
abbrev Client := List Answer → Option Ask

/-- Reading the references of all items. -/
def readRows (pages : List Page) (items : List (Entity × List Ref)) : Res (List (Entity × List (List Cell))) :=
  items.mapM fun x => do
    let vs ← x.2.mapM (readRef pages)
    return (x.1, vs)

/-- One call. `fuel` is for the loops of the queries. -/
def serve (U : Universe) (dbg : Bool) (fuel : Nat) (s : Store) : Ask → Res (Store × Answer)
  | .create => do
    let (s, e) ← s.createEntity dbg
    return (s, .handle e)
  | .createWith a => do
    let (s, e) ← s.createEntityWithArchetype dbg a
    return (s, .handle e)
  | .destroy e => do return (← s.destroyEntity dbg e, .done)
  | .add e vals => do return (← s.addComponents U dbg e vals, .done)
  | .remove e ts => do return (← s.removeComponents U dbg e ts, .done)
  | .assign e vals => do
    let (s, b) ← s.setComponents U dbg e vals
    return (s, .flag b)
  | .tag tag e => do return (← s.addTag tag e, .done)
  | .untag tag e => do return (← s.removeTag tag e, .done)
  | .orderLast g e => do return (← s.addOrder dbg g e, .done)
  | .orderAfter g e x => do return (← s.addOrderNextTo dbg g e x, .done)
  | .orderBefore g e x => do return (← s.addOrderPreviousTo dbg g e x, .done)
  | .unorder g e => do return (← s.removeOrder g e, .done)
  | .isAlive e => do return (s, .flag (← s.isAlive dbg e))
  | .read e ts => do return (s, .values (← s.getComponents U dbg e ts))
  | .hasType e t => do
    match ← s.getEntityArchetype dbg e with
    | none => return (s, .flag false)
    | some a => return (s, .flag (decide (t ∈ a.ids)))
  | .hasTag tag e => do return (s, .flag (← s.hasTag tag e))
  | .first g => do return (s, .entity (← s.getFirstOrdered g))
  | .last g => do return (s, .entity (← s.getLastOrdered g))
  | .next g e => do return (s, .entity (← s.getNextOrdered g e))
  | .previous g e => do return (s, .entity (← s.getPreviousOrdered g e))
  | .query acc => do
    let items ← runComponentQueryWithEntities U dbg s acc [] fuel
    return (s, .rows (← readRows s.archs.pages items))
  | .queryTagged acc tag => do
    let items ← runComponentQueryFilterTag U dbg s acc tag [] fuel
    return (s, .rows (← readRows s.archs.pages items))
  | .queryList L acc => do
    let items ← runEntityQueryWithEntities U dbg s L acc [] (L.length + 1)
    return (s, .rows (← readRows s.archs.pages items))
  | .queryGroup g acc => do
    let items ← runOrderedQuery U dbg s g acc [] fuel
    return (s, .items (← items.mapM fun refs => refs.mapM (readRef s.archs.pages)))
  | .update acc f => do return (← updateComponents U dbg s acc [] f fuel, .done)
  | .updateList L acc f => do return (← updateEntities U dbg s L acc [] f (L.length + 1), .done)
  | .updateGroup g acc f => do return (← updateOrdered U dbg s g acc [] f fuel, .done)

/-- At most `n` calls of the program, from state `s` with the answers `as` so far; all the answers, newest
first. No query returns more items than there were calls before it. -/
def play (U : Universe) (dbg : Bool) (client : Client) : (n : Nat) → Store → List Answer → Res (List Answer)
  | 0, _, as => .ok as
  | n + 1, s, as =>
    match client as with
    | none => .ok as
    | some ask => do
      let (s, a) ← serve U dbg (as.length + 1) s ask
      play U dbg client n s (a :: as)

/-- The program, with a new store. -/
def runClient (U : Universe) (dbg : Bool) (cap : Nat) (client : Client) (n : Nat) : Res (List Answer) := do
  let s ← Store.withCapacity dbg cap
  play U dbg client n s []

end Ecs
