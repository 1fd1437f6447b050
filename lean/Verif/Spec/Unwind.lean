import Verif.Model.Unwind
import Verif.Spec.World
import Verif.Spec.Tags

/-! Calls that panic, and programs that catch the panic (`std::panic::catch_unwind`) and go on using the store. -/

namespace Ecs

/-- `m`, started in state `s`, panics and leaves state `s'`. -/
def Unw.Panics {σ α : Type} (m : Unw σ α) (s s' : σ) : Prop := ∃ p, m.run s = (.error (.panic p), s')

namespace Spec

/-- The mutating calls. -/
inductive Call where
  | create
  | createWith (a : Archetype)
  | destroy (e : Entity)
  | add (e : Entity) (vals : TupleVal)
  | remove (e : Entity) (ts : List TypeId)
  | assign (e : Entity) (vals : TupleVal)
  | tag (t : Nat) (e : Entity)
  | untag (t : Nat) (e : Entity)
  | orderLast (g : Nat) (e : Entity)
  | orderAfter (g : Nat) (e x : Entity)
  | orderBefore (g : Nat) (e x : Entity)
  | unorder (g : Nat) (e : Entity)

/-- The call panics in state `s` and leaves state `s'`. -/
def Panics (U : Universe) (dbg : Bool) (s : Store) (c : Call) (s' : Store) : Prop :=
  match c with
  | .create => (Store.createEntityU dbg).Panics s s'
  | .createWith a => (Store.createEntityWithArchetypeU dbg a).Panics s s'
  | .destroy e => (Store.destroyEntityU dbg e).Panics s s'
  | .add e vals => (Store.addComponentsU U dbg e vals).Panics s s'
  | .remove e ts => (Store.removeComponentsU U dbg e ts).Panics s s'
  | .assign e vals => (Store.setComponentsU U dbg e vals).Panics s s'
  | .tag t e => (Store.addTagU t e).Panics s s'
  | .untag t e => (Store.removeTagU t e).Panics s s'
  | .orderLast g e => (Store.addOrderU dbg g e).Panics s s'
  | .orderAfter g e x => (Store.addOrderNextToU dbg g e x).Panics s s'
  | .orderBefore g e x => (Store.addOrderPreviousToU dbg g e x).Panics s s'
  | .unorder g e => (Store.removeOrderU g e).Panics s s'

/-- How the call ends in the model of all other properties (which has no state for calls that do not return). -/
def outcome (U : Universe) (dbg : Bool) (s : Store) : Call → Res Unit
  | .create => (s.createEntity dbg).map fun _ => ()
  | .createWith a => (s.createEntityWithArchetype dbg a).map fun _ => ()
  | .destroy e => (s.destroyEntity dbg e).map fun _ => ()
  | .add e vals => (s.addComponents U dbg e vals).map fun _ => ()
  | .remove e ts => (s.removeComponents U dbg e ts).map fun _ => ()
  | .assign e vals => (s.setComponents U dbg e vals).map fun _ => ()
  | .tag t e => (s.addTag t e).map fun _ => ()
  | .untag t e => (s.removeTag t e).map fun _ => ()
  | .orderLast g e => (s.addOrder dbg g e).map fun _ => ()
  | .orderAfter g e x => (s.addOrderNextTo dbg g e x).map fun _ => ()
  | .orderBefore g e x => (s.addOrderPreviousTo dbg g e x).map fun _ => ()
  | .unorder g e => (s.removeOrder g e).map fun _ => ()

/-- Calls whose panics leave the store as it was (see `C66_*`): all but `create_entity_with_archetype` and
`destroy_entity` with a handle that is not alive. Handles have not run out. -/
def Undone (h : List Event) : Call → Prop
  | .create => (handles h).length + 1 < u32Size
  | .createWith _ => False
  | .destroy e => e ∈ alive h
  | _ => True

/-- Some component set that the store knows has a layout without a single row (a component is larger than its share of
a page). -/
def SomeRowless (s : Store) : Prop := ∃ l ∈ s.archs.layouts, l.entitiesCapacity = 0

/-- The id in row `i` of page `p`. -/
def rowId (s : Store) (p i : Nat) : Option Nat := (s.archs.pages[p]?).bind fun pg => pg.ids.items[i]?

/-- Both records (page and row in the page) of two ids are equal. -/
def SamePlace (s : Store) (i j : Nat) : Prop := s.toPage[i]? = s.toPage[j]? ∧ s.toIndex[i]? = s.toIndex[j]?

/-- Executions of programs that catch panics of such calls and go on. Calls that panicked are not in the history. -/
inductive CaughtExec (U : Universe) (dbg : Bool) (cap : Nat) : List Event → Store → Prop
  | init {s} : Store.withCapacity dbg cap = .ok s → CaughtExec U dbg cap [] s
  | step {h s s'} (ev : Event) : CaughtExec U dbg cap h s → Loose (world h) ev → Returns U dbg s ev s' →
      CaughtExec U dbg cap (ev :: h) s'
  | caught {h s s'} (c : Call) : CaughtExec U dbg cap h s → Undone h c → (dbg = true → ¬ SomeRowless s') →
      Panics U dbg s c s' → CaughtExec U dbg cap h s'

end Spec
end Ecs
