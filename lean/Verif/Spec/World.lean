import Verif.Model.Store
import Verif.Spec.Fits
import Verif.Spec.Archetype
import Verif.Spec.Sequence
import Mathlib.Data.List.Dedup

/-! Specification of the store: the abstract state of an entity component system (`World`), the effect
of each call on it (`World.apply`), the calls a well-behaved program makes (`Allowed`), and executions
of the modelled store. `World` and `apply` do not mention pages, archetypes, bit vectors or links. -/

namespace Ecs.Spec

/-- The abstract state: which handles exist, and for each live handle its component types, the bytes of
each component, its tags, and the ordered groups. `used` lists the type sets that entities have been
given so far, newest first, and `left` those that entities have lost (by moving to another one or by
being destroyed); they only matter for `Target` below. -/
structure World where
  issued : List Entity
  live : List Entity
  types : Entity → List TypeId
  value : Entity → TypeId → List Cell
  tags : Nat → Entity → Bool
  order : Nat → List Entity
  used : List (List TypeId)
  left : List (List TypeId)

/-- Calls and their outcome. `init` in `createdWith` is the (arbitrary) initial content of the
components of an entity created from an archetype. -/
inductive Event where
  | created (e : Entity)
  | createdWith (e : Entity) (ts : List TypeId) (init : TypeId → List Cell)
  | destroyed (e : Entity)
  | added (e : Entity) (vals : TupleVal)
  | removed (e : Entity) (ts : List TypeId)
  | assigned (e : Entity) (vals : TupleVal)
  | tagged (tag : Nat) (e : Entity)
  | untagged (tag : Nat) (e : Entity)
  | orderedLast (g : Nat) (e : Entity)
  | orderedAfter (g : Nat) (e x : Entity)
  | orderedBefore (g : Nat) (e x : Entity)
  | unordered (g : Nat) (e : Entity)

/-- `f` with the value at `x` replaced by `v`. -/
def at' {α β : Type} [DecidableEq α] (f : α → β) (x : α) (v : β) : α → β :=
  fun y => if y = x then v else f y

/-- The bytes given for type `t` in a tuple of component values. -/
def TupleVal.find (vals : TupleVal) (t : TypeId) : Option (List UInt8) :=
  (vals.find? (·.1 = t)).map (·.2)

/-- Component values after storing the tuple `vals`. -/
def store (vals : TupleVal) (f : TypeId → List Cell) : TypeId → List Cell :=
  fun t => match TupleVal.find vals t with
    | some bs => bs.map some
    | none => f t

namespace World

/-- Nothing exists. -/
def empty : World where
  issued := []
  live := []
  types := fun _ => []
  value := fun _ _ => []
  tags := fun _ _ => false
  order := fun _ => []
  used := []
  left := []

/-- Reading one component: present exactly for live entities having the type. -/
def get (w : World) (e : Entity) (t : TypeId) : Option (List Cell) :=
  if e ∈ w.live ∧ t ∈ w.types e then some (w.value e t) else none

/-- `w` with the type set of `e` changed to `T`. -/
def setTypes (w : World) (e : Entity) (T : List TypeId) : World :=
  { w with types := at' w.types e T
           used := if T = [] then w.used else T :: w.used
           left := if w.types e = [] then w.left else w.types e :: w.left }

/-- A new entity without components and tags, in no group. -/
def birth (w : World) (e : Entity) : World :=
  { w with issued := e :: w.issued, live := e :: w.live, types := at' w.types e []
           tags := fun tag => at' (w.tags tag) e false }

/-- The effect of each call. -/
def apply (w : World) : Event → World
  | .created e => w.birth e
  | .createdWith e ts init => { (w.birth e).setTypes e ts with value := at' w.value e init }
  | .destroyed e =>
    { w with live := w.live.erase e, types := at' w.types e []
             tags := fun tag => at' (w.tags tag) e false
             order := fun g => (w.order g).erase e
             left := if w.types e = [] then w.left else w.types e :: w.left }
  | .added e vals =>
    if e ∈ w.live then
      { (if ∀ p ∈ vals, p.1 ∈ w.types e then w
          else w.setTypes e (w.types e ++ (vals.map (·.1)).filter (· ∉ w.types e))) with
        value := at' w.value e (store vals (w.value e)) }
    else w
  | .removed e ts =>
    if e ∈ w.live then w.setTypes e ((w.types e).filter (· ∉ ts)) else w
  | .assigned e vals =>
    if e ∈ w.live ∧ ∀ p ∈ vals, p.1 ∈ w.types e then
      { w with value := at' w.value e (store vals (w.value e)) }
    else w
  | .tagged tag e => { w with tags := at' w.tags tag (at' (w.tags tag) e true) }
  | .untagged tag e => { w with tags := at' w.tags tag (at' (w.tags tag) e false) }
  | .orderedLast g e => { w with order := at' w.order g (w.order g ++ [e]) }
  | .orderedAfter g e x => { w with order := at' w.order g (insertAfter x e (w.order g)) }
  | .orderedBefore g e x => { w with order := at' w.order g (insertBefore x e (w.order g)) }
  | .unordered g e => { w with order := at' w.order g ((w.order g).erase e) }

end World

/-- The world after a history (newest event first). -/
def world : List Event → World
  | [] => World.empty
  | ev :: h => (world h).apply ev

/-- Equality of type sets given as lists. -/
def sameSet (S T : List TypeId) : Prop := (∀ t ∈ S, t ∈ T) ∧ (∀ t ∈ T, t ∈ S)

instance (S T : List TypeId) : Decidable (sameSet S T) := by unfold sameSet; infer_instance

/-- How many rows `ArchetypeLayout::new` computes for the archetype with type set `T`; `none` if there
is no such archetype or no layout for it. -/
def rowsPerPage (U : Universe) (dbg : Bool) (T : List TypeId) : Option Nat :=
  match Archetype.withComponents U T.dedup with
  | .ok a =>
    match Layout.new dbg a with
    | .ok l => some l.entitiesCapacity
    | .error _ => none
  | .error _ => none

/-- Number of live entities with type set `T`. -/
def population (w : World) (T : List TypeId) : Nat :=
  (w.live.filter fun e => decide (sameSet (w.types e) T)).length

/-- A condition in terms of the world alone that keeps clear of two defects of the code (`C20_*` and
`C28_*` theorems) when an entity is given type set `T`.

* The page layout for `T` exists and holds at least one row.
* Rows cannot exceed the page layout: either the entities of type set `T` fit in one page, or `T` has
  `c ≥ 4` rows per page and so have all type sets that entities have left (their pages are recycled).
* The archetype slot of `T` is found again: `T` is inhabited, or was never used, or the other used type
  sets, except perhaps the first one ever used, are inhabited. -/
def Target (U : Universe) (dbg : Bool) (w : World) (T : List TypeId) : Prop :=
  match rowsPerPage U dbg T with
  | none => False
  | some c =>
    1 ≤ c ∧
    (population w T < c ∨ (4 ≤ c ∧ ∀ S ∈ w.left, rowsPerPage U dbg S = some c)) ∧
    (0 < population w T ∨ (∀ S ∈ w.used, ¬ sameSet S T) ∨
      ∀ S ∈ w.used, sameSet S T ∨ 0 < population w S ∨ (∃ F ∈ w.used.getLast?, sameSet S F))

instance (U : Universe) (dbg : Bool) (w : World) (T : List TypeId) : Decidable (Target U dbg w T) := by
  unfold Target
  cases rowsPerPage U dbg T with
  | none => exact inferInstanceAs (Decidable False)
  | some c =>
    have : ∀ S, Decidable (∃ F ∈ w.used.getLast?, sameSet S F) := fun S => by
      cases w.used.getLast? with
      | none => exact isFalse (by simp)
      | some F => exact decidable_of_iff (sameSet S F) (by simp)
    infer_instance

/-- A tuple of component values: distinct types, and as many bytes as each type has. -/
def TupleOk (U : Universe) (vals : TupleVal) : Prop :=
  (vals.map (·.1)).Nodup ∧ ∀ p ∈ vals, p.2.length = U.size p.1

instance (U : Universe) (vals : TupleVal) : Decidable (TupleOk U vals) := by unfold TupleOk; infer_instance

/-- What a well-behaved program may do. It only uses handles it was given; destroys, tags and orders
only live entities; adds an entity to a group only when it is not in it, next to a member of the group;
and never removes all components of an entity. The handle in `created` and `createdWith` is chosen by
the store and is not restricted. -/
def Allowed (U : Universe) (w : World) : Event → Prop
  | .created _ => w.issued.length + 1 < u32Size
  | .createdWith _ _ _ => w.issued.length + 1 < u32Size
  | .destroyed e => e ∈ w.live
  | .added e vals => e ∈ w.issued ∧ vals ≠ [] ∧ TupleOk U vals
  | .removed e ts => e ∈ w.issued ∧ (e ∈ w.live → w.types e ≠ [] → ∃ t ∈ w.types e, t ∉ ts)
  | .assigned e vals => e ∈ w.issued ∧ TupleOk U vals
  | .tagged _ e => e ∈ w.live
  | .untagged _ e => e ∈ w.live
  | .orderedLast g e => e ∈ w.live ∧ e ∉ w.order g
  | .orderedAfter g e x => e ∈ w.live ∧ e ∉ w.order g ∧ x ∈ w.order g
  | .orderedBefore g e x => e ∈ w.live ∧ e ∉ w.order g ∧ x ∈ w.order g
  | .unordered _ e => e ∈ w.live

instance (U : Universe) (w : World) (ev : Event) : Decidable (Allowed U w ev) := by
  cases ev <;> (unfold Allowed; infer_instance)

/-- The part of `Allowed` that concerns entity handles, tags and groups only; component calls are not
restricted at all. -/
def Loose (w : World) : Event → Prop
  | .created _ => w.issued.length + 1 < u32Size
  | .createdWith _ _ _ => w.issued.length + 1 < u32Size
  | .destroyed e => e ∈ w.live
  | .added _ _ => True
  | .removed _ _ => True
  | .assigned _ _ => True
  | .tagged _ e => e ∈ w.live
  | .untagged _ e => e ∈ w.live
  | .orderedLast g e => e ∈ w.live ∧ e ∉ w.order g
  | .orderedAfter g e x => e ∈ w.live ∧ e ∉ w.order g ∧ x ∈ w.order g
  | .orderedBefore g e x => e ∈ w.live ∧ e ∉ w.order g ∧ x ∈ w.order g
  | .unordered _ e => e ∈ w.live

instance (w : World) (ev : Event) : Decidable (Loose w ev) := by
  cases ev <;> (unfold Loose; infer_instance)

/-- The type set for which the call has to find room for a new row, if it needs one. -/
def needs (w : World) : Event → Option (List TypeId)
  | .createdWith _ ts _ => some ts
  | .added e vals =>
    if e ∈ w.live ∧ ¬ ∀ p ∈ vals, p.1 ∈ w.types e then
      some (w.types e ++ (vals.map (·.1)).filter (· ∉ w.types e))
    else none
  | .removed e ts => if e ∈ w.live ∧ w.types e ≠ [] then some ((w.types e).filter (· ∉ ts)) else none
  | _ => none

/-- The modelled call returned normally. -/
def Returns (U : Universe) (dbg : Bool) (s : Store) (ev : Event) (s' : Store) : Prop :=
  match ev with
  | .created e => s.createEntity dbg = .ok (s', e)
  | .createdWith e ts _ => ∃ a, Built U a ∧ a.ids = ts ∧ s.createEntityWithArchetype dbg a = .ok (s', e)
  | .destroyed e => s.destroyEntity dbg e = .ok s'
  | .added e vals => s.addComponents U dbg e vals = .ok s'
  | .removed e ts => s.removeComponents U dbg e ts = .ok s'
  | .assigned e vals => ∃ b, s.setComponents U dbg e vals = .ok (s', b)
  | .tagged tag e => s.addTag tag e = .ok s'
  | .untagged tag e => s.removeTag tag e = .ok s'
  | .orderedLast g e => s.addOrder dbg g e = .ok s'
  | .orderedAfter g e x => s.addOrderNextTo dbg g e x = .ok s'
  | .orderedBefore g e x => s.addOrderPreviousTo dbg g e x = .ok s'
  | .unordered g e => s.removeOrder g e = .ok s'

/-- The modelled call returned normally, and the initial component values named in a `createdWith`
event are those found by reading the components afterwards. -/
def Does (U : Universe) (dbg : Bool) (s : Store) (ev : Event) (s' : Store) : Prop :=
  Returns U dbg s ev s' ∧
  match ev with
  | .createdWith e ts init => ∀ t ∈ ts, s'.getComponents U dbg e [t] = .ok (some [init t])
  | _ => True

/-- Executions of well-behaved programs, without any further restriction. The properties about component
data are false for some of these executions, because of two defects of the code (`C20_*` and `C28_*`
theorems); `Exec` below leaves out the calls that trigger them. (The initial values named in `createdWith`
events are not checked here.) -/
inductive WellExec (U : Universe) (dbg : Bool) (cap : Nat) : List Event → Store → Prop
  | init {s} : Store.withCapacity dbg cap = .ok s → WellExec U dbg cap [] s
  | step {h s s'} (ev : Event) : WellExec U dbg cap h s → Allowed U (world h) ev → Returns U dbg s ev s' →
      WellExec U dbg cap (ev :: h) s'

/-- `Exec U dbg cap h s`: a well-behaved program using a store created with capacity `cap` can produce
history `h` and reach state `s`, never making the store look for room when one of its two defects
(`Archs.Roomy`, `Archs.Findable`) would show. -/
inductive Exec (U : Universe) (dbg : Bool) (cap : Nat) : List Event → Store → Prop
  | init {s} : Store.withCapacity dbg cap = .ok s → Exec U dbg cap [] s
  | step {h s s'} (ev : Event) : Exec U dbg cap h s → Allowed U (world h) ev →
      (∀ T, needs (world h) ev = some T → s.archs.CanHold U dbg T) → Does U dbg s ev s' →
      Exec U dbg cap (ev :: h) s'

/-- The same with the condition on the world instead: which calls may come next depends only on the
history, not on the state of the store. -/
inductive SafeExec (U : Universe) (dbg : Bool) (cap : Nat) : List Event → Store → Prop
  | init {s} : Store.withCapacity dbg cap = .ok s → SafeExec U dbg cap [] s
  | step {h s s'} (ev : Event) : SafeExec U dbg cap h s → Allowed U (world h) ev →
      (∀ T, needs (world h) ev = some T → Target U dbg (world h) T) → Does U dbg s ev s' →
      SafeExec U dbg cap (ev :: h) s'

/-- Executions of programs that may do anything with components (so the contents of the components and
even the type sets may be lost through the defects of the code), as long as every call returns. They
still determine handles, tags and groups. -/
inductive LooseExec (U : Universe) (dbg : Bool) (cap : Nat) : List Event → Store → Prop
  | init {s} : Store.withCapacity dbg cap = .ok s → LooseExec U dbg cap [] s
  | step {h s s'} (ev : Event) : LooseExec U dbg cap h s → Loose (world h) ev → Returns U dbg s ev s' →
      LooseExec U dbg cap (ev :: h) s'

end Ecs.Spec
