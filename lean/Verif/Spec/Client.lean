import Verif.Model.Client
import Verif.Spec.Alloc
import Verif.Spec.Query
import Verif.Spec.Update

/-! A reference implementation of the store, for programs (`Client`). Its state is the list of the calls so
far; it answers from the world these calls make (`Spec.World`). -/

namespace Ecs.Spec

/-- The handle the next creation returns. -/
def newHandle (h : List Event) : Entity := nextHandle (entHistory h)

/-- The entities a query visits. -/
def matching (h : List Event) (acc : Access) (L : List Entity) : List Entity := L.filter fun e => decide (Eligible h acc e)

/-- The values of the components of an entity. -/
def valuesOf (h : List Event) (ts : List TypeId) (e : Entity) : List (List Cell) := ts.map ((world h).value e)

/-- The assignments of a loop over the entities `L` (newest first): each is given the values `f` computes from
those it has. -/
def assignments (h : List Event) (acc : Access) (f : Entity → List (List Cell) → List (List UInt8)) (L : List Entity) :
    List Event :=
  (L.map fun e => .assigned e (acc.writes.zip (f e (valuesOf h acc.types e)))).reverse

/-- `Serves h ask a h'`: after the calls `h`, the reference implementation may answer the call `ask` by `a`, and then
the calls are `h'`. The answer is determined, except for the content of the components of an entity created from an
archetype, and for the order in which a component query visits the entities. -/
inductive Serves (h : List Event) : Ask → Answer → List Event → Prop
  | create : Serves h .create (.handle (newHandle h)) (.created (newHandle h) :: h)
  | createWith (a : Archetype) (init : TypeId → List Cell) :
      Serves h (.createWith a) (.handle (newHandle h)) (.createdWith (newHandle h) a.ids init :: h)
  | destroy (e : Entity) : Serves h (.destroy e) .done (.destroyed e :: h)
  | add (e : Entity) (vals : TupleVal) : Serves h (.add e vals) .done (.added e vals :: h)
  | remove (e : Entity) (ts : List TypeId) : Serves h (.remove e ts) .done (.removed e ts :: h)
  | assign (e : Entity) (vals : TupleVal) :
      Serves h (.assign e vals)
        (.flag (decide (e ∈ alive h ∧ (world h).types e ≠ [] ∧ ∀ p ∈ vals, p.1 ∈ (world h).types e)))
        (.assigned e vals :: h)
  | tag (tag : Nat) (e : Entity) : Serves h (.tag tag e) .done (.tagged tag e :: h)
  | untag (tag : Nat) (e : Entity) : Serves h (.untag tag e) .done (.untagged tag e :: h)
  | orderLast (g : Nat) (e : Entity) : Serves h (.orderLast g e) .done (.orderedLast g e :: h)
  | orderAfter (g : Nat) (e x : Entity) : Serves h (.orderAfter g e x) .done (.orderedAfter g e x :: h)
  | orderBefore (g : Nat) (e x : Entity) : Serves h (.orderBefore g e x) .done (.orderedBefore g e x :: h)
  | unorder (g : Nat) (e : Entity) : Serves h (.unorder g e) .done (.unordered g e :: h)
  | isAlive (e : Entity) : Serves h (.isAlive e) (.flag (decide (e ∈ alive h))) h
  | read (e : Entity) (ts : List TypeId) : Serves h (.read e ts) (.values (ts.mapM ((world h).get e))) h
  | hasType (e : Entity) (t : TypeId) :
      Serves h (.hasType e t) (.flag (decide (e ∈ alive h ∧ t ∈ (world h).types e))) h
  | hasTag (tag : Nat) (e : Entity) : Serves h (.hasTag tag e) (.flag ((world h).tags tag e)) h
  | first (g : Nat) : Serves h (.first g) (.entity (sequence g h).head?) h
  | last (g : Nat) : Serves h (.last g) (.entity (sequence g h).getLast?) h
  | next (g : Nat) (e : Entity) : Serves h (.next g e) (.entity (follower (sequence g h) e)) h
  | previous (g : Nat) (e : Entity) : Serves h (.previous g e) (.entity (preceder (sequence g h) e)) h
  | query (acc : Access) (L : List Entity) (hL : L.Perm (matching h acc (alive h))) :
      Serves h (.query acc) (.rows (L.map fun e => (e, valuesOf h acc.types e))) h
  | queryTagged (acc : Access) (tag : Nat) (L : List Entity)
      (hL : L.Perm ((matching h acc (alive h)).filter ((world h).tags tag))) :
      Serves h (.queryTagged acc tag) (.rows (L.map fun e => (e, valuesOf h acc.types e))) h
  | queryList (L : List Entity) (acc : Access) :
      Serves h (.queryList L acc) (.rows ((matching h acc L).map fun e => (e, valuesOf h acc.types e))) h
  | queryGroup (g : Nat) (acc : Access) :
      Serves h (.queryGroup g acc) (.items ((matching h acc (sequence g h)).map (valuesOf h acc.types))) h
  | update (acc : Access) (f : Entity → List (List Cell) → List (List UInt8)) (L : List Entity)
      (hL : L.Perm (matching h acc (alive h))) :
      Serves h (.update acc f) .done (assignments h acc f L ++ h)
  | updateList (L : List Entity) (acc : Access) (f : Entity → List (List Cell) → List (List UInt8)) :
      Serves h (.updateList L acc f) .done (assignments h acc f (matching h acc L) ++ h)
  | updateGroup (g : Nat) (acc : Access) (f : List (List Cell) → List (List UInt8)) :
      Serves h (.updateGroup g acc f) .done (assignments h acc (fun _ => f) (matching h acc (sequence g h)) ++ h)

/-- The call may come next in a well-behaved program, and if it gives an entity a type set, that meets `Target`. -/
def Permits (U : Universe) (dbg : Bool) (h : List Event) (ev : Event) : Prop :=
  Allowed U (world h) ev ∧ ∀ T, needs (world h) ev = some T → Target U dbg (world h) T

instance (U : Universe) (dbg : Bool) (h : List Event) (ev : Event) : Decidable (Permits U dbg h ev) := by
  have : Decidable (∀ T, needs (world h) ev = some T → Target U dbg (world h) T) := by
    cases needs (world h) ev with
    | none => exact isTrue (by simp)
    | some T => exact decidable_of_iff (Target U dbg (world h) T) (by simp)
  unfold Permits
  infer_instance

/-- The calls the program may make after the calls `h`, with a store of initial capacity `cap`: those of a well-behaved
program (`Allowed`) that keep clear of the defects of the code: type sets meet `Target`; a query names each type once,
and at least one; a tag by which a query is filtered was given to some entity before; entities listed for a query or in
a group have, or had, components. -/
def Fine (U : Universe) (dbg : Bool) (cap : Nat) (h : List Event) : Ask → Prop
  | .create => (handles h).length + 1 < u32Size
  | .createWith a => (handles h).length + 1 < u32Size ∧ Built U a ∧ Target U dbg (world h) a.ids
  | .destroy e => e ∈ alive h
  | .add e vals => Permits U dbg h (.added e vals)
  | .remove e ts => Permits U dbg h (.removed e ts)
  | .assign e vals => e ∈ handles h ∧ TupleOk U vals
  | .tag _ e => e ∈ alive h
  | .untag _ e => e ∈ alive h
  | .orderLast g e => e ∈ alive h ∧ e ∉ sequence g h
  | .orderAfter g e x => e ∈ alive h ∧ e ∉ sequence g h ∧ x ∈ sequence g h
  | .orderBefore g e x => e ∈ alive h ∧ e ∉ sequence g h ∧ x ∈ sequence g h
  | .unorder _ e => e ∈ alive h
  | .isAlive e => e ∈ handles h
  | .read e ts => e ∈ handles h ∧ ts ≠ []
  | .hasType e _ => e ∈ handles h
  | .hasTag _ e => e ∈ alive h
  | .first _ => True
  | .last _ => True
  | .next _ e => e ∈ alive h
  | .previous _ e => e ∈ alive h
  | .query acc => DistinctTypes acc ∧ acc.types ≠ []
  | .queryTagged acc tag => DistinctTypes acc ∧ acc.types ≠ [] ∧ ∃ e, .tagged tag e ∈ h
  | .queryList L acc => DistinctTypes acc ∧ acc.types ≠ [] ∧ Askable cap h L
  | .queryGroup g acc => DistinctTypes acc ∧ acc.types ≠ [] ∧ ∀ e ∈ sequence g h, (world h).types e ≠ []
  | .update acc f => acc.types.Nodup ∧ acc.types ≠ [] ∧ ∀ e vs, Gives U acc.writes (f e vs)
  | .updateList L acc f =>
    acc.types.Nodup ∧ acc.types ≠ [] ∧ (∀ e vs, Gives U acc.writes (f e vs)) ∧ Askable cap h L ∧ L.Nodup
  | .updateGroup g acc f =>
    acc.types.Nodup ∧ acc.types ≠ [] ∧ (∀ vs, Gives U acc.writes (f vs)) ∧ ∀ e ∈ sequence g h, (world h).types e ≠ []

/-- After the calls `h` with answers `as`, the next `n` calls of the program are fine, whatever the reference
implementation answers. -/
def Polite (U : Universe) (dbg : Bool) (cap : Nat) (client : Client) : (n : Nat) → List Event → List Answer → Prop
  | 0, _, _ => True
  | n + 1, h, as =>
    ∀ ask, client as = some ask →
      Fine U dbg cap h ask ∧ ∀ a h', Serves h ask a h' → Polite U dbg cap client n h' (a :: as)

/-- After the calls `h` with answers `as`, the answers may be `out` after at most `n` further calls of the program to
the reference implementation. -/
def Plays (client : Client) : (n : Nat) → List Event → List Answer → List Answer → Prop
  | 0, _, as, out => out = as
  | n + 1, h, as, out =>
    match client as with
    | none => out = as
    | some ask => ∃ a h', Serves h ask a h' ∧ Plays client n h' (a :: as) out

/-- The calls whose answer is determined: not the creation from an archetype and the loops over a component query. -/
def determined : Ask → Bool
  | .createWith _ | .query _ | .queryTagged _ _ | .update _ _ => false
  | _ => true

end Ecs.Spec
