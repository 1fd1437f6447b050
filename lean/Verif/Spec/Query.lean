import Verif.Model.Query
import Verif.Spec.Tags

/-! Vocabulary for the properties of queries. -/

namespace Ecs.Spec

/-- Each tuple of the access names distinct component types. (A read-write access may name a type in both
tuples.) -/
def DistinctTypes : Access → Prop
  | .readonly r => r.Nodup
  | .write w => w.Nodup
  | .readWrite r w => r.Nodup ∧ w.Nodup

instance (acc : Access) : Decidable (DistinctTypes acc) := by
  cases acc <;> (unfold DistinctTypes; infer_instance)

/-- An entity with exactly the types `ids` satisfies the access: it has all the types, and no tuple is longer
than the list of its types. (The second part says nothing new for tuples of distinct types.) -/
def Covers (ids : List TypeId) : Access → Prop
  | .readonly r => (∀ t ∈ r, t ∈ ids) ∧ r.length ≤ ids.length
  | .write w => (∀ t ∈ w, t ∈ ids) ∧ w.length ≤ ids.length
  | .readWrite r w => (∀ t ∈ r ++ w, t ∈ ids) ∧ r.length ≤ ids.length ∧ w.length ≤ ids.length

instance (ids : List TypeId) (acc : Access) : Decidable (Covers ids acc) := by
  cases acc <;> (unfold Covers; infer_instance)

/-- In this state `get_entity_archetype(e)` returns an archetype that satisfies the access. -/
def selected (dbg : Bool) (s : Store) (acc : Access) (e : Entity) : Bool :=
  match s.getEntityArchetype dbg e with
  | .ok (some a) => decide (Covers a.ids acc)
  | _ => false

/-- The archetype of the page recorded for an id, whether or not the entity with this id has components now. -/
def recordedArchetype (s : Store) (id : Nat) : Option Archetype :=
  match s.toPage[id]? with
  | some (some page) => s.archs.pageToArch[page]?.bind fun ai => s.archs.archetypes[ai]?
  | _ => none

/-- A row of a page: the archetype and layout with which it is read, where it is, and the id stored in it. -/
structure Row where
  arch : Archetype
  layout : Layout
  loc : Loc
  id : Nat

/-- The rows of page `p`, if its components are laid out as in `a` and `l`. -/
def rowsOfPage (s : Store) (a : Archetype) (l : Layout) (p : Nat) : List Row :=
  match s.archs.pages[p]? with
  | none => []
  | some pg => pg.ids.items.zipIdx.map fun x => ⟨a, l, ⟨p, x.2⟩, x.1⟩

/-- All rows of the pages listed for the archetypes that satisfy the access. -/
def coveredRows (s : Store) (acc : Access) : List Row :=
  ((s.archs.archetypes.zip s.archs.layouts).zip s.archs.archPages).flatMap fun x =>
    if Covers x.1.1.ids acc then x.2.flatMap (rowsOfPage s x.1.1 x.1.2) else []

/-- `r` is the place of the component of type `t` in the row: at the offset which the layout gives to an occurrence of `t`
among the types of the archetype. -/
def PlaceOf (U : Universe) (row : Row) (t : TypeId) (r : Ref) : Prop :=
  ∃ k o : Nat, row.arch.ids[k]? = some t ∧ row.layout.offsets[k]? = some o ∧
    r = ⟨row.loc.page, o + row.loc.index * U.size t, U.size t⟩

/-- Two references do not share a byte. -/
def Apart (r r' : Ref) : Prop := r.page ≠ r'.page ∨ r.off + r.size ≤ r'.off ∨ r'.off + r'.size ≤ r.off

instance (r r' : Ref) : Decidable (Apart r r') := by unfold Apart; infer_instance

/-- Calling `next` `n` times; the results, and the iterator afterwards. -/
def calls {σ α : Type} (next : σ → Res (Option α × σ)) : (n : Nat) → σ → Res (List (Option α) × σ)
  | 0, it => .ok ([], it)
  | n + 1, it => do
    let (r, it) ← next it
    let (rs, it) ← calls next n it
    return (r :: rs, it)

/-- Once the iterator has returned `None`, after however many calls, it returns `None` forever. -/
def Fused {σ α : Type} (next : σ → Res (Option α × σ)) (it : σ) : Prop :=
  ∀ n rs it1 it2, calls next n it = .ok (rs, it1) → next it1 = .ok (none, it2) →
    ∀ m, ∃ it3, calls next m it2 = .ok (List.replicate m none, it3)

/-- The ids that were ever given a row: those of the entities created with an archetype, and of the
entities that were alive when components were added to them. -/
def stored : List Event → List Nat
  | [] => []
  | .createdWith e _ _ :: h => e.id :: stored h
  | .added e _ :: h => if e ∈ alive h then e.id :: stored h else stored h
  | _ :: h => stored h

/-- The entities that were ever given components, read off the history: created with an archetype, or alive
when components were added. -/
def given : List Event → List Entity
  | [] => []
  | .createdWith e _ _ :: h => e :: given h
  | .added e _ :: h => if e ∈ alive h then e :: given h else given h
  | _ :: h => given h

/-- After the history, `e` is alive, has components, and has all the queried ones. -/
def Eligible (h : List Event) (acc : Access) (e : Entity) : Prop :=
  e ∈ alive h ∧ (world h).types e ≠ [] ∧ ∀ t ∈ acc.types, t ∈ (world h).types e

instance (h : List Event) (acc : Access) (e : Entity) : Decidable (Eligible h acc e) := by
  unfold Eligible; infer_instance

/-- A list of handles which an entity query can be asked about: each is alive and has components, or is
dead and its id was once given components (or is among the first `cap` ids). -/
def Askable (cap : Nat) (h : List Event) (L : List Entity) : Prop :=
  ∀ e ∈ L, e ∈ handles h ∧ (e ∈ alive h → (world h).types e ≠ []) ∧ (e.id < cap ∨ e.id ∈ stored h)

instance (cap : Nat) (h : List Event) (L : List Entity) : Decidable (Askable cap h L) := by
  unfold Askable; infer_instance

end Ecs.Spec
