import Verif.Spec.Reassign

/-! Tuples that name a type more than once. -/

namespace Ecs.Spec

/-- The last value that a tuple has for the type `t`. -/
def lastNamed (vals : TupleVal) (t : TypeId) : Option (List UInt8) := ((vals.filter (·.1 = t)).getLast?).map (·.2)

/-- Component values after the values of a tuple have been assigned one after the other. -/
def overwritten (vals : TupleVal) (f : TypeId → List Cell) (t : TypeId) : List Cell :=
  ((lastNamed vals t).map fun bs => bs.map some).getD (f t)

/-- The types of an entity that has the types `T`, after adding a tuple. -/
def widened (T : List TypeId) (vals : TupleVal) : List TypeId := T ++ (typesOf vals).filter (· ∉ T)

/-- A tuple that names only types in `T`, but has more entries than there are types in `T`: it names some type repeatedly. -/
def TooLong (T : List TypeId) (vals : TupleVal) : Prop := (∀ x ∈ vals, x.1 ∈ T) ∧ T.dedup.length < vals.length

instance (T : List TypeId) (vals : TupleVal) : Decidable (TooLong T vals) := by unfold TooLong; infer_instance

/-- All components of the entity `e` that can be asked for are in page `p`. -/
def InPage (U : Universe) (dbg : Bool) (s : Store) (e : Entity) (p : Nat) : Prop :=
  ∀ ts refs, s.getComponentsRefs U dbg e ts = .ok (some refs) → ∀ r ∈ refs, r.page = p

/-- The last page of a list that still has room, judged as the store does by the capacity of the page's vector. -/
def roomIn (s : Store) (ps : List Nat) : Option Nat := (ps.filter fun p => (s.archs.pages[p]?).any Page.hasFreeSpace).getLast?

end Ecs.Spec
