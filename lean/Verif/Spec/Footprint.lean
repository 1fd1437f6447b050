import Verif.Spec.World

/-! Which bytes of the pages a call may write: component slots of at most two rows. -/

namespace Ecs.Spec

/-- The contents of byte `x` of page `p`; there are none if the page does not exist or the byte was never written. -/
def pageByte (s : Store) (p x : Nat) : Cell :=
  match s.archs.pages[p]? with
  | some pg => pg.data x
  | none => none

/-- How many rows page `p` holds. -/
def rowsOn (s : Store) (p : Nat) : Nat :=
  match s.archs.pages[p]? with
  | some pg => pg.ids.items.length
  | none => 0

/-- Byte `x` of page `p` belongs to component `t` in row `n`, according to the archetype and the layout of the page. -/
def InColumn (U : Universe) (s : Store) (p n : Nat) (t : TypeId) (x : Nat) : Prop :=
  ∃ (ai : Nat) (a : Archetype) (l : Layout) (k o : Nat), s.archs.pageToArch[p]? = some ai ∧ s.archs.archetypes[ai]? = some a ∧
    s.archs.layouts[ai]? = some l ∧ a.ids[k]? = some t ∧ l.offsets[k]? = some o ∧
    o + n * U.size t ≤ x ∧ x < o + n * U.size t + U.size t

/-- The components of `e` are in row `n` of page `p`. -/
def RowOf (s : Store) (e : Entity) (p n : Nat) : Prop :=
  s.toPage[e.id]? = some (some p) ∧ s.toIndex[e.id]? = some (some n) ∧
    ∃ pg, s.archs.pages[p]? = some pg ∧ pg.ids.items[n]? = some e.id

/-- Row `n` is the one behind the last row of the page in which the components of `e` are after the call. -/
def Arrives (s s' : Store) (e : Entity) (p n : Nat) : Prop := s'.toPage[e.id]? = some (some p) ∧ n = rowsOn s p

/-- The components of `e` were in row `n`, and there is such a row after the call. -/
def Vacates (s s' : Store) (e : Entity) (p n : Nat) : Prop := RowOf s e p n ∧ n < rowsOn s' p

/-- Which components of which rows a call that leads from `s` to `s'` may write. -/
def MayWrite (s s' : Store) (p n : Nat) (t : TypeId) : Event → Prop
  | .added e vals => Arrives s s' e p n ∨ Vacates s s' e p n ∨ (RowOf s e p n ∧ RowOf s' e p n ∧ t ∈ vals.map (·.1))
  | .removed e _ => Arrives s s' e p n ∨ Vacates s s' e p n
  | .destroyed e => Vacates s s' e p n
  | .assigned e vals => RowOf s e p n ∧ t ∈ vals.map (·.1)
  | _ => False

end Ecs.Spec
