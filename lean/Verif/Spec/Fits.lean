import Verif.Model.Archs
import Mathlib.Data.List.Dedup

/-! When one more row of an archetype can be stored without triggering one of the two defects of
`ArchetypesContainer` (see the `C20_*` and `C28_*` theorems). -/

namespace Ecs.Archs

/-- The page that `reserve_page` picks for the next row of archetype `a`, if it is one already in use,
holds fewer rows than its layout allows. (`has_free_space` compares with the capacity of the page's
vector instead, which can be larger.) -/
def Roomy (c : Archs) (a : Archetype) : Prop :=
  ∀ (ai : Nat) (l : Layout) (ps : List Nat) (p : Nat) (pg : Page),
    c.archetypes[ai]? = some a → c.layouts[ai]? = some l → c.archPages[ai]? = some ps →
    findFreePage c.pages ps.reverse = .ok (some p) → c.pages[p]? = some pg →
    pg.ids.items.length < l.entitiesCapacity

/-- If archetype `a` is on the list of free archetypes, the binary search of `reserve_archetype` finds
it there. (The list is not kept sorted, so the search can miss it.) -/
def Findable (c : Archs) (a : Archetype) : Prop :=
  ∀ i : Nat, c.archetypes[i]? = some a → i ∈ c.freeArchetypes → ∃ k, binarySearch c.freeArchetypes i = .found k

/-- One more row of archetype `a` can be stored: its layout exists and has room for at least one row, and
neither defect is triggered. -/
def Fits (dbg : Bool) (c : Archs) (a : Archetype) : Prop :=
  (∃ l, Layout.new dbg a = .ok l ∧ 1 ≤ l.entitiesCapacity) ∧ c.Roomy a ∧ c.Findable a

/-- One more row with type set `T` can be stored. -/
def CanHold (U : Universe) (dbg : Bool) (c : Archs) (T : List TypeId) : Prop :=
  ∃ a, Archetype.withComponents U T.dedup = .ok a ∧ c.Fits dbg a

end Ecs.Archs
