import Verif.Model.QueryCost
import Verif.Spec.Query

/-! What starting a query examines. -/

namespace Ecs.Spec

/-- The pages of all archetypes that have the types of the access, in the order of the archetypes. -/
def pagesWith (s : Store) (acc : Access) : List Nat :=
  (List.range s.archs.archetypes.length).flatMap fun i =>
    if (s.archs.archetypes[i]?).any fun a => decide (Covers a.ids acc) then (s.archs.archPages[i]?).getD [] else []

/-- The number of entities in a page. -/
def rowsIn (s : Store) (p : Nat) : Nat := (s.archs.pages[p]?).elim 0 Page.entityCount

end Ecs.Spec
