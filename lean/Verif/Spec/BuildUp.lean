import Verif.Spec.Query

/-! Programs that only build up a world, and the order in which component queries visit it. -/

namespace Ecs.Spec

/-- Nothing is destroyed or removed, and no entity that has components is given components of further types. -/
def BuildsUp : List Event → Prop
  | [] => True
  | .destroyed _ :: _ => False
  | .removed _ _ :: _ => False
  | .added e vals :: h => ((world h).types e = [] ∨ ∀ p ∈ vals, p.1 ∈ (world h).types e) ∧ BuildsUp h
  | _ :: h => BuildsUp h

instance : (h : List Event) → Decidable (BuildsUp h)
  | [] => isTrue trivial
  | ev :: h => by
    have := instDecidableBuildsUp h
    cases ev <;> (unfold BuildsUp; infer_instance)

/-- Entity `e` joins the group of the type set `S`, at the end. A new set gets a group at the end. -/
def join (S : List TypeId) (e : Entity) : List (List TypeId × List Entity) → List (List TypeId × List Entity)
  | [] => [(S, [e])]
  | g :: gs => if sameSet g.1 S then (g.1, g.2 ++ [e]) :: gs else g :: join S e gs

/-- The type sets in the order of their first use, each with the entities that were given it, oldest first. -/
def groups : List Event → List (List TypeId × List Entity)
  | [] => []
  | .createdWith e ts _ :: h => join ts e (groups h)
  | .added e vals :: h =>
    if e ∈ alive h ∧ (world h).types e = [] then join (vals.map (·.1)) e (groups h) else groups h
  | _ :: h => groups h

/-- The entities of the groups whose type set satisfies the access, group by group. -/
def visitOrder (h : List Event) (acc : Access) : List Entity :=
  ((groups h).filter fun g => decide (Covers g.1 acc)).flatMap (·.2)

/-- At least four entities with the type set fit into a page. -/
def Wide (U : Universe) (dbg : Bool) (T : List TypeId) : Prop := ∃ c, rowsPerPage U dbg T = some c ∧ 4 ≤ c

end Ecs.Spec
