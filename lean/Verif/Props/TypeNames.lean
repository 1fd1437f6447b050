import Verif.Proofs.TypeNames
import Verif.Props.Archetypes

/-! # C98: the names an archetype shows -/

namespace Ecs.Props
open Spec

variable {U : Universe} {N : TypeId → String}

/-- **C98.** Printing an archetype shows the names of its component types, in the order of their ids, reading only what was
written. (The field is printed with two colons: its name in the code ends with one.) -/
theorem C98_display {a : NamedArchetype} (h : Named U N a) (quote : String → String) :
    a.display quote = .ok ("Archetype { Components:: [" ++ ", ".intercalate (a.ids.map fun t => quote (N t)) ++ "] }") :=
  (named_spec h).1.display quote

/-- **C98, iteration.** `components_iter` yields for every type of the archetype what `ComponentType::of` makes of it: its own size,
alignment and name. -/
theorem C98_iter {a : NamedArchetype} (h : Named U N a) :
    ∃ l, a.componentsIter = .ok l ∧ l.map (·.id) = a.ids ∧
      ∀ c ∈ l, c.size = U.size c.id ∧ c.align = U.align c.id ∧ c.name = N c.id := by
  refine ⟨_, (named_spec h).1.componentsIter, ?_, ?_⟩
  · rw [List.map_map]
    exact List.map_id _
  · intro c hc
    obtain ⟨t, _, rfl⟩ := List.mem_map.1 hc
    exact ⟨rfl, rfl, rfl⟩

/-- **C98, clones.** A clone is the same archetype, names included. -/
theorem C98_clone {a : NamedArchetype} (h : Named U N a) : a.clone = .ok a := (named_spec h).1.clone

/-- **C98, same sets.** Two archetypes with the same component types print the same, however they were obtained. -/
theorem C98_same {a b : NamedArchetype} (ha : Named U N a) (hb : Named U N b) (h : ∀ t, t ∈ a.ids ↔ t ∈ b.ids)
    (quote : String → String) : a.display quote = b.display quote := by
  have e : a.ids = b.ids := (named_spec ha).2.wf.incr.ext (named_spec hb).2.wf.incr h
  rw [C98_display ha, C98_display hb, e]

/-- **C98, the archetypes of the other theorems.** The archetypes with names are those without (`Built`, which the other theorems
are about), each with the names added. -/
theorem C98_same_archetypes (x : Archetype) : Built U x ↔ ∃ a, Named U N a ∧ nameless a = x := by
  refine ⟨named_of_built N, ?_⟩
  rintro ⟨a, h, rfl⟩
  exact (named_spec h).2

/-- Names for the examples. -/
def exampleNames (t : TypeId) : String := if t = 2 then "Position" else if t = 5 then "Velocity" else "Mass"

/-- Non-vacuity: a builder fed with types out of order, one of them twice, and one excluded again; then a clone. -/
example : ∃ a, Named exampleUniverse exampleNames a ∧ a.ids = [2, 5] ∧
    a.display (fun s => "\"" ++ s ++ "\"") = .ok "Archetype { Components:: [\"Position\", \"Velocity\"] }" := by
  refine ⟨⟨[2, 5], [12, 24], [4, 4], ["Position", "Velocity"]⟩, .copy (a := ⟨[2, 5], [12, 24], [4, 4], ["Position", "Velocity"]⟩)
    (.builder [.includeTypes [7, 5, 2, 5], .excludeTypes [7]] (by intro x hx; simp at hx) rfl rfl) (by decide), rfl, by decide⟩

end Ecs.Props
