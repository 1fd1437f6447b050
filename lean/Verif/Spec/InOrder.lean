import Verif.Spec.Healthy
import Verif.Spec.Panics
import Verif.Spec.Run

/-! States in which the component data are in order, whatever happened before, and executions that start there. -/

namespace Ecs.Spec

/-- The component data of a store are in order: no page holds more rows than its layout allows, no archetype with entities
is on the list of free archetypes, no archetype is on it twice, and pages have room for at least one row of every
registered component set. -/
def InOrder (s : Store) : Prop :=
  RowsFit s ∧ UsedNotFree s ∧ s.archs.freeArchetypes.Nodup ∧ ∀ l ∈ s.archs.layouts, 1 ≤ l.entitiesCapacity

/-- The value of component `t` of `e`, as read through `get_components_refs`. -/
def heldValue (U : Universe) (dbg : Bool) (s : Store) (e : Entity) (t : TypeId) : List Cell :=
  match s.getComponents U dbg e [t] with
  | .ok (some [v]) => v
  | _ => []

/-- The world with the handles, tags and groups of history `h`, and the component types and values that can be read from
the store. (`used` and `left` are not needed for what follows.) -/
def observed (U : Universe) (dbg : Bool) (h : List Event) (s : Store) : World :=
  { world h with
    types := heldTypes dbg s
    value := heldValue U dbg s
    used := (s.archs.archetypes.map (·.ids)).reverse
    left := [[]] }

/-- The world after the events `k` (newest first), starting with world `w`. -/
def worldFrom (w : World) : List Event → World
  | [] => w
  | ev :: k => (worldFrom w k).apply ev

/-- Executions like `Exec` that start with a store `s₀` and a world `w₀`. -/
inductive ExecFrom (U : Universe) (dbg : Bool) (s₀ : Store) (w₀ : World) : List Event → Store → Prop
  | init : ExecFrom U dbg s₀ w₀ [] s₀
  | step {k s s'} (ev : Event) : ExecFrom U dbg s₀ w₀ k s → Allowed U (worldFrom w₀ k) ev →
      (∀ T, needs (worldFrom w₀ k) ev = some T → s.archs.CanHold U dbg T) → Does U dbg s ev s' →
      ExecFrom U dbg s₀ w₀ (ev :: k) s'

/-! Both conditions can be checked. -/

theorem rowsFit_iff {s : Store} : RowsFit s ↔ ∀ p ∈ List.range s.archs.pages.length, ∀ pg ∈ s.archs.pages[p]?,
    ∀ ai ∈ s.archs.pageToArch[p]?, ∀ l ∈ s.archs.layouts[ai]?, pg.ids.items.length ≤ l.entitiesCapacity := by
  constructor
  · intro h p _ pg h1 ai h2 l h3
    exact h p ai pg l h1 h2 h3
  · intro h p ai pg l h1 h2 h3
    exact h p (List.mem_range.2 (List.getElem?_eq_some_iff.1 h1).1) pg h1 ai h2 l h3

theorem usedNotFree_iff {s : Store} : UsedNotFree s ↔ ∀ p ∈ List.range s.archs.pages.length, ∀ pg ∈ s.archs.pages[p]?,
    ∀ ai ∈ s.archs.pageToArch[p]?, pg.ids.items ≠ [] → ai ∉ s.archs.freeArchetypes := by
  constructor
  · intro h p _ pg h1 ai h2 h3
    exact h p ai pg h1 h2 h3
  · intro h p ai pg h1 h2 h3
    exact h p (List.mem_range.2 (List.getElem?_eq_some_iff.1 h1).1) pg h1 ai h2 h3

/-- `∀ x ∈ o` for an option can be decided. -/
def decForallOption {α : Type} {P : α → Prop} [∀ x, Decidable (P x)] : (o : Option α) → Decidable (∀ x ∈ o, P x)
  | none => .isTrue (by simp)
  | some x => decidable_of_iff (P x) (by simp)

attribute [local instance] decForallOption

instance (s : Store) : Decidable (RowsFit s) := decidable_of_iff' _ rowsFit_iff

instance (s : Store) : Decidable (UsedNotFree s) := decidable_of_iff' _ usedNotFree_iff

instance (s : Store) : Decidable (InOrder s) := by unfold InOrder; infer_instance

/-- Run the events `k` from a state, checking `Allowed` and `CanHold` before every call. -/
def runFrom (U : Universe) (dbg : Bool) (s₀ : Store) (w₀ : World) : List Event → Option Store
  | [] => some s₀
  | ev :: k =>
    match runFrom U dbg s₀ w₀ k with
    | some s =>
      if Allowed U (worldFrom w₀ k) ev then
        if (needs (worldFrom w₀ k) ev).all (canHold U dbg s.archs) then
          match perform U dbg s ev with
          | some s' => if checkInit U dbg s' ev then some s' else none
          | none => none
        else none
      else none
    | none => none

theorem runFrom_sound {U : Universe} {dbg : Bool} {s₀ s : Store} {w₀ : World} {k : List Event}
    (hr : runFrom U dbg s₀ w₀ k = some s) : ExecFrom U dbg s₀ w₀ k s := by
  induction k generalizing s with
  | nil => cases hr; exact .init
  | cons ev k ih =>
    unfold runFrom at hr
    split at hr
    · rename_i s1 h1
      split at hr
      · rename_i hl
        split at hr
        · rename_i hn
          split at hr
          · rename_i s2 h2
            split at hr
            · rename_i hc
              cases hr
              refine .step ev (ih h1) hl (fun T hT => ?_) (perform_does h2 hc)
              rw [hT] at hn
              exact canHold_sound (by simpa using hn)
            · cases hr
          · cases hr
        · cases hr
      · cases hr
    · cases hr

end Ecs.Spec
