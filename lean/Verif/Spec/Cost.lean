import Verif.Model.Cost
import Verif.Spec.BuildUp

/-! What the searches examine. -/

namespace Ecs.Spec

/-- How many elements a search from the front examines that stops at the first element with the property. -/
def searched {α : Type} (p : α → Bool) : List α → Nat
  | [] => 0
  | x :: l => if p x then 1 else searched p l + 1

/-- The page has room for another row, by its vector's capacity. -/
def hasRoom (s : Store) (p : Nat) : Bool := (s.archs.pages[p]?).any Page.hasFreeSpace

/-- The pages of the archetype with the given types, in the order in which they were taken. -/
def pagesFor (s : Store) (ids : List TypeId) : List Nat :=
  match s.archs.archetypes.findIdx? (fun a => decide (a.ids = ids)) with
  | some i => (s.archs.archPages[i]?).getD []
  | none => []

/-- Iterations of the loops over archetypes, pages, tags and groups are at most those of `v`. -/
def AtMost (w v : Work) : Prop :=
  w.archetypes ≤ v.archetypes ∧ w.pages ≤ v.pages ∧ w.tags ≤ v.tags ∧ w.groups ≤ v.groups

/-- The call of the event returned, with the count `w`. The calls without a case have none of the counted loops. -/
def Takes (U : Universe) (dbg : Bool) (s : Store) (ev : Event) (s' : Store) (w : Work) : Prop :=
  match ev with
  | .created e => s.createEntityM dbg {} = .ok ((s', e), w)
  | .createdWith e ts _ => ∃ a, Built U a ∧ a.ids = ts ∧ s.createEntityWithArchetypeM dbg a {} = .ok ((s', e), w)
  | .destroyed e => s.destroyEntityM dbg e {} = .ok (s', w)
  | .added e vals => s.addComponentsM U dbg e vals {} = .ok (s', w)
  | .removed e ts => s.removeComponentsM U dbg e ts {} = .ok (s', w)
  | _ => Returns U dbg s ev s' ∧ w = {}

/-- The executions of `SafeExec` with the count of all their calls. -/
inductive CountedExec (U : Universe) (dbg : Bool) (cap : Nat) : List Event → Store → Work → Prop
  | init {s} : Store.withCapacity dbg cap = .ok s → CountedExec U dbg cap [] s {}
  | step {h s s' w v} (ev : Event) : CountedExec U dbg cap h s w → Allowed U (world h) ev →
      (∀ T, needs (world h) ev = some T → Target U dbg (world h) T) → Does U dbg s ev s' → Takes U dbg s ev s' v →
      CountedExec U dbg cap (ev :: h) s' (w + v)

/-- A program that does nothing but create entities with the types `ts`. -/
def OnlyCreates (ts : List TypeId) (h : List Event) : Prop := ∀ ev ∈ h, ∃ e init, ev = .createdWith e ts init

end Ecs.Spec
