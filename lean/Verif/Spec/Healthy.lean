import Verif.Spec.World

/-! Executions in which two properties hold after every call: no page holds more rows than its layout allows (C20),
and no archetype that still has entities is on the list of free archetypes (as C28 requires). -/

namespace Ecs.Spec

/-- No page holds more rows than the layout of its archetype allows. -/
def RowsFit (s : Store) : Prop :=
  ∀ (p ai : Nat) (pg : Page) (l : Layout), s.archs.pages[p]? = some pg → s.archs.pageToArch[p]? = some ai →
    s.archs.layouts[ai]? = some l → pg.ids.items.length ≤ l.entitiesCapacity

/-- No archetype with entities is on the list of free archetypes. -/
def UsedNotFree (s : Store) : Prop :=
  ∀ (p ai : Nat) (pg : Page), s.archs.pages[p]? = some pg → s.archs.pageToArch[p]? = some ai → pg.ids.items ≠ [] →
    ai ∉ s.archs.freeArchetypes

/-- `remove_components` calls on live entities with components name at least one component of the entity. (A call that
names none moves the entity out of its row and back, through a row that may lie beyond the page.) -/
def RemovesSome (w : World) : Event → Prop
  | .removed e ts => e ∈ w.live → w.types e ≠ [] → ∃ t ∈ w.types e, t ∈ ts
  | _ => True

instance (w : World) (ev : Event) : Decidable (RemovesSome w ev) := by
  cases ev <;> unfold RemovesSome <;> infer_instance

/-- The same for all calls of a history. -/
def AllRemoveSome : List Event → Prop
  | [] => True
  | ev :: h => RemovesSome (world h) ev ∧ AllRemoveSome h

instance instDecidableAllRemoveSome : (h : List Event) → Decidable (AllRemoveSome h)
  | [] => .isTrue trivial
  | ev :: h =>
    have := instDecidableAllRemoveSome h
    inferInstanceAs (Decidable (RemovesSome (world h) ev ∧ AllRemoveSome h))

/-- Executions of well-behaved programs in which both properties hold after every call. -/
inductive HealthyExec (U : Universe) (dbg : Bool) (cap : Nat) : List Event → Store → Prop
  | init {s} : Store.withCapacity dbg cap = .ok s → HealthyExec U dbg cap [] s
  | step {h s s'} (ev : Event) : HealthyExec U dbg cap h s → Allowed U (world h) ev → RemovesSome (world h) ev →
      Does U dbg s ev s' → RowsFit s' → UsedNotFree s' → HealthyExec U dbg cap (ev :: h) s'

end Ecs.Spec
