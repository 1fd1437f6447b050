import Verif.Spec.World

/-! Running concrete histories, for the examples beside the theorems. -/

namespace Ecs.Spec

/-- Perform the call of an event and check the handle it returned. -/
def perform (U : Universe) (dbg : Bool) (s : Store) : Event → Option Store
  | .created e =>
    match s.createEntity dbg with
    | .ok (s', e') => if e' = e then some s' else none
    | .error _ => none
  | .createdWith e ts _ =>
    match Archetype.withComponents U ts with
    | .ok a =>
      match s.createEntityWithArchetype dbg a with
      | .ok (s', e') => if e' = e ∧ a.ids = ts ∧ ts.Nodup then some s' else none
      | .error _ => none
    | .error _ => none
  | .destroyed e => (s.destroyEntity dbg e).toOption
  | .added e vals => (s.addComponents U dbg e vals).toOption
  | .removed e ts => (s.removeComponents U dbg e ts).toOption
  | .assigned e vals => (s.setComponents U dbg e vals).toOption.map (·.1)
  | .tagged tag e => (s.addTag tag e).toOption
  | .untagged tag e => (s.removeTag tag e).toOption
  | .orderedLast g e => (s.addOrder dbg g e).toOption
  | .orderedAfter g e x => (s.addOrderNextTo dbg g e x).toOption
  | .orderedBefore g e x => (s.addOrderPreviousTo dbg g e x).toOption
  | .unordered g e => (s.removeOrder g e).toOption

/-- Check the initial values named in a `createdWith` event. -/
def checkInit (U : Universe) (dbg : Bool) (s' : Store) : Event → Bool
  | .createdWith e ts init => ts.all fun t =>
    match s'.getComponents U dbg e [t] with
    | .ok (some [v]) => decide (v = init t)
    | _ => false
  | _ => true

/-- Run a history, checking `Loose` before every call. -/
def runLoose (U : Universe) (dbg : Bool) (cap : Nat) : List Event → Option Store
  | [] => (Store.withCapacity dbg cap).toOption
  | ev :: h =>
    match runLoose U dbg cap h with
    | some s => if Loose (world h) ev then perform U dbg s ev else none
    | none => none

/-- Run a history, checking `Allowed` before every call. -/
def runWell (U : Universe) (dbg : Bool) (cap : Nat) : List Event → Option Store
  | [] => (Store.withCapacity dbg cap).toOption
  | ev :: h =>
    match runWell U dbg cap h with
    | some s => if Allowed U (world h) ev then perform U dbg s ev else none
    | none => none

/-- Check `Archs.CanHold`. -/
def canHold (U : Universe) (dbg : Bool) (c : Archs) (T : List TypeId) : Bool :=
  match Archetype.withComponents U T.dedup with
  | .error _ => false
  | .ok a =>
    (match Layout.new dbg a with
      | .ok l => decide (1 ≤ l.entitiesCapacity)
      | .error _ => false) &&
    (List.range c.archetypes.length).all fun ai =>
      if c.archetypes[ai]? = some a then
        (match c.layouts[ai]?, c.archPages[ai]? with
          | some l, some ps =>
            match Archs.findFreePage c.pages ps.reverse with
            | .ok (some p) =>
              match c.pages[p]? with
              | some pg => decide (pg.ids.items.length < l.entitiesCapacity)
              | none => true
            | _ => true
          | _, _ => true) &&
        (!decide (ai ∈ c.freeArchetypes) ||
          match binarySearch c.freeArchetypes ai with
          | .found _ => true
          | .notFound _ => false)
      else true

/-- Run a history, checking `Allowed` and `CanHold` before every call. -/
def runExec (U : Universe) (dbg : Bool) (cap : Nat) : List Event → Option Store
  | [] => (Store.withCapacity dbg cap).toOption
  | ev :: h =>
    match runExec U dbg cap h with
    | some s =>
      if Allowed U (world h) ev then
        if (needs (world h) ev).all (canHold U dbg s.archs) then
          match perform U dbg s ev with
          | some s' => if checkInit U dbg s' ev then some s' else none
          | none => none
        else none
      else none
    | none => none

/-- Run a history, checking `Allowed` and `Target` before every call. -/
def runSafe (U : Universe) (dbg : Bool) (cap : Nat) : List Event → Option Store
  | [] => (Store.withCapacity dbg cap).toOption
  | ev :: h =>
    match runSafe U dbg cap h with
    | some s =>
      if Allowed U (world h) ev then
        if (needs (world h) ev).all (fun T => decide (Target U dbg (world h) T)) then
          match perform U dbg s ev with
          | some s' => if checkInit U dbg s' ev then some s' else none
          | none => none
        else none
      else none
    | none => none

/-- Component types for the examples: 1, 4, 5, 7, … are bytes, 2 is a `u32`, 3 is a large structure of 5000
bytes, 6 has size zero. -/
def demo : Universe where
  size := fun t => if t = 3 then 5000 else if t = 2 then 4 else if t = 6 then 0 else 1
  align := fun t => if t = 2 then 4 else 1
  align_pos := by intro t; split <;> omega
  align_dvd := by intro t; split <;> simp_all

/-- Reading off a computed check. -/
theorem any_some {α : Type} {r : Option α} {P : α → Bool} (h : r.any P = true) : ∃ s, r = some s ∧ P s = true := by
  cases r with
  | none => cases h
  | some s => exact ⟨s, rfl, h⟩

/-- The call returned a value with property `P`. -/
def okAnd {α : Type} (r : Res α) (P : α → Bool) : Bool :=
  match r with
  | .ok x => P x
  | .error _ => false

theorem okAnd_iff {α : Type} {r : Res α} {P : α → Bool} (h : okAnd r P = true) : ∃ x, r = .ok x ∧ P x = true := by
  cases r with
  | ok x => exact ⟨x, rfl, h⟩
  | error e => cases h

theorem canHold_sound {U : Universe} {dbg : Bool} {c : Archs} {T : List TypeId} (h : canHold U dbg c T = true) :
    c.CanHold U dbg T := by
  unfold canHold at h
  split at h
  · cases h
  rename_i a ha
  simp only [Bool.and_eq_true, List.all_eq_true, List.mem_range] at h
  obtain ⟨h1, h2⟩ := h
  refine ⟨a, ha, ?_, ?_, ?_⟩
  · split at h1
    · rename_i l hl
      exact ⟨l, hl, by simpa using h1⟩
    · cases h1
  · intro ai l ps p pg ha hl hps hf hpg
    have := h2 ai (List.getElem?_eq_some_iff.1 ha).1
    rw [if_pos ha, hl, hps] at this
    simp only [hf, hpg, Bool.and_eq_true, decide_eq_true_eq] at this
    exact this.1
  · intro i hi hfree
    have := h2 i (List.getElem?_eq_some_iff.1 hi).1
    rw [if_pos hi, Bool.and_eq_true] at this
    have h3 := this.2
    simp only [hfree, decide_true, Bool.not_true, Bool.false_or] at h3
    split at h3
    · rename_i k hk; exact ⟨k, hk⟩
    · cases h3

theorem perform_returns {U : Universe} {dbg : Bool} {s s' : Store} {ev : Event} (h : perform U dbg s ev = some s') :
    Returns U dbg s ev s' := by
  have key : ∀ {r : Res Store}, r.toOption = some s' → r = .ok s' := by
    intro r hr
    cases r with
    | ok x => cases hr; rfl
    | error x => cases hr
  cases ev with
  | created e =>
    simp only [perform] at h
    split at h
    · rename_i s1 e1 hc
      split at h
      · rename_i he; cases h; subst he; exact hc
      · cases h
    · cases h
  | createdWith e ts init =>
    simp only [perform] at h
    split at h
    · rename_i a ha
      split at h
      · rename_i s1 e1 hc
        split at h
        · rename_i he
          obtain ⟨rfl, h2, h3⟩ := he
          cases h
          exact ⟨a, .tuple ts h3 ha, h2, hc⟩
        · cases h
      · cases h
    · cases h
  | assigned e vals =>
    simp only [perform] at h
    cases hr : s.setComponents U dbg e vals with
    | ok x => rw [hr] at h; cases h; exact ⟨x.2, hr⟩
    | error x => rw [hr] at h; cases h
  | destroyed e => exact key h
  | added e vals => exact key h
  | removed e ts => exact key h
  | tagged tag e => exact key h
  | untagged tag e => exact key h
  | orderedLast g e => exact key h
  | orderedAfter g e x => exact key h
  | orderedBefore g e x => exact key h
  | unordered g e => exact key h

theorem perform_does {U : Universe} {dbg : Bool} {s s' : Store} {ev : Event} (h : perform U dbg s ev = some s')
    (hc : checkInit U dbg s' ev = true) : Does U dbg s ev s' := by
  refine ⟨perform_returns h, ?_⟩
  cases ev with
  | createdWith e ts init =>
    intro t ht
    have := List.all_eq_true.1 hc t ht
    split at this
    · rename_i v hv
      rw [hv, of_decide_eq_true this]
    · cases this
  | _ => trivial

theorem withCapacity_of {dbg : Bool} {cap : Nat} {s : Store} (h : (Store.withCapacity dbg cap).toOption = some s) :
    Store.withCapacity dbg cap = .ok s := by
  cases hr : Store.withCapacity dbg cap with
  | ok x => rw [hr] at h; cases h; rfl
  | error x => rw [hr] at h; cases h

theorem runLoose_sound {U : Universe} {dbg : Bool} {cap : Nat} {h : List Event} {s : Store}
    (hr : runLoose U dbg cap h = some s) : LooseExec U dbg cap h s := by
  induction h generalizing s with
  | nil => exact .init (withCapacity_of hr)
  | cons ev h ih =>
    unfold runLoose at hr
    split at hr
    · rename_i s1 h1
      split at hr
      · rename_i hl
        exact .step ev (ih h1) hl (perform_returns hr)
      · cases hr
    · cases hr

theorem runWell_sound {U : Universe} {dbg : Bool} {cap : Nat} {h : List Event} {s : Store}
    (hr : runWell U dbg cap h = some s) : WellExec U dbg cap h s := by
  induction h generalizing s with
  | nil => exact .init (withCapacity_of hr)
  | cons ev h ih =>
    unfold runWell at hr
    split at hr
    · rename_i s1 h1
      split at hr
      · rename_i hl
        exact .step ev (ih h1) hl (perform_returns hr)
      · cases hr
    · cases hr

theorem runExec_sound {U : Universe} {dbg : Bool} {cap : Nat} {h : List Event} {s : Store}
    (hr : runExec U dbg cap h = some s) : Exec U dbg cap h s := by
  induction h generalizing s with
  | nil => exact .init (withCapacity_of hr)
  | cons ev h ih =>
    unfold runExec at hr
    split at hr
    · rename_i s1 h1
      split at hr
      · rename_i hl
        split at hr
        · rename_i hn
          split at hr
          · rename_i s2 h2
            split at hr
            · rename_i hc
              cases hr
              refine .step ev (ih h1) hl (fun T hT => ?_) (perform_does h2 hc)
              rw [hT] at hn
              exact canHold_sound (by simpa using hn)
            · cases hr
          · cases hr
        · cases hr
      · cases hr
    · cases hr

theorem runSafe_sound {U : Universe} {dbg : Bool} {cap : Nat} {h : List Event} {s : Store}
    (hr : runSafe U dbg cap h = some s) : SafeExec U dbg cap h s := by
  induction h generalizing s with
  | nil => exact .init (withCapacity_of hr)
  | cons ev h ih =>
    unfold runSafe at hr
    split at hr
    · rename_i s1 h1
      split at hr
      · rename_i hl
        split at hr
        · rename_i hn
          split at hr
          · rename_i s2 h2
            split at hr
            · rename_i hc
              cases hr
              refine .step ev (ih h1) hl (fun T hT => ?_) (perform_does h2 hc)
              rw [hT] at hn
              simpa using hn
            · cases hr
          · cases hr
        · cases hr
      · cases hr
    · cases hr

end Ecs.Spec
