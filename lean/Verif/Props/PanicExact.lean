import Verif.Proofs.PanicExact
import Verif.Props.Defects

/-! **C70**: exactly when calls panic. The executions are arbitrary sequences of calls that returned (`LooseExec`), in
which every tuple given to `add_components` had distinct types. -/

namespace Ecs.Props
open Spec

section
variable {U : Universe} {dbg : Bool} {cap : Nat} {h : List Event} {s : Store}

/-- **C70**: in release builds, `add_components` panics exactly if the entity is alive and the union of its component
types and the new ones has no place: no registered archetype has that set, and it is empty or has no layout. -/
theorem C70_add_panics_iff (hx : LooseExec U false cap h s) (hd : DistinctAdds h) {e : Entity} (he : e ∈ handles h)
    {vals : TupleVal} (hv : (vals.map (·.1)).Nodup) :
    (∃ p, s.addComponents U false e vals = .error (.panic p)) ↔
      e ∈ alive h ∧ NoPlace U false s (heldTypes false s e ++ vals.map (·.1)) :=
  add_panics hx hd he hv (fun h => by cases h)

/-- **C70**: in release builds, `remove_components` panics exactly if the entity has components and the set of those
that would be left has no place; in particular if none would be left. -/
theorem C70_remove_panics_iff (hx : LooseExec U false cap h s) (hd : DistinctAdds h) {e : Entity} (he : e ∈ handles h)
    (ts : List TypeId) :
    (∃ p, s.removeComponents U false e ts = .error (.panic p)) ↔
      heldTypes false s e ≠ [] ∧ NoPlace U false s ((heldTypes false s e).filter (· ∉ ts)) :=
  remove_panics hx hd he (fun h => by cases h)

/-- **C70**: in release builds, `create_entity_with_archetype` panics exactly if the set of the archetype has no place
(handles not having run out). -/
theorem C70_create_with_panics_iff (hx : LooseExec U false cap h s) (hd : DistinctAdds h)
    (hb : (handles h).length + 1 < u32Size) {a : Archetype} (ha : Built U a) :
    (∃ p, s.createEntityWithArchetype false a = .error (.panic p)) ↔ NoPlace U false s a.ids :=
  createWith_panics hx hd hb ha (fun h => by cases h)

/-- **C70** for debug builds: the same, as long as pages have at least one row for the set in question (otherwise a debug
assertion may fail). -/
theorem C70_debug_builds (hx : LooseExec U true cap h s) (hd : DistinctAdds h) {e : Entity} (he : e ∈ handles h) :
    (∀ vals : TupleVal, (vals.map (·.1)).Nodup → rowsPerPage U true (heldTypes true s e ++ vals.map (·.1)) ≠ some 0 →
      ((∃ p, s.addComponents U true e vals = .error (.panic p)) ↔
        e ∈ alive h ∧ NoPlace U true s (heldTypes true s e ++ vals.map (·.1)))) ∧
    (∀ ts, rowsPerPage U true ((heldTypes true s e).filter (· ∉ ts)) ≠ some 0 →
      ((∃ p, s.removeComponents U true e ts = .error (.panic p)) ↔
        heldTypes true s e ≠ [] ∧ NoPlace U true s ((heldTypes true s e).filter (· ∉ ts)))) ∧
    ∀ a, Built U a → (handles h).length + 1 < u32Size → rowsPerPage U true a.ids ≠ some 0 →
      ((∃ p, s.createEntityWithArchetype true a = .error (.panic p)) ↔ NoPlace U true s a.ids) :=
  ⟨fun _ hv hr => add_panics hx hd he hv fun _ => hr, fun _ hr => remove_panics hx hd he fun _ => hr,
   fun _ ha hb hr => createWith_panics hx hd hb ha fun _ => hr⟩

/-- **C70**: in either build, taking away the last component panics, and so does giving an empty tuple to a live entity
without components. -/
theorem C70_last_and_empty (hx : LooseExec U dbg cap h s) (hd : DistinctAdds h) {e : Entity} (he : e ∈ handles h) :
    (∀ ts, heldTypes dbg s e ≠ [] → (∀ t ∈ heldTypes dbg s e, t ∈ ts) →
      ∃ p, s.removeComponents U dbg e ts = .error (.panic p)) ∧
    (e ∈ alive h → heldTypes dbg s e = [] → ∃ p, s.addComponents U dbg e [] = .error (.panic p)) := by
  have hk := loose_known hx hd
  have hnone : NoPlace U dbg s [] := by
    refine ⟨fun b hb hh => (hk.wf b hb).ne (List.eq_nil_iff_forall_not_mem.2 fun t ht => ?_), rfl⟩
    have := (hh t).1 ht
    cases this
  have hrows : RowsIfDebug U dbg [] := fun _ h => by cases h
  refine ⟨fun ts h0 hall => ?_, fun hlive h0 => ?_⟩
  · have hnil : (heldTypes dbg s e).filter (· ∉ ts) = [] := by
      rw [List.filter_eq_nil_iff]
      intro t ht
      simpa using hall t ht
    exact (remove_panics (ts := ts) hx hd he (by rw [hnil]; exact hrows)).2 ⟨h0, by rw [hnil]; exact hnone⟩
  · exact (add_panics (vals := []) hx hd he List.nodup_nil (by rw [h0]; exact hrows)).2 ⟨hlive, by rw [h0]; exact hnone⟩

/-- **C70**: the other calls on components and entities do not panic: creating an entity without components (handles not
having run out), destroying a live entity, and assigning components through any handle. -/
theorem C70_other_calls_never_panic (hx : LooseExec U dbg cap h s) :
    ((handles h).length + 1 < u32Size → ∀ p, s.createEntity dbg ≠ .error (.panic p)) ∧
    (∀ e ∈ alive h, ∀ p, s.destroyEntity dbg e ≠ .error (.panic p)) ∧
    ∀ e ∈ handles h, ∀ vals p, s.setComponents U dbg e vals ≠ .error (.panic p) := by
  refine ⟨fun hb p hp => ?_, fun e he p hp => ?_, fun e he vals => ?_⟩
  · have := Blames.onPanicNever (Store.createU_onPanic hx hb (Q := fun _ => False))
    rw [Store.createU_result] at this
    exact this p hp
  · have := Blames.onPanicNever (Store.destroyU_onPanic hx he (Q := fun _ => False))
    rw [Store.destroyU_result, hp] at this
    exact this p rfl
  · rw [handles_eq] at he
    obtain ⟨o, h1, _⟩ := (loose_get hx he).2 (vals.map (·.1))
    unfold Store.setComponents
    rw [h1]
    change Calm _
    cases o with
    | none => exact .ok _
    | some refs => exact (Calm.assign _ _ _).bind fun _ _ => .pure _

end

/-- A state for the examples: entity 0 has components 1 and 2, entity 1 none, entity 2 component 4. -/
def panicHistory : List Event :=
  [.createdWith ⟨2, 1⟩ [4] (fun _ => [none]), .created ⟨1, 1⟩, .added ⟨0, 1⟩ [(1, [3]), (2, [4, 3, 2, 1])], .created ⟨0, 1⟩]

/-- The hypotheses are met, and the set `{1, 2, 6}` (type 6 has size zero) has no place; `{1, 2, 4}` has one, although it
is not registered, and `{4}` is registered. -/
example : ∃ s, LooseExec demo false 1 panicHistory s ∧ DistinctAdds panicHistory ∧ (⟨0, 1⟩ : Entity) ∈ alive panicHistory ∧
    (∃ p, s.addComponents demo false ⟨0, 1⟩ [(6, [])] = .error (.panic p)) ∧
    (¬ ∃ p, s.addComponents demo false ⟨0, 1⟩ [(4, [9])] = .error (.panic p)) ∧
    (∃ p, s.removeComponents demo false ⟨2, 1⟩ [4] = .error (.panic p)) ∧
    (∃ p, s.addComponents demo false ⟨1, 1⟩ [] = .error (.panic p)) := by
  have h : ((runLoose demo false 1 panicHistory).any fun s =>
      decide (heldTypes false s ⟨0, 1⟩ = [1, 2]) && decide (heldTypes false s ⟨1, 1⟩ = []) &&
      decide (heldTypes false s ⟨2, 1⟩ = [4]) && decide (s.archs.archetypes.map (·.ids) = [[1, 2], [4]])) = true := by
    decide
  obtain ⟨s, hs, h⟩ := any_some h
  simp only [Bool.and_eq_true, decide_eq_true_eq] at h
  obtain ⟨⟨⟨h0, h1⟩, h2⟩, h3⟩ := h
  have hx := runLoose_sound hs
  have hd : DistinctAdds panicHistory := by
    intro e vals hm
    simp only [panicHistory, List.mem_cons, List.not_mem_nil, or_false, Event.added.injEq, reduceCtorEq, false_or] at hm
    rw [hm.2]
    decide
  refine ⟨s, hx, hd, by decide, ?_, ?_, ?_, ?_⟩
  · refine (C70_add_panics_iff hx hd (by decide) (by decide)).2 ⟨by decide, fun a ha hh => ?_, ?_⟩
    · rw [h0] at hh
      have h6 := (hh 6).2 (by decide)
      have : a.ids ∈ s.archs.archetypes.map (·.ids) := List.mem_map_of_mem ha
      rw [h3] at this
      simp only [List.mem_cons, List.not_mem_nil, or_false] at this
      rcases this with h | h <;> rw [h] at h6 <;> exact absurd h6 (by decide)
    · rw [h0]; decide
  · rw [C70_add_panics_iff hx hd (by decide) (by decide), h0]
    rintro ⟨_, _, hr⟩
    revert hr
    decide
  · exact (C70_last_and_empty hx hd (by decide)).1 _ (by rw [h2]; decide) (by rw [h2]; decide)
  · exact (C70_last_and_empty hx hd (by decide)).2 (by decide) h1

end Ecs.Props
