import Verif.Proofs.RelCalls
import Verif.Proofs.History
import Verif.Spec.Run

/-! Properties C20–C24, C26–C29, C46 and C49: component data of the store.

These properties are false for some well-behaved executions, because of two defects of
`ArchetypesContainer` (see `Props/Defects.lean`). The theorems here are about the executions `Exec`, in
which the store never has to look for a row at a moment when one of the defects would show
(`Archs.CanHold`); otherwise programs are arbitrary well-behaved ones. `C46_safe_calls_return_partial`
gives a condition that only depends on the history. -/

namespace Ecs.Props
open Spec

section
variable {U : Universe} {dbg : Bool} {cap : Nat} {h : List Event} {s : Store}

/-- **C20**, for `Exec`: no page holds more rows than the layout of its archetype allows. -/
theorem C20_rows_fit_partial (hx : Exec U dbg cap h s) {p ai : Nat} {pg : Page} {l : Layout}
    (hp : s.archs.pages[p]? = some pg) (ha : s.archs.pageToArch[p]? = some ai) (hl : s.archs.layouts[ai]? = some l) :
    pg.ids.items.length ≤ l.entitiesCapacity := by
  have hI := (exec_rel hx).places.inv
  rcases hI.covers p (List.getElem?_eq_some_iff.1 hp).1 with hf | ⟨i, ps, hi, hm⟩
  · rw [hI.freeEmpty p hf pg hp]; exact Nat.zero_le _
  · have := hI.owner i ps p hi hm
    rw [ha] at this
    cases this
    exact hI.fits ai ps p pg l hi hm hp hl

/-- **C28**, for `Exec` and an archetype that can be found again: registering an archetype succeeds and
leaves archetype and layout of every page with entities as they are. -/
theorem C28_used_slots_kept_partial (hx : Exec U dbg cap h s) {a : Archetype} (ha : Built U a)
    (hf : s.archs.CanHold U dbg a.ids) :
    ∃ c' ai, s.archs.reserveArchetype dbg a = .ok (c', ai) ∧ c'.archetypes[ai]? = some a ∧
      ∀ (p k : Nat) pg b l, s.archs.pages[p]? = some pg → pg.ids.items ≠ [] → s.archs.pageToArch[p]? = some k →
        s.archs.archetypes[k]? = some b → s.archs.layouts[k]? = some l →
        c'.pageToArch[p]? = some k ∧ c'.archetypes[k]? = some b ∧ c'.layouts[k]? = some l := by
  have hI := (exec_rel hx).places.inv
  obtain ⟨⟨l0, hl0, hc0⟩, hr, hs⟩ := hf.fits ha.wf (fun _ => Iff.rfl)
  obtain ⟨c', ai, h1, h2, h3, _, h5, _⟩ := Archs.reserveArchetype_spec hI hs ha.wf hl0 hc0
  refine ⟨c', ai, h1, h3, fun p k pg b l hp hne hk hb hl => ?_⟩
  rcases hI.covers p (List.getElem?_eq_some_iff.1 hp).1 with hf | ⟨i, ps, hi, hm⟩
  · exact absurd (hI.freeEmpty p hf pg hp) hne
  · have := hI.owner i ps p hi hm
    rw [hk] at this
    cases this
    have hat := (h5.at_iff p k b l ps pg).2 ⟨hi, hm, hk, hb, hl, hp⟩
    exact ⟨hat.hto, hat.ha, hat.hl⟩

/-- **C49**, for `Exec`: whatever can be read from the store is what the abstract world (`Spec.World`)
obtained from the history says. -/
theorem C49_store_refines_world_partial (hx : Exec U dbg cap h s) : Agrees U dbg s (world h) := (exec_rel hx).agrees

/-- **C46**, for `Exec`: every call a well-behaved program can make next, with room for it, returns, so
there is no undefined behaviour and no panic, and is again such an execution. (Reading never fails by
`C49_store_refines_world_partial`.) -/
theorem C46_calls_return_partial (hx : Exec U dbg cap h s) :
    (∀ ev, isCreation ev = false → Allowed U (world h) ev →
      (∀ T, needs (world h) ev = some T → s.archs.CanHold U dbg T) →
      ∃ s', Does U dbg s ev s' ∧ Exec U dbg cap (ev :: h) s') ∧
    ((handles h).length + 1 < u32Size →
      (∃ s' e, e ∉ handles h ∧ Does U dbg s (.created e) s' ∧ Exec U dbg cap (.created e :: h) s') ∧
      (∀ a, Built U a → s.archs.CanHold U dbg a.ids →
        ∃ s' e init, e ∉ handles h ∧ Does U dbg s (.createdWith e a.ids init) s' ∧
          Exec U dbg cap (.createdWith e a.ids init :: h) s')) := by
  have hr := exec_rel hx
  rw [handles_eq]
  refine ⟨fun ev hc ha hn => ?_, fun hb => ⟨?_, fun a ha hf => ?_⟩⟩
  · obtain ⟨s', hd⟩ := hr.progress hc ha hn
    exact ⟨s', hd, .step ev hx ha hn hd⟩
  · obtain ⟨s', e, h1, h2⟩ := hr.progress_created hb
    exact ⟨s', e, h1, h2, .step _ hx hb (by intro T hT; cases hT) h2⟩
  · obtain ⟨s', e, init, h1, h2⟩ := hr.progress_createdWith hb ha hf
    exact ⟨s', e, init, h1, h2, .step _ hx hb (by intro T hT; cases hT; exact hf) h2⟩

/-- **C46**, with a condition on the history alone: in a `SafeExec`, every call a well-behaved program
can make next returns, provided the type set it gives to an entity meets `Target` in the world so far. -/
theorem C46_safe_calls_return_partial (hx : SafeExec U dbg cap h s) :
    (∀ ev, isCreation ev = false → Allowed U (world h) ev →
      (∀ T, needs (world h) ev = some T → Target U dbg (world h) T) →
      ∃ s', Does U dbg s ev s' ∧ SafeExec U dbg cap (ev :: h) s') ∧
    ((handles h).length + 1 < u32Size →
      (∃ s' e, e ∉ handles h ∧ Does U dbg s (.created e) s' ∧ SafeExec U dbg cap (.created e :: h) s') ∧
      (∀ a, Built U a → Target U dbg (world h) a.ids →
        ∃ s' e init, e ∉ handles h ∧ Does U dbg s (.createdWith e a.ids init) s' ∧
          SafeExec U dbg cap (.createdWith e a.ids init :: h) s')) := by
  have hr := exec_rel hx.exec
  have hT : ∀ T, Target U dbg (world h) T → s.archs.CanHold U dbg T := fun T ht => target_canHold hr.places hr.regs ht
  rw [handles_eq]
  refine ⟨fun ev hc ha hn => ?_, fun hb => ⟨?_, fun a ha hf => ?_⟩⟩
  · obtain ⟨s', hd⟩ := hr.progress hc ha (fun T h => hT T (hn T h))
    exact ⟨s', hd, .step ev hx ha hn hd⟩
  · obtain ⟨s', e, h1, h2⟩ := hr.progress_created hb
    exact ⟨s', e, h1, h2, .step _ hx hb (by intro T hT; cases hT) h2⟩
  · obtain ⟨s', e, init, h1, h2⟩ := hr.progress_createdWith hb ha (hT _ hf)
    exact ⟨s', e, init, h1, h2, .step _ hx hb (by intro T hT; cases hT; exact hf) h2⟩

/-- Every `SafeExec` is an `Exec`: the condition on the history implies the one on the state, so all
theorems about `Exec` apply. -/
theorem C46_safe_is_exec_partial (hx : SafeExec U dbg cap h s) : Exec U dbg cap h s := hx.exec

/-- **C27**, for `Exec`: `get_entity_archetype` is nothing iff the entity is dead or has no components,
and otherwise an archetype with the entity's current type set: the types it was given and not yet
deprived of. -/
theorem C27_archetype_is_type_set_partial (hx : Exec U dbg cap h s) {e : Entity} (he : e ∈ handles h) :
    (¬ (e ∈ alive h ∧ (world h).types e ≠ []) → s.getEntityArchetype dbg e = .ok none) ∧
    (e ∈ alive h → (world h).types e ≠ [] →
      ∃ a, s.getEntityArchetype dbg e = .ok (some a) ∧ ∀ t, t ∈ a.ids ↔ t ∈ (world h).types e) := by
  have hr := exec_rel hx
  rw [handles_eq] at he
  rw [alive_eq]
  refine ⟨fun h1 => hr.getEntityArchetype_none (hr.ents.issued_id_lt he) h1, fun h1 h2 => ?_⟩
  obtain ⟨a, h3, _, h4⟩ := hr.getEntityArchetype_some h1 h2
  exact ⟨a, h3, h4⟩

/-- **C21**, for `Exec`: `add_components` on a live entity returns, and reading the same types then gives
exactly the values added. -/
theorem C21_add_then_get_partial (hx : Exec U dbg cap h s) {e : Entity} (he : e ∈ alive h) {vals : TupleVal}
    (hne : vals ≠ []) (hok : TupleOk U vals)
    (hroom : ∀ T, needs (world h) (.added e vals) = some T → s.archs.CanHold U dbg T) :
    ∃ s', s.addComponents U dbg e vals = .ok s' ∧
      s'.getComponents U dbg e (vals.map (·.1)) = .ok (some (vals.map (·.2.map some))) ∧
      ∀ p ∈ vals, s'.getComponents U dbg e [p.1] = .ok (some [p.2.map some]) := by
  rw [alive_eq] at he
  exact (exec_rel hx).add_then_get he hne hok hroom

/-- **C22**, for `Exec`: `add_components` changes nothing else: not the other components of the entity,
nor anything of any other entity, nor liveness, tags and groups. -/
theorem C22_add_frame_partial (hx : Exec U dbg cap h s) {e : Entity} (he : e ∈ alive h) {vals : TupleVal}
    (hne : vals ≠ []) (hok : TupleOk U vals)
    (hroom : ∀ T, needs (world h) (.added e vals) = some T → s.archs.CanHold U dbg T)
    {s' : Store} (hs : s.addComponents U dbg e vals = .ok s') :
    (∀ x ∈ handles h, x ≠ e → SameData U dbg s s' x) ∧
    (∀ t, t ∉ vals.map (·.1) → s'.getComponents U dbg e [t] = s.getComponents U dbg e [t]) ∧
    s'.isAlive dbg e = s.isAlive dbg e ∧ SameGroups s s' (alive h) := by
  rw [handles_eq]
  rw [alive_eq] at *
  exact (exec_rel hx).add_frame he hne hok hroom hs

/-- **C23**, for `Exec`: `remove_components` on a live entity that keeps some component returns, removes
exactly the named types, keeps the other values, and changes nothing else. -/
theorem C23_remove_exact_partial (hx : Exec U dbg cap h s) {e : Entity} (he : e ∈ alive h) {a : Archetype}
    (ha : s.getEntityArchetype dbg e = .ok (some a)) {ts : List TypeId} (hkeep : ∃ t ∈ a.ids, t ∉ ts)
    (hroom : ∀ T, needs (world h) (.removed e ts) = some T → s.archs.CanHold U dbg T) :
    ∃ s', s.removeComponents U dbg e ts = .ok s' ∧
      (∃ a', s'.getEntityArchetype dbg e = .ok (some a') ∧ ∀ t, t ∈ a'.ids ↔ t ∈ a.ids ∧ t ∉ ts) ∧
      (∀ t, s'.getComponents U dbg e [t] = if t ∈ ts then .ok none else s.getComponents U dbg e [t]) ∧
      (∀ x ∈ handles h, x ≠ e → SameData U dbg s s' x) ∧
      s'.isAlive dbg e = s.isAlive dbg e ∧ SameGroups s s' (alive h) := by
  rw [handles_eq]
  rw [alive_eq] at *
  exact (exec_rel hx).remove_exact he ha hkeep hroom

/-- **C24**, for `Exec`: `destroy_entity` on a live entity returns; the entity is then dead, without
components and archetype; every other entity keeps its liveness, archetype, values and tags. (Groups:
`C43_destroy_leaves_groups`.) -/
theorem C24_destroy_exact_partial (hx : Exec U dbg cap h s) {e : Entity} (he : e ∈ alive h) :
    ∃ s', s.destroyEntity dbg e = .ok s' ∧ s'.isAlive dbg e = .ok false ∧
      s'.getEntityArchetype dbg e = .ok none ∧
      (∀ ts, ts ≠ [] → s'.getComponents U dbg e ts = .ok none) ∧
      (∀ x ∈ handles h, x ≠ e → SameData U dbg s s' x) ∧
      (∀ x ∈ alive h, x ≠ e → ∀ tag, s'.hasTag tag x = s.hasTag tag x) := by
  rw [handles_eq]
  rw [alive_eq] at *
  exact (exec_rel hx).destroy_exact he

/-- **C26**, for `Exec`: assigning through the references of `get_components_refs_mut` returns; if the
references are available the named components have the new values, and nothing else has changed; if not,
nothing has changed. -/
theorem C26_writes_local_partial (hx : Exec U dbg cap h s) {e : Entity} (he : e ∈ handles h) {vals : TupleVal}
    (hok : TupleOk U vals) :
    ∃ s' b, s.setComponents U dbg e vals = .ok (s', b) ∧
      (b = true ↔ ∃ refs, s.getComponentsRefs U dbg e (vals.map (·.1)) = .ok (some refs)) ∧
      (b = true → s'.getComponents U dbg e (vals.map (·.1)) = .ok (some (vals.map (·.2.map some)))) ∧
      (b = false → s' = s) ∧
      (∀ x ∈ handles h, x ≠ e → SameData U dbg s s' x) ∧
      (∀ t, t ∉ vals.map (·.1) → s'.getComponents U dbg e [t] = s.getComponents U dbg e [t]) ∧
      s'.getEntityArchetype dbg e = s.getEntityArchetype dbg e ∧
      s'.isAlive dbg e = s.isAlive dbg e ∧ SameGroups s s' (alive h) := by
  rw [alive_eq]
  rw [handles_eq] at *
  exact (exec_rel hx).writes_local he hok

/-- **C29**, for `Exec`: removing all components of an entity panics; removing some of them returns,
provided the smaller type set can be stored; and the call returns and changes nothing for handles that
are dead or have no components. -/
theorem C29_remove_last_panics_partial (hx : Exec U dbg cap h s) {e : Entity} (he : e ∈ handles h) (ts : List TypeId) :
    (∀ a, s.getEntityArchetype dbg e = .ok (some a) → (∀ t ∈ a.ids, t ∈ ts) →
      s.removeComponents U dbg e ts = .error (.panic .assertFailed)) ∧
    (∀ a, s.getEntityArchetype dbg e = .ok (some a) → (∃ t ∈ a.ids, t ∉ ts) →
      s.archs.CanHold U dbg (a.ids.filter (· ∉ ts)) → ∃ s', s.removeComponents U dbg e ts = .ok s') ∧
    (s.getEntityArchetype dbg e = .ok none → s.removeComponents U dbg e ts = .ok s) := by
  rw [handles_eq] at he
  exact (exec_rel hx).remove_last he ts

end

/-- A history for the examples: four entities, moved between five archetypes and destroyed, an archetype
slot and a page being reused (so that the new entity finds the byte 4 left by another one). -/
def componentHistory : List Event :=
  [.assigned ⟨2, 1⟩ [(4, [9])], .added ⟨0, 1⟩ [(4, [8]), (1, [7])], .removed ⟨2, 1⟩ [2],
   .createdWith ⟨1, 2⟩ [4] (fun _ => [some 4]), .destroyed ⟨1, 1⟩, .added ⟨3, 1⟩ [(5, [6])], .created ⟨3, 1⟩,
   .assigned ⟨0, 1⟩ [(2, [1, 2, 3, 5])], .added ⟨2, 1⟩ [(4, [5]), (2, [1, 1, 1, 1])], .created ⟨2, 1⟩,
   .added ⟨1, 1⟩ [(1, [4])], .added ⟨1, 1⟩ [(2, [4, 3, 2, 1])], .added ⟨0, 1⟩ [(2, [1, 2, 3, 4])],
   .created ⟨1, 1⟩, .created ⟨0, 1⟩]

/-- The hypotheses of the theorems above are met by this history: it is an `Exec` in which entity 0 has
the types 1, 2 and 4. Adding type 5 to it and removing type 2 from it have room. -/
example : ∃ s, Exec demo true 1 componentHistory s ∧ (⟨0, 1⟩ : Entity) ∈ alive componentHistory ∧
    (∀ T, needs (world componentHistory) (.added ⟨0, 1⟩ [(1, [1]), (5, [2])]) = some T → s.archs.CanHold demo true T) ∧
    (∀ T, needs (world componentHistory) (.removed ⟨0, 1⟩ [2]) = some T → s.archs.CanHold demo true T) ∧
    s.getComponents demo true ⟨0, 1⟩ [4, 2] = .ok (some [[some 8], [some 1, some 2, some 3, some 5]]) ∧
    s.getComponents demo true ⟨2, 1⟩ [4] = .ok (some [[some 9]]) ∧
    s.getComponents demo true ⟨2, 1⟩ [4, 2] = .ok none ∧ s.getComponents demo true ⟨1, 1⟩ [1] = .ok none := by
  have h : ((runExec demo true 1 componentHistory).any fun s =>
      (needs (world componentHistory) (.added ⟨0, 1⟩ [(1, [1]), (5, [2])])).all (canHold demo true s.archs) &&
      ((needs (world componentHistory) (.removed ⟨0, 1⟩ [2])).all (canHold demo true s.archs) &&
      (decide (s.getComponents demo true ⟨0, 1⟩ [4, 2] = .ok (some [[some 8], [some 1, some 2, some 3, some 5]])) &&
      (decide (s.getComponents demo true ⟨2, 1⟩ [4] = .ok (some [[some 9]])) &&
      (decide (s.getComponents demo true ⟨2, 1⟩ [4, 2] = .ok none) &&
      decide (s.getComponents demo true ⟨1, 1⟩ [1] = .ok none)))))) = true := by
    decide
  obtain ⟨s, hs, h⟩ := any_some h
  simp only [Bool.and_eq_true, decide_eq_true_eq] at h
  refine ⟨s, runExec_sound hs, by decide, fun T hT => canHold_sound ?_, fun T hT => canHold_sound ?_, h.2.2⟩
  · have := h.1; rw [hT] at this; simpa using this
  · have := h.2.1; rw [hT] at this; simpa using this

/-- The same history is also a `SafeExec`. -/
example : ∃ s, SafeExec demo true 1 componentHistory s := by
  have h : (runSafe demo true 1 componentHistory).isSome = true := by decide
  obtain ⟨s, hs⟩ := Option.isSome_iff_exists.1 h
  exact ⟨s, runSafe_sound hs⟩

end Ecs.Props
