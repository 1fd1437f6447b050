import Verif.Proofs.Leftovers
import Verif.Proofs.Client
import Verif.Props.ListQueries

/-! Property C94: what components show that were never given a value. -/

namespace Ecs.Props
open Spec

section
variable {U : Universe} {dbg : Bool} {cap : Nat} {h : List Event} {s s' : Store}

theorem stored_mapM {e : Entity} {ts : List TypeId} {vs : List (List UInt8)}
    (hs : ts.mapM (fun t => lastGiven e t h) = some vs) : ts.map ((world h).value e) = vs.map (·.map some) := by
  induction ts generalizing vs with
  | nil => cases hs; rfl
  | cons t ts ih =>
    rw [List.mapM_cons] at hs
    obtain ⟨v, hv, hs⟩ := Option.bind_eq_some_iff.1 hs
    obtain ⟨vs', hvs, hs⟩ := Option.bind_eq_some_iff.1 hs
    cases hs
    rw [List.map_cons, List.map_cons, ih hvs, stored_value hv]

theorem stored_all {e : Entity} {ts : List TypeId} (hs : ∀ t ∈ ts, (lastGiven e t h).isSome = true) :
    ∃ vs, ts.mapM (fun t => lastGiven e t h) = some vs := by
  induction ts with
  | nil => exact ⟨[], rfl⟩
  | cons t ts ih =>
    obtain ⟨v, hv⟩ := Option.isSome_iff_exists.1 (hs t List.mem_cons_self)
    obtain ⟨vs, hvs⟩ := ih fun t ht => hs t (List.mem_cons_of_mem _ ht)
    refine ⟨v :: vs, ?_⟩
    rw [List.mapM_cons, hvs, hv]
    rfl

/-- **C94**, components that were given a value: reading them gives exactly the bytes that were last stored in them. -/
theorem C94_shows_stored_partial (hx : Exec U dbg cap h s) {e : Entity} (he : e ∈ alive h) {ts : List TypeId} (hne : ts ≠ [])
    (hts : ∀ t ∈ ts, t ∈ (world h).types e) {vs : List (List UInt8)} (hs : ts.mapM (fun t => lastGiven e t h) = some vs) :
    s.getComponents U dbg e ts = .ok (some (vs.map (·.map some))) := by
  have hr := exec_rel hx
  rw [alive_eq] at he
  rw [hr.agrees.read e (hr.ents.sub _ he) ts hne, ← stored_mapM hs]
  congr 1
  clear hs hne
  induction ts with
  | nil => rfl
  | cons t ts ih =>
    rw [List.mapM_cons, ih fun t ht => hts t (List.mem_cons_of_mem _ ht)]
    have : (world h).get e t = some ((world h).value e t) := if_pos ⟨he, hts t List.mem_cons_self⟩
    rw [this]
    rfl

/-- **C94**, which components were given a value: all except those that came with `create_entity_with_archetype`. A program
that does not call it never sees anything but the values it stored. -/
theorem C94_without_archetypes {e : Entity} (he : e ∉ fromArchetype h) {t : TypeId} (ht : t ∈ (world h).types e) :
    (lastGiven e t h).isSome = true :=
  stored_isSome he ht

theorem eligible_of_archetype (hx : Exec U dbg cap h s) {acc : Access} {e : Entity} (hal : e ∈ alive h) {a : Archetype}
    (ha : s.getEntityArchetype dbg e = .ok (some a)) (hall : ∀ t ∈ acc.types, t ∈ a.ids) : Eligible h acc e := by
  have hr := exec_rel hx
  refine ⟨hal, ?_⟩
  have hl := hal
  rw [alive_eq] at hl
  have hag := hr.agrees.arch e (hr.ents.sub _ hl)
  split at hag
  · rename_i hc
    obtain ⟨a', ha', hids⟩ := hag
    rw [ha] at ha'
    cases ha'
    exact ⟨hc.2, fun t ht => (hids t).1 (hall t ht)⟩
  · rw [ha] at hag
    cases hag

theorem item_stored (hx : Exec U dbg cap h s) (ha : AllStored h) {acc : Access} (hne : acc.types ≠ []) {e : Entity} {refs : List Ref}
    (he : Eligible h acc e) (hrefs : s.getComponentsRefs U dbg e acc.types = .ok (some refs)) :
    ∃ vs, acc.types.mapM (fun t => lastGiven e t h) = some vs ∧
      refs.mapM (readRef s.archs.pages) = .ok (vs.map (·.map some)) := by
  have hal := he.1
  rw [alive_eq] at hal
  obtain ⟨vs, hvs⟩ := stored_all fun t ht => ha e hal t (he.2.2 t ht)
  refine ⟨vs, hvs, ?_⟩
  rw [read_item hx hne he hrefs, ← stored_mapM hvs]
  rfl

/-- **C94**, queries: if every component was given a value, then reading through any reference that a query returns gives
the bytes that were last stored in the component. -/
theorem C94_queries_partial (hx : Exec U dbg cap h s) (ha : AllStored h) {acc : Access} (hd : DistinctTypes acc)
    (hne : acc.types ≠ []) :
    let shows := fun (e : Entity) (refs : List Ref) => ∃ vs, acc.types.mapM (fun t => lastGiven e t h) = some vs ∧
      refs.mapM (readRef s.archs.pages) = .ok (vs.map (·.map some))
    (∀ old fuel, (alive h).length < fuel →
      ∃ items, runComponentQueryWithEntities U dbg s acc old fuel = .ok items ∧ ∀ x ∈ items, shows x.1 x.2) ∧
    (∀ L old fuel, Askable cap h L → L.length < fuel →
      ∃ items, runEntityQueryWithEntities U dbg s L acc old fuel = .ok items ∧ ∀ x ∈ items, shows x.1 x.2) ∧
    (∀ g old fuel, (∀ e ∈ sequence g h, (world h).types e ≠ []) → (sequence g h).length < fuel →
      ∃ items, runOrderedQuery U dbg s g acc old fuel = .ok items ∧
        List.Forall₂ shows ((sequence g h).filter fun e => decide (Eligible h acc e)) items) := by
  refine ⟨fun old fuel hf => ?_, fun L old fuel hL hf => ?_, fun g old fuel hg hf => ?_⟩
  · obtain ⟨items, h1, _, _, h4, h5⟩ := C31_visits_once_partial hx.loose hd old hf
    refine ⟨items, h1, fun x hxm => item_stored hx ha hne ?_ (h5 x hxm)⟩
    obtain ⟨hal, a, ha, hall⟩ := (h4 x.1).1 (List.mem_map_of_mem hxm)
    exact eligible_of_archetype hx hal ha hall
  · obtain ⟨items, h1, _, h3, h4⟩ := C35_entity_query_partial hx hd hL old hf
    refine ⟨items, h1, fun x hxm => item_stored hx ha hne ?_ (h4 x hxm)⟩
    have := List.mem_map_of_mem (f := (·.1)) hxm
    rw [h3] at this
    exact of_decide_eq_true (List.mem_filter.1 this).2
  · obtain ⟨items, h1, h2⟩ := C36_ordered_query_partial hx hd hg old hf
    refine ⟨items, h1, ?_⟩
    have hel : ∀ e ∈ (sequence g h).filter fun e => decide (Eligible h acc e), Eligible h acc e :=
      fun e he => of_decide_eq_true (List.mem_filter.1 he).2
    generalize (sequence g h).filter (fun e => decide (Eligible h acc e)) = M at h2 hel
    clear h1
    induction h2 with
    | nil => exact .nil
    | @cons e refs M items k1 _ ih =>
      exact .cons (item_stored hx ha hne (hel e List.mem_cons_self) k1) (ih fun e he => hel e (List.mem_cons_of_mem _ he))

/-- **C94**, nothing is invented: after any calls with any arguments, valid or not, that all returned, every byte that is read from
a component, or through any reference at all, is uninitialised or was given to the store as part of a component value. -/
theorem C94_nothing_invented (hx : Runs U dbg cap h s) :
    (∀ e ts vs, s.getComponents U dbg e ts = .ok (some vs) → ∀ v ∈ vs, ∀ b, some b ∈ v → GivenByte h b) ∧
    ∀ r v, readRef s.archs.pages r = .ok v → ∀ b, some b ∈ v → GivenByte h b := by
  have hq := (C80_opaque (Q := fun c c' => c = c' ∧ ∀ b, c = some b → GivenByte h b) ⟨rfl, fun _ hb => nomatch hb⟩ hx hx
    (recoded_given fun _ hm => hm)).2
  refine ⟨fun e ts vs hr v hv b hb => ?_, fun r v hr b hb => ?_⟩
  · have h1 := hq.values e ts
    rw [hr] at h1
    cases h1 with
    | some h1 =>
      have h2 := List.forall₂_same.1 h1 v hv
      exact (List.forall₂_same.1 h2 _ hb).2 b rfl
  · have h1 := hq.deref r
    rw [hr] at h1
    exact (List.forall₂_same.1 h1 _ hb).2 b rfl

/-- **C94**, exactly: `create_entity_with_archetype` writes to no component. What lay in the memory of the pages before the call
lies there after it, and a page that is new is uninitialised. So the components of the new entity show what the last owner
of their bytes left there, or uninitialised memory. -/
theorem C94_creation_writes_nothing {a : Archetype} {e : Entity} (hc : s.createEntityWithArchetype dbg a = .ok (s', e)) (r : Ref) :
    readRef s'.archs.pages r = readRef s.archs.pages r ∨
    s.archs.pages.length ≤ r.page ∧
      (readRef s'.archs.pages r = .ok (List.replicate r.size none) ∨ readRef s'.archs.pages r = .error (.ub .oob)) := by
  have hm := createWith_memory hc r.page
  unfold Archs.memory at hm
  unfold readRef idxUnchecked
  rcases hm with hm | ⟨h1, h2⟩
  · left
    cases h1 : s.archs.pages[r.page]? with
    | none =>
      rw [h1] at hm
      rw [Option.map_eq_none_iff.1 hm]
    | some p =>
      rw [h1] at hm
      obtain ⟨p', hp', hd⟩ := Option.map_eq_some_iff.1 hm
      rw [hp']
      simp only [ok_bind, hd]
  · right
    refine ⟨List.getElem?_eq_none_iff.1 (Option.map_eq_none_iff.1 h1), ?_⟩
    obtain ⟨p', hp', hd⟩ := Option.map_eq_some_iff.1 h2
    rw [hp']
    simp only [ok_bind, hd, readBytes]
    split
    · left
      simp [List.map_const']
    · exact .inr rfl

end

/-- A new entity with component 4. -/
def unsetHistory : List Event := [.createdWith ⟨0, 1⟩ [4] fun _ => [none]]

/-- An entity with component 4 is destroyed, and then an entity with component 5 is created. -/
def leftoverHistory : List Event :=
  [.createdWith ⟨1, 2⟩ [5] (fun _ => [some 42]), .destroyed ⟨1, 1⟩, .added ⟨1, 1⟩ [(4, [42])], .created ⟨1, 1⟩,
    .added ⟨0, 1⟩ [(1, [0])], .created ⟨0, 1⟩]

/-- **C94 is false of the code** for entities made by `create_entity_with_archetype`: reading a component of a new entity reads
uninitialised memory. -/
theorem C94_counterexample : ∃ s, Exec demo true 1 unsetHistory s ∧ (⟨0, 1⟩ : Entity) ∈ alive unsetHistory ∧
    s.getComponents demo true ⟨0, 1⟩ [4] = .ok (some [[none]]) := by
  have h : (runExec demo true 1 unsetHistory).any (fun s =>
      decide (s.getComponents demo true ⟨0, 1⟩ [4] = .ok (some [[none]]))) = true := by decide
  obtain ⟨s, hs, h⟩ := any_some h
  exact ⟨s, runExec_sound hs, by decide, of_decide_eq_true h⟩

/-- **C94 is false of the code**: the component 5 of a new entity shows what a destroyed entity had in its component 4. The
program never stored a value of type 5. -/
theorem C94_counterexample_leftover : ∃ s, Exec demo true 1 leftoverHistory s ∧ (⟨1, 2⟩ : Entity) ∈ alive leftoverHistory ∧
    lastGiven ⟨1, 2⟩ 5 leftoverHistory = none ∧ s.getComponents demo true ⟨1, 2⟩ [5] = .ok (some [[some 42]]) := by
  have h : (runExec demo true 1 leftoverHistory).any (fun s =>
      decide (s.getComponents demo true ⟨1, 2⟩ [5] = .ok (some [[some 42]]))) = true := by decide
  obtain ⟨s, hs, h⟩ := any_some h
  exact ⟨s, runExec_sound hs, by decide, by decide, of_decide_eq_true h⟩

/-- The hypotheses of the theorems hold for an entity created from an archetype and then given its value. -/
def setHistory : List Event := .assigned ⟨0, 1⟩ [(4, [7])] :: unsetHistory

theorem setHistory_all : AllStored setHistory := by
  intro e he t ht
  have he : e ∈ ([⟨0, 1⟩] : List Entity) := he
  rw [List.mem_singleton] at he
  subst he
  have ht : t ∈ [4] := ht
  rw [List.mem_singleton] at ht
  subst ht
  decide

example : ∃ s, Exec demo true 1 setHistory s ∧ AllStored setHistory ∧
    s.getComponents demo true ⟨0, 1⟩ [4] = .ok (some [[some 7]]) := by
  have h : (runExec demo true 1 setHistory).isSome = true := by decide
  obtain ⟨s, hs⟩ := Option.isSome_iff_exists.1 h
  exact ⟨s, runExec_sound hs, setHistory_all,
    C94_shows_stored_partial (runExec_sound hs) (by decide) (by decide) (by decide) (vs := [[7]]) (by decide)⟩

end Ecs.Props
