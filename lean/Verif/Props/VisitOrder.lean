import Verif.Proofs.VisitOrderQuery
import Verif.Props.QueryCompAny
import Verif.Props.QueryDefects
import Verif.Spec.InOrder

/-! C96: how far one call changes the order in which a component query visits the entities. -/

namespace Ecs.Props
open Spec

section
variable {U : Universe} {dbg : Bool} {cap : Nat} {h : List Event} {s s' : Store} {ev : Event}

/-- **C96, what holds**: if no archetype in use is on the list of free archetypes, a call changes the order of the other
entities in a query at most by putting one of them, from further back, in the place of the entity the call is about. -/
theorem C96_order_partial (hx : LooseExec U dbg cap h s) (hl : Loose (world h) ev) (hr : Returns U dbg s ev s') (hu : UsedNotFree s)
    {acc : Access} {old old' : List IterView} {fuel fuel' : Nat}
    (hf : (alive h).length < fuel) (hf' : (alive (ev :: h)).length < fuel') {items items' : List (Entity × List Ref)}
    (hq : runComponentQueryWithEntities U dbg s acc old fuel = .ok items)
    (hq' : runComponentQueryWithEntities U dbg s' acc old' fuel' = .ok items') :
    Vacated (subject ev) (items.map (·.1)) ((items'.map (·.1)).filter (· ≠ subject ev)) :=
  step_order hx hl hr (fun _ => hu) hf hf' hq hq'

/-- **C96, `destroy_entity`**, in every state: the entity is gone from the order and at most one entity from further back
has its place. -/
theorem C96_destroy (hx : LooseExec U dbg cap h s) {e : Entity} (hl : e ∈ alive h) (hr : s.destroyEntity dbg e = .ok s')
    {acc : Access} {old old' : List IterView} {fuel fuel' : Nat}
    (hf : (alive h).length < fuel) (hf' : (alive h).length ≤ fuel') {items items' : List (Entity × List Ref)}
    (hq : runComponentQueryWithEntities U dbg s acc old fuel = .ok items)
    (hq' : runComponentQueryWithEntities U dbg s' acc old' fuel' = .ok items') :
    Vacated e (items.map (·.1)) (items'.map (·.1)) ∧ e ∉ items'.map (·.1) := by
  have hll : Loose (world h) (.destroyed e) := by
    rw [alive_eq] at hl; exact hl
  have hrr : Returns U dbg s (.destroyed e) s' := hr
  have hnd : (alive h).Nodup := by rw [alive_eq]; exact (loose_core hx).ents.nodup_live
  have hlen : (alive (.destroyed e :: h)).length < fuel' := by
    show ((alive h).erase e).length < fuel'
    rw [List.length_erase_of_mem hl]
    have := List.length_pos_of_mem hl
    omega
  have hx' : LooseExec U dbg cap (.destroyed e :: h) s' := .step _ hx hll hrr
  obtain ⟨e2, f2, _⟩ := query_order hx' hlen hq'
  have hne : e ∉ items'.map (·.1) := by
    rw [e2]
    intro hm
    obtain ⟨i, hi, he⟩ := List.mem_map.1 hm
    have h0 := (f2 i hi).2
    rw [he] at h0
    exact hnd.not_mem_erase h0
  refine ⟨?_, hne⟩
  have := step_order hx hll hrr (by intro h; cases h) hf hlen hq hq'
  rw [List.filter_eq_self.2] at this
  · exact this
  · intro x hxm
    simp only [ne_eq, decide_not, Bool.not_eq_eq_eq_not, Bool.not_true, decide_eq_false_iff_not]
    rintro rfl
    exact hne hxm

/-- **C96, calls that move nothing**, in every state: creating an entity without components, assigning values, and all
calls for tags and orders leave the order of every query as it was. -/
theorem C96_quiet (hx : LooseExec U dbg cap h s) (hl : Loose (world h) ev) (hr : Returns U dbg s ev s') (hm : movesNothing ev = true)
    {acc : Access} {old old' : List IterView} {fuel fuel' : Nat}
    (hf : (alive h).length < fuel) (hf' : (alive (ev :: h)).length < fuel') {items items' : List (Entity × List Ref)}
    (hq : runComponentQueryWithEntities U dbg s acc old fuel = .ok items)
    (hq' : runComponentQueryWithEntities U dbg s' acc old' fuel' = .ok items') :
    items'.map (·.1) = items.map (·.1) := by
  have hx' : LooseExec U dbg cap (ev :: h) s' := .step _ hx hl hr
  obtain ⟨e1, f1, _⟩ := query_order hx hf hq
  obtain ⟨e2, f2, _⟩ := query_order hx' hf' hq'
  rw [e1, e2, order_quiet hx hl hr hm]
  refine List.map_congr_left fun i hi => ?_
  obtain ⟨a1, a2⟩ := f1 i hi
  have hin : s.entOf i ∈ alive (ev :: h) := by
    cases ev with
    | created e => exact List.mem_cons_of_mem _ a2
    | createdWith e ts init => cases hm
    | destroyed e => cases hm
    | _ => exact a2
  have := entOf_alive hx' hin
  rw [a1] at this
  exact this

/-- **C96, `add_components` with types the entity has**, in every state: if a query for the types returns the entity, adding
values of these types leaves the order of every query as it was. -/
theorem C96_add_present (hx : LooseExec U dbg cap h s) {e : Entity} {vals : TupleVal} (hr : s.addComponents U dbg e vals = .ok s')
    {old0 : List IterView} {fuel0 : Nat} (hf0 : (alive h).length < fuel0) {seen : List (Entity × List Ref)}
    (hq0 : runComponentQueryWithEntities U dbg s (.readonly (vals.map (·.1))) old0 fuel0 = .ok seen) (hm : e ∈ seen.map (·.1))
    {acc : Access} {old old' : List IterView} {fuel fuel' : Nat}
    (hf : (alive h).length < fuel) (hf' : (alive h).length < fuel') {items items' : List (Entity × List Ref)}
    (hq : runComponentQueryWithEntities U dbg s acc old fuel = .ok items)
    (hq' : runComponentQueryWithEntities U dbg s' acc old' fuel' = .ok items') :
    items'.map (·.1) = items.map (·.1) := by
  have hll : Loose (world h) (.added e vals) := trivial
  have hx' : LooseExec U dbg cap (.added e vals :: h) s' := .step _ hx hll hr
  obtain ⟨e0, f0, _⟩ := query_order hx hf0 hq0
  obtain ⟨e1, f1, _⟩ := query_order hx hf hq
  obtain ⟨e2, f2, _⟩ := query_order hx' hf' hq'
  rw [e0] at hm
  obtain ⟨i, hi, he⟩ := List.mem_map.1 hm
  have hie : e.id = i := by rw [← he, (f0 i hi).1]
  rw [e1, e2, order_add_present hx hr (hie ▸ hi)]
  refine List.map_congr_left fun i hi => ?_
  obtain ⟨a1, a2⟩ := f1 i hi
  have := entOf_alive hx' (x := s.entOf i) a2
  rw [a1] at this
  exact this

end

/-- **C96 is false of the code** where the archetype of entity 1 is on the list of free archetypes: adding a component to
entity 4 takes entity 1 out of the order of a query, and nothing else was in it. -/
theorem C96_counterexample : ∃ s s' items items', WellExec demo true 1 refilled s ∧
    s.addComponents demo true ⟨4, 1⟩ [(8, [80])] = .ok s' ∧ WellExec demo true 1 (.added ⟨4, 1⟩ [(8, [80])] :: refilled) s' ∧
    runComponentQueryWithEntities demo true s (.readonly [5]) [] 10 = .ok items ∧ items.map (·.1) = [⟨1, 2⟩] ∧
    runComponentQueryWithEntities demo true s' (.readonly [5]) [] 10 = .ok items' ∧ items'.map (·.1) = [] ∧
    ¬ Vacated (⟨4, 1⟩ : Entity) (items.map (·.1)) ((items'.map (·.1)).filter (· ≠ ⟨4, 1⟩)) ∧ ¬ UsedNotFree s := by
  have h : ((runWell demo true 1 refilled).any fun s => !decide (UsedNotFree s) &&
      okAnd (runComponentQueryWithEntities demo true s (.readonly [5]) [] 10) fun items =>
        decide (items.map (·.1) = [⟨1, 2⟩]) && okAnd (s.addComponents demo true ⟨4, 1⟩ [(8, [80])]) fun s' =>
        okAnd (runComponentQueryWithEntities demo true s' (.readonly [5]) [] 10) fun items' => decide (items'.map (·.1) = [])) = true := by
    decide
  obtain ⟨s, hs, h⟩ := any_some h
  rw [Bool.and_eq_true, Bool.not_eq_true', decide_eq_false_iff_not] at h
  obtain ⟨items, h1, h2⟩ := okAnd_iff h.2
  rw [Bool.and_eq_true, decide_eq_true_eq] at h2
  obtain ⟨s', h3, h4⟩ := okAnd_iff h2.2
  obtain ⟨items', h5, h6⟩ := okAnd_iff h4
  rw [decide_eq_true_eq] at h6
  refine ⟨s, s', items, items', runWell_sound hs, h3, .step _ (runWell_sound hs) (by decide) h3, h1, h2.1, h5, h6, ?_, h.1⟩
  rw [h2.1, h6]
  rintro (⟨_, h⟩ | ⟨a, b, h, _⟩ | ⟨a, b, x, c, h, _⟩)
  · simp at h
  · have : (⟨4, 1⟩ : Entity) ∈ [(⟨1, 2⟩ : Entity)] := by rw [h]; simp
    simp at this
  · have : (⟨4, 1⟩ : Entity) ∈ [(⟨1, 2⟩ : Entity)] := by rw [h]; simp
    simp at this

/-! ### Examples -/

/-- Five entities with a component of type 4. -/
def fiveInRow : List Event :=
  [.added ⟨4, 1⟩ [(4, [5])], .added ⟨3, 1⟩ [(4, [4])], .added ⟨2, 1⟩ [(4, [3])], .added ⟨1, 1⟩ [(4, [2])], .added ⟨0, 1⟩ [(4, [1])],
   .created ⟨4, 1⟩, .created ⟨3, 1⟩, .created ⟨2, 1⟩, .created ⟨1, 1⟩, .created ⟨0, 1⟩]

/-- Entity 1 is given a second component: entity 4 takes its place. -/
example : ∃ s s' items items', LooseExec demo true 1 fiveInRow s ∧ Loose (world fiveInRow) (.added ⟨1, 1⟩ [(9, [9])]) ∧
    Returns demo true s (.added ⟨1, 1⟩ [(9, [9])]) s' ∧ UsedNotFree s ∧
    runComponentQueryWithEntities demo true s (.readonly [4]) [] 10 = .ok items ∧
    runComponentQueryWithEntities demo true s' (.readonly [4]) [] 10 = .ok items' ∧
    items.map (·.1) = [⟨0, 1⟩, ⟨1, 1⟩, ⟨2, 1⟩, ⟨3, 1⟩, ⟨4, 1⟩] ∧ items'.map (·.1) = [⟨0, 1⟩, ⟨4, 1⟩, ⟨2, 1⟩, ⟨3, 1⟩, ⟨1, 1⟩] := by
  have h : ((runLoose demo true 1 fiveInRow).any fun s => decide (UsedNotFree s) &&
      okAnd (runComponentQueryWithEntities demo true s (.readonly [4]) [] 10) fun items =>
        decide (items.map (·.1) = [⟨0, 1⟩, ⟨1, 1⟩, ⟨2, 1⟩, ⟨3, 1⟩, ⟨4, 1⟩]) && okAnd (s.addComponents demo true ⟨1, 1⟩ [(9, [9])]) fun s' =>
        okAnd (runComponentQueryWithEntities demo true s' (.readonly [4]) [] 10) fun items' =>
          decide (items'.map (·.1) = [⟨0, 1⟩, ⟨4, 1⟩, ⟨2, 1⟩, ⟨3, 1⟩, ⟨1, 1⟩])) = true := by
    decide
  obtain ⟨s, hs, h⟩ := any_some h
  rw [Bool.and_eq_true, decide_eq_true_eq] at h
  obtain ⟨items, h1, h2⟩ := okAnd_iff h.2
  rw [Bool.and_eq_true, decide_eq_true_eq] at h2
  obtain ⟨s', h3, h4⟩ := okAnd_iff h2.2
  obtain ⟨items', h5, h6⟩ := okAnd_iff h4
  exact ⟨s, s', items, items', runLoose_sound hs, trivial, h3, h.1, h1, h5, h2.1, of_decide_eq_true h6⟩

/-- Entity 1 is destroyed, and entity 4 takes its place; before that, setting the component of entity 1, which it has, by
`add_components` leaves the order as it is. -/
example : ∃ s s1 s2 items items1 items2, LooseExec demo true 1 fiveInRow s ∧ (⟨1, 1⟩ : Entity) ∈ alive fiveInRow ∧
    s.addComponents demo true ⟨1, 1⟩ [(4, [9])] = .ok s1 ∧ s.destroyEntity true ⟨1, 1⟩ = .ok s2 ∧
    runComponentQueryWithEntities demo true s (.readonly [4]) [] 10 = .ok items ∧ (⟨1, 1⟩ : Entity) ∈ items.map (·.1) ∧
    runComponentQueryWithEntities demo true s1 (.readonly [4]) [] 10 = .ok items1 ∧ items1.map (·.1) = items.map (·.1) ∧
    runComponentQueryWithEntities demo true s2 (.readonly [4]) [] 10 = .ok items2 ∧
    items2.map (·.1) = [⟨0, 1⟩, ⟨4, 1⟩, ⟨2, 1⟩, ⟨3, 1⟩] := by
  have h : ((runLoose demo true 1 fiveInRow).any fun s =>
      okAnd (s.addComponents demo true ⟨1, 1⟩ [(4, [9])]) fun s1 => okAnd (s.destroyEntity true ⟨1, 1⟩) fun s2 =>
      okAnd (runComponentQueryWithEntities demo true s (.readonly [4]) [] 10) fun items =>
      okAnd (runComponentQueryWithEntities demo true s1 (.readonly [4]) [] 10) fun items1 =>
      okAnd (runComponentQueryWithEntities demo true s2 (.readonly [4]) [] 10) fun items2 =>
        decide ((⟨1, 1⟩ : Entity) ∈ items.map (·.1) ∧ items1.map (·.1) = items.map (·.1) ∧
          items2.map (·.1) = [⟨0, 1⟩, ⟨4, 1⟩, ⟨2, 1⟩, ⟨3, 1⟩])) = true := by
    decide
  obtain ⟨s, hs, h⟩ := any_some h
  obtain ⟨s1, h1, h⟩ := okAnd_iff h
  obtain ⟨s2, h2, h⟩ := okAnd_iff h
  obtain ⟨i, h3, h⟩ := okAnd_iff h
  obtain ⟨i1, h4, h⟩ := okAnd_iff h
  obtain ⟨i2, h5, h⟩ := okAnd_iff h
  have h := of_decide_eq_true h
  exact ⟨s, s1, s2, i, i1, i2, runLoose_sound hs, by decide, h1, h2, h3, h.1, h4, h.2.1, h5, h.2.2⟩

/-- A tag for entity 1: the order stays. -/
example : ∃ s s' items items', LooseExec demo true 1 fiveInRow s ∧ Loose (world fiveInRow) (.tagged 0 ⟨1, 1⟩) ∧
    Returns demo true s (.tagged 0 ⟨1, 1⟩) s' ∧ movesNothing (.tagged 0 ⟨1, 1⟩) = true ∧
    runComponentQueryWithEntities demo true s (.readonly [4]) [] 10 = .ok items ∧
    runComponentQueryWithEntities demo true s' (.readonly [4]) [] 10 = .ok items' ∧ items.length = 5 ∧ items'.length = 5 := by
  have h : ((runLoose demo true 1 fiveInRow).any fun s =>
      okAnd (s.addTag 0 ⟨1, 1⟩) fun s' =>
      okAnd (runComponentQueryWithEntities demo true s (.readonly [4]) [] 10) fun items =>
      okAnd (runComponentQueryWithEntities demo true s' (.readonly [4]) [] 10) fun items' =>
        decide (items.length = 5 ∧ items'.length = 5)) = true := by
    decide
  obtain ⟨s, hs, h⟩ := any_some h
  obtain ⟨s1, h1, h⟩ := okAnd_iff h
  obtain ⟨i, h3, h⟩ := okAnd_iff h
  obtain ⟨i1, h4, h⟩ := okAnd_iff h
  have h := of_decide_eq_true h
  exact ⟨s, s1, i, i1, runLoose_sound hs, by decide, h1, rfl, h3, h4, h.1, h.2⟩

end Ecs.Props
