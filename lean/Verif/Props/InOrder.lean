import Verif.Proofs.Observed
import Verif.Proofs.QueryOrdAny
import Verif.Props.QueryAny
import Verif.Props.Exact

/-! Properties C71 and C72, and C34 again: what holds in a state only depends on whether the component data are in order
there, not on how the state was reached. The states considered are those reached by calls that returned (`LooseExec`, see
`Spec/World.lean`) where no call of `add_components` was made with a tuple that names a type twice (`DistinctAdds`).
`RowsFit` is in `Spec/Healthy.lean`; `InOrder`, `observed` and `ExecFrom` are in `Spec/InOrder.lean`. -/

namespace Ecs.Props
open Spec

section
variable {U : Universe} {dbg : Bool} {cap : Nat} {h : List Event} {s : Store}

/-- **C71**: the references returned by `get_components_refs` and `get_components_refs_mut` point into existing pages, have
the size of their type and are aligned relative to the page. If no page is overfull they lie within the page. -/
theorem C71_refs_in_page (hx : LooseExec U dbg cap h s) (hd : DistinctAdds h) {e : Entity} (he : e ∈ handles h)
    {ts : List TypeId} {refs : List Ref} (hr : s.getComponentsRefs U dbg e ts = .ok (some refs)) :
    List.Forall₂ (fun t (r : Ref) => r.page < s.archs.pages.length ∧ r.size = U.size t ∧ r.off % U.align t = 0 ∧
      (RowsFit s → r.off + r.size ≤ PAGE_SIZE)) ts refs :=
  loose_refs_placed hx hd he hr

/-- **C71**, continued: if no page is overfull, references to components of different entities, or to different components
of one entity, share no byte. -/
theorem C71_refs_apart (hx : LooseExec U dbg cap h s) (hd : DistinctAdds h) (hf : RowsFit s) {e e' : Entity}
    (he : e ∈ handles h) (he' : e' ∈ handles h) {ts ts' : List TypeId} {refs refs' : List Ref}
    (hr : s.getComponentsRefs U dbg e ts = .ok (some refs)) (hr' : s.getComponentsRefs U dbg e' ts' = .ok (some refs'))
    {i j : Nat} {t t' : TypeId} {r r' : Ref} (hi : ts[i]? = some t) (hj : ts'[j]? = some t') (hri : refs[i]? = some r)
    (hrj : refs'[j]? = some r') (hne : e ≠ e' ∨ t ≠ t') : Apart r r' :=
  loose_refs_apart hx hd hf he he' hr hr' hi hj hri hrj (by tauto)

/-- **C34**, for component queries in every state without overfull pages: if no component type is queried twice, no two
references returned during one iteration, mutable or not, share a byte. -/
theorem C34_component_query_fit_partial (hx : LooseExec U dbg cap h s) (hd : DistinctAdds h) (hr : RowsFit s) {acc : Access}
    (ha : acc.types.Nodup) (old : List IterView) {fuel : Nat} (hf : (alive h).length < fuel) :
    ∃ items, runComponentQuery U s acc old fuel = .ok items ∧ items.flatten.Pairwise Apart := by
  obtain ⟨it, items, h1, h2, h3, h4, h5, h6, h7, h8, h9⟩ := component_selected (dbg := dbg) hx acc old hf
  refine ⟨_, h9, ?_⟩
  have := loose_refs_pairwise hx hd hr ha (items := items.map fun x => (s.entOf x.1, x.2)) ?_ ?_
  · rw [List.map_map] at this; exact this
  · intro x hx'
    obtain ⟨y, hy, rfl⟩ := List.mem_map.1 hx'
    refine ⟨?_, (h5 y hy).2⟩
    have := (h5 y hy).1
    rw [alive_eq] at this
    rw [handles_eq]
    exact (loose_core hx).ents.sub _ this
  · rw [List.map_map]; exact h6

/-- **C34**, for entity queries in every state without overfull pages: if the list has no duplicates and the query is not
misled by entities without components (see C35), and no type is queried twice, no two references share a byte. -/
theorem C34_entity_query_fit_partial (hx : LooseExec U dbg cap h s) (hd : DistinctAdds h) (hr : RowsFit s) {acc : Access}
    (ha : acc.types.Nodup) {L : List Entity} (hL : ∀ e ∈ L, e ∈ handles h) (hn : L.Nodup) (hm : ¬ Misled dbg cap h s acc L)
    (old : List (Range × IterView)) {fuel : Nat} (hf : L.length < fuel) :
    ∃ items, runEntityQuery U dbg s L acc old fuel = .ok items ∧ items.flatten.Pairwise Apart := by
  obtain ⟨items, _, h2, h3, h4⟩ := (C35_entity_query_iff hx (fun e he => handle_inside hx (hL e he)) old hf).2 hm
  refine ⟨_, h2, loose_refs_pairwise hx hd hr ha (fun x hx' => ⟨hL _ ?_, h4 x hx'⟩) (by rw [h3]; exact hn.filter _)⟩
  have : x.1 ∈ L.filter (selected dbg s acc) := by rw [← h3]; exact List.mem_map_of_mem hx'
  exact (List.mem_filter.1 this).1

/-- **C34**, for ordered queries in every state without overfull pages: if no type is queried twice and the query is not
misled by members without components (the condition of C36), no two references share a byte. -/
theorem C34_ordered_query_fit_partial (hx : LooseExec U dbg cap h s) (hd : DistinctAdds h) (hr : RowsFit s) {acc : Access}
    (ha : acc.types.Nodup) {g : Nat}
    (hm : ∀ x ∈ sequence g h, x ∉ given h → ∃ a, recordedArchetype s x.id = some a ∧ ¬ Covers a.ids acc)
    (old : List (Range × IterView)) {fuel : Nat} (hf : (sequence g h).length < fuel) :
    ∃ items, runOrderedQuery U dbg s g acc old fuel = .ok items ∧ items.flatten.Pairwise Apart := by
  obtain ⟨items, h1, h2⟩ := (C36_ordered_query_iff (U := U) (dbg := dbg) hx old hf).2 hm
  refine ⟨_, h1, ?_⟩
  have hlen := h2.length_eq
  have hzip : (((sequence g h).filter (selected dbg s acc)).zip items).map (·.2) = items := by
    rw [List.map_snd_zip]; omega
  have hzip1 : (((sequence g h).filter (selected dbg s acc)).zip items).map (·.1) = (sequence g h).filter (selected dbg s acc) := by
    rw [List.map_fst_zip]; omega
  have hc := loose_core hx
  have := loose_refs_pairwise (U := U) (dbg := dbg) hx hd hr ha
    (items := ((sequence g h).filter (selected dbg s acc)).zip items) (fun x hx' => ⟨?_, ?_⟩) ?_
  · rw [hzip] at this; exact this
  · have h3 := (List.of_mem_zip (show (x.1, x.2) ∈ _ from hx')).1
    have h4 := (List.mem_filter.1 h3).1
    rw [sequence_eq] at h4
    rw [handles_eq]
    exact hc.ents.sub _ (hc.ordLive g _ h4)
  · obtain ⟨i, hi, rfl⟩ := List.mem_iff_getElem.1 hx'
    rw [List.length_zip] at hi
    have := (List.forall₂_iff_get.1 h2).2 i (by omega) (by omega)
    simpa using this
  · rw [hzip1, sequence_eq]
    exact (hc.order_nodup g).filter _

/-- **C72**: if the component data are in order, everything that can be read from the store without a query is
consistent: it is what a world says that has the handles, tags and groups of the history. (The component types and values
of this world are those read from the store, see `observed`.) -/
theorem C72_consistent (hx : LooseExec U dbg cap h s) (hd : DistinctAdds h) (ho : InOrder s) :
    Agrees U dbg s (observed U dbg h s) :=
  (loose_rel hx hd ho).agrees

/-- **C72**, continued: whatever happened before, from there on the store follows the world, and the data remain in
order, as long as the program is well-behaved and there is room for every component set. -/
theorem C72_resumes (hx : LooseExec U dbg cap h s) (hd : DistinctAdds h) (ho : InOrder s) {k : List Event} {s' : Store}
    (hk : ExecFrom U dbg s (observed U dbg h s) k s') :
    Agrees U dbg s' (worldFrom (observed U dbg h s) k) ∧ InOrder s' := by
  have := execFrom_rel (loose_rel hx hd ho) hk
  exact ⟨this.agrees, this.inOrder⟩

/-- **C72**, continued: the calls of such a program return. -/
theorem C72_calls_return (hx : LooseExec U dbg cap h s) (hd : DistinctAdds h) (ho : InOrder s) {k : List Event} {s' : Store}
    (hk : ExecFrom U dbg s (observed U dbg h s) k s') {w : World} (hw : w = worldFrom (observed U dbg h s) k) :
    (∀ ev, isCreation ev = false → Allowed U w ev → (∀ T, needs w ev = some T → s'.archs.CanHold U dbg T) →
      ∃ s'', Does U dbg s' ev s'' ∧ ExecFrom U dbg s (observed U dbg h s) (ev :: k) s'') ∧
    (w.issued.length + 1 < u32Size →
      (∃ s'' e, e ∉ w.issued ∧ Does U dbg s' (.created e) s'' ∧ ExecFrom U dbg s (observed U dbg h s) (.created e :: k) s'') ∧
      (∀ a, Built U a → s'.archs.CanHold U dbg a.ids →
        ∃ s'' e init, e ∉ w.issued ∧ Does U dbg s' (.createdWith e a.ids init) s'' ∧
          ExecFrom U dbg s (observed U dbg h s) (.createdWith e a.ids init :: k) s'')) := by
  subst hw
  have hr := execFrom_rel (loose_rel hx hd ho) hk
  refine ⟨fun ev hc ha hn => ?_, fun hb => ⟨?_, fun a ha hf => ?_⟩⟩
  · obtain ⟨s', hd⟩ := hr.progress hc ha hn
    exact ⟨s', hd, .step ev hk ha hn hd⟩
  · obtain ⟨s', e, h1, h2⟩ := hr.progress_created hb
    exact ⟨s', e, h1, h2, .step _ hk hb (by intro T hT; cases hT) h2⟩
  · obtain ⟨s', e, init, h1, h2⟩ := hr.progress_createdWith hb ha hf
    exact ⟨s', e, init, h1, h2, .step _ hk hb (by intro T hT; cases hT; exact hf) h2⟩

/-- **C72**, one call: if the data are in order, then a call of a well-behaved program that returns and leaves no page
overfull and no archetype with entities on the free list has done what it should, and the data are in order again. -/
theorem C72_one_call (hx : LooseExec U dbg cap h s) (hd : DistinctAdds h) (ho : InOrder s) {ev : Event}
    (ha : Allowed U (observed U dbg h s) ev) (hr : RemovesSome (observed U dbg h s) ev) {s' : Store}
    (hdo : Does U dbg s ev s') (h1 : RowsFit s') (h2 : UsedNotFree s') :
    Agrees U dbg s' ((observed U dbg h s).apply ev) ∧ InOrder s' := by
  have hrel := loose_rel hx hd ho
  have := hrel.step ha (fun _ hT => hrel.canHold_of_healthy ha hr hdo (not_bad h1 h2) hT) hdo
  exact ⟨this.agrees, this.inOrder⟩

/-- The states of `Exec` are in order, and there the observed types and values of live entities are those of the history. -/
theorem C72_exec_in_order (hx : Exec U dbg cap h s) : InOrder s ∧
    ∀ e ∈ alive h, (∀ t, t ∈ (observed U dbg h s).types e ↔ t ∈ (world h).types e) ∧
      ∀ t ∈ (world h).types e, (observed U dbg h s).value e t = (world h).value e t := by
  have hr := exec_rel hx
  refine ⟨hr.inOrder, fun e he => ?_⟩
  rw [alive_eq] at he
  have hi := hr.ents.sub e he
  have harch := hr.agrees.arch e hi
  have htypes : ∀ t, t ∈ (observed U dbg h s).types e ↔ t ∈ (world h).types e := by
    show ∀ t, t ∈ heldTypes dbg s e ↔ _
    unfold heldTypes
    by_cases hne : (world h).types e = []
    · rw [if_neg (by simp [hne])] at harch
      rw [harch, hne]; exact fun _ => Iff.rfl
    · rw [if_pos ⟨he, hne⟩] at harch
      obtain ⟨a, h1, h2⟩ := harch
      rw [h1]; exact h2
  refine ⟨htypes, fun t ht => ?_⟩
  have := hr.agrees.read e hi [t] (by simp)
  show heldValue U dbg s e t = _
  unfold heldValue
  rw [this]
  simp [World.get, he, ht]

end

/-! ### Examples -/

/-- A page was overfull here (`overflowing`), until three of its entities were destroyed. -/
def recovered : List Event :=
  [.added ⟨1, 2⟩ [(4, [5])], .created ⟨1, 2⟩, .destroyed ⟨1, 1⟩, .destroyed ⟨2, 1⟩, .destroyed ⟨3, 1⟩] ++ overflowing

/-- More calls. -/
def resumed : List Event :=
  [.removed ⟨0, 1⟩ [3], .added ⟨3, 2⟩ [(4, [7])], .created ⟨3, 2⟩, .created ⟨2, 2⟩, .assigned ⟨0, 1⟩ [(4, [9])]]

/-- The component data are not in order at first, and then are again; references are apart, and a program can go on from
there. -/
example : (∃ s, LooseExec demo true 1 overflowing s ∧ ¬ RowsFit s) ∧
    ∃ s s', LooseExec demo true 1 recovered s ∧ DistinctAdds recovered ∧ InOrder s ∧
      (∃ r r', s.getComponentsRefs demo true ⟨0, 1⟩ [3, 4] = .ok (some r) ∧
        s.getComponentsRefs demo true ⟨1, 2⟩ [4] = .ok (some r')) ∧
      ExecFrom demo true s (observed demo true recovered s) resumed s' ∧
      s'.getComponents demo true ⟨0, 1⟩ [4] = .ok (some [[some 9]]) ∧
      s'.getComponents demo true ⟨3, 2⟩ [4] = .ok (some [[some 7]]) ∧
      s'.getComponents demo true ⟨0, 1⟩ [3] = .ok none := by
  refine ⟨?_, ?_⟩
  · have h : ((runLoose demo true 1 overflowing).any fun s => decide (¬ RowsFit s)) = true := by decide
    obtain ⟨s, hs, h⟩ := any_some h
    exact ⟨s, runLoose_sound hs, of_decide_eq_true h⟩
  · have h : ((runLoose demo true 1 recovered).any fun s => decide (InOrder s) &&
      (okAnd (s.getComponentsRefs demo true ⟨0, 1⟩ [3, 4]) (·.isSome) &&
      (okAnd (s.getComponentsRefs demo true ⟨1, 2⟩ [4]) (·.isSome) &&
      (runFrom demo true s (observed demo true recovered s) resumed).any fun s' =>
        decide (s'.getComponents demo true ⟨0, 1⟩ [4] = .ok (some [[some 9]])) &&
        (decide (s'.getComponents demo true ⟨3, 2⟩ [4] = .ok (some [[some 7]])) &&
        decide (s'.getComponents demo true ⟨0, 1⟩ [3] = .ok none))))) = true := by decide
    obtain ⟨s, hs, h⟩ := any_some h
    simp only [Bool.and_eq_true] at h
    obtain ⟨h1, h2, h3, h⟩ := h
    obtain ⟨s', hs', h⟩ := any_some h
    simp only [Bool.and_eq_true] at h
    obtain ⟨o, g1, g2⟩ := okAnd_iff h2
    obtain ⟨o', g1', g2'⟩ := okAnd_iff h3
    obtain ⟨r, rfl⟩ := Option.isSome_iff_exists.1 g2
    obtain ⟨r', rfl⟩ := Option.isSome_iff_exists.1 g2'
    refine ⟨s, s', runLoose_sound hs, ?_, of_decide_eq_true h1, ⟨r, r', g1, g1'⟩, runFrom_sound hs', of_decide_eq_true h.1,
      of_decide_eq_true h.2.1, of_decide_eq_true h.2.2⟩
    intro e vals he
    simp only [recovered, overflowing, List.mem_append, List.mem_cons, List.not_mem_nil, or_false, reduceCtorEq, false_or,
      Event.added.injEq] at he
    obtain ⟨_, rfl⟩ := he
    decide

end Ecs.Props
