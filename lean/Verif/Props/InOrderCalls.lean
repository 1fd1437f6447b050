import Verif.Proofs.UpdateRel
import Verif.Props.InOrder
import Verif.Props.Update

/-! Properties C21–C24, C26, C29 and C51 again: single calls and update loops in states whose component data are in
order (`InOrder`, see `Spec/InOrder.lean`), however the state was reached (`LooseExec`: by calls that returned; `DistinctAdds`:
no tuple added named a type twice). The theorems about calls that move an entity also suppose that no page is overfull and
no archetype with entities is free after the call; there are no other conditions on how components are stored. -/

namespace Ecs.Props
open Spec

section
variable {U : Universe} {dbg : Bool} {cap : Nat} {h : List Event} {s : Store}

private theorem live_observed : (observed U dbg h s).live = alive h := (alive_eq h).symm

private theorem issued_observed : (observed U dbg h s).issued = handles h := (handles_eq h).symm

private theorem types_observed {e : Entity} {a : Archetype} (ha : s.getEntityArchetype dbg e = .ok (some a)) :
    (observed U dbg h s).types e = a.ids := by
  show heldTypes dbg s e = _
  unfold heldTypes
  rw [ha]

private theorem room_add (hx : LooseExec U dbg cap h s) (hd : DistinctAdds h) (ho : InOrder s) {e : Entity} (he : e ∈ alive h)
    {vals : TupleVal} (hne : vals ≠ []) (hok : TupleOk U vals) {s' : Store} (hs : s.addComponents U dbg e vals = .ok s')
    (h1 : RowsFit s') (h2 : UsedNotFree s') {T : List TypeId} (hT : needs (observed U dbg h s) (.added e vals) = some T) :
    s.archs.CanHold U dbg T := by
  have hr := loose_rel hx hd ho
  rw [← live_observed (U := U) (dbg := dbg) (s := s)] at he
  exact hr.canHold_of_healthy (ev := .added e vals) ⟨hr.ents.sub e he, hne, hok⟩ trivial ⟨hs, trivial⟩ (not_bad h1 h2) hT

/-- **C21**, in order: after `add_components` on a live entity reading the same types gives exactly the values added. -/
theorem C21_add_then_get_fit_partial (hx : LooseExec U dbg cap h s) (hd : DistinctAdds h) (ho : InOrder s) {e : Entity}
    (he : e ∈ alive h) {vals : TupleVal} (hne : vals ≠ []) (hok : TupleOk U vals) {s' : Store}
    (hs : s.addComponents U dbg e vals = .ok s') (h1 : RowsFit s') (h2 : UsedNotFree s') :
    s'.getComponents U dbg e (vals.map (·.1)) = .ok (some (vals.map (·.2.map some))) ∧
      ∀ p ∈ vals, s'.getComponents U dbg e [p.1] = .ok (some [p.2.map some]) := by
  obtain ⟨s1, k1, k2⟩ := (loose_rel hx hd ho).add_then_get (by rw [live_observed]; exact he) hne hok
    (fun T hT => room_add hx hd ho he hne hok hs h1 h2 hT)
  rw [hs] at k1
  cases k1
  exact k2

/-- **C22**, in order: `add_components` changes nothing else: not the other components of the entity, nor anything of any
other entity, nor liveness, tags and groups. -/
theorem C22_add_frame_fit_partial (hx : LooseExec U dbg cap h s) (hd : DistinctAdds h) (ho : InOrder s) {e : Entity}
    (he : e ∈ alive h) {vals : TupleVal} (hne : vals ≠ []) (hok : TupleOk U vals) {s' : Store}
    (hs : s.addComponents U dbg e vals = .ok s') (h1 : RowsFit s') (h2 : UsedNotFree s') :
    (∀ x ∈ handles h, x ≠ e → SameData U dbg s s' x) ∧
    (∀ t, t ∉ vals.map (·.1) → s'.getComponents U dbg e [t] = s.getComponents U dbg e [t]) ∧
    s'.isAlive dbg e = s.isAlive dbg e ∧ SameGroups s s' (alive h) := by
  have := (loose_rel hx hd ho).add_frame (by rw [live_observed]; exact he) hne hok
    (fun T hT => room_add hx hd ho he hne hok hs h1 h2 hT) hs
  rwa [issued_observed, live_observed] at this

/-- **C23**, in order: `remove_components` on a live entity that keeps some component and loses some removes exactly the
named types, keeps the other values, and changes nothing else. -/
theorem C23_remove_exact_fit_partial (hx : LooseExec U dbg cap h s) (hd : DistinctAdds h) (ho : InOrder s) {e : Entity}
    (he : e ∈ alive h) {a : Archetype} (ha : s.getEntityArchetype dbg e = .ok (some a)) {ts : List TypeId}
    (hkeep : ∃ t ∈ a.ids, t ∉ ts) (hlose : ∃ t ∈ a.ids, t ∈ ts) {s' : Store}
    (hs : s.removeComponents U dbg e ts = .ok s') (h1 : RowsFit s') (h2 : UsedNotFree s') :
    (∃ a', s'.getEntityArchetype dbg e = .ok (some a') ∧ ∀ t, t ∈ a'.ids ↔ t ∈ a.ids ∧ t ∉ ts) ∧
      (∀ t, s'.getComponents U dbg e [t] = if t ∈ ts then .ok none else s.getComponents U dbg e [t]) ∧
      (∀ x ∈ handles h, x ≠ e → SameData U dbg s s' x) ∧
      s'.isAlive dbg e = s.isAlive dbg e ∧ SameGroups s s' (alive h) := by
  have hr := loose_rel hx hd ho
  have he' : e ∈ (observed U dbg h s).live := by rw [live_observed]; exact he
  have ht := types_observed (U := U) (h := h) ha
  obtain ⟨s1, k1, k2⟩ := hr.remove_exact he' ha hkeep (fun T hT =>
    hr.canHold_of_healthy (ev := .removed e ts) ⟨hr.ents.sub e he', fun _ _ => by rw [ht]; exact hkeep⟩
      (fun _ _ => by rw [ht]; exact hlose) ⟨hs, trivial⟩ (not_bad h1 h2) hT)
  rw [hs] at k1
  cases k1
  rwa [issued_observed, live_observed] at k2

/-- **C24**, in order: `destroy_entity` on a live entity returns; the entity is then dead, without components and archetype;
every other entity keeps its liveness, archetype, values and tags. -/
theorem C24_destroy_exact_fit_partial (hx : LooseExec U dbg cap h s) (hd : DistinctAdds h) (ho : InOrder s) {e : Entity}
    (he : e ∈ alive h) :
    ∃ s', s.destroyEntity dbg e = .ok s' ∧ s'.isAlive dbg e = .ok false ∧
      s'.getEntityArchetype dbg e = .ok none ∧
      (∀ ts, ts ≠ [] → s'.getComponents U dbg e ts = .ok none) ∧
      (∀ x ∈ handles h, x ≠ e → SameData U dbg s s' x) ∧
      (∀ x ∈ alive h, x ≠ e → ∀ tag, s'.hasTag tag x = s.hasTag tag x) := by
  have := (loose_rel hx hd ho).destroy_exact (by rw [live_observed]; exact he)
  rwa [issued_observed, live_observed] at this

/-- **C26**, in order: assigning through the references of `get_components_refs_mut` returns; if the references are available
the named components have the new values, and nothing else has changed; if not, nothing has changed. -/
theorem C26_writes_local_fit_partial (hx : LooseExec U dbg cap h s) (hd : DistinctAdds h) (ho : InOrder s) {e : Entity}
    (he : e ∈ handles h) {vals : TupleVal} (hok : TupleOk U vals) :
    ∃ s' b, s.setComponents U dbg e vals = .ok (s', b) ∧
      (b = true ↔ ∃ refs, s.getComponentsRefs U dbg e (vals.map (·.1)) = .ok (some refs)) ∧
      (b = true → s'.getComponents U dbg e (vals.map (·.1)) = .ok (some (vals.map (·.2.map some)))) ∧
      (b = false → s' = s) ∧
      (∀ x ∈ handles h, x ≠ e → SameData U dbg s s' x) ∧
      (∀ t, t ∉ vals.map (·.1) → s'.getComponents U dbg e [t] = s.getComponents U dbg e [t]) ∧
      s'.getEntityArchetype dbg e = s.getEntityArchetype dbg e ∧
      s'.isAlive dbg e = s.isAlive dbg e ∧ SameGroups s s' (alive h) := by
  have := (loose_rel hx hd ho).writes_local (by rw [issued_observed]; exact he) hok
  rwa [issued_observed, live_observed] at this

/-- **C29**, in order: removing all components of an entity panics; removing some of them returns, provided the smaller type
set can be stored; and the call returns and changes nothing for handles that are dead or have no components. -/
theorem C29_remove_last_panics_fit_partial (hx : LooseExec U dbg cap h s) (hd : DistinctAdds h) (ho : InOrder s) {e : Entity}
    (he : e ∈ handles h) (ts : List TypeId) :
    (∀ a, s.getEntityArchetype dbg e = .ok (some a) → (∀ t ∈ a.ids, t ∈ ts) →
      s.removeComponents U dbg e ts = .error (.panic .assertFailed)) ∧
    (∀ a, s.getEntityArchetype dbg e = .ok (some a) → (∃ t ∈ a.ids, t ∉ ts) →
      s.archs.CanHold U dbg (a.ids.filter (· ∉ ts)) → ∃ s', s.removeComponents U dbg e ts = .ok s') ∧
    (s.getEntityArchetype dbg e = .ok none → s.removeComponents U dbg e ts = .ok s) :=
  (loose_rel hx hd ho).remove_last (by rw [issued_observed]; exact he) ts

/-- The calls that a loop over a query makes keep the data in order. -/
private theorem after (hx : LooseExec U dbg cap h s) (hd : DistinctAdds h) (ho : InOrder s) {k : List Event} {s' : Store}
    (hk : ExecFrom U dbg s (observed U dbg h s) k s') : InOrder s' :=
  (C72_resumes hx hd ho hk).2

/-- **C51**, in order, for component queries: a loop over a component query that reads all the queried components of each
entity and assigns new values to those it may write, updates every live entity with the queried components exactly once, and
changes nothing else; the data are in order afterwards. -/
theorem C51_component_update_fit_partial (hx : LooseExec U dbg cap h s) (hd : DistinctAdds h) (ho : InOrder s) {acc : Access}
    (ha : acc.types.Nodup) (hne : acc.types ≠ []) {f : Entity → List (List Cell) → List (List UInt8)}
    (hf : ∀ e vs, Gives U acc.writes (f e vs)) (old : List IterView) {fuel : Nat} (hfuel : (alive h).length < fuel) :
    ∃ L s', updateComponents U dbg s acc old f fuel = .ok s' ∧
      (∀ e, e ∈ L ↔ e ∈ alive h ∧ ∃ a, s.getEntityArchetype dbg e = .ok (some a) ∧ ∀ t ∈ acc.types, t ∈ a.ids) ∧
      Updated U dbg s s' (handles h) acc f L ∧ SameGroups s s' (alive h) ∧ InOrder s' := by
  have hr := loose_rel hx hd ho
  obtain ⟨items, i1, _, i2, i3, i4⟩ := C31_visits_once_partial hx (distinct_of_nodup ha) old hfuel
  have hi : ∀ x ∈ items, x.1 ∈ (observed U dbg h s).issued ∧ s.getComponentsRefs U dbg x.1 acc.types = .ok (some x.2) := by
    intro x hxm
    refine ⟨?_, i4 x hxm⟩
    have := ((i3 x.1).1 (List.mem_map_of_mem hxm)).1
    rw [← live_observed (U := U) (dbg := dbg) (s := s)] at this
    exact hr.ents.sub _ this
  obtain ⟨s', h', f1, f2, f3, f4, f5⟩ := update_fold ha hne hf items hr i2 hi
  rw [issued_observed] at f4
  rw [live_observed] at f5
  refine ⟨_, s', ?_, i3, f4, f5, after hx hd ho f2⟩
  unfold runComponentQueryWithEntities at i1
  obtain ⟨it, g1, g2⟩ := bind_eq_ok.1 i1
  unfold updateComponents
  simp only [g1, ok_bind]
  rw [updateLoop_of (CompIter.nextWithEntity_setPages dbg) g2]
  exact f1

/-- **C51**, in order, for entity queries over lists of issued handles without duplicates that do not mislead the query
(see C35). -/
theorem C51_entity_update_fit_partial (hx : LooseExec U dbg cap h s) (hd : DistinctAdds h) (ho : InOrder s) {acc : Access}
    (ha : acc.types.Nodup) (hne : acc.types ≠ []) {f : Entity → List (List Cell) → List (List UInt8)}
    (hf : ∀ e vs, Gives U acc.writes (f e vs)) {L : List Entity} (hL : ∀ e ∈ L, e ∈ handles h) (hn : L.Nodup)
    (hm : ¬ Misled dbg cap h s acc L) (old : List (Range × IterView)) {fuel : Nat} (hfuel : L.length < fuel) :
    ∃ s', updateEntities U dbg s L acc old f fuel = .ok s' ∧
      Updated U dbg s s' (handles h) acc f (L.filter (selected dbg s acc)) ∧ SameGroups s s' (alive h) ∧ InOrder s' := by
  obtain ⟨items, i1, _, i2, i3⟩ := (C35_entity_query_iff hx (fun e he => handle_inside hx (hL e he)) old hfuel).2 hm
  have hi : ∀ x ∈ items, x.1 ∈ (observed U dbg h s).issued ∧ s.getComponentsRefs U dbg x.1 acc.types = .ok (some x.2) := by
    intro x hxm
    refine ⟨?_, i3 x hxm⟩
    have : x.1 ∈ items.map (·.1) := List.mem_map_of_mem hxm
    rw [i2] at this
    rw [issued_observed]
    exact hL _ (List.mem_filter.1 this).1
  obtain ⟨s', h', f1, f2, f3, f4, f5⟩ := update_fold ha hne hf items (loose_rel hx hd ho) (by rw [i2]; exact hn.filter _) hi
  rw [issued_observed, i2] at f4
  rw [live_observed] at f5
  refine ⟨s', ?_, f4, f5, after hx hd ho f2⟩
  unfold runEntityQueryWithEntities at i1
  obtain ⟨it, g1, g2⟩ := bind_eq_ok.1 i1
  unfold updateEntities
  simp only [g1, ok_bind]
  rw [updateLoop_of (EntIter.nextWithEntity_setPages dbg) g2]
  exact f1

/-- **C51**, in order, for ordered queries (without entities), under the condition of C36. -/
theorem C51_ordered_update_fit_partial (hx : LooseExec U dbg cap h s) (hd : DistinctAdds h) (ho : InOrder s) {acc : Access}
    (ha : acc.types.Nodup) (hne : acc.types ≠ []) {f : List (List Cell) → List (List UInt8)}
    (hf : ∀ vs, Gives U acc.writes (f vs)) {g : Nat}
    (hm : ∀ x ∈ sequence g h, x ∉ given h → ∃ a, recordedArchetype s x.id = some a ∧ ¬ Covers a.ids acc)
    (old : List (Range × IterView)) {fuel : Nat} (hfuel : (sequence g h).length < fuel) :
    ∃ s', updateOrdered U dbg s g acc old f fuel = .ok s' ∧
      Updated U dbg s s' (handles h) acc (fun _ => f) ((sequence g h).filter (selected dbg s acc)) ∧
      SameGroups s s' (alive h) ∧ InOrder s' := by
  have hr := loose_rel hx hd ho
  obtain ⟨refs, i1, i2⟩ := (C36_ordered_query_iff (U := U) (dbg := dbg) hx old hfuel).2 hm
  generalize hM : (sequence g h).filter (selected dbg s acc) = M at i2
  have hl := i2.length_eq
  have hm : (M.zip refs).map (·.1) = M := List.map_fst_zip (Nat.le_of_eq hl)
  have hm2 : (M.zip refs).map (·.2) = refs := List.map_snd_zip (Nat.le_of_eq hl.symm)
  have hmem : ∀ e ∈ M, e ∈ (observed U dbg h s).issued := by
    intro e he
    rw [← hM] at he
    have := (List.mem_filter.1 he).1
    rw [sequence_eq] at this
    exact (loose_core hx).ents.sub _ ((loose_core hx).ordLive g _ this)
  have hi : ∀ x ∈ M.zip refs, x.1 ∈ (observed U dbg h s).issued ∧
      s.getComponentsRefs U dbg x.1 acc.types = .ok (some x.2) := by
    intro x hxm
    refine ⟨hmem _ (by rw [← hm]; exact List.mem_map_of_mem hxm), ?_⟩
    exact (List.forall₂_iff_zip.1 i2).2 hxm
  have hn : M.Nodup := by
    rw [← hM, sequence_eq]
    exact ((loose_core hx).order_nodup g).filter _
  obtain ⟨s', h', f1, f2, f3, f4, f5⟩ := update_fold (f := fun _ => f) ha hne (fun _ => hf) (M.zip refs) hr
    (by rw [hm]; exact hn) hi
  rw [issued_observed, hm] at f4
  rw [live_observed] at f5
  refine ⟨s', ?_, f4, f5, after hx hd ho f2⟩
  unfold runOrderedQuery at i1
  obtain ⟨it, g1, g2⟩ := bind_eq_ok.1 i1
  unfold updateOrdered
  simp only [g1, ok_bind]
  rw [updateLoop_of (fun _ _ _ => rfl) g2, ← f1]
  conv_lhs => rw [← hm2, List.foldlM_map]
  rfl

end

/-! ### Examples -/

/-- A group of two entities, in the state in which the data are in order again. -/
def recoveredGroup : List Event := [.assigned ⟨0, 1⟩ [(4, [8])], .orderedLast 3 ⟨1, 2⟩, .orderedLast 3 ⟨0, 1⟩] ++ recovered

/-- Component 4 of two entities. -/
private def two (s : Store) : List (Res (Option (List (List Cell)))) :=
  [⟨0, 1⟩, ⟨1, 2⟩].map fun e => s.getComponents demo true e [4]

/-- The hypotheses are met after a page was overfull and is no longer: a component is added, one removed, and all
entities with component 4 are updated in three ways. -/
example : ∃ s, LooseExec demo true 1 recoveredGroup s ∧ DistinctAdds recoveredGroup ∧ InOrder s ∧
    two s = [.ok (some [[some 8]]), .ok (some [[some 5]])] ∧
    (∃ s', s.addComponents demo true ⟨1, 2⟩ [(1, [3])] = .ok s' ∧ RowsFit s' ∧ UsedNotFree s') ∧
    (∃ s', s.removeComponents demo true ⟨0, 1⟩ [3] = .ok s' ∧ RowsFit s' ∧ UsedNotFree s') ∧
    (¬ Misled true 1 recoveredGroup s (.write [4]) [⟨1, 2⟩, ⟨1, 1⟩]) ∧
    (∀ x ∈ sequence 3 recoveredGroup, x ∈ given recoveredGroup) ∧
    (∃ s', updateComponents demo true s (.write [4]) [] (fun _ => bump) 10 = .ok s' ∧
      two s' = [.ok (some [[some 9]]), .ok (some [[some 6]])]) ∧
    (∃ s', updateEntities demo true s [⟨1, 2⟩, ⟨1, 1⟩] (.write [4]) [] (fun _ => bump) 10 = .ok s' ∧
      two s' = [.ok (some [[some 8]]), .ok (some [[some 6]])]) ∧
    (∃ s', updateOrdered demo true s 3 (.write [4]) [] bump 10 = .ok s' ∧
      two s' = [.ok (some [[some 9]]), .ok (some [[some 6]])]) := by
  have h : ((runLoose demo true 1 recoveredGroup).any fun s => decide (InOrder s) &&
      (decide (two s = [.ok (some [[some 8]]), .ok (some [[some 5]])]) &&
      (okAnd (s.addComponents demo true ⟨1, 2⟩ [(1, [3])]) (fun s' => decide (RowsFit s') && decide (UsedNotFree s')) &&
      (okAnd (s.removeComponents demo true ⟨0, 1⟩ [3]) (fun s' => decide (RowsFit s') && decide (UsedNotFree s')) &&
      (decide (¬ Misled true 1 recoveredGroup s (.write [4]) [⟨1, 2⟩, ⟨1, 1⟩]) &&
      (okAnd (updateComponents demo true s (.write [4]) [] (fun _ => bump) 10)
        (fun s' => decide (two s' = [.ok (some [[some 9]]), .ok (some [[some 6]])])) &&
      (okAnd (updateEntities demo true s [⟨1, 2⟩, ⟨1, 1⟩] (.write [4]) [] (fun _ => bump) 10)
        (fun s' => decide (two s' = [.ok (some [[some 8]]), .ok (some [[some 6]])])) &&
      okAnd (updateOrdered demo true s 3 (.write [4]) [] bump 10)
        (fun s' => decide (two s' = [.ok (some [[some 9]]), .ok (some [[some 6]])]))))))))) = true := by decide
  obtain ⟨s, hs, h⟩ := any_some h
  simp only [Bool.and_eq_true] at h
  obtain ⟨h1, h2, h3, h4, h5, h6, h7, h8⟩ := h
  obtain ⟨s1, a1, b1⟩ := okAnd_iff h3
  obtain ⟨s2, a2, b2⟩ := okAnd_iff h4
  obtain ⟨s3, a3, b3⟩ := okAnd_iff h6
  obtain ⟨s4, a4, b4⟩ := okAnd_iff h7
  obtain ⟨s5, a5, b5⟩ := okAnd_iff h8
  rw [Bool.and_eq_true] at b1 b2
  refine ⟨s, runLoose_sound hs, ?_, of_decide_eq_true h1, of_decide_eq_true h2,
    ⟨s1, a1, of_decide_eq_true b1.1, of_decide_eq_true b1.2⟩, ⟨s2, a2, of_decide_eq_true b2.1, of_decide_eq_true b2.2⟩,
    of_decide_eq_true h5, by decide, ⟨s3, a3, of_decide_eq_true b3⟩, ⟨s4, a4, of_decide_eq_true b4⟩,
    ⟨s5, a5, of_decide_eq_true b5⟩⟩
  intro e vals he
  simp only [recoveredGroup, recovered, overflowing, List.mem_append, List.mem_cons, List.not_mem_nil, or_false,
    reduceCtorEq, false_or, Event.added.injEq] at he
  obtain ⟨_, rfl⟩ := he
  decide

end Ecs.Props
