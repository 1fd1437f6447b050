import Verif.Proofs.UpdateRel
import Verif.Props.ListQueries

/-! Property C51: loops that write through the references returned by a query. `Exec` is explained in
`Props/Components.lean`; `old` and `fuel` in `Props/Queries.lean`. -/

namespace Ecs.Props
open Spec

section
variable {U : Universe} {dbg : Bool} {cap : Nat} {h : List Event} {s : Store}

theorem distinct_of_nodup {acc : Access} (hd : acc.types.Nodup) : DistinctTypes acc := by
  cases acc with
  | readonly r => exact hd
  | write w => exact hd
  | readWrite r w => exact ⟨(List.nodup_append.1 hd).1, (List.nodup_append.1 hd).2.1⟩

/-- **C51**, for `Exec` and component queries: a loop over a component query that reads all the queried
components of each entity and assigns new values to those it may write, updates every live entity with the
queried components exactly once, and changes nothing else. The program then is in a state of a
well-behaved execution again. -/
theorem C51_component_update_partial (hx : Exec U dbg cap h s) {acc : Access} (hd : acc.types.Nodup) (hne : acc.types ≠ [])
    {f : Entity → List (List Cell) → List (List UInt8)} (hf : ∀ e vs, Gives U acc.writes (f e vs))
    (old : List IterView) {fuel : Nat} (hfuel : (alive h).length < fuel) :
    ∃ L s' h', updateComponents U dbg s acc old f fuel = .ok s' ∧
      (∀ e, e ∈ L ↔ e ∈ alive h ∧ ∃ a, s.getEntityArchetype dbg e = .ok (some a) ∧ ∀ t ∈ acc.types, t ∈ a.ids) ∧
      Updated U dbg s s' (handles h) acc f L ∧ SameGroups s s' (alive h) ∧
      Exec U dbg cap (h' ++ h) s' ∧ ∀ ev ∈ h', ∃ e vals, ev = .assigned e vals := by
  obtain ⟨items, i1, _, i2, i3, i4⟩ := C31_visits_once_partial hx.loose (distinct_of_nodup hd) old hfuel
  have hi : ∀ x ∈ items, x.1 ∈ handles h ∧ s.getComponentsRefs U dbg x.1 acc.types = .ok (some x.2) := by
    intro x hxm
    refine ⟨?_, i4 x hxm⟩
    have := ((i3 x.1).1 (List.mem_map_of_mem hxm)).1
    rw [alive_eq] at this
    rw [handles_eq]
    exact (exec_rel hx).ents.sub _ this
  obtain ⟨s', h', f1, f2, f3, f4, f5⟩ := update_fold hd hne hf items (exec_rel hx) i2 (by rw [← handles_eq]; exact hi)
  rw [← handles_eq] at f4
  rw [← alive_eq] at f5
  refine ⟨_, s', h', ?_, i3, f4, f5, f2.exec hx, f3⟩
  unfold runComponentQueryWithEntities at i1
  obtain ⟨it, g1, g2⟩ := bind_eq_ok.1 i1
  unfold updateComponents
  simp only [g1, ok_bind]
  rw [updateLoop_of (CompIter.nextWithEntity_setPages dbg) g2]
  exact f1

/-- **C51**, for `Exec` and entity queries without duplicates, under the hypotheses of C35. -/
theorem C51_entity_update_partial (hx : Exec U dbg cap h s) {acc : Access} (hd : acc.types.Nodup) (hne : acc.types ≠ [])
    {f : Entity → List (List Cell) → List (List UInt8)} (hf : ∀ e vs, Gives U acc.writes (f e vs)) {L : List Entity}
    (hL : Askable cap h L) (hn : L.Nodup) (old : List (Range × IterView)) {fuel : Nat} (hfuel : L.length < fuel) :
    ∃ s' h', updateEntities U dbg s L acc old f fuel = .ok s' ∧
      Updated U dbg s s' (handles h) acc f (L.filter fun e => decide (Eligible h acc e)) ∧ SameGroups s s' (alive h) ∧
      Exec U dbg cap (h' ++ h) s' ∧ ∀ ev ∈ h', ∃ e vals, ev = .assigned e vals := by
  obtain ⟨items, i1, _, i2, i3⟩ := C35_entity_query_partial hx (distinct_of_nodup hd) hL old hfuel
  have hi : ∀ x ∈ items, x.1 ∈ handles h ∧ s.getComponentsRefs U dbg x.1 acc.types = .ok (some x.2) := by
    intro x hxm
    refine ⟨?_, i3 x hxm⟩
    have : x.1 ∈ items.map (·.1) := List.mem_map_of_mem hxm
    rw [i2] at this
    exact (hL _ (List.mem_filter.1 this).1).1
  obtain ⟨s', h', f1, f2, f3, f4, f5⟩ := update_fold hd hne hf items (exec_rel hx) (by rw [i2]; exact hn.filter _)
    (by rw [← handles_eq]; exact hi)
  rw [← handles_eq] at f4
  rw [← alive_eq] at f5
  rw [i2] at f4
  refine ⟨s', h', ?_, f4, f5, f2.exec hx, f3⟩
  unfold runEntityQueryWithEntities at i1
  obtain ⟨it, g1, g2⟩ := bind_eq_ok.1 i1
  unfold updateEntities
  simp only [g1, ok_bind]
  rw [updateLoop_of (EntIter.nextWithEntity_setPages dbg) g2]
  exact f1

/-- **C51**, for `Exec` and ordered queries (without entities), under the hypotheses of C36. -/
theorem C51_ordered_update_partial (hx : Exec U dbg cap h s) {acc : Access} (hd : acc.types.Nodup) (hne : acc.types ≠ [])
    {f : List (List Cell) → List (List UInt8)} (hf : ∀ vs, Gives U acc.writes (f vs)) {g : Nat}
    (hL : ∀ e ∈ sequence g h, (world h).types e ≠ []) (old : List (Range × IterView)) {fuel : Nat}
    (hfuel : (sequence g h).length < fuel) :
    ∃ s' h', updateOrdered U dbg s g acc old f fuel = .ok s' ∧
      Updated U dbg s s' (handles h) acc (fun _ => f) ((sequence g h).filter fun e => decide (Eligible h acc e)) ∧
      SameGroups s s' (alive h) ∧
      Exec U dbg cap (h' ++ h) s' ∧ ∀ ev ∈ h', ∃ e vals, ev = .assigned e vals := by
  have hr := exec_rel hx
  obtain ⟨refs, i1, i2⟩ := C36_ordered_query_partial hx (distinct_of_nodup hd) hL old hfuel
  generalize hM : (sequence g h).filter (fun e => decide (Eligible h acc e)) = M at i2
  have hl := i2.length_eq
  have hm : (M.zip refs).map (·.1) = M := List.map_fst_zip (Nat.le_of_eq hl)
  have hm2 : (M.zip refs).map (·.2) = refs := List.map_snd_zip (Nat.le_of_eq hl.symm)
  have hmem : ∀ e ∈ M, e ∈ handles h := by
    intro e he
    rw [← hM] at he
    have := (of_decide_eq_true (List.mem_filter.1 he).2 : Eligible h acc e).1
    rw [alive_eq] at this
    rw [handles_eq]
    exact hr.ents.sub _ this
  have hi : ∀ x ∈ M.zip refs, x.1 ∈ handles h ∧ s.getComponentsRefs U dbg x.1 acc.types = .ok (some x.2) := by
    intro x hxm
    refine ⟨hmem _ (by rw [← hm]; exact List.mem_map_of_mem hxm), ?_⟩
    exact (List.forall₂_iff_zip.1 i2).2 hxm
  have hn : M.Nodup := by
    rw [← hM, sequence_eq]
    exact (hr.core.order_nodup g).filter _
  obtain ⟨s', h', f1, f2, f3, f4, f5⟩ := update_fold (f := fun _ => f) hd hne (fun _ => hf) (M.zip refs) hr (by rw [hm]; exact hn)
    (by rw [← handles_eq]; exact hi)
  rw [← handles_eq] at f4
  rw [← alive_eq] at f5
  rw [hm] at f4
  refine ⟨s', h', ?_, f4, f5, f2.exec hx, f3⟩
  unfold runOrderedQuery at i1
  obtain ⟨it, g1, g2⟩ := bind_eq_ok.1 i1
  unfold updateOrdered
  simp only [g1, ok_bind]
  rw [updateLoop_of (fun _ _ _ => rfl) g2, ← f1]
  conv_lhs => rw [← hm2, List.foldlM_map]
  rfl

end

/-- Adds one to a component of one byte. -/
def bump (vs : List (List Cell)) : List (List UInt8) := [[((vs.headD []).headD none).getD 0 + 1]]

/-- The hypotheses of C51 are met: in `queryHistory` the loop adds one to component 4 of every entity that has it, or
of the entities of a list, or of the members of group 9. -/
example : ∃ s, Exec demo true 1 queryHistory s ∧ (∀ vs, Gives demo (Access.write [4]).writes (bump vs)) ∧
    [⟨0, 1⟩, ⟨2, 1⟩].map (fun e => s.getComponents demo true e [4]) = [.ok (some [[some 8]]), .ok (some [[some 9]])] ∧
    (∃ s', updateComponents demo true s (.write [4]) [] (fun _ => bump) 10 = .ok s' ∧
      [⟨0, 1⟩, ⟨2, 1⟩].map (fun e => s'.getComponents demo true e [4]) = [.ok (some [[some 9]]), .ok (some [[some 10]])]) ∧
    (∃ s', updateEntities demo true s [⟨2, 1⟩, ⟨1, 1⟩, ⟨3, 1⟩] (.write [4]) [] (fun _ => bump) 10 = .ok s' ∧
      [⟨0, 1⟩, ⟨2, 1⟩].map (fun e => s'.getComponents demo true e [4]) = [.ok (some [[some 8]]), .ok (some [[some 10]])]) ∧
    (∃ s', updateOrdered demo true s 9 (.write [4]) [] bump 10 = .ok s' ∧
      [⟨0, 1⟩, ⟨2, 1⟩].map (fun e => s'.getComponents demo true e [4]) = [.ok (some [[some 9]]), .ok (some [[some 10]])]) := by
  have h : ((runExec demo true 1 queryHistory).any fun s =>
      decide ([⟨0, 1⟩, ⟨2, 1⟩].map (fun e => s.getComponents demo true e [4]) = [.ok (some [[some 8]]), .ok (some [[some 9]])]) &&
      ((okAnd (updateComponents demo true s (.write [4]) [] (fun _ => bump) 10) fun s' =>
        decide ([⟨0, 1⟩, ⟨2, 1⟩].map (fun e => s'.getComponents demo true e [4]) = [.ok (some [[some 9]]), .ok (some [[some 10]])])) &&
      ((okAnd (updateEntities demo true s [⟨2, 1⟩, ⟨1, 1⟩, ⟨3, 1⟩] (.write [4]) [] (fun _ => bump) 10) fun s' =>
        decide ([⟨0, 1⟩, ⟨2, 1⟩].map (fun e => s'.getComponents demo true e [4]) = [.ok (some [[some 8]]), .ok (some [[some 10]])])) &&
      (okAnd (updateOrdered demo true s 9 (.write [4]) [] bump 10) fun s' =>
        decide ([⟨0, 1⟩, ⟨2, 1⟩].map (fun e => s'.getComponents demo true e [4]) = [.ok (some [[some 9]]), .ok (some [[some 10]])]))))) = true := by
    decide
  obtain ⟨s, hs, h⟩ := any_some h
  rw [Bool.and_eq_true, Bool.and_eq_true, Bool.and_eq_true] at h
  obtain ⟨s1, a1, b1⟩ := okAnd_iff h.2.1
  obtain ⟨s2, a2, b2⟩ := okAnd_iff h.2.2.1
  obtain ⟨s3, a3, b3⟩ := okAnd_iff h.2.2.2
  exact ⟨s, runExec_sound hs, fun vs => .cons rfl .nil, of_decide_eq_true h.1, ⟨s1, a1, of_decide_eq_true b1⟩,
    ⟨s2, a2, of_decide_eq_true b2⟩, ⟨s3, a3, of_decide_eq_true b3⟩⟩

end Ecs.Props
