import Verif.Proofs.TuplePtrs
import Verif.Props.Address

/-! Property C104: the generated tuple functions and machine pointers. -/

namespace Ecs.Props
open Spec Ptrs

section
variable {U : Universe} {dbg : Bool} {cap : Nat} {h : List Event} {s : Store} {base : Nat → Nat} {page i : Nat}

/-- **C104**, `get_refs` and `get_refs_mut`, for every tuple of at most 12 types: the result is the tuple of the addresses of the
components, in order, if all of these places are inside the page and aligned; otherwise the call is undefined behaviour. -/
theorem C104_get_refs {ts : List TypeId} {os : List Nat} (hn : ts.length ≤ 12) (hl : os.length = ts.length)
    (hw : ∀ p ∈ ts.zip os, p.2 + i * U.size p.1 < usizeSize) :
    (∀ as, getRefsP U dbg base (tupleIdents ts.length) (typesOf ts) page i os = .ok as ↔
      as = (getRefs U page i ts os).map (Ref.address base) ∧ List.Forall₂ (ValidAt U base) ts (getRefs U page i ts os)) ∧
    ∀ f, getRefsP U dbg base (tupleIdents ts.length) (typesOf ts) page i os = .error f → f.isUb = true :=
  ⟨fun _ => getRefsP_ok (Nat.lt_succ_of_le hn) hl hw, fun _ => getRefsP_ub (Nat.lt_succ_of_le hn) hl hw⟩

/-- **C104**, queries with any access to tuples of at most 12 types: the item for row `i`, made by `get_ptrs`, `add_to_ptrs` and
`ptrs_to_refs`, is the tuple of the addresses of the components under exactly the same condition as for `get_refs`, and
undefined behaviour otherwise. -/
theorem C104_query_item {acc : Access} {os : List Nat} (hn : HasInstances acc) (hl : os.length = acc.types.length)
    (hw : ∀ p ∈ acc.types.zip os, p.2 + i * U.size p.1 < usizeSize) :
    (∀ as, accessRefsP U dbg base acc page i os = .ok as ↔
      as = (addToPtrs (acc.getPtrs U page os) i).map (Ref.address base) ∧
        List.Forall₂ (ValidAt U base) acc.types (addToPtrs (acc.getPtrs U page os) i)) ∧
    ∀ f, accessRefsP U dbg base acc page i os = .error f → f.isUb = true := by
  unfold Access.getPtrs
  rw [addToPtrs_getRefs]
  exact accessRefsP_spec hn hl hw

/-- **C104**, `assign_to_refs`, for tuples of at most 12 types: the assignments are those of the `k`-th value to the `k`-th
reference, for every `k`, in order. -/
theorem C104_assign {α β : Type} {n : Nat} {refs : List α} {vals : List β} (hn : n ≤ 12) (h1 : refs.length = n)
    (h2 : vals.length = n) : assignToRefsP (tupleIdents n) refs vals = .ok (refs.zip vals) :=
  expand_assign (Nat.lt_succ_of_le hn) h1 h2

private theorem valid_of {ts : List TypeId} {refs : List Ref} (hb : Allocated pageMemory s.archs.pages.length base)
    (ha : ∀ p < s.archs.pages.length, ∀ t ∈ ts, U.align t ∣ base p) (hf : RowsFit s)
    (hp : List.Forall₂ (fun t (r : Ref) => r.page < s.archs.pages.length ∧ r.size = U.size t ∧ r.off % U.align t = 0 ∧
      (RowsFit s → r.off + r.size ≤ PAGE_SIZE)) ts refs) : List.Forall₂ (ValidAt U base) ts refs := by
  rw [List.forall₂_iff_get] at hp ⊢
  refine ⟨hp.1, fun k h1 h2 => ?_⟩
  obtain ⟨q1, q2, q3, q4⟩ := hp.2 k h1 h2
  refine ⟨by rw [← q2]; exact q4 hf, ?_, ?_⟩
  · unfold Ref.address
    have := (hb.1 _ q1).1
    omega
  · unfold AlignedAt Ref.address
    rw [Nat.add_mod, q3, Nat.add_zero, Nat.mod_mod]
    exact Nat.mod_eq_zero_of_dvd (ha _ q1 _ (List.get_mem _ _))

private theorem offsets_length {a : Archetype} {l : Layout} {ts : List TypeId} {os : List Nat}
    (h : getOffsets a l ts = .ok (some os)) : os.length = ts.length := by
  induction ts generalizing os with
  | nil => cases h; rfl
  | cons t ts ih =>
    unfold getOffsets at h
    split at h
    · cases h
    · obtain ⟨o, _, h⟩ := bind_eq_ok.1 h
      obtain ⟨os', h', h⟩ := bind_eq_ok.1 h
      cases os' with
      | none => cases h
      | some os' => cases h; rw [List.length_cons, List.length_cons, ih h']

private theorem no_overflow {ts : List TypeId} {os : List Nat} (hl : os.length = ts.length)
    (hv : List.Forall₂ (ValidAt U base) ts (getRefs U page i ts os)) :
    ∀ p ∈ ts.zip os, p.2 + i * U.size p.1 < usizeSize := by
  intro p hp
  have h1 : p.2 + i * U.size p.1 + U.size p.1 ≤ PAGE_SIZE := ((forall_refs hl).1 hv p hp).1
  have : PAGE_SIZE < usizeSize := by decide
  omega

/-- **C104**, in the store: as long as no page is overfull and the memory of the pages is aligned for the types, `get_components_refs` with
machine pointers has no undefined behaviour and no overflow, and returns the addresses of the references of the main model. -/
theorem C104_in_store_partial (hx : LooseExec U dbg cap h s) (hd : DistinctAdds h) (hf : RowsFit s)
    (hb : Allocated pageMemory s.archs.pages.length base) {e : Entity} (he : e ∈ handles h) {ts : List TypeId}
    (hn : ts.length ≤ 12) (ha : ∀ p < s.archs.pages.length, ∀ t ∈ ts, U.align t ∣ base p) {refs : List Ref}
    (hr : s.getComponentsRefs U dbg e ts = .ok (some refs)) :
    getComponentsRefsP U dbg base s e ts = .ok (some (.ok (refs.map (Ref.address base)))) := by
  have hv := valid_of hb ha hf (C71_refs_in_page hx hd he hr)
  unfold Store.getComponentsRefs at hr
  unfold getComponentsRefsP
  obtain ⟨b, h1, hr⟩ := bind_eq_ok.1 hr
  rw [h1, ok_bind]
  cases b with
  | false => cases hr
  | true =>
    rw [if_pos rfl] at hr ⊢
    obtain ⟨p, h2, hr⟩ := bind_eq_ok.1 hr
    obtain ⟨v, h3, hr⟩ := bind_eq_ok.1 hr
    obtain ⟨k, h4, hr⟩ := bind_eq_ok.1 hr
    obtain ⟨o, h5, hr⟩ := bind_eq_ok.1 hr
    rw [h2, ok_bind, h3, ok_bind, h4, ok_bind, h5, ok_bind]
    cases o with
    | none => cases hr
    | some os =>
      cases hr
      have hl := offsets_length h5
      exact congrArg (fun x => Except.ok (some x))
        ((C104_get_refs hn hl (no_overflow hl hv)).1 _ |>.2 ⟨rfl, hv⟩)

/-- **C104**, in the store, for component queries: as long as no page is overfull and the memory of the pages is aligned for the types, every
item of the query is the result of the pointer operations without undefined behaviour or overflow. -/
theorem C104_component_query_partial (hx : LooseExec U dbg cap h s) (hd : DistinctAdds h) (hf : RowsFit s)
    (hb : Allocated pageMemory s.archs.pages.length base) {acc : Access} (hn : HasInstances acc)
    (ha : ∀ p < s.archs.pages.length, ∀ t ∈ acc.types, U.align t ∣ base p) (old : List IterView) {fuel : Nat}
    (hfu : (alive h).length < fuel) :
    ∃ items, runComponentQuery U s acc old fuel = .ok items ∧ ∀ item ∈ items, ∃ page row os,
      item = addToPtrs (acc.getPtrs U page os) row ∧
      accessRefsP U dbg base acc page row os = .ok (item.map (Ref.address base)) := by
  obtain ⟨it, items, h1, h2, h3, h4, h5, h6, h7, h8, h9⟩ := component_selected (dbg := dbg) hx acc old hfu
  refine ⟨_, h9, fun item hm => ?_⟩
  obtain ⟨x, hx', rfl⟩ := List.mem_map.1 hm
  obtain ⟨hal, hr⟩ := h5 x hx'
  have he : s.entOf x.1 ∈ handles h := by
    rw [handles_eq]; rw [alive_eq] at hal; exact (loose_core hx).ents.sub _ hal
  have hv := valid_of hb ha hf (C71_refs_in_page hx hd he hr)
  unfold Store.getComponentsRefs at hr
  obtain ⟨b, k1, hr⟩ := bind_eq_ok.1 hr
  cases b with
  | false => cases hr
  | true =>
    rw [if_pos rfl] at hr
    obtain ⟨p, k2, hr⟩ := bind_eq_ok.1 hr
    obtain ⟨v, k3, hr⟩ := bind_eq_ok.1 hr
    obtain ⟨k, k4, hr⟩ := bind_eq_ok.1 hr
    obtain ⟨o, k5, hr⟩ := bind_eq_ok.1 hr
    cases o with
    | none => cases hr
    | some os =>
      have hl := offsets_length k5
      have hxe : getRefs U p k acc.types os = x.2 := Option.some.inj (Except.ok.inj hr)
      rw [← hxe] at hv ⊢
      have he2 : addToPtrs (acc.getPtrs U p os) k = getRefs U p k acc.types os := by
        unfold Access.getPtrs; rw [addToPtrs_getRefs]
      exact ⟨p, k, os, he2.symm, (accessRefsP_spec hn hl (no_overflow hl hv)).1 _ |>.2 ⟨rfl, hv⟩⟩

end

/-- **C104 is false of the code**: `null_ptrs` and `ptrs_to_refs` are safe functions of the public trait `ComponentTuple`, and for every
tuple passing the result of the first to the second is undefined behaviour. -/
theorem C104_counterexample (U : Universe) (base : Nat → Nat) {ts : List TypeId} (hn : ts.length ≤ 12) (hne : ts ≠ []) :
    ptrsToRefsP U base (tupleIdents ts.length) (typesOf ts) (nullPtrsP (tupleIdents ts.length)) = .error .invalidRef := by
  have hl : (nullPtrsP (tupleIdents ts.length)).length = ts.length := by
    unfold nullPtrsP; rw [List.length_map, idents_length]
  rw [ptrsToRefsP_eq (Nat.lt_succ_of_le hn) hl]
  cases ts with
  | nil => exact absurd rfl hne
  | cons t ts =>
    have hc : nullPtrsP (tupleIdents (t :: ts).length) = RawPtr.null :: (nullPtrsP (tupleIdents (t :: ts).length)).tail := by
      cases hp : nullPtrsP (tupleIdents (t :: ts).length) with
      | nil => rw [hp] at hl; cases hl
      | cons q l =>
        have : q ∈ nullPtrsP (tupleIdents (t :: ts).length) := by rw [hp]; exact List.mem_cons_self
        unfold nullPtrsP at this
        obtain ⟨_, _, rfl⟩ := List.mem_map.1 this
        rfl
    rw [hc, List.zip_cons_cons, List.mapM_cons]
    rfl

/-- The hypotheses are met, with an allocator that aligns to 16 bytes, by an entity with three components. -/
example : ∃ s r, LooseExec demo true 1 componentHistory s ∧ RowsFit s ∧ DistinctAdds componentHistory ∧
    Allocated pageMemory s.archs.pages.length (fun p => 16400 * (p + 1)) ∧
    s.getComponentsRefs demo true ⟨0, 1⟩ [4, 2, 1] = .ok (some r) ∧ r.length = 3 ∧
    getComponentsRefsP demo true (fun p => 16400 * (p + 1)) s ⟨0, 1⟩ [4, 2, 1] =
      .ok (some (.ok (r.map (Ref.address fun p => 16400 * (p + 1))))) := by
  have h : ((runLoose demo true 1 componentHistory).any fun s => decide (RowsFit s) &&
      (decide (Allocated pageMemory s.archs.pages.length (fun p => 16400 * (p + 1))) &&
      okAnd (s.getComponentsRefs demo true ⟨0, 1⟩ [4, 2, 1]) (fun o => o.any fun r => decide (r.length = 3)))) = true := by decide
  obtain ⟨s, hs, h⟩ := any_some h
  simp only [Bool.and_eq_true] at h
  obtain ⟨h1, h2, h3⟩ := h
  obtain ⟨o, g1, g2⟩ := okAnd_iff h3
  obtain ⟨r, rfl, g2⟩ := any_some g2
  have hd : DistinctAdds componentHistory := by
    intro e vals hm
    simp only [componentHistory, List.mem_cons, List.not_mem_nil, or_false, reduceCtorEq, false_or, Event.added.injEq] at hm
    rcases hm with ⟨-, rfl⟩ | ⟨-, rfl⟩ | ⟨-, rfl⟩ | ⟨-, rfl⟩ | ⟨-, rfl⟩ | ⟨-, rfl⟩ <;> decide
  exact ⟨s, r, runLoose_sound hs, of_decide_eq_true h1, hd, of_decide_eq_true h2, g1, of_decide_eq_true g2, 
    C104_in_store_partial (runLoose_sound hs) hd (of_decide_eq_true h1) (of_decide_eq_true h2) (by decide) (by decide)
      (fun p _ t ht => by
        have : ∀ t ∈ [4, 2, 1], demo.align t ∣ 16 := by decide
        exact Nat.dvd_trans (this t ht) ⟨1025 * (p + 1), by omega⟩) g1⟩

end Ecs.Props
