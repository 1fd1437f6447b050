import Verif.Props.InOrder
import Verif.Props.Queries
import Verif.Spec.Address

/-! Property C73: machine addresses of the references to components. The code allocates the memory of a page without
asking for any alignment (`pageMemory`), and places components at offsets that are multiples of their alignment. -/

namespace Ecs.Props
open Spec

section
variable {U : Universe} {dbg : Bool} {cap : Nat} {h : List Event} {s : Store}

/-- **C73**: a reference returned by `get_components_refs` or `get_components_refs_mut` is aligned if and only if the memory
of its page happens to be aligned for the component's type. -/
theorem C73_aligned_iff (hx : LooseExec U dbg cap h s) (hd : DistinctAdds h) {e : Entity} (he : e ∈ handles h)
    {ts : List TypeId} {refs : List Ref} (hr : s.getComponentsRefs U dbg e ts = .ok (some refs)) (base : Nat → Nat) :
    List.Forall₂ (fun t (r : Ref) => AlignedAt U base t r ↔ base r.page % U.align t = 0) ts refs :=
  (C71_refs_in_page hx hd he hr).imp fun t r h0 => by
    unfold AlignedAt Ref.address
    rw [Nat.add_mod, h0.2.2.1, Nat.add_zero, Nat.mod_mod]

/-- **C73**, continued: if the allocator aligns the memory of all pages to `A` bytes, references to components whose
alignment divides `A` are aligned. (The code does not ask for any `A` but 1; common allocators give 16.) -/
theorem C73_aligned_of_base (hx : LooseExec U dbg cap h s) (hd : DistinctAdds h) {e : Entity} (he : e ∈ handles h)
    {ts : List TypeId} {refs : List Ref} (hr : s.getComponentsRefs U dbg e ts = .ok (some refs)) {base : Nat → Nat} {A : Nat}
    (hb : ∀ p < s.archs.pages.length, A ∣ base p) (ht : ∀ t ∈ ts, U.align t ∣ A) :
    List.Forall₂ (fun t (r : Ref) => AlignedAt U base t r) ts refs := by
  have h1 := C73_aligned_iff hx hd he hr base
  have h2 := C71_refs_in_page hx hd he hr
  rw [List.forall₂_iff_get] at h1 h2 ⊢
  refine ⟨h1.1, fun i hi hi' => (h1.2 i hi hi').2 ?_⟩
  exact Nat.mod_eq_zero_of_dvd (Nat.dvd_trans (ht _ (List.get_mem _ _)) (hb _ (h2.2 i hi hi').1))

/-- **C73**, continued: if no page is overfull, a component lies within the memory the allocator returned for its page. -/
theorem C73_in_block (hx : LooseExec U dbg cap h s) (hd : DistinctAdds h) (hf : RowsFit s) {e : Entity} (he : e ∈ handles h)
    {ts : List TypeId} {refs : List Ref} (hr : s.getComponentsRefs U dbg e ts = .ok (some refs)) (base : Nat → Nat) :
    ∀ r ∈ refs, r.page < s.archs.pages.length ∧ base r.page ≤ r.address base ∧
      r.address base + r.size ≤ base r.page + pageMemory.size := by
  intro r hm
  have h2 := C71_refs_in_page hx hd he hr
  obtain ⟨i, hi, rfl⟩ := List.mem_iff_get.1 hm
  rw [List.forall₂_iff_get] at h2
  have h3 := h2.2 i.1 (by rw [h2.1]; exact i.2) i.2
  refine ⟨h3.1, Nat.le_add_right _ _, ?_⟩
  have h4 := h3.2.2.2 hf
  show base _ + _ + _ ≤ base _ + 1 * PAGE_SIZE
  have h5 : (refs.get i).off + (refs.get i).size ≤ PAGE_SIZE := h4
  omega

/-- **C73**, continued: if no page is overfull, references to components of different entities, or to different components
of one entity, do not overlap in memory. -/
theorem C73_apart_in_memory (hx : LooseExec U dbg cap h s) (hd : DistinctAdds h) (hf : RowsFit s) {e e' : Entity}
    (he : e ∈ handles h) (he' : e' ∈ handles h) {ts ts' : List TypeId} {refs refs' : List Ref}
    (hr : s.getComponentsRefs U dbg e ts = .ok (some refs)) (hr' : s.getComponentsRefs U dbg e' ts' = .ok (some refs'))
    {i j : Nat} {t t' : TypeId} {r r' : Ref} (hi : ts[i]? = some t) (hj : ts'[j]? = some t') (hri : refs[i]? = some r)
    (hrj : refs'[j]? = some r') (hne : e ≠ e' ∨ t ≠ t') {base : Nat → Nat}
    (hb : Allocated pageMemory s.archs.pages.length base) : MemApart base r r' := by
  have h1 := C71_refs_apart hx hd hf he he' hr hr' hi hj hri hrj hne
  obtain ⟨a1, a2, a3⟩ := C73_in_block hx hd hf he hr base r (List.mem_of_getElem? hri)
  obtain ⟨b1, b2, b3⟩ := C73_in_block hx hd hf he' hr' base r' (List.mem_of_getElem? hrj)
  unfold MemApart
  by_cases hp : r.page = r'.page
  · unfold Ref.address
    rw [hp]
    rcases h1 with h1 | h1 | h1
    · exact (h1 hp).elim
    · left; omega
    · right; omega
  · rcases hb.2 _ a1 _ b1 hp with h2 | h2
    · left; omega
    · right; omega

end

/-- **C73 is false of the code for some allocators**: a well-behaved program gets a reference to a `u32` at an address that is
not a multiple of 4, although the allocator did what it was asked. -/
theorem C73_counterexample : ∃ s, Exec demo true 1 [.added ⟨0, 1⟩ [(2, [1, 2, 3, 4])], .created ⟨0, 1⟩] s ∧
    ∃ base r, Allocated pageMemory s.archs.pages.length base ∧
      s.getComponentsRefs demo true ⟨0, 1⟩ [2] = .ok (some [r]) ∧ ¬ AlignedAt demo base 2 r := by
  have h : ((runExec demo true 1 [.added ⟨0, 1⟩ [(2, [1, 2, 3, 4])], .created ⟨0, 1⟩]).any fun s =>
      decide (Allocated pageMemory s.archs.pages.length fun p => 20000 * p + 1) &&
      (decide (s.getComponentsRefs demo true ⟨0, 1⟩ [2] = .ok (some [⟨4, 0, 4⟩])) &&
      decide (¬ AlignedAt demo (fun p => 20000 * p + 1) 2 ⟨4, 0, 4⟩))) = true := by decide
  obtain ⟨s, hs, h⟩ := any_some h
  simp only [Bool.and_eq_true] at h
  exact ⟨s, runExec_sound hs, _, _, of_decide_eq_true h.1, of_decide_eq_true h.2.1, of_decide_eq_true h.2.2⟩

/-- The hypotheses are met, with an allocator that aligns to 16 bytes. -/
example : ∃ s r r', LooseExec demo true 1 componentHistory s ∧ RowsFit s ∧
    Allocated pageMemory s.archs.pages.length (fun p => 16400 * (p + 1)) ∧
    s.getComponentsRefs demo true ⟨0, 1⟩ [2] = .ok (some r) ∧ s.getComponentsRefs demo true ⟨2, 1⟩ [4] = .ok (some r') ∧
    (∀ p < s.archs.pages.length, 16 ∣ 16400 * (p + 1)) ∧ ∀ t ∈ [2, 4], demo.align t ∣ 16 := by
  have h : ((runLoose demo true 1 componentHistory).any fun s => decide (RowsFit s) &&
      (decide (Allocated pageMemory s.archs.pages.length (fun p => 16400 * (p + 1))) &&
      (okAnd (s.getComponentsRefs demo true ⟨0, 1⟩ [2]) (·.isSome) &&
      okAnd (s.getComponentsRefs demo true ⟨2, 1⟩ [4]) (·.isSome)))) = true := by decide
  obtain ⟨s, hs, h⟩ := any_some h
  simp only [Bool.and_eq_true] at h
  obtain ⟨h1, h2, h3, h4⟩ := h
  obtain ⟨o, g1, g2⟩ := okAnd_iff h3
  obtain ⟨o', g1', g2'⟩ := okAnd_iff h4
  obtain ⟨r, rfl⟩ := Option.isSome_iff_exists.1 g2
  obtain ⟨r', rfl⟩ := Option.isSome_iff_exists.1 g2'
  exact ⟨s, r, r', runLoose_sound hs, of_decide_eq_true h1, of_decide_eq_true h2, g1, g1', fun p _ => by omega, by decide⟩

end Ecs.Props
