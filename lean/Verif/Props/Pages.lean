import Verif.Proofs.Tidy
import Verif.Props.Rows

/-! Properties C61 and C62: emptied pages are reused, and the number of pages stays within twice the largest number of
entities that were alive at once, so page and row numbers fit into the 32 bits the code stores them in. -/

namespace Ecs.Props
open Spec

section
variable {U : Universe} {dbg : Bool} {cap : Nat} {h : List Event} {s : Store}

/-- **C61**: a page without rows is on the free list, or it is listed for the first archetype. -/
theorem C61_empty_pages_are_free_partial (hx : LooseExec U dbg cap h s) {p : Nat} {pg : Page}
    (hp : s.archs.pages[p]? = some pg) (he : pg.ids.items = []) :
    p ∈ s.archs.freePages ∨ ∃ ps, s.archs.archPages[0]? = some ps ∧ p ∈ ps := by
  rcases (loose_rows hx).use.covers p (List.getElem?_eq_some_iff.1 hp).1 with hf | ⟨i, ps, h1, h2⟩
  · exact .inl hf
  · by_cases hi : i = 0
    · subst hi; exact .inr ⟨ps, h1, h2⟩
    · exact absurd he ((loose_tidy hx i ps p pg.ids h1 h2 (by simp [Archs.ids, hp])).2 hi)

/-- The number of pages and of pages of the first archetype. -/
theorem pages_bound (hx : LooseExec U dbg cap h s) {L : Nat} (hL : ∀ h', h' <:+ h → (alive h').length ≤ L) :
    s.archs.pages.length ≤ 2 * L + 5 ∧ s.archs.firstPages ≤ L + 1 := by
  induction hx with
  | init hs =>
    unfold Store.withCapacity at hs
    obtain ⟨_, _, hs⟩ := bind_eq_ok.1 hs
    cases hs
    simp [Archs.new, Archs.firstPages]
  | @step h s s' ev hx hl hr ih =>
    have hL' : ∀ h', h' <:+ h → (alive h').length ≤ L := fun h' hh => hL h' (hh.trans (List.suffix_cons _ _))
    obtain ⟨i1, i2⟩ := ih hL'
    have ht := loose_tidy hx
    have hn := loose_next hx hl hr ht
    have hu := (loose_rows hx).use
    have hs := (loose_shape hx).archs
    have hrows : s.archs.allIds.length ≤ L := by
      have := (C59_one_row_each hx).length_eq
      unfold Archs.allIds
      rw [this, List.length_map]
      exact Nat.le_trans (List.length_filter_le _ _) (hL' h (List.suffix_refl _))
    have hacc := C60_pages_accounted hx
    have hids : ∀ ps ∈ s.archs.archPages, ∀ p ∈ ps, ∃ v, s.archs.ids p = some v := by
      intro ps hps p hp
      exact ⟨_, by unfold Archs.ids; rw [List.getElem?_eq_getElem (hs.listed ps hps p hp)]; rfl⟩
    have hnd : s.archs.archPages.flatten.Nodup := by
      have := (hacc.nodup_iff).2 List.nodup_range
      exact (List.nodup_append'.1 this).2.1
    refine ⟨?_, ?_⟩
    · rcases hn.pages with h1 | ⟨h1, h2⟩
      · omega
      · have hlen := hacc.length_eq
        rw [h1, List.nil_append, List.length_range] at hlen
        cases hap : s.archs.archPages with
        | nil =>
          rw [hap] at hlen
          simp at hlen
          omega
        | cons ps0 rest =>
          have hfirst : s.archs.firstPages = ps0.length := by simp [Archs.firstPages, hap]
          rw [hap, List.flatten_cons] at hnd
          have hr : rest.flatten.length ≤ s.archs.allIds.length := by
            refine Archs.pages_le_rows (List.nodup_append'.1 hnd).2.1 fun p hp => ?_
            obtain ⟨ps, hps, hp⟩ := List.mem_flatten.1 hp
            obtain ⟨i, hi⟩ := List.mem_iff_getElem?.1 hps
            obtain ⟨v, hv⟩ := hids ps (by rw [hap]; exact List.mem_cons_of_mem _ hps) p hp
            exact ⟨v, hv, (ht (i + 1) ps p v (by rw [hap]; simpa using hi) hp hv).2 (by omega)⟩
          rw [hap, List.flatten_cons, List.length_append] at hlen
          omega
    · rcases hn.first with h1 | ⟨h1, h2⟩
      · omega
      · have : s.archs.firstPages ≤ s.archs.allIds.length := by
          unfold Archs.firstPages
          cases hap : s.archs.archPages[0]? with
          | none => simp
          | some ps =>
            refine Archs.pages_le_rows (hu.psNodup ps (List.mem_of_getElem? hap)) fun p hp => ?_
            obtain ⟨v, hv⟩ := hids ps (List.mem_of_getElem? hap) p hp
            exact ⟨v, hv, h2 ps p v hap hp hv⟩
        omega

/-- **C61**, continued: if there were never more than `L` entities alive at once, there are at most `2 * L + 5` pages, no
matter how many entities were created and destroyed and how often their components changed. -/
theorem C61_pages_bounded (hx : LooseExec U dbg cap h s) {L : Nat} (hL : ∀ h', h' <:+ h → (alive h').length ≤ L) :
    s.archs.pages.length ≤ 2 * L + 5 := (pages_bound hx hL).1

/-- **C62**: the casts of page and row numbers to `u32` lose nothing, as long as fewer than 2^31 - 2 entities are alive at
once. -/
theorem C62_page_and_row_numbers_fit (hx : LooseExec U dbg cap h s)
    (hL : ∀ h', h' <:+ h → (alive h').length < 2 ^ 31 - 2) :
    s.archs.pages.length < 2 ^ 32 ∧ ∀ pg ∈ s.archs.pages, pg.ids.items.length < 2 ^ 32 := by
  have h1 := C61_pages_bounded hx (L := 2 ^ 31 - 3) fun h' hh => by have := hL h' hh; omega
  refine ⟨by omega, fun pg hpg => ?_⟩
  have h2 := (C59_one_row_each hx).length_eq
  have h3 : pg.ids.items.length ≤ (s.archs.pages.flatMap (·.ids.items)).length := by
    rw [List.flatMap_def]
    exact (List.sublist_flatten_of_mem (List.mem_map_of_mem (f := fun x : Page => x.ids.items) hpg)).length_le
  rw [h2, List.length_map] at h3
  have h4 := List.length_filter_le (· ∈ given h) (alive h)
  have h5 := hL h (List.suffix_refl _)
  omega

end

/-- One entity in each of two archetypes, both destroyed. -/
def twoDestroyed : List Event :=
  [.destroyed ⟨1, 1⟩, .destroyed ⟨0, 1⟩, .added ⟨1, 1⟩ [(5, [7])], .added ⟨0, 1⟩ [(4, [9])], .created ⟨1, 1⟩, .created ⟨0, 1⟩]

/-- **C61 is false of the code** for the archetype that was registered first: its page, emptied when the entity was
destroyed, stays with it, while the page of the second archetype is free again. -/
theorem C61_counterexample : ∃ s pg, SafeExec demo true 1 twoDestroyed s ∧ s.archs.pages[4]? = some pg ∧
    pg.ids.items = [] ∧ s.archs.freePages = [0, 1, 2, 3] ∧ s.archs.archPages = [[4], []] := by
  have h : ((runSafe demo true 1 twoDestroyed).any fun s => ((s.archs.pages[4]?).map (·.ids.items)) == some [] &&
      decide (s.archs.freePages = [0, 1, 2, 3] ∧ s.archs.archPages = [[4], []])) = true := by decide
  obtain ⟨s, hs, h⟩ := any_some h
  rw [Bool.and_eq_true, decide_eq_true_eq, beq_iff_eq] at h
  obtain ⟨pg, h1, h2⟩ := Option.map_eq_some_iff.1 h.1
  exact ⟨s, pg, runSafe_sound hs, h1, h2, h.2⟩

/-- The hypotheses of C61 and C62 in the same state. -/
example : ∃ s, LooseExec demo true 1 twoDestroyed s ∧ (∀ h', h' <:+ twoDestroyed → (alive h').length ≤ 2) ∧
    s.archs.pages.length = 5 := by
  have h : ((runLoose demo true 1 twoDestroyed).any fun s => decide (s.archs.pages.length = 5)) = true := by decide
  obtain ⟨s, hs, h⟩ := any_some h
  have key : ∀ n ≤ 6, (alive (twoDestroyed.drop n)).length ≤ 2 := by decide
  exact ⟨s, runLoose_sound hs, fun h' hh => by
    rw [List.suffix_iff_eq_drop.1 hh]; exact key _ (Nat.sub_le _ _), of_decide_eq_true h⟩

end Ecs.Props
