import Verif.Proofs.Slots
import Verif.Props.Rows
import Verif.Spec.Run

/-! Property C68: component sets are registered once, and their slots are reused. -/

namespace Ecs.Props
open Spec

section
variable {U : Universe} {dbg : Bool} {cap : Nat} {h : List Event} {s : Store}

/-- **C68**: no two slots of the store are for the same components, whatever the order they were named in. -/
theorem C68_registered_once (hx : LooseExec U dbg cap h s) {i j : Nat} {a b : Archetype}
    (ha : s.archs.archetypes[i]? = some a) (hb : s.archs.archetypes[j]? = some b) (hp : a.ids.Perm b.ids) : i = j := by
  have hs := (loose_shape hx).archs
  have hsorted : ∀ {k : Nat} {x : Archetype}, s.archs.archetypes[k]? = some x → x.ids.Pairwise (· ≤ ·) := by
    intro k x hk
    obtain ⟨hlt, _⟩ := List.getElem?_eq_some_iff.1 hk
    exact (hs.even k x _ hk (List.getElem?_eq_getElem (by rw [hs.llen]; exact hlt))).1.sorted
  have heq : a.ids = b.ids := hp.eq_of_pairwise (fun x y _ _ h1 h2 => Nat.le_antisymm h1 h2) (hsorted ha) (hsorted hb)
  have hn := (loose_slots hx).uniq
  have hi : (s.archs.archetypes.map (·.ids))[i]? = some a.ids := by rw [List.getElem?_map, ha]; rfl
  have hj : (s.archs.archetypes.map (·.ids))[j]? = some a.ids := by rw [List.getElem?_map, hb, heq]; rfl
  exact (List.getElem?_inj (List.getElem?_eq_some_iff.1 hi).1 hn).1 (hi.trans hj.symm)

/-- **C68**, continued: if there were never more than `L` entities alive at once, there are at most `L + 2` slots, no matter
how many different sets of components were used. -/
theorem C68_slots_bounded (hx : LooseExec U dbg cap h s) {L : Nat} (hL : ∀ h', h' <:+ h → (alive h').length ≤ L) :
    s.archs.archetypes.length ≤ L + 2 := by
  induction hx with
  | init hs =>
    unfold Store.withCapacity at hs
    obtain ⟨_, _, hs⟩ := bind_eq_ok.1 hs
    cases hs
    simp [Archs.new]
  | @step h s s' ev hx hl hr ih =>
    have hL' : ∀ h', h' <:+ h → (alive h').length ≤ L := fun h' hh => hL h' (hh.trans (List.suffix_cons _ _))
    rcases loose_slots_step hx hl hr with h1 | ⟨h1, h2⟩
    · rw [h1]; exact ih hL'
    · have hsl := loose_slots hx
      have ht := loose_tidy hx
      have hs := (loose_shape hx).archs
      have hrows : s.archs.allIds.length ≤ L := by
        have := (C59_one_row_each hx).length_eq
        unfold Archs.allIds
        rw [this, List.length_map]
        exact Nat.le_trans (List.length_filter_le _ _) (hL' h (List.suffix_refl _))
      have hnd : s.archs.archPages.flatten.Nodup := by
        have := ((C60_pages_accounted hx).nodup_iff).2 List.nodup_range
        exact (List.nodup_append'.1 this).2.1
      rw [h2, ← hsl.plen]
      cases hap : s.archs.archPages with
      | nil => simp
      | cons ps0 rest =>
        rw [hap, List.flatten_cons] at hnd
        have hr : rest.flatten.length ≤ s.archs.allIds.length := by
          refine Archs.pages_le_rows (List.nodup_append'.1 hnd).2.1 fun p hp => ?_
          obtain ⟨ps, hps, hp⟩ := List.mem_flatten.1 hp
          obtain ⟨i, hi⟩ := List.mem_iff_getElem?.1 hps
          have hlt := hs.listed ps (by rw [hap]; exact List.mem_cons_of_mem _ hps) p hp
          have hv : s.archs.ids p = some (s.archs.pages[p]).ids := by
            unfold Archs.ids; rw [List.getElem?_eq_getElem hlt]; rfl
          exact ⟨_, hv, (ht (i + 1) ps p _ (by rw [hap]; simpa using hi) hp hv).2 (by omega)⟩
        have hne : ∀ ps ∈ rest, 1 ≤ ps.length := by
          intro ps hps
          obtain ⟨i, hi⟩ := List.mem_iff_getElem?.1 hps
          rcases Nat.eq_zero_or_pos ps.length with h0 | h0
          · have := List.eq_nil_of_length_eq_zero h0
            subst this
            rcases hsl.unused (i + 1) (by rw [hap]; simpa using hi) with h3 | h3
            · omega
            · rw [h1] at h3; cases h3
          · exact h0
        have hle : rest.length ≤ rest.flatten.length := by
          clear hap hnd hr
          induction rest with
          | nil => simp
          | cons x rest ih =>
            have := hne x (by simp)
            have := ih fun ps hps => hne ps (List.mem_cons_of_mem _ hps)
            simp only [List.length_cons, List.flatten_cons, List.length_append]
            omega
        simp only [List.length_cons]
        omega

end

/-- One entity that goes through many sets of components. -/
def manySets : List Event :=
  [.added ⟨0, 1⟩ [(8, [1])], .removed ⟨0, 1⟩ [5], .added ⟨0, 1⟩ [(7, [1])], .removed ⟨0, 1⟩ [4], .added ⟨0, 1⟩ [(5, [1])],
   .removed ⟨0, 1⟩ [1], .added ⟨0, 1⟩ [(4, [1])], .added ⟨0, 1⟩ [(1, [1])], .created ⟨0, 1⟩]

/-- Eight sets of components, one entity, three slots: the bound is reached. -/
example : ∃ s, LooseExec demo true 1 manySets s ∧ s.archs.archetypes.length = 1 + 2 ∧
    (∀ h', h' <:+ manySets → (alive h').length ≤ 1) ∧ s.archs.archetypes.map (·.ids) = [[1], [7, 8], [7]] := by
  have h : ((runLoose demo true 1 manySets).any fun s =>
      decide (s.archs.archetypes.map (·.ids) = [[1], [7, 8], [7]])) = true := by decide
  obtain ⟨s, hs, h⟩ := any_some h
  have h := of_decide_eq_true h
  have key : ∀ n ≤ 9, (alive (manySets.drop n)).length ≤ 1 := by decide
  exact ⟨s, runLoose_sound hs, by simpa using congrArg List.length h, fun h' hh => by
    rw [List.suffix_iff_eq_drop.1 hh]; exact key _ (Nat.sub_le _ _), h⟩

end Ecs.Props
