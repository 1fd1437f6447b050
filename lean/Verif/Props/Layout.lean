import Verif.Proofs.Layout
import Verif.Proofs.LayoutWorst
import Verif.Props.Archetypes

/-! Properties C17–C19: the memory layout of a page. -/

namespace Ecs.Props
open Spec

/-- The byte offset, in its page, of component number `i` of archetype `a` in row `row`
(`src/archetype_data_page.rs:97-104`), if `i` is a component of the archetype. -/
def slotStart (U : Universe) (a : Archetype) (l : Layout) (i row : Nat) : Option Nat :=
  match l.offsets[i]?, a.ids[i]? with
  | some off, some t => some (off + row * U.size t)
  | _, _ => none

/-- **C17.** In an accepted layout every component has a slot in every row; all slots in rows below the
capacity lie inside the page, and two different slots occupy disjoint byte ranges. -/
theorem C17_columns_disjoint {U : Universe} {dbg : Bool} {a : Archetype} {l : Layout}
    (ha : Built U a) (hl : Layout.new dbg a = .ok l) :
    (∀ i t row, a.ids[i]? = some t → (slotStart U a l i row).isSome) ∧
    (∀ i t row s, a.ids[i]? = some t → row < l.entitiesCapacity → slotStart U a l i row = some s →
      s + U.size t ≤ PAGE_SIZE) ∧
    (∀ i j t u row row' s s', a.ids[i]? = some t → a.ids[j]? = some u →
      row < l.entitiesCapacity → row' < l.entitiesCapacity → (i, row) ≠ (j, row') →
      slotStart U a l i row = some s → slotStart U a l j row' = some s' →
      s + U.size t ≤ s' ∨ s' + U.size u ≤ s) := by
  have hg := Layout.good_of_new ha.wf hl
  have hmul : ∀ {row cap z : Nat}, row < cap → row * z + z ≤ z * cap := by
    intro row cap z h
    have := Nat.mul_le_mul_left z h
    rw [Nat.mul_succ, Nat.mul_comm z row] at this
    exact this
  have hslot : ∀ {i t row s : Nat}, a.ids[i]? = some t → slotStart U a l i row = some s →
      ∃ off, l.offsets[i]? = some off ∧ s = off + row * U.size t := by
    intro i t row s hi hs
    unfold slotStart at hs
    rw [hi] at hs
    cases ho : l.offsets[i]? with
    | none => rw [ho] at hs; cases hs
    | some off => rw [ho] at hs; exact ⟨off, rfl, (Option.some.inj hs).symm⟩
  refine ⟨?_, ?_, ?_⟩
  · intro i t row hi
    have : i < l.offsets.length := by rw [hg.len]; exact (List.getElem?_eq_some_iff.1 hi).1
    simp [slotStart, hi, List.getElem?_eq_getElem this]
  · intro i t row s hi hr hs
    obtain ⟨off, ho, rfl⟩ := hslot hi hs
    have h1 := hg.inPage hi ho
    have h2 := hmul (z := U.size t) hr
    omega
  · intro i j t u row row' s s' hi hj hr hr' hne hs hs'
    obtain ⟨off, ho, rfl⟩ := hslot hi hs
    obtain ⟨off', ho', rfl⟩ := hslot hj hs'
    rcases Nat.lt_trichotomy i j with hij | rfl | hij
    · have h1 := hg.before hij hi ho ho'
      have h2 := hmul (z := U.size t) hr
      left; omega
    · rw [hi] at hj; cases hj
      rw [ho] at ho'; cases ho'
      have hrr : row ≠ row' := fun h => hne (by rw [h])
      rcases Nat.lt_or_gt_of_ne hrr with h | h
      · have := Nat.mul_le_mul_right (U.size t) h
        rw [Nat.succ_mul] at this
        left; omega
      · have := Nat.mul_le_mul_right (U.size t) h
        rw [Nat.succ_mul] at this
        right; omega
    · have h1 := hg.before hij hj ho' ho
      have h2 := hmul (z := U.size u) hr'
      right; omega

/-- **C18.** Every slot's offset in the page is a multiple of the component's alignment (for every row,
whether or not it is below the capacity). -/
theorem C18_slots_aligned {U : Universe} {dbg : Bool} {a : Archetype} {l : Layout}
    (ha : Built U a) (hl : Layout.new dbg a = .ok l) (i t row s : Nat) (hi : a.ids[i]? = some t)
    (hs : slotStart U a l i row = some s) : U.align t ∣ s := by
  have hg := Layout.good_of_new ha.wf hl
  unfold slotStart at hs
  rw [hi] at hs
  cases ho : l.offsets[i]? with
  | none => rw [ho] at hs; cases hs
  | some off =>
    rw [ho] at hs
    cases hs
    exact (Nat.dvd_add_right (Nat.dvd_of_mod_eq_zero (hg.aligned hi ho))).2
      (Nat.dvd_trans (U.align_dvd t) (Nat.dvd_mul_left _ _))

/-- A layout with alignment padding between the columns meets the hypotheses of C17 and C18. -/
example : Layout.new true ⟨[0, 1, 2], [1, 8, 3], [1, 8, 1]⟩ = .ok ⟨[0, 688, 6144], 682⟩ := by decide

private theorem new_ok_of {U : Universe} {a : Archetype} (hw : a.WF U) :
    a.sizes ≠ [] ∧ a.aligns ≠ [] ∧ a.sizes.length = a.ids.length ∧
    (∀ s ∈ a.sizes, ∃ t ∈ a.ids, s = U.size t) ∧ (∀ s ∈ a.aligns, ∃ t ∈ a.ids, s = U.align t) ∧
    (∀ p ∈ a.sizes.zip a.aligns, ∃ t ∈ a.ids, p = (U.size t, U.align t)) ∧
    (a.sizes.zip a.aligns).length = a.ids.length := by
  have hne := hw.ne
  rw [hw.sizes, hw.aligns]
  refine ⟨by simpa using hne, by simpa using hne, by simp, ?_, ?_, ?_, by simp⟩
  · intro s hs
    obtain ⟨t, ht, rfl⟩ := List.mem_map.1 hs
    exact ⟨t, ht, rfl⟩
  · intro s hs
    obtain ⟨t, ht, rfl⟩ := List.mem_map.1 hs
    exact ⟨t, ht, rfl⟩
  · intro p hp
    rw [List.zip_map', List.mem_map] at hp
    obtain ⟨t, ht, rfl⟩ := hp
    exact ⟨t, ht, rfl⟩

/-- **C19** for components with alignment at most 7 (so: 1, 2 or 4). Full statement: `Layout.new`
succeeds for *every* archetype of non-zero-sized components; that is false of the code, see the
counterexamples below. What holds: archetypes of up to 2048 components with alignments below 8 are
always accepted, with the capacity `⌊(⌊16384/n⌋ - max align) / max size⌋`. -/
theorem C19_small_alignments_partial {U : Universe} {dbg : Bool} {a : Archetype} (ha : Built U a)
    (hz : ∀ t ∈ a.ids, 0 < U.size t) (hal : ∀ t ∈ a.ids, U.align t < 8)
    (hn : a.ids.length ≤ 2048) :
    ∃ l m s, Layout.new dbg a = .ok l ∧
      (∃ t ∈ a.ids, m = U.align t) ∧ (∀ t ∈ a.ids, U.align t ≤ m) ∧
      (∃ t ∈ a.ids, s = U.size t) ∧ (∀ t ∈ a.ids, U.size t ≤ s) ∧
      l.entitiesCapacity = (PAGE_SIZE / a.ids.length - m) / s := by
  obtain ⟨h1, h2, h3, h4, h5, h6, h7⟩ := new_ok_of ha.wf
  have hw := ha.wf
  obtain ⟨m, hm, hmm, hmx⟩ := Layout.maxUnwrap_ne h2
  obtain ⟨s, _, hsm, hsx⟩ := Layout.maxUnwrap_ne h1
  obtain ⟨t0, ht0, rfl⟩ := h5 m hmm
  have hlt := hal t0 ht0
  have hmod : U.align t0 % 8 = U.align t0 := Nat.mod_eq_of_lt hlt
  have hlen0 : 0 < a.ids.length := List.length_pos_iff.2 hw.ne
  have hdiv : 8 ≤ PAGE_SIZE / a.ids.length := by
    rw [Nat.le_div_iff_mul_le hlen0]; omega
  obtain ⟨cap, hc, hcs, s', hs', hce⟩ := Layout.calcCapacity_eq (dbg := dbg) h1
    (fun s hs => by obtain ⟨t, ht, rfl⟩ := h4 s hs; exact hz t ht) hm (by rw [h3, hmod]; omega)
  rw [h3, hmod] at hcs hce
  have hfin : (Layout.offsetsLoop cap 0 (a.sizes.zip a.aligns)).2 ≤ PAGE_SIZE := by
    have := Layout.final_le_of_small_align (cap := cap)
      (r := PAGE_SIZE / a.ids.length - U.align t0) (A := U.align t0) (a.sizes.zip a.aligns) 0 (by
        intro p hp
        obtain ⟨t, ht, rfl⟩ := h6 p hp
        refine ⟨U.align_pos t, hmx _ ?_, hcs _ ?_⟩
        · rw [hw.aligns]; exact List.mem_map.2 ⟨t, ht, rfl⟩
        · rw [hw.sizes]; exact List.mem_map.2 ⟨t, ht, rfl⟩)
    rw [h7] at this
    have hap := U.align_pos t0
    have : a.ids.length * (PAGE_SIZE / a.ids.length - U.align t0 + (U.align t0 - 1)) ≤
        a.ids.length * (PAGE_SIZE / a.ids.length) := Nat.mul_le_mul_left _ (by omega)
    have := Nat.mul_div_le PAGE_SIZE a.ids.length
    omega
  obtain ⟨ts, hts, rfl⟩ := h4 s hsm
  refine ⟨_, U.align t0, U.size ts, Layout.new_of hc hfin, ⟨t0, ht0, rfl⟩, ?_, ⟨ts, hts, rfl⟩, ?_, ?_⟩
  · intro t ht
    exact hmx _ (by rw [hw.aligns]; exact List.mem_map.2 ⟨t, ht, rfl⟩)
  · intro t ht
    exact hsx _ (by rw [hw.sizes]; exact List.mem_map.2 ⟨t, ht, rfl⟩)
  · show cap = _
    -- the minimum over all sizes is attained at the largest one
    apply Nat.le_antisymm
    · rw [Nat.le_div_iff_mul_le (hz ts hts), Nat.mul_comm]
      exact hcs _ hsm
    · rw [hce]
      exact Nat.div_le_div_left (hsx s' hs') (by obtain ⟨t, ht, rfl⟩ := h4 s' hs'; exact hz t ht)

/-- Non-vacuity of `C19_small_alignments_partial`: a three-component archetype of `exampleUniverse`. -/
example : ∃ l, Layout.new true ⟨[2, 5, 7], [12, 24, 32], [4, 4, 4]⟩ = .ok l ∧
    l.entitiesCapacity = (5461 - 4) / 32 := by
  have hb : Built exampleUniverse ⟨[2, 5, 7], [12, 24, 32], [4, 4, 4]⟩ :=
    .tuple [7, 2, 5] (by decide) (by decide)
  obtain ⟨l, _, _, hl, _⟩ := C19_small_alignments_partial (dbg := true) hb (by decide) (by decide)
    (by decide)
  refine ⟨l, hl, ?_⟩
  have : Layout.new true ⟨[2, 5, 7], [12, 24, 32], [4, 4, 4]⟩ = .ok ⟨[0, 2040, 6120], 170⟩ := by decide
  rw [this] at hl; cases hl; rfl

private theorem accepted_of_worst {U : Universe} {dbg : Bool} {a : Archetype} (ha : Built U a)
    (hz : ∀ t ∈ a.ids, 0 < U.size t)
    (hal : ∀ t ∈ a.ids, U.align t = 1 ∨ U.align t = 2 ∨ U.align t = 4 ∨ U.align t = 8)
    (hn : a.ids.length ≤ 2048) (hw8 : Layout.worst8 (PAGE_SIZE / a.ids.length) a.ids.length 0 ≤ PAGE_SIZE) :
    ∃ l, Layout.new dbg a = .ok l := by
  obtain ⟨h1, h2, h3, h4, h5, h6, h7⟩ := new_ok_of ha.wf
  have hw := ha.wf
  obtain ⟨m, hm, hmm, hmx⟩ := Layout.maxUnwrap_ne h2
  obtain ⟨t0, ht0, rfl⟩ := h5 m hmm
  by_cases h8 : U.align t0 = 8
  · obtain ⟨cap, hc, hcs, _⟩ := Layout.calcCapacity_eq (dbg := dbg) h1
      (fun s hs => by obtain ⟨t, ht, rfl⟩ := h4 s hs; exact hz t ht) hm (by rw [h8]; exact Nat.zero_le _)
    rw [h3, h8] at hcs
    refine ⟨_, Layout.new_of hc (Nat.le_trans (Layout.final_le_worst8
      (r := PAGE_SIZE / a.ids.length) _ 0 ?_ ?_) ?_)⟩
    · intro p hp
      obtain ⟨t, ht, rfl⟩ := h6 p hp
      refine ⟨hal t ht, U.align_dvd t, ?_⟩
      have := hcs (U.size t) (by rw [hw.sizes]; exact List.mem_map.2 ⟨t, ht, rfl⟩)
      simpa using this
    · refine ⟨(U.size t0, U.align t0), ?_, h8⟩
      rw [hw.sizes, hw.aligns, List.zip_map', List.mem_map]
      exact ⟨t0, ht0, rfl⟩
    · rw [h7]
      exact hw8
  · obtain ⟨l, _, _, hl, _⟩ := C19_small_alignments_partial (dbg := dbg) ha hz (fun t ht => by
      have h9 := hmx (U.align t) (by rw [hw.aligns]; exact List.mem_map.2 ⟨t, ht, rfl⟩)
      have h10 := hal t0 ht0
      omega) hn
    exact ⟨l, hl⟩

/-- **C19**, exactly, for components whose alignment divides 8: an archetype with `n` components of such types is accepted
whatever their sizes and alignments, if and only if the worst placement of `n` columns of `PAGE_SIZE / n` bytes, one of them
with alignment 8, fits in a page. -/
theorem C19_accepted_counts {n : Nat} (h1 : 1 ≤ n) (hn : n ≤ 2048) (dbg : Bool) :
    (∀ (U : Universe) (a : Archetype), Built U a → (∀ t ∈ a.ids, 0 < U.size t) →
        (∀ t ∈ a.ids, U.align t = 1 ∨ U.align t = 2 ∨ U.align t = 4 ∨ U.align t = 8) → a.ids.length = n →
        ∃ l, Layout.new dbg a = .ok l) ↔
      Layout.worst8 (PAGE_SIZE / n) n 0 ≤ PAGE_SIZE := by
  constructor
  · intro h
    refine Nat.le_of_not_lt fun hlt => ?_
    have h8 : 8 ≤ PAGE_SIZE / n := by
      rw [Nat.le_div_iff_mul_le (by omega)]
      show 8 * n ≤ 16384
      omega
    obtain ⟨U, a, g1, g2, g3, g4, g5⟩ := Layout.rejected_of_worst h1 h8 hlt dbg
    obtain ⟨l, hl⟩ := h U a g1 g2 g3 g4
    rw [hl] at g5
    cases g5
  · rintro h U a g1 g2 g3 rfl
    exact accepted_of_worst g1 g2 g3 hn h

/-- The component counts up to 64 at which every archetype with alignments dividing 8 is accepted. -/
def goodCounts : List Nat :=
  [1, 2, 3, 4, 5, 7, 8, 9, 10, 13, 15, 16, 18, 19, 21, 22, 23, 25, 26, 27, 29, 31, 32, 33, 35, 36, 38, 39, 41, 42, 44, 45, 46,
    47, 49, 50, 54, 56, 57, 61, 62, 63, 64]

set_option maxRecDepth 20000 in
private theorem worst8_iff : ∀ n ∈ List.range 65, 1 ≤ n →
    (Layout.worst8 (PAGE_SIZE / n) n 0 ≤ PAGE_SIZE ↔ n ∈ goodCounts) := by decide +kernel

/-- **C19**: up to 64 components, these are the counts in `goodCounts`; at each other count some archetype with alignments
dividing 8 makes the layout assertion panic. -/
theorem C19_accepted_counts_to_64 {n : Nat} (h1 : 1 ≤ n) (hn : n ≤ 64) (dbg : Bool) :
    (∀ (U : Universe) (a : Archetype), Built U a → (∀ t ∈ a.ids, 0 < U.size t) →
        (∀ t ∈ a.ids, U.align t = 1 ∨ U.align t = 2 ∨ U.align t = 4 ∨ U.align t = 8) → a.ids.length = n →
        ∃ l, Layout.new dbg a = .ok l) ↔ n ∈ goodCounts :=
  (C19_accepted_counts h1 (by omega) dbg).trans (worst8_iff n (by rw [List.mem_range]; omega) h1)

/-- **C19** for components whose alignment divides 8, for the component counts at which every such
archetype is accepted (up to 12 components these are all but 6, 11 and 12). -/
theorem C19_alignments_up_to_8_partial {U : Universe} {dbg : Bool} {a : Archetype} (ha : Built U a)
    (hz : ∀ t ∈ a.ids, 0 < U.size t)
    (hal : ∀ t ∈ a.ids, U.align t = 1 ∨ U.align t = 2 ∨ U.align t = 4 ∨ U.align t = 8)
    (hn : a.ids.length ∈ goodCounts) :
    ∃ l, Layout.new dbg a = .ok l := by
  have h : 1 ≤ a.ids.length ∧ a.ids.length ≤ 64 := by
    revert hn
    generalize a.ids.length = n
    revert n
    decide
  exact (C19_accepted_counts_to_64 h.1 h.2 dbg).2 hn U a ha hz hal rfl

/-- An archetype of 29 components of alternating alignment 1 and 8 meets the hypotheses. -/
example (dbg : Bool) : ∃ l, Layout.new dbg ⟨List.range 29, (List.range 29).map (fun t => if t % 2 = 0 then 3 else 16),
    (List.range 29).map (fun t => if t % 2 = 0 then 1 else 8)⟩ = .ok l := by
  refine C19_alignments_up_to_8_partial (U := ⟨fun t => if t % 2 = 0 then 3 else 16, fun t => if t % 2 = 0 then 1 else 8,
    fun t => by split <;> omega, fun t => by split <;> decide⟩) (.tuple (List.range 29) List.nodup_range (by rfl))
    (by decide) (by decide) (by decide)

/-- A universe with the alignments of `u8` arrays (even ids) and of `u64` arrays (odd ids). -/
def mixedUniverse : Universe where
  size t := if t % 2 = 0 then 2730 else 2728
  align t := if t % 2 = 0 then 1 else 8
  align_pos t := by split <;> omega
  align_dvd t := by
    split
    · exact Nat.one_dvd _
    · exact ⟨341, rfl⟩

/-- **C19** fails for six components with alignments 1 and 8 (three `[u8; 2730]`, three
`[u64; 341]`): the layout assertion panics. -/
theorem C19_counterexample_six_components (dbg : Bool) :
    ∃ a, Built mixedUniverse a ∧ (∀ t ∈ a.ids, 0 < mixedUniverse.size t) ∧ a.ids.length = 6 ∧
      Layout.new dbg a = .error (.panic .assertFailed) :=
  ⟨⟨[0, 1, 2, 3, 4, 5], [2730, 2728, 2730, 2728, 2730, 2728], [1, 8, 1, 8, 1, 8]⟩,
    .tuple [0, 1, 2, 3, 4, 5] (by decide) (by decide), by decide, by decide, by cases dbg <;> decide⟩

/-- A universe with 16-byte alignment (SIMD vectors, ids ≡ 1 mod 3). -/
def simdUniverse : Universe where
  size t := if t % 3 = 1 then 5456 else 5461
  align t := if t % 3 = 1 then 16 else 1
  align_pos t := by split <;> omega
  align_dvd t := by
    split
    · exact ⟨341, rfl⟩
    · exact Nat.one_dvd _

/-- **C19** fails for three components one of which is 16-byte aligned. -/
theorem C19_counterexample_align_16 (dbg : Bool) :
    ∃ a, Built simdUniverse a ∧ (∀ t ∈ a.ids, 0 < simdUniverse.size t) ∧ a.ids.length = 3 ∧
      Layout.new dbg a = .error (.panic .assertFailed) :=
  ⟨⟨[0, 1, 2], [5461, 5456, 5461], [1, 16, 1]⟩, .tuple [0, 1, 2] (by decide) (by decide), by decide,
    by decide, by cases dbg <;> decide⟩

/-- **C19**, zero-sized components: an archetype with a zero-sized component type is never accepted;
in a debug build, and in a release build if the other alignments do not underflow, the panic is a
division by zero. -/
theorem C19_zero_sized_component_panics {U : Universe} {dbg : Bool} {a : Archetype} (ha : Built U a)
    {z : TypeId} (hzm : z ∈ a.ids) (hz : U.size z = 0) :
    ∃ p, Layout.new dbg a = .error (.panic p) := by
  obtain ⟨h1, h2, h3, h4, h5, h6, h7⟩ := new_ok_of ha.wf
  obtain ⟨m, hm, _, _⟩ := Layout.maxUnwrap_ne h2
  have hlen : a.sizes.length ≠ 0 := fun h => h1 (List.length_eq_zero_iff.1 h)
  have hz0 : (0 : Nat) ∈ a.sizes := by
    rw [ha.wf.sizes]; exact List.mem_map.2 ⟨z, hzm, hz⟩
  have hfail : ∀ (r : Nat) (l : List Nat), 0 ∈ l →
      l.mapM (fun s => Layout.divChecked r s) = .error (.panic .divByZero) := by
    intro r l
    induction l with
    | nil => simp
    | cons s l ih =>
      intro h0
      rw [mapM_ok_cons]
      by_cases hs : s = 0
      · simp [Layout.divChecked, hs]
      · have : 0 ∈ l := by
          rcases List.mem_cons.1 h0 with h | h
          · exact absurd h.symm hs
          · exact h
        simp [Layout.divChecked, hs] at ih ⊢
        rw [ih this]; rfl
  unfold Layout.new Layout.calcCapacity
  simp only [hm, ok_bind, Layout.divChecked, hlen, if_false]
  cases hsub : subUsize dbg (PAGE_SIZE / a.sizes.length) (m % 8) with
  | error e =>
    unfold subUsize at hsub
    split at hsub
    · cases hsub
    · split at hsub
      · cases hsub; exact ⟨_, rfl⟩
      · cases hsub
  | ok r =>
    refine ⟨.divByZero, ?_⟩
    have := hfail r a.sizes hz0
    simp only [Layout.divChecked] at this
    simp only [ok_bind]
    rw [this]
    rfl

end Ecs.Props
