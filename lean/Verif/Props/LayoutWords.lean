import Verif.Model.LayoutWords
import Verif.Proofs.LayoutWords
import Verif.Props.Layout

/-! # C97: layouts computed with 64-bit words -/

namespace Ecs.Props
open Spec Layout

/-- **C97, exactness.** If no alignment modulo 8 is more than the share of a component in a page, or overflow is checked, the
computation with words gives what the computation without bounds gives: no sum and no product reaches 2⁶⁴. The alignments of Rust are
at most 2²⁹; 2³² types do not fit in an address space. -/
theorem C97_exact {U : Universe} {dbg : Bool} {a : Archetype} (ha : Built U a) (hal : ∀ t, U.align t ≤ 2 ^ 29)
    (hn : a.ids.length < 2 ^ 32) (hs : dbg = true ∨ ∀ t ∈ a.ids, U.align t % 8 ≤ PAGE_SIZE / a.ids.length) :
    newWord dbg a = Layout.new dbg a := by
  have hw := ha.wf
  have hlen : a.sizes.length = a.ids.length := by rw [hw.sizes, List.length_map]
  have hmem : ∀ x ∈ a.aligns, ∃ t ∈ a.ids, x = U.align t := by
    intro x hx
    rw [hw.aligns] at hx
    obtain ⟨t, ht, rfl⟩ := List.mem_map.1 hx
    exact ⟨t, ht, rfl⟩
  obtain ⟨m, h1, h2, _⟩ := maxUnwrap_ne (l := a.aligns) (by
    rw [hw.aligns]; intro h; exact hw.ne (List.map_eq_nil_iff.1 h))
  refine newWord_eq h1 ?_ (A := 2 ^ 29) ?_ ?_
  · rcases hs with h | h
    · exact .inl h
    · right
      obtain ⟨t, ht, rfl⟩ := hmem m h2
      rw [hlen]
      exact h t ht
  · intro x hx
    obtain ⟨t, ht, rfl⟩ := hmem x hx
    exact ⟨U.align_pos t, hal t⟩
  · rw [hlen]
    calc a.ids.length * (PAGE_SIZE + 2 ^ 29) ≤ 2 ^ 32 * (PAGE_SIZE + 2 ^ 29) := Nat.mul_le_mul_right _ (Nat.le_of_lt hn)
      _ < usizeSize := by decide

/-- **C97 (partial).** With the alignments of Rust (powers of two, at most 2²⁹) and at most 4096 component types, an accepted layout
computed with words gives every component a slot in every row, the slots of rows below the capacity lie in the page and are
disjoint. (Missing: release builds with more than 4096 types, see `C97_counterexample`.) -/
theorem C97_columns_partial {U : Universe} {dbg : Bool} {a : Archetype} {l : Layout} (ha : Built U a)
    (hal : ∀ t, ∃ k, k ≤ 29 ∧ U.align t = 2 ^ k) (hn : a.ids.length ≤ 4096) (hl : newWord dbg a = .ok l) :
    (∀ i t row, a.ids[i]? = some t → (slotStart U a l i row).isSome) ∧
    (∀ i t row s, a.ids[i]? = some t → row < l.entitiesCapacity → slotStart U a l i row = some s →
      s + U.size t ≤ PAGE_SIZE) ∧
    (∀ i j t u row row' s s', a.ids[i]? = some t → a.ids[j]? = some u →
      row < l.entitiesCapacity → row' < l.entitiesCapacity → (i, row) ≠ (j, row') →
      slotStart U a l i row = some s → slotStart U a l j row' = some s' →
      s + U.size t ≤ s' ∨ s' + U.size u ≤ s) := by
  refine C17_columns_disjoint ha (dbg := dbg) ?_
  rw [← hl]
  symm
  refine C97_exact ha (fun t => ?_) (by omega) (.inr fun t ht => ?_)
  · obtain ⟨k, hk, h⟩ := hal t
    rw [h]
    exact Nat.pow_le_pow_right (by decide) hk
  have hpos : 0 < a.ids.length := List.length_pos_of_mem ht
  have h4 : 4 ≤ PAGE_SIZE / a.ids.length := by
    rw [Nat.le_div_iff_mul_le hpos]
    show 4 * _ ≤ 16384
    omega
  obtain ⟨k, _, hk⟩ := hal t
  have : U.align t % 8 ≤ 4 := by
    rw [hk]
    match k with
    | 0 => decide
    | 1 => decide
    | 2 => decide
    | k + 3 => rw [Nat.pow_add]; omega
  omega

/-- **C97, debug builds.** The same with any number of types below 2³² where overflow is checked. -/
theorem C97_columns_checked {U : Universe} {a : Archetype} {l : Layout} (ha : Built U a) (hal : ∀ t, U.align t ≤ 2 ^ 29)
    (hn : a.ids.length < 2 ^ 32) (hl : newWord true a = .ok l) :
    (∀ i t row, a.ids[i]? = some t → (slotStart U a l i row).isSome) ∧
    (∀ i t row s, a.ids[i]? = some t → row < l.entitiesCapacity → slotStart U a l i row = some s →
      s + U.size t ≤ PAGE_SIZE) ∧
    (∀ i j t u row row' s s', a.ids[i]? = some t → a.ids[j]? = some u →
      row < l.entitiesCapacity → row' < l.entitiesCapacity → (i, row) ≠ (j, row') →
      slotStart U a l i row = some s → slotStart U a l j row' = some s' →
      s + U.size t ≤ s' ∨ s' + U.size u ≤ s) := by
  refine C17_columns_disjoint ha (dbg := true) ?_
  rw [← hl]
  exact (C97_exact ha hal hn (.inl rfl)).symm

/-- **C97, counterexample.** In a release build a layout of 4100 types is accepted although a slot of its first row begins outside
the page: the subtraction in `calculate_entities_capacity` wraps, and so does the sum of the offsets, which comes out below the size
of a page. Without bounds the sum is larger and the assertion fails. -/
theorem C97_counterexample : ∃ (U : Universe) (a : Archetype) (l : Layout) (i s : Nat), Built U a ∧ (∀ t, ∃ k, k ≤ 29 ∧ U.align t = 2 ^ k) ∧
    a.ids.length = 4100 ∧ newWord false a = .ok l ∧ 0 < l.entitiesCapacity ∧ slotStart U a l i 0 = some s ∧ PAGE_SIZE < s ∧
    ∀ l', Layout.new false a ≠ .ok l' := by
  obtain ⟨a, h1, h2, h3, h4⟩ := built_universeOf manyTypes_ok (by
    intro h; have := manyTypes_length; rw [h] at this; cases this)
  obtain ⟨offs, h5, h6⟩ := manyTypes_new h3 h4
  have hid : a.ids[4098]? = some 4098 := by rw [h2, manyTypes_length]; exact List.getElem?_range (by decide)
  refine ⟨_, a, _, 4098, 2883667135132131324, h1, manyTypes_align, by rw [h2, List.length_range, manyTypes_length], h5,
    Nat.succ_pos _, ?_, by decide, ?_⟩
  · unfold slotStart
    rw [h6, hid]
    dsimp only
    rw [Nat.zero_mul]
  · intro l' hl'
    have hg := good_of_new h1.wf hl'
    have hc := (new_ok_cap hl').1
    rw [manyTypes_cap h3 h4] at hc
    have hc : 281470681808895 = l'.entitiesCapacity := Except.ok.inj hc
    have hlt : 4098 < l'.offsets.length := by rw [hg.len, h2, List.length_range, manyTypes_length]; decide
    have := hg.inPage hid (List.getElem?_eq_getElem hlt)
    rw [manyTypes_size, ← hc] at this
    omega

/-- Non-vacuity: three component types meet the conditions of `C97_exact` and `C97_columns_partial` in a release build, and the
computation accepts them. -/
example : Built exampleUniverse ⟨[2, 5, 7], [12, 24, 32], [4, 4, 4]⟩ ∧ (∀ t, ∃ k, k ≤ 29 ∧ exampleUniverse.align t = 2 ^ k) ∧
    newWord false ⟨[2, 5, 7], [12, 24, 32], [4, 4, 4]⟩ = .ok ⟨[0, 2040, 6120], 170⟩ :=
  ⟨.tuple [7, 2, 5] (by decide) (by decide), fun _ => ⟨2, by decide, rfl⟩, by decide⟩

/-- The conditions of `C97_columns_checked`: with padding between the columns. -/
example : newWord true ⟨[0, 1, 2], [1, 8, 3], [1, 8, 1]⟩ = .ok ⟨[0, 688, 6144], 682⟩ := by decide

/-- The words do wrap in the loop where the offsets are large: this is what the condition of `C97_exact` excludes. -/
example : offsetsLoopWord false 281470681808895 18446744073709551615 [(4, 4)] = .ok ([0], 1125882727235580) ∧
    offsetsLoopWord true 281470681808895 18446744073709551615 [(4, 4)] = .error (.panic .arithOverflow) := by decide

end Ecs.Props
