import Verif.Proofs.Layout
import Verif.Spec.Archetype

/-! The worst case of `Spec/Layout.lean` occurs. -/

namespace Ecs
open Spec
namespace Layout

/-- A column that is as large as possible. -/
def Full (r : Nat) (p : Nat × Nat) : Prop := (p.2 = 1 ∨ p.2 = 2 ∨ p.2 = 4 ∨ p.2 = 8) ∧ p.1 = r / p.2 * p.2

theorem Full.facts {r : Nat} (hr : 8 ≤ r) {p : Nat × Nat} (h : Full r p) :
    0 < p.2 ∧ p.2 ∣ p.1 ∧ p.1 ≤ r ∧ r / p.1 = 1 ∧ 0 < p.1 := by
  obtain ⟨s, a⟩ := p
  obtain ⟨ha, hs⟩ := h
  simp only at ha hs ⊢
  have h1 : s ≤ r := by rw [hs]; exact Nat.div_mul_le_self r a
  have h2 : r < s + s ∧ 0 < s := by rcases ha with rfl | rfl | rfl | rfl <;> omega
  refine ⟨by omega, ⟨r / a, by rw [hs, Nat.mul_comm]⟩, h1, ?_, h2.2⟩
  rw [Nat.div_eq_iff h2.2]
  omega

theorem stepMax_attained (r o : Nat) : ∃ p, Full r p ∧ stepMax r o = alignUp o p.2 + p.1 * 1 := by
  have : ∃ a, (a = 1 ∨ a = 2 ∨ a = 4 ∨ a = 8) ∧ stepMax r o = alignUp o a + r / a * a := by
    unfold stepMax
    rcases Nat.le_total (max (alignUp o 1 + r / 1 * 1) (alignUp o 2 + r / 2 * 2))
      (max (alignUp o 4 + r / 4 * 4) (alignUp o 8 + r / 8 * 8)) with h1 | h1
    · rw [Nat.max_eq_right h1]
      rcases Nat.le_total (alignUp o 4 + r / 4 * 4) (alignUp o 8 + r / 8 * 8) with h2 | h2
      · exact ⟨8, by simp, Nat.max_eq_right h2⟩
      · exact ⟨4, by simp, Nat.max_eq_left h2⟩
    · rw [Nat.max_eq_left h1]
      rcases Nat.le_total (alignUp o 1 + r / 1 * 1) (alignUp o 2 + r / 2 * 2) with h2 | h2
      · exact ⟨2, by simp, Nat.max_eq_right h2⟩
      · exact ⟨1, by simp, Nat.max_eq_left h2⟩
  obtain ⟨a, h1, h2⟩ := this
  exact ⟨(r / a * a, a), ⟨h1, rfl⟩, by rw [h2, Nat.mul_one]⟩

theorem worst_attained (r k o : Nat) :
    ∃ L : List (Nat × Nat), L.length = k ∧ (∀ p ∈ L, Full r p) ∧ (offsetsLoop 1 o L).2 = worst r k o := by
  induction k generalizing o with
  | zero => exact ⟨[], rfl, by simp, rfl⟩
  | succ k ih =>
    obtain ⟨⟨s, a⟩, h1, h2⟩ := stepMax_attained r o
    obtain ⟨L, h3, h4, h5⟩ := ih (stepMax r o)
    refine ⟨(s, a) :: L, by simp [h3], ?_, ?_⟩
    · intro p hp
      rcases List.mem_cons.1 hp with rfl | hp
      · exact h1
      · exact h4 p hp
    · simp only [offsetsLoop, worst]
      rw [← h5, h2]

theorem worst8_attained (r k o : Nat) : ∃ L : List (Nat × Nat), L.length = k + 1 ∧ (∀ p ∈ L, Full r p) ∧
    (∃ p ∈ L, p.2 = 8) ∧ (offsetsLoop 1 o L).2 = worst8 r (k + 1) o := by
  induction k generalizing o with
  | zero =>
    refine ⟨[(r / 8 * 8, 8)], rfl, by simp [Full], by simp, ?_⟩
    simp [offsetsLoop, worst8, worst]
  | succ k ih =>
    rcases Nat.le_total (worst8 r (k + 1) (stepMax r o)) (worst r (k + 1) (alignUp o 8 + r / 8 * 8)) with hm | hm
    · obtain ⟨L, h3, h4, h5⟩ := worst_attained r (k + 1) (alignUp o 8 + r / 8 * 8)
      refine ⟨(r / 8 * 8, 8) :: L, by simp [h3], ?_, ⟨_, List.mem_cons_self, rfl⟩, ?_⟩
      · intro p hp
        rcases List.mem_cons.1 hp with rfl | hp
        · simp [Full]
        · exact h4 p hp
      · rw [worst8, Nat.max_eq_left hm]
        simp only [offsetsLoop, Nat.mul_one]
        exact h5
    · obtain ⟨⟨s, a⟩, h1, h2⟩ := stepMax_attained r o
      obtain ⟨L, h3, h4, ⟨q, h6, h7⟩, h5⟩ := ih (stepMax r o)
      refine ⟨(s, a) :: L, by simp [h3], ?_, ⟨q, by simp [h6], h7⟩, ?_⟩
      · intro p hp
        rcases List.mem_cons.1 hp with rfl | hp
        · exact h1
        · exact h4 p hp
      · rw [worst8, Nat.max_eq_right hm, ← h5, h2]
        rfl

private theorem getD_lt {L : List (Nat × Nat)} {t : Nat} (h : t < L.length) : L.getD t (1, 1) = L[t] := by
  simp [List.getD, List.getElem?_eq_getElem h]

private theorem getD_ge {L : List (Nat × Nat)} {t : Nat} (h : L.length ≤ t) : L.getD t (1, 1) = (1, 1) := by
  simp [List.getD, List.getElem?_eq_none h]

/-- The types `0, …, n - 1` with the given sizes and alignments. -/
def universeOf (L : List (Nat × Nat)) (h : ∀ p ∈ L, 0 < p.2 ∧ p.2 ∣ p.1) : Universe where
  size t := (L.getD t (1, 1)).1
  align t := (L.getD t (1, 1)).2
  align_pos t := by
    by_cases ht : t < L.length
    · rw [getD_lt ht]; exact (h _ (List.getElem_mem ht)).1
    · rw [getD_ge (by omega)]; exact Nat.one_pos
  align_dvd t := by
    by_cases ht : t < L.length
    · rw [getD_lt ht]; exact (h _ (List.getElem_mem ht)).2
    · rw [getD_ge (by omega)]; exact Nat.one_dvd _

/-- An archetype with given sizes and alignments. -/
theorem built_universeOf {L : List (Nat × Nat)} (h : ∀ p ∈ L, 0 < p.2 ∧ p.2 ∣ p.1) (hne : L ≠ []) :
    ∃ a, Built (universeOf L h) a ∧ a.ids = List.range L.length ∧ a.sizes = L.map (·.1) ∧ a.aligns = L.map (·.2) := by
  have hn : (List.range L.length).Nodup := List.nodup_range
  have hne' : List.range L.length ≠ [] := by
    intro h0
    rw [List.range_eq_nil] at h0
    exact hne (List.length_eq_zero_iff.1 h0)
  obtain ⟨a, h1, h2, h3⟩ := Archetype.withComponents_spec (U := universeOf L h) hn hne'
  have hids : a.ids = List.range L.length := by
    refine h2.incr.ext ?_ (fun t => h3.mem_iff)
    exact List.pairwise_lt_range
  refine ⟨a, .tuple _ hn h1, hids, ?_, ?_⟩
  · rw [h2.sizes, hids]
    refine List.ext_getElem (by simp) fun i hi hi' => ?_
    rw [List.length_map] at hi'
    rw [List.getElem_map, List.getElem_range, List.getElem_map]
    show (L.getD i (1, 1)).1 = _
    rw [getD_lt hi']
  · rw [h2.aligns, hids]
    refine List.ext_getElem (by simp) fun i hi hi' => ?_
    rw [List.length_map] at hi'
    rw [List.getElem_map, List.getElem_range, List.getElem_map]
    show (L.getD i (1, 1)).2 = _
    rw [getD_lt hi']

/-- If the worst case does not fit, some archetype is rejected. -/
theorem rejected_of_worst {n : Nat} (hn : 0 < n) (hr : 8 ≤ PAGE_SIZE / n) (hw : PAGE_SIZE < worst8 (PAGE_SIZE / n) n 0)
    (dbg : Bool) : ∃ U a, Built U a ∧ (∀ t ∈ a.ids, 0 < U.size t) ∧
      (∀ t ∈ a.ids, U.align t = 1 ∨ U.align t = 2 ∨ U.align t = 4 ∨ U.align t = 8) ∧ a.ids.length = n ∧
      Layout.new dbg a = .error (.panic .assertFailed) := by
  obtain ⟨k, rfl⟩ : ∃ k, n = k + 1 := ⟨n - 1, by omega⟩
  generalize hR : PAGE_SIZE / (k + 1) = r at hr hw
  obtain ⟨L, h1, h2, ⟨q, h3, h3'⟩, h4⟩ := worst8_attained r k 0
  have hf : ∀ p ∈ L, 0 < p.2 ∧ p.2 ∣ p.1 := fun p hp => ⟨((h2 p hp).facts hr).1, ((h2 p hp).facts hr).2.1⟩
  have hne : L ≠ [] := by intro h0; rw [h0] at h1; simp at h1
  obtain ⟨a, b1, b2, b3, b4⟩ := built_universeOf hf hne
  have hget : ∀ t ∈ a.ids, ∃ p ∈ L, (universeOf L hf).size t = p.1 ∧ (universeOf L hf).align t = p.2 := by
    intro t ht
    rw [b2, List.mem_range] at ht
    refine ⟨L[t], List.getElem_mem ht, ?_, ?_⟩
    · show (L.getD t (1, 1)).1 = _
      rw [getD_lt ht]
    · show (L.getD t (1, 1)).2 = _
      rw [getD_lt ht]
  refine ⟨universeOf L hf, a, b1, ?_, ?_, by rw [b2, List.length_range, h1], ?_⟩
  · intro t ht
    obtain ⟨p, hp, e1, _⟩ := hget t ht
    rw [e1]; exact ((h2 p hp).facts hr).2.2.2.2
  · intro t ht
    obtain ⟨p, hp, _, e2⟩ := hget t ht
    rw [e2]; exact (h2 p hp).1
  · have hs : a.sizes ≠ [] := by rw [b3]; simpa using hne
    have hal : a.aligns ≠ [] := by rw [b4]; simpa using hne
    obtain ⟨m, m1, m2, m3⟩ := maxUnwrap_ne hal
    have hm : m = 8 := by
      have g1 := m3 8 (by rw [b4]; exact List.mem_map.2 ⟨q, h3, h3'⟩)
      rw [b4] at m2
      obtain ⟨p, hp, rfl⟩ := List.mem_map.1 m2
      have := (h2 p hp).1
      omega
    subst hm
    have hlen : a.sizes.length = k + 1 := by rw [b3, List.length_map, h1]
    obtain ⟨cap, c1, _, s, c2, c3⟩ := calcCapacity_eq (dbg := dbg) hs (fun s hs => by
      rw [b3] at hs
      obtain ⟨p, hp, rfl⟩ := List.mem_map.1 hs
      exact ((h2 p hp).facts hr).2.2.2.2) m1 (by simp)
    have hcap : cap = 1 := by
      rw [hlen, hR] at c3
      rw [b3] at c2
      obtain ⟨p, hp, rfl⟩ := List.mem_map.1 c2
      simpa [((h2 p hp).facts hr).2.2.2.1] using c3
    subst hcap
    have hzip : a.sizes.zip a.aligns = L := by
      rw [b3, b4, List.zip_map']
      simp
    unfold Layout.new calcOffsets
    rw [c1, ok_bind, hzip]
    simp only [h4]
    rw [decide_eq_false (by omega)]
    rfl

end Layout
end Ecs
