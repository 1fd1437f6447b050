import Verif.Spec.Layout
import Verif.Proofs.Archetype

namespace Ecs
namespace Layout

theorem foldl_max_spec (l : List Nat) (a : Nat) :
    (l.foldl max a = a ∨ l.foldl max a ∈ l) ∧ a ≤ l.foldl max a ∧ ∀ x ∈ l, x ≤ l.foldl max a := by
  induction l generalizing a with
  | nil => simp
  | cons b l ih =>
    obtain ⟨h1, h2, h3⟩ := ih (max a b)
    simp only [List.foldl_cons, List.mem_cons]
    refine ⟨?_, by omega, ?_⟩
    · rcases h1 with h1 | h1
      · rw [h1]
        rcases Nat.le_total a b with h | h
        · right; left; omega
        · left; omega
      · exact Or.inr (Or.inr h1)
    · rintro x (rfl | hx)
      · omega
      · exact h3 x hx

theorem foldl_min_spec (l : List Nat) (a : Nat) :
    (l.foldl min a = a ∨ l.foldl min a ∈ l) ∧ l.foldl min a ≤ a ∧ ∀ x ∈ l, l.foldl min a ≤ x := by
  induction l generalizing a with
  | nil => simp
  | cons b l ih =>
    obtain ⟨h1, h2, h3⟩ := ih (min a b)
    simp only [List.foldl_cons, List.mem_cons]
    refine ⟨?_, by omega, ?_⟩
    · rcases h1 with h1 | h1
      · rw [h1]
        rcases Nat.le_total a b with h | h
        · left; omega
        · right; left; omega
      · exact Or.inr (Or.inr h1)
    · rintro x (rfl | hx)
      · omega
      · exact h3 x hx

theorem maxUnwrap_ne {l : List Nat} (h : l ≠ []) :
    ∃ m, maxUnwrap l = .ok m ∧ m ∈ l ∧ ∀ x ∈ l, x ≤ m := by
  cases l with
  | nil => exact absurd rfl h
  | cons a l =>
    obtain ⟨h1, h2, h3⟩ := foldl_max_spec l a
    refine ⟨_, rfl, ?_, ?_⟩
    · rcases h1 with h1 | h1
      · rw [h1]; simp
      · exact List.mem_cons_of_mem _ h1
    · intro x hx
      rcases List.mem_cons.1 hx with rfl | hx
      · exact h2
      · exact h3 x hx

theorem minUnwrap_ne {l : List Nat} (h : l ≠ []) :
    ∃ m, minUnwrap l = .ok m ∧ m ∈ l ∧ ∀ x ∈ l, m ≤ x := by
  cases l with
  | nil => exact absurd rfl h
  | cons a l =>
    obtain ⟨h1, h2, h3⟩ := foldl_min_spec l a
    refine ⟨_, rfl, ?_, ?_⟩
    · rcases h1 with h1 | h1
      · rw [h1]; simp
      · exact List.mem_cons_of_mem _ h1
    · intro x hx
      rcases List.mem_cons.1 hx with rfl | hx
      · exact h2
      · exact h3 x hx

theorem alignUp_ge (o a : Nat) : o ≤ alignUp o a := by
  unfold alignUp; split <;> omega

theorem alignUp_dvd (o a : Nat) (ha : 0 < a) : alignUp o a % a = 0 := by
  unfold alignUp
  split
  · have h1 := Nat.mod_lt o ha
    have h2 := Nat.div_add_mod o a
    have : o + (a - o % a) = a * (o / a) + a := by omega
    rw [this]
    simp
  · omega

theorem alignUp_lt (o a : Nat) (ha : 0 < a) : alignUp o a < o + a := by
  unfold alignUp
  split <;> omega

theorem alignUp_le_of_dvd {o a m : Nat} (hm : a ∣ m) (ho : o ≤ m) : alignUp o a ≤ m := by
  unfold alignUp
  split
  · rename_i hne
    rcases Nat.eq_zero_or_pos a with rfl | ha
    · simp at hm; omega
    · obtain ⟨k, rfl⟩ := hm
      have h2 := Nat.div_add_mod o a
      have h3 : o / a < k := by
        rcases Nat.lt_or_ge (o / a) k with h | h
        · exact h
        · have := Nat.mul_le_mul_left a h
          omega
      have := Nat.mul_le_mul_left a (Nat.succ_le_of_lt h3)
      rw [Nat.mul_succ] at this
      have := Nat.mod_lt o ha
      omega
  · exact ho

theorem alignUp_mono {o o' a : Nat} (ha : 0 < a) (h : o ≤ o') : alignUp o a ≤ alignUp o' a :=
  alignUp_le_of_dvd (Nat.dvd_of_mod_eq_zero (alignUp_dvd o' a ha)) (Nat.le_trans h (alignUp_ge _ _))

theorem offsetsLoop_length (cap o : Nat) (l : List (Nat × Nat)) :
    (offsetsLoop cap o l).1.length = l.length := by
  induction l generalizing o with
  | nil => rfl
  | cons p l ih => obtain ⟨s, a⟩ := p; simp [offsetsLoop, ih]

theorem offsetsLoop_final_ge (cap o : Nat) (l : List (Nat × Nat)) : o ≤ (offsetsLoop cap o l).2 := by
  induction l generalizing o with
  | nil => exact Nat.le_refl _
  | cons p l ih =>
    obtain ⟨s, a⟩ := p
    simp only [offsetsLoop]
    have h1 := ih (alignUp o a + s * cap)
    have h2 := alignUp_ge o a
    omega

/-- Every column starts after `o`, is aligned, ends before the final offset and before every later
column. -/
theorem offsetsLoop_spec (cap o : Nat) (l : List (Nat × Nat)) (ha : ∀ p ∈ l, 0 < p.2)
    {i off s a : Nat} (hi : (offsetsLoop cap o l).1[i]? = some off) (hp : l[i]? = some (s, a)) :
    o ≤ off ∧ off % a = 0 ∧ off + s * cap ≤ (offsetsLoop cap o l).2 ∧
    ∀ j off', i < j → (offsetsLoop cap o l).1[j]? = some off' → off + s * cap ≤ off' := by
  induction l generalizing o i off s a with
  | nil => simp at hp
  | cons p l ih =>
    obtain ⟨s0, a0⟩ := p
    simp only [offsetsLoop] at hi ⊢
    have hge := alignUp_ge o a0
    cases i with
    | zero =>
      simp only [List.getElem?_cons_zero, Option.some.injEq, Prod.mk.injEq] at hi hp
      obtain ⟨rfl, rfl⟩ := hp
      subst hi
      refine ⟨hge, alignUp_dvd _ _ (ha (s0, a0) (by simp)), offsetsLoop_final_ge _ _ _, fun j off' hj h => ?_⟩
      cases j with
      | zero => omega
      | succ j =>
        simp only [List.getElem?_cons_succ] at h
        have hjl : j < l.length := by
          rw [← offsetsLoop_length cap (alignUp o a0 + s0 * cap) l]
          exact (List.getElem?_eq_some_iff.1 h).1
        exact (ih (alignUp o a0 + s0 * cap) (fun p hp => ha p (by simp [hp])) h
          (s := l[j].1) (a := l[j].2) (by simp [hjl])).1
    | succ i =>
      simp only [List.getElem?_cons_succ] at hi hp
      obtain ⟨h1, h2, h3, h4⟩ := ih (alignUp o a0 + s0 * cap) (fun p hp => ha p (by simp [hp])) hi hp
      refine ⟨by omega, h2, h3, fun j off' hj h => ?_⟩
      cases j with
      | zero => omega
      | succ j =>
        simp only [List.getElem?_cons_succ] at h
        exact h4 j off' (by omega) h

/-- What an accepted layout guarantees. -/
structure Good (U : Universe) (a : Archetype) (l : Layout) : Prop where
  len : l.offsets.length = a.ids.length
  aligned : ∀ {i t off : Nat}, a.ids[i]? = some t → l.offsets[i]? = some off → off % U.align t = 0
  inPage : ∀ {i t off : Nat}, a.ids[i]? = some t → l.offsets[i]? = some off →
    off + U.size t * l.entitiesCapacity ≤ PAGE_SIZE
  before : ∀ {i j t off off' : Nat}, i < j → a.ids[i]? = some t → l.offsets[i]? = some off →
    l.offsets[j]? = some off' → off + U.size t * l.entitiesCapacity ≤ off'

theorem new_ok_cap {dbg : Bool} {a : Archetype} {l : Layout} (h : Layout.new dbg a = .ok l) :
    calcCapacity dbg a.sizes a.aligns = .ok l.entitiesCapacity ∧
    l.offsets = (offsetsLoop l.entitiesCapacity 0 (a.sizes.zip a.aligns)).1 ∧
    (offsetsLoop l.entitiesCapacity 0 (a.sizes.zip a.aligns)).2 ≤ PAGE_SIZE := by
  unfold Layout.new calcOffsets at h
  obtain ⟨cap, hc, h⟩ := bind_eq_ok.1 h
  obtain ⟨offs, ho, h⟩ := bind_eq_ok.1 h
  obtain ⟨_, hr, ho⟩ := bind_eq_ok.1 ho
  cases ho
  cases h
  exact ⟨hc, rfl, by simpa using rassert_ok.1 hr⟩

theorem good_of_new {U : Universe} {dbg : Bool} {a : Archetype} {l : Layout} (hw : a.WF U)
    (h : Layout.new dbg a = .ok l) : Good U a l := by
  obtain ⟨_, ho, hf⟩ := new_ok_cap h
  have hz : ∀ i t : Nat, a.ids[i]? = some t → (a.sizes.zip a.aligns)[i]? = some (U.size t, U.align t) := by
    intro i t hi
    rw [hw.sizes, hw.aligns]
    rw [List.getElem?_zip_eq_some]; simp [hi]
  have hpos : ∀ p ∈ a.sizes.zip a.aligns, 0 < p.2 := by
    intro p hp
    have := (List.of_mem_zip (show (p.1, p.2) ∈ _ from hp)).2
    rw [hw.aligns] at this
    obtain ⟨t, _, ht⟩ := List.mem_map.1 this
    rw [← ht]; exact U.align_pos t
  refine ⟨?_, ?_, ?_, ?_⟩
  · rw [ho, offsetsLoop_length, hw.sizes, hw.aligns]; simp
  · intro i t off hi hoff
    rw [ho] at hoff
    exact (offsetsLoop_spec _ _ _ hpos hoff (hz i t hi)).2.1
  · intro i t off hi hoff
    rw [ho] at hoff
    have := (offsetsLoop_spec _ _ _ hpos hoff (hz i t hi)).2.2.1
    omega
  · intro i j t off off' hij hi hoff hoff'
    rw [ho] at hoff hoff'
    exact (offsetsLoop_spec _ _ _ hpos hoff (hz i t hi)).2.2.2 j off' hij hoff'

/-- `calculate_entities_capacity` when it returns: the largest row count such that no column exceeds
its share `bytesPerRow`. -/
theorem calcCapacity_eq {dbg : Bool} {sizes aligns : List Nat} (hne : sizes ≠ [])
    (hpos : ∀ s ∈ sizes, 0 < s) {m : Nat} (hm : maxUnwrap aligns = .ok m)
    (hsub : m % 8 ≤ PAGE_SIZE / sizes.length) :
    ∃ cap, calcCapacity dbg sizes aligns = .ok cap ∧
      (∀ s ∈ sizes, s * cap ≤ PAGE_SIZE / sizes.length - m % 8) ∧
      (∃ s ∈ sizes, cap = (PAGE_SIZE / sizes.length - m % 8) / s) := by
  have hlen : sizes.length ≠ 0 := fun h => hne (List.length_eq_zero_iff.1 h)
  set r := PAGE_SIZE / sizes.length - m % 8 with hr
  have hcaps : sizes.mapM (fun s => divChecked r s) = .ok (sizes.map (fun s => r / s)) := by
    apply mapM_of_forall
    intro s hs
    have := hpos s hs
    simp [divChecked, Nat.pos_iff_ne_zero.1 this]
  obtain ⟨c, hc1, hc2, hc3⟩ := minUnwrap_ne (l := sizes.map (fun s => r / s)) (by simpa using hne)
  refine ⟨c, ?_, ?_, ?_⟩
  · unfold calcCapacity
    simp only [hm, ok_bind, divChecked, hlen, if_false, subUsize, hsub, if_true]
    rw [← hr]
    show (sizes.mapM (fun s => divChecked r s) >>= fun caps => minUnwrap caps) = _
    rw [hcaps]
    simpa using hc1
  · intro s hs
    have h1 := hc3 (r / s) (List.mem_map.2 ⟨s, hs, rfl⟩)
    have h2 := Nat.mul_le_mul_left s h1
    exact Nat.le_trans h2 (Nat.mul_div_le r s)
  · obtain ⟨s, hs, h⟩ := List.mem_map.1 hc2
    exact ⟨s, hs, h.symm⟩

theorem new_of {dbg : Bool} {a : Archetype} {cap : Nat}
    (hc : calcCapacity dbg a.sizes a.aligns = .ok cap)
    (hf : (offsetsLoop cap 0 (a.sizes.zip a.aligns)).2 ≤ PAGE_SIZE) :
    Layout.new dbg a = .ok ⟨(offsetsLoop cap 0 (a.sizes.zip a.aligns)).1, cap⟩ := by
  unfold Layout.new calcOffsets
  simp [hc, hf]

/-- Padding below `A` per column. -/
theorem final_le_of_small_align {cap r A : Nat} (l : List (Nat × Nat)) (o : Nat)
    (h : ∀ p ∈ l, 0 < p.2 ∧ p.2 ≤ A ∧ p.1 * cap ≤ r) :
    (offsetsLoop cap o l).2 ≤ o + l.length * (r + (A - 1)) := by
  induction l generalizing o with
  | nil => simp [offsetsLoop]
  | cons p l ih =>
    obtain ⟨s, a⟩ := p
    simp only [offsetsLoop, List.length_cons]
    have h1 := ih (alignUp o a + s * cap) (fun p hp => h p (by simp [hp]))
    obtain ⟨h2, h3, h4⟩ := h (s, a) (by simp)
    have h5 := alignUp_lt o a h2
    rw [Nat.succ_mul]
    simp only at h2 h3 h4
    omega

theorem stepMax_mono {r o o' : Nat} (h : o ≤ o') : stepMax r o ≤ stepMax r o' := by
  unfold stepMax
  have h1 := alignUp_mono (a := 1) (by omega) h
  have h2 := alignUp_mono (a := 2) (by omega) h
  have h3 := alignUp_mono (a := 4) (by omega) h
  have h4 := alignUp_mono (a := 8) (by omega) h
  omega

theorem worst_mono {r k o o' : Nat} (h : o ≤ o') : worst r k o ≤ worst r k o' := by
  induction k generalizing o o' with
  | zero => exact h
  | succ k ih => exact ih (stepMax_mono h)

theorem worst8_mono {r k o o' : Nat} (h : o ≤ o') : worst8 r k o ≤ worst8 r k o' := by
  induction k generalizing o o' with
  | zero => exact Nat.le_refl _
  | succ k ih =>
    have h1 := ih (stepMax_mono (r := r) h)
    have h2 := worst_mono (r := r) (k := k) (Nat.add_le_add_right (alignUp_mono (a := 8) (by omega) h) (r / 8 * 8))
    simp only [worst8]
    omega

theorem col_le {s a cap r : Nat} (hd : a ∣ s) (hs : s * cap ≤ r) : s * cap ≤ r / a * a := by
  have hd' : a ∣ s * cap := Nat.dvd_trans hd (Nat.dvd_mul_right s cap)
  obtain ⟨k, hk⟩ := hd'
  rcases Nat.eq_zero_or_pos a with rfl | ha
  · simp at hk; rw [hk]; simp
  · have : k ≤ r / a := by rw [Nat.le_div_iff_mul_le ha, Nat.mul_comm]; omega
    rw [hk, Nat.mul_comm a k]
    exact Nat.mul_le_mul_right a this

theorem step_le {s a cap r o : Nat} (ha : a = 1 ∨ a = 2 ∨ a = 4 ∨ a = 8) (hd : a ∣ s)
    (hs : s * cap ≤ r) : alignUp o a + s * cap ≤ stepMax r o := by
  have := col_le hd hs
  unfold stepMax
  rcases ha with rfl | rfl | rfl | rfl <;> omega

theorem final_le_worst {cap r : Nat} (l : List (Nat × Nat)) (o : Nat)
    (h : ∀ p ∈ l, (p.2 = 1 ∨ p.2 = 2 ∨ p.2 = 4 ∨ p.2 = 8) ∧ p.2 ∣ p.1 ∧ p.1 * cap ≤ r) :
    (offsetsLoop cap o l).2 ≤ worst r l.length o := by
  induction l generalizing o with
  | nil => exact Nat.le_refl _
  | cons p l ih =>
    obtain ⟨s, a⟩ := p
    simp only [offsetsLoop, List.length_cons, worst]
    obtain ⟨h2, h3, h4⟩ := h (s, a) (by simp)
    exact Nat.le_trans (ih _ (fun p hp => h p (by simp [hp]))) (worst_mono (step_le h2 h3 h4))

theorem final_le_worst8 {cap r : Nat} (l : List (Nat × Nat)) (o : Nat)
    (h : ∀ p ∈ l, (p.2 = 1 ∨ p.2 = 2 ∨ p.2 = 4 ∨ p.2 = 8) ∧ p.2 ∣ p.1 ∧ p.1 * cap ≤ r)
    (h8 : ∃ p ∈ l, p.2 = 8) :
    (offsetsLoop cap o l).2 ≤ worst8 r l.length o := by
  induction l generalizing o with
  | nil => simp at h8
  | cons p l ih =>
    obtain ⟨s, a⟩ := p
    simp only [offsetsLoop, List.length_cons, worst8]
    obtain ⟨h2, h3, h4⟩ := h (s, a) (by simp)
    have hl : ∀ p ∈ l, (p.2 = 1 ∨ p.2 = 2 ∨ p.2 = 4 ∨ p.2 = 8) ∧ p.2 ∣ p.1 ∧ p.1 * cap ≤ r :=
      fun p hp => h p (by simp [hp])
    by_cases h8a : a = 8
    · subst h8a
      have h5 := col_le h3 h4
      simp only at h5
      have := Nat.le_trans (final_le_worst l (alignUp o 8 + s * cap) hl)
        (worst_mono (Nat.add_le_add_left h5 _))
      omega
    · have h8' : ∃ p ∈ l, p.2 = 8 := by
        obtain ⟨p, hp, hp8⟩ := h8
        rcases List.mem_cons.1 hp with rfl | hp
        · exact absurd hp8 h8a
        · exact ⟨p, hp, hp8⟩
      have := Nat.le_trans (ih (alignUp o a + s * cap) hl h8') (worst8_mono (step_le h2 h3 h4))
      omega

end Layout
end Ecs
