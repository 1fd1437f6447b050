import Verif.Model.LayoutWords
import Verif.Proofs.LayoutWorst

/-! Layouts computed with words. -/

namespace Ecs.Layout
open Spec

theorem addUsize_small {dbg : Bool} {a b : Nat} (h : a + b < usizeSize) : addUsize dbg a b = .ok (a + b) := by
  unfold addUsize; rw [if_pos h]

theorem mulUsize_small {dbg : Bool} {a b : Nat} (h : a * b < usizeSize) : mulUsize dbg a b = .ok (a * b) := by
  unfold mulUsize; rw [if_pos h]

theorem alignUpWord_small {dbg : Bool} {o a : Nat} (ha : 0 < a) (h : o + a < usizeSize) : alignUpWord dbg o a = .ok (alignUp o a) := by
  unfold alignUpWord alignUp
  split
  · rw [addUsize_small (by omega)]
  · rfl

theorem offsetsLoopWord_small {dbg : Bool} {cap r A : Nat} (l : List (Nat × Nat)) (o : Nat)
    (h : ∀ p ∈ l, 0 < p.2 ∧ p.2 ≤ A ∧ p.1 * cap ≤ r) (hb : o + l.length * (r + A) < usizeSize) :
    offsetsLoopWord dbg cap o l = .ok (offsetsLoop cap o l) := by
  induction l generalizing o with
  | nil => rfl
  | cons p l ih =>
    obtain ⟨s, a⟩ := p
    obtain ⟨h1, h2, h3⟩ := h (s, a) List.mem_cons_self
    dsimp only at h1 h2 h3
    have hlt := alignUp_lt o a h1
    rw [List.length_cons, Nat.succ_mul] at hb
    unfold offsetsLoopWord
    rw [alignUpWord_small h1 (by omega), ok_bind, mulUsize_small (by omega), ok_bind, addUsize_small (by omega), ok_bind,
      ih _ (fun p hp => h p (List.mem_cons_of_mem _ hp)) (by omega)]
    rfl

private theorem mapM_mem {α β : Type} {f : α → Res β} {l : List α} {l' : List β} (h : l.mapM f = .ok l') {a : α} (ha : a ∈ l) :
    ∃ b ∈ l', f a = .ok b := by
  induction l generalizing l' with
  | nil => cases ha
  | cons x l ih =>
    rw [List.mapM_cons] at h
    obtain ⟨y, h1, h⟩ := bind_eq_ok.1 h
    obtain ⟨ys, h2, h⟩ := bind_eq_ok.1 h
    cases h
    rcases List.mem_cons.1 ha with rfl | ha
    · exact ⟨y, List.mem_cons_self, h1⟩
    · obtain ⟨b, hb, hf⟩ := ih h2 ha
      exact ⟨b, List.mem_cons_of_mem _ hb, hf⟩

private theorem minUnwrap_le {l : List Nat} {m : Nat} (h : minUnwrap l = .ok m) : ∀ x ∈ l, m ≤ x := by
  intro x hx
  obtain ⟨m', h1, _, h3⟩ := minUnwrap_ne (l := l) (by rintro rfl; cases hx)
  rw [h] at h1
  cases h1
  exact h3 x hx

/-- What `calculate_entities_capacity` returned if the subtraction did not wrap. -/
theorem calcCapacity_share {dbg : Bool} {sizes aligns : List Nat} {cap m : Nat} (hm : maxUnwrap aligns = .ok m)
    (hc : calcCapacity dbg sizes aligns = .ok cap) (hs : dbg = true ∨ m % 8 ≤ PAGE_SIZE / sizes.length) :
    ∀ s ∈ sizes, s * cap ≤ PAGE_SIZE := by
  unfold calcCapacity at hc
  rw [hm, ok_bind] at hc
  obtain ⟨per, h1, hc⟩ := bind_eq_ok.1 hc
  have hper : per = PAGE_SIZE / sizes.length := by
    unfold divChecked at h1
    split at h1
    · cases h1
    · cases h1; rfl
  obtain ⟨b, h2, hc⟩ := bind_eq_ok.1 hc
  have hb : b ≤ PAGE_SIZE := by
    unfold subUsize at h2
    have hle : per ≤ PAGE_SIZE := by rw [hper]; exact Nat.div_le_self _ _
    split at h2
    · cases h2; omega
    · next hn =>
      rcases hs with rfl | hs
      · simp at h2
      · omega
  obtain ⟨caps, h3, hc⟩ := bind_eq_ok.1 hc
  intro s hs
  obtain ⟨x, hx, hd⟩ := mapM_mem h3 hs
  have hle := minUnwrap_le hc x hx
  unfold divChecked at hd
  split at hd
  · cases hd
  · cases hd
    calc s * cap ≤ s * (b / s) := Nat.mul_le_mul_left s hle
      _ ≤ b := Nat.mul_div_le b s
      _ ≤ PAGE_SIZE := hb

theorem newWord_eq {dbg : Bool} {a : Archetype} {m : Nat} (hm : maxUnwrap a.aligns = .ok m)
    (hs : dbg = true ∨ m % 8 ≤ PAGE_SIZE / a.sizes.length) {A : Nat} (hal : ∀ x ∈ a.aligns, 0 < x ∧ x ≤ A)
    (hn : a.sizes.length * (PAGE_SIZE + A) < usizeSize) : newWord dbg a = Layout.new dbg a := by
  unfold newWord Layout.new
  cases hc : calcCapacity dbg a.sizes a.aligns with
  | error x => rfl
  | ok cap =>
    have hsh := calcCapacity_share hm hc hs
    rw [ok_bind, ok_bind]
    unfold calcOffsetsWord calcOffsets
    rw [offsetsLoopWord_small (r := PAGE_SIZE) (A := A) _ _ ?_ ?_, ok_bind]
    · intro p hp
      obtain ⟨h1, h2⟩ := List.of_mem_zip (a := p.1) (b := p.2) hp
      exact ⟨(hal _ h2).1, (hal _ h2).2, hsh _ h1⟩
    · have : (a.sizes.zip a.aligns).length ≤ a.sizes.length := by rw [List.length_zip]; exact Nat.min_le_left _ _
      calc 0 + (a.sizes.zip a.aligns).length * (PAGE_SIZE + A) ≤ a.sizes.length * (PAGE_SIZE + A) := by
            rw [Nat.zero_add]; exact Nat.mul_le_mul_right _ this
        _ < usizeSize := hn

/-! ### More than 4096 component types -/

/-- `k` times a component of one byte and one of four bytes. -/
def wordPairs : Nat → List (Nat × Nat)
  | 0 => []
  | k + 1 => (1, 1) :: (4, 4) :: wordPairs k

theorem wordPairs_length (k : Nat) : (wordPairs k).length = 2 * k := by
  induction k with
  | zero => rfl
  | succ k ih => simp [wordPairs, ih]; omega

theorem wordPairs_zero : wordPairs 0 = [] := rfl

theorem wordPairs_succ (k : Nat) : wordPairs (k + 1) = (1, 1) :: (4, 4) :: wordPairs k := rfl

theorem wordPairs_four (k : Nat) : (4, 4) ∈ wordPairs (k + 1) :=
  List.mem_cons_of_mem _ List.mem_cons_self

theorem wordPairs_mem {k : Nat} {p : Nat × Nat} (h : p ∈ wordPairs k) : p = (1, 1) ∨ p = (4, 4) := by
  induction k with
  | zero => cases h
  | succ k ih =>
    simp only [wordPairs, List.mem_cons] at h
    rcases h with h | h | h
    · exact .inl h
    · exact .inr h
    · exact ih h

private theorem addUsize_release (a b : Nat) : addUsize false a b = .ok ((a + b) % usizeSize) := by
  unfold addUsize
  split
  · next h => rw [Nat.mod_eq_of_lt h]
  · rfl

theorem loop_pair (o : Nat) (h4 : o % 4 = 0) (rest : List (Nat × Nat)) {r : List Nat × Nat}
    (h : offsetsLoopWord false 281470681808895 ((o + 1407353409044476) % usizeSize) rest = .ok r) :
    ∃ x y, offsetsLoopWord false 281470681808895 o ((1, 1) :: (4, 4) :: rest) = .ok (x :: y :: r.1, r.2) := by
  refine ⟨o, (o + 281470681808895 + 1) % usizeSize, ?_⟩
  rw [offsetsLoopWord, alignUpWord, if_neg (by omega), ok_bind, mulUsize_small (by omega), ok_bind, addUsize_release, ok_bind,
    offsetsLoopWord, alignUpWord, if_pos (by omega), addUsize_release, ok_bind, mulUsize_small (by omega), ok_bind,
    addUsize_release, ok_bind]
  have e1 : (((o + 1 * 281470681808895) % usizeSize + (4 - (o + 1 * 281470681808895) % usizeSize % 4)) % usizeSize) =
      (o + 281470681808895 + 1) % usizeSize := by omega
  have e2 : ((o + 281470681808895 + 1) % usizeSize + 4 * 281470681808895) % usizeSize = (o + 1407353409044476) % usizeSize := by
    omega
  rw [e1, e2, h]
  rfl

theorem loop_pairs (k : Nat) (o : Nat) (ho : o < usizeSize) (h4 : o % 4 = 0) (rest : List (Nat × Nat)) {r : List Nat × Nat}
    (h : offsetsLoopWord false 281470681808895 ((o + k * 1407353409044476) % usizeSize) rest = .ok r) :
    ∃ pre, pre.length = 2 * k ∧
      offsetsLoopWord false 281470681808895 o (wordPairs k ++ rest) = .ok (pre ++ r.1, r.2) := by
  induction k generalizing o with
  | zero =>
    rw [wordPairs_zero]
    rw [Nat.zero_mul, Nat.add_zero, Nat.mod_eq_of_lt ho] at h
    exact ⟨[], rfl, h⟩
  | succ k ih =>
    rw [wordPairs_succ]
    obtain ⟨pre, hp, h1⟩ := ih ((o + 1407353409044476) % usizeSize) (Nat.mod_lt _ (by decide)) (by omega) (by
      rw [← h, Nat.mod_add_mod, Nat.succ_mul, Nat.add_assoc, Nat.add_comm (k * _)])
    obtain ⟨x, y, h2⟩ := loop_pair o h4 _ h1
    exact ⟨x :: y :: pre, by simp only [List.length_cons]; omega, h2⟩

attribute [irreducible] wordPairs

/-- 4100 component types: 2049 of one byte, 2049 of four bytes with alignment 4, one of 65537 bytes and one of 55292 bytes. -/
def manyTypes : List (Nat × Nat) := wordPairs 2049 ++ [(65537, 1), (55292, 1)]

theorem manyTypes_ok : ∀ p ∈ manyTypes, 0 < p.2 ∧ p.2 ∣ p.1 := by
  intro p hp
  rcases List.mem_append.1 hp with hp | hp
  · rcases wordPairs_mem hp with rfl | rfl <;> decide
  · simp only [List.mem_cons, List.not_mem_nil, or_false] at hp
    rcases hp with rfl | rfl <;> decide

theorem manyTypes_length : manyTypes.length = 4100 := by
  rw [manyTypes, List.length_append, wordPairs_length]
  rfl

theorem manyTypes_pow : ∀ p ∈ manyTypes, ∃ k, k ≤ 29 ∧ p.2 = 2 ^ k := by
  intro p hp
  rcases List.mem_append.1 hp with hp | hp
  · rcases wordPairs_mem hp with rfl | rfl
    · exact ⟨0, by decide, rfl⟩
    · exact ⟨2, by decide, rfl⟩
  · simp only [List.mem_cons, List.not_mem_nil, or_false] at hp
    rcases hp with rfl | rfl <;> exact ⟨0, by decide, rfl⟩

theorem manyTypes_align (t : Nat) : ∃ k, k ≤ 29 ∧ (universeOf manyTypes manyTypes_ok).align t = 2 ^ k := by
  show ∃ k, k ≤ 29 ∧ (manyTypes.getD t (1, 1)).2 = 2 ^ k
  by_cases ht : t < manyTypes.length
  · rw [List.getD_eq_getElem?_getD, List.getElem?_eq_getElem ht]
    exact manyTypes_pow _ (List.getElem_mem ht)
  · rw [List.getD_eq_getElem?_getD, List.getElem?_eq_none (by omega)]
    exact ⟨0, by decide, rfl⟩

theorem manyTypes_size : (universeOf manyTypes manyTypes_ok).size 4098 = 65537 := by
  show (manyTypes.getD 4098 (1, 1)).1 = _
  have hl := wordPairs_length 2049
  rw [List.getD_eq_getElem?_getD, manyTypes, List.getElem?_append_right (by omega), hl]
  rfl

theorem manyTypes_cap {a : Archetype} (h1 : a.sizes = manyTypes.map (·.1)) (h2 : a.aligns = manyTypes.map (·.2)) :
    calcCapacity false a.sizes a.aligns = .ok 281470681808895 := by
  have hlen : a.sizes.length = 4100 := by rw [h1, List.length_map, manyTypes_length]
  have hmem : ∀ p ∈ manyTypes, p.1 ≤ 65537 ∧ 0 < p.1 ∧ p.2 ≤ 4 := by
    intro p hp
    rcases List.mem_append.1 hp with hp | hp
    · rcases wordPairs_mem hp with rfl | rfl <;> decide
    · simp only [List.mem_cons, List.not_mem_nil, or_false] at hp
      rcases hp with rfl | rfl <;> decide
  have hm4 : (4, 4) ∈ manyTypes := by
    refine List.mem_append_left _ (wordPairs_four 2048)
  have hbig : (65537, 1) ∈ manyTypes := List.mem_append_right _ (by simp)
  have hmax : maxUnwrap a.aligns = .ok 4 := by
    obtain ⟨m, k1, k2, k3⟩ := maxUnwrap_ne (l := a.aligns) (by rw [h2]; intro h; rw [List.map_eq_nil_iff] at h; rw [h] at hm4; cases hm4)
    rw [h2] at k2 k3
    obtain ⟨p, hp, hpm⟩ := List.mem_map.1 k2
    have := (hmem p hp).2.2
    have := k3 4 (List.mem_map.2 ⟨_, hm4, rfl⟩)
    rw [k1, show m = 4 by omega]
  unfold calcCapacity
  have hd : divChecked PAGE_SIZE 4100 = .ok 3 := by decide
  have hs : subUsize false 3 (4 % 8) = .ok 18446744073709551615 := by decide
  rw [hmax, ok_bind, hlen, hd, ok_bind, hs, ok_bind]
  have hcaps : a.sizes.mapM (fun s => divChecked 18446744073709551615 s) = .ok (a.sizes.map (fun s => 18446744073709551615 / s)) := by
    apply mapM_of_forall
    intro s hs
    rw [h1] at hs
    obtain ⟨p, hp, rfl⟩ := List.mem_map.1 hs
    have := (hmem p hp).2.1
    simp [divChecked, Nat.pos_iff_ne_zero.1 this]
  rw [hcaps, ok_bind]
  obtain ⟨m, k1, k2, k3⟩ := minUnwrap_ne (l := a.sizes.map (fun s => 18446744073709551615 / s)) (by
    rw [h1]; intro h; simp only [List.map_eq_nil_iff] at h; rw [h] at hm4; cases hm4)
  rw [k1]
  obtain ⟨s, hs, rfl⟩ := List.mem_map.1 k2
  have hle := k3 (18446744073709551615 / 65537) (List.mem_map.2 ⟨65537, by rw [h1]; exact List.mem_map.2 ⟨_, hbig, rfl⟩, rfl⟩)
  rw [h1] at hs
  obtain ⟨p, hp, rfl⟩ := List.mem_map.1 hs
  obtain ⟨q1, q2, _⟩ := hmem p hp
  have hge : 18446744073709551615 / 65537 ≤ 18446744073709551615 / p.1 := Nat.div_le_div_left q1 q2
  have : 18446744073709551615 / 65537 = 281470681808895 := by decide
  rw [this] at hle hge
  rw [show 18446744073709551615 / p.1 = 281470681808895 by omega]

theorem manyTypes_new {a : Archetype} (h1 : a.sizes = manyTypes.map (·.1)) (h2 : a.aligns = manyTypes.map (·.2)) :
    ∃ offs, newWord false a = .ok ⟨offs, 281470681808895⟩ ∧ offs[4098]? = some 2883667135132131324 := by
  have hcap := manyTypes_cap h1 h2
  have hz : a.sizes.zip a.aligns = manyTypes := by
    rw [h1, h2, List.zip_map', List.map_id']
  have hlast : offsetsLoopWord false 281470681808895 ((0 + 2049 * 1407353409044476) % usizeSize) [(65537, 1), (55292, 1)] =
      .ok ([2883667135132131324, 2883667135132131323], 2047) := by decide
  obtain ⟨pre, hp, hl⟩ := loop_pairs 2049 0 (by decide) (by decide) _ hlast
  refine ⟨pre ++ [2883667135132131324, 2883667135132131323], ?_, ?_⟩
  case refine_2 => rw [List.getElem?_append_right (by omega), hp]; rfl
  unfold newWord calcOffsetsWord
  rw [hcap, ok_bind, hz]
  show (offsetsLoopWord false 281470681808895 0 (wordPairs 2049 ++ [(65537, 1), (55292, 1)]) >>= _) >>= _ = _
  rw [hl]
  rfl

end Ecs.Layout
