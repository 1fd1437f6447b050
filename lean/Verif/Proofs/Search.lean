import Verif.Proofs.Basic
import Verif.Model.Std
import Mathlib.Data.List.Nodup
import Mathlib.Data.List.Perm.Basic
import Mathlib.Tactic.Cases
import Mathlib.Tactic.ByContra

/-! Contracts of binary search and of the stable sort. -/

namespace Ecs

theorem bsLoop_spec (l : List Nat) (x : Nat) (hs : l.Pairwise (· ≤ ·)) :
    ∀ fuel size base, size ≤ fuel → 1 ≤ size → base + size ≤ l.length →
    (∀ i (hi : i < l.length), base + size ≤ i → x < l[i]) →
    (base = 0 ∨ l.getD base 0 ≤ x) →
    bsLoop l x fuel size base < l.length ∧
    (∀ i (hi : i < l.length), bsLoop l x fuel size base < i → x < l[i]) ∧
    (bsLoop l x fuel size base = 0 ∨ l.getD (bsLoop l x fuel size base) 0 ≤ x) := by
  intro fuel
  induction fuel with
  | zero => intro size base h1 h2; omega
  | succ fuel ih =>
    intro size base h1 h2 h3 h4 h5
    unfold bsLoop
    split
    · rename_i hsz
      dsimp only
      have hmid : base + size / 2 < l.length := by omega
      have hg : l.getD (base + size / 2) 0 = l[base + size / 2] := by
        simp [List.getD, hmid]
      split
      · rename_i hgt
        apply ih
        · omega
        · omega
        · omega
        · intro i hi hle
          by_cases hb : base + size / 2 < i
          · have := List.pairwise_iff_getElem.1 hs _ _ hmid hi hb
            omega
          · have : i = base + size / 2 := by omega
            subst this
            omega
        · exact h5
      · rename_i hgt
        apply ih
        · omega
        · omega
        · omega
        · intro i hi hle
          exact h4 i hi (by omega)
        · right; omega
    · have : size = 1 := by omega
      subst this
      exact ⟨by omega, fun i hi hlt => h4 i hi (by omega), h5⟩

theorem bsLoop_lt (l : List Nat) (x : Nat) :
    ∀ fuel size base, size ≤ fuel → 1 ≤ size → base + size ≤ l.length →
    bsLoop l x fuel size base < l.length := by
  intro fuel
  induction fuel with
  | zero => intro size base h1 h2; omega
  | succ fuel ih =>
    intro size base h1 h2 h3
    unfold bsLoop
    split
    · dsimp only
      split <;> (apply ih <;> omega)
    · omega

/-- A positive answer of binary search is right even for unsorted slices. -/
theorem binarySearch_found {l : List Nat} {x i : Nat} (h : binarySearch l x = .found i) :
    l[i]? = some x := by
  unfold binarySearch at h
  split at h
  · cases h
  · rename_i hl
    dsimp only at h
    split at h
    · rename_i hv
      cases h
      have := bsLoop_lt l x l.length l.length 0 (by omega) (by omega) (by omega)
      rw [List.getD, List.getElem?_eq_getElem this] at hv
      rw [List.getElem?_eq_getElem this]
      simpa using hv
    · cases h

theorem binarySearch_notFound {l : List Nat} {x j : Nat} (hs : l.Pairwise (· ≤ ·))
    (h : binarySearch l x = .notFound j) :
    j ≤ l.length ∧ (∀ i (hi : i < l.length), i < j → l[i] < x) ∧
    (∀ i (hi : i < l.length), j ≤ i → x < l[i]) := by
  unfold binarySearch at h
  split at h
  · rename_i hl
    cases h
    exact ⟨by omega, fun i hi => by omega, fun i hi => by omega⟩
  · rename_i hl
    dsimp only at h
    obtain ⟨h1, h2, h3⟩ := bsLoop_spec l x hs l.length l.length 0 (by omega) (by omega) (by omega)
      (fun i hi => by omega) (Or.inl rfl)
    split at h
    · cases h
    · rename_i hv
      generalize hb : bsLoop l x l.length l.length 0 = b at *
      have hg : l.getD b 0 = l[b] := by simp [List.getD, h1]
      rw [hg] at h hv h3
      cases h
      split
      · rename_i hlt
        refine ⟨by omega, fun i hi hij => ?_, fun i hi hij => h2 i hi (by omega)⟩
        by_cases hib : i = b
        · subst hib; exact hlt
        · have := List.pairwise_iff_getElem.1 hs i b hi h1 (by omega)
          omega
      · rename_i hlt
        have hb0 : b = 0 := by
          rcases h3 with h3 | h3
          · exact h3
          · omega
        subst hb0
        refine ⟨by omega, fun i hi hij => by omega, fun i hi _ => ?_⟩
        by_cases hi0 : i = 0
        · subst hi0; omega
        · exact h2 i hi (by omega)

theorem binarySearch_notFound_not_mem {l : List Nat} {x j : Nat} (hs : l.Pairwise (· ≤ ·))
    (h : binarySearch l x = .notFound j) : x ∉ l := by
  intro hm
  obtain ⟨i, hi, rfl⟩ := List.getElem_of_mem hm
  obtain ⟨_, h1, h2⟩ := binarySearch_notFound hs h
  by_cases hij : i < j
  · exact Nat.lt_irrefl _ (h1 i hi hij)
  · exact Nat.lt_irrefl _ (h2 i hi (by omega))

theorem binarySearch_of_mem {l : List Nat} {x : Nat} (hs : l.Pairwise (· ≤ ·)) (hx : x ∈ l) :
    ∃ i, binarySearch l x = .found i ∧ l[i]? = some x := by
  cases h : binarySearch l x with
  | found i => exact ⟨i, rfl, binarySearch_found h⟩
  | notFound j => exact absurd hx (binarySearch_notFound_not_mem hs h)

theorem binarySearch_of_not_mem {l : List Nat} {x : Nat} (hx : x ∉ l) :
    ∃ j, binarySearch l x = .notFound j := by
  cases h : binarySearch l x with
  | found i => exact absurd (List.mem_of_getElem? (binarySearch_found h)) hx
  | notFound j => exact ⟨j, rfl⟩

/-- Strictly increasing lists are what the code calls sorted id lists. -/
abbrev Incr (l : List Nat) : Prop := l.Pairwise (· < ·)

theorem Incr.le {l : List Nat} (h : Incr l) : l.Pairwise (· ≤ ·) :=
  h.imp (fun h => Nat.le_of_lt h)

theorem Incr.nodup {l : List Nat} (h : Incr l) : l.Nodup :=
  h.imp (fun h => Nat.ne_of_lt h)

theorem Incr.getElem?_inj {l : List Nat} (h : Incr l) {i j x : Nat} (hi : l[i]? = some x)
    (hj : l[j]? = some x) : i = j := by
  obtain ⟨h1, h2⟩ := List.getElem?_eq_some_iff.1 hi
  obtain ⟨h3, h4⟩ := List.getElem?_eq_some_iff.1 hj
  exact (h.nodup.getElem_inj_iff).1 (h2.trans h4.symm)

/-- Insertion at the position reported by an unsuccessful search keeps a list increasing. -/
theorem Incr.insertIdx {l : List Nat} (h : Incr l) {x j : Nat} (hb : binarySearch l x = .notFound j) :
    Incr (l.insertIdx j x) := by
  obtain ⟨h1, h2, h3⟩ := binarySearch_notFound h.le hb
  rw [Incr, List.pairwise_iff_getElem]
  have hl : (l.insertIdx j x).length = l.length + 1 := by rw [List.length_insertIdx_of_le_length h1]
  intro a b ha hb' hab
  rw [List.getElem_insertIdx, List.getElem_insertIdx]
  have hp := List.pairwise_iff_getElem.1 h
  split
  · split
    · exact hp _ _ _ _ hab
    · split
      · exact h2 _ _ (by omega)
      · exact hp _ _ _ _ (by omega)
  · split
    · rw [dif_neg (by omega), dif_neg (by omega)]
      exact h3 _ _ (by omega)
    · rw [dif_neg (by omega), dif_neg (by omega)]
      exact hp _ _ _ _ (by omega)

theorem Incr.ext {l₁ l₂ : List Nat} (h1 : Incr l₁) (h2 : Incr l₂) (h : ∀ x, x ∈ l₁ ↔ x ∈ l₂) :
    l₁ = l₂ := by
  have hp := (List.perm_ext_iff_of_nodup h1.nodup h2.nodup).2 h
  exact hp.eq_of_pairwise (fun a b _ _ ha hb => by omega) h1 h2

section Sorting
variable {α : Type} (key : α → Nat)

theorem insertByKey_perm (a : α) (l : List α) : (insertByKey key a l).Perm (a :: l) := by
  induction l with
  | nil => exact .refl _
  | cons b l ih =>
    unfold insertByKey
    split
    · exact .refl _
    · exact (ih.cons b).trans (List.Perm.swap _ _ _)

theorem insertByKey_sorted (a : α) (l : List α) (h : l.Pairwise (fun x y => key x ≤ key y)) :
    (insertByKey key a l).Pairwise (fun x y => key x ≤ key y) := by
  induction l with
  | nil => simp [insertByKey]
  | cons b l ih =>
    rw [List.pairwise_cons] at h
    unfold insertByKey
    split
    · rename_i hlt
      refine List.pairwise_cons.2 ⟨?_, List.pairwise_cons.2 h⟩
      intro c hc
      rcases List.mem_cons.1 hc with rfl | hc
      · omega
      · have := h.1 c hc; omega
    · rename_i hlt
      refine List.pairwise_cons.2 ⟨?_, ih h.2⟩
      intro c hc
      rcases List.mem_cons.1 ((insertByKey_perm key a l).mem_iff.1 hc) with rfl | hc
      · omega
      · exact h.1 c hc

theorem sortByKey_aux (l acc : List α) (h : acc.Pairwise (fun x y => key x ≤ key y)) :
    (l.foldl (fun acc a => insertByKey key a acc) acc).Perm (l ++ acc) ∧
    (l.foldl (fun acc a => insertByKey key a acc) acc).Pairwise (fun x y => key x ≤ key y) := by
  induction l generalizing acc with
  | nil => exact ⟨.refl _, h⟩
  | cons a l ih =>
    obtain ⟨h1, h2⟩ := ih (insertByKey key a acc) (insertByKey_sorted key a acc h)
    refine ⟨?_, h2⟩
    exact h1.trans (((insertByKey_perm key a acc).append_left l).trans List.perm_middle)

theorem sortByKey_perm (l : List α) : (sortByKey key l).Perm l := by
  simpa [sortByKey] using (sortByKey_aux key l [] .nil).1

theorem sortByKey_sorted (l : List α) :
    (sortByKey key l).Pairwise (fun x y => key x ≤ key y) :=
  (sortByKey_aux key l [] .nil).2

/-- Sorting distinct keys gives an increasing key list. -/
theorem sortByKey_incr (l : List α) (h : (l.map key).Nodup) : Incr ((sortByKey key l).map key) := by
  have h1 : ((sortByKey key l).map key).Nodup := ((sortByKey_perm key l).map key).nodup_iff.2 h
  have h2 : ((sortByKey key l).map key).Pairwise (· ≤ ·) := by
    rw [List.pairwise_map]; exact sortByKey_sorted key l
  exact (List.pairwise_and_iff.2 ⟨h2, h1⟩).imp (fun ⟨h1, h2⟩ => by omega)

end Sorting

/-- The lookup pattern used with parallel vectors: the value stored at the position of key `k` in a
sorted vector of keys. -/
def lookupK {β : Type} (keys : List Nat) (vals : List β) (k : Nat) : Option β :=
  match binarySearch keys k with
  | .found i => vals[i]?
  | .notFound _ => none

section Lookup
variable {β : Type} {keys : List Nat} {vals : List β}

theorem lookupK_found {k i : Nat} (h : binarySearch keys k = .found i) :
    lookupK keys vals k = vals[i]? := by simp [lookupK, h]

theorem lookupK_notFound {k i : Nat} (h : binarySearch keys k = .notFound i) :
    lookupK keys vals k = none := by simp [lookupK, h]

theorem lookupK_iff (hk : Incr keys) {k : Nat} {v : β} :
    lookupK keys vals k = some v ↔ ∃ i : Nat, keys[i]? = some k ∧ vals[i]? = some v := by
  unfold lookupK
  cases h : binarySearch keys k with
  | found i =>
    have hi := binarySearch_found h
    constructor
    · exact fun hv => ⟨i, hi, hv⟩
    · rintro ⟨j, hj, hv⟩
      rw [hk.getElem?_inj hi hj]; exact hv
  | notFound i =>
    have := binarySearch_notFound_not_mem hk.le h
    constructor
    · intro h; cases h
    · rintro ⟨j, hj, _⟩; exact absurd (List.mem_of_getElem? hj) this

theorem lookupK_insert (hk : Incr keys) (hl : vals.length = keys.length) {k j : Nat} (v : β)
    (hb : binarySearch keys k = .notFound j) (k' : Nat) :
    lookupK (keys.insertIdx j k) (vals.insertIdx j v) k' =
      if k' = k then some v else lookupK keys vals k' := by
  have hk' := hk.insertIdx hb
  obtain ⟨h1, _, _⟩ := binarySearch_notFound hk.le hb
  apply Option.ext
  intro w
  rw [lookupK_iff hk']
  have hself : (keys.insertIdx j k)[j]? = some k := by
    rw [List.getElem?_insertIdx]; simp [h1]
  have hself' : (vals.insertIdx j v)[j]? = some v := by
    rw [List.getElem?_insertIdx]; simp [h1, hl]
  by_cases hkk : k' = k
  · subst hkk
    simp only [if_true]
    constructor
    · rintro ⟨i, hi, hv⟩
      have := hk'.getElem?_inj hi hself
      subst this
      rw [hself'] at hv; exact hv
    · intro hv; exact ⟨j, hself, by rw [hself', hv]⟩
  · rw [if_neg hkk, lookupK_iff hk]
    constructor
    · rintro ⟨i, hi, hv⟩
      rw [List.getElem?_insertIdx] at hi hv
      split at hi
      · rename_i hlt; rw [if_pos hlt] at hv; exact ⟨i, hi, hv⟩
      · rename_i hlt
        rw [if_neg hlt] at hv
        split at hi
        · split at hi
          · exact absurd (Option.some.inj hi).symm hkk
          · cases hi
        · rename_i hne
          rw [if_neg hne] at hv
          exact ⟨i - 1, hi, hv⟩
    · rintro ⟨i, hi, hv⟩
      by_cases hij : i < j
      · exact ⟨i, by rw [List.getElem?_insertIdx, if_pos hij]; exact hi,
          by rw [List.getElem?_insertIdx, if_pos hij]; exact hv⟩
      · refine ⟨i + 1, ?_, ?_⟩
        · rw [List.getElem?_insertIdx, if_neg (by omega), if_neg (by omega)]; exact hi
        · rw [List.getElem?_insertIdx, if_neg (by omega), if_neg (by omega)]; exact hv

theorem lookupK_set (hk : Incr keys) (hl : vals.length = keys.length) {k i : Nat} (v : β)
    (hi : keys[i]? = some k) (k' : Nat) :
    lookupK keys (vals.set i v) k' = if k' = k then some v else lookupK keys vals k' := by
  have hil : i < keys.length := (List.getElem?_eq_some_iff.1 hi).1
  apply Option.ext
  intro w
  rw [lookupK_iff hk]
  by_cases hkk : k' = k
  · subst hkk
    simp only [if_true]
    constructor
    · rintro ⟨j, hj, hv⟩
      have := hk.getElem?_inj hj hi
      subst this
      rw [List.getElem?_set_self (by omega)] at hv; exact hv
    · intro hv; exact ⟨i, hi, by rw [List.getElem?_set_self (by omega), hv]⟩
  · rw [if_neg hkk, lookupK_iff hk]
    have : ∀ j, keys[j]? = some k' → i ≠ j := by
      rintro j hj rfl
      rw [hi] at hj
      exact hkk (Option.some.inj hj).symm
    constructor
    · rintro ⟨j, hj, hv⟩
      rw [List.getElem?_set_ne (this j hj)] at hv
      exact ⟨j, hj, hv⟩
    · rintro ⟨j, hj, hv⟩
      exact ⟨j, hj, by rw [List.getElem?_set_ne (this j hj)]; exact hv⟩

theorem lookupK_map {γ : Type} (f : β → γ) (k : Nat) :
    lookupK keys (vals.map f) k = (lookupK keys vals k).map f := by
  unfold lookupK
  split <;> simp

theorem lookupK_isSome (hk : Incr keys) (hl : vals.length = keys.length) (k : Nat) :
    (lookupK keys vals k).isSome ↔ k ∈ keys := by
  rw [Option.isSome_iff_exists]
  constructor
  · rintro ⟨v, hv⟩
    obtain ⟨i, hi, _⟩ := (lookupK_iff hk).1 hv
    exact List.mem_of_getElem? hi
  · intro hm
    obtain ⟨i, hi, rfl⟩ := List.getElem_of_mem hm
    exact ⟨vals[i]'(by omega), (lookupK_iff hk).2 ⟨i, by simp [hi], by simp⟩⟩

end Lookup

end Ecs
