import Verif.Spec.Crowd
import Verif.Proofs.EntsOf

namespace Ecs
open Spec

theorem created_inv {dbg : Bool} {cap : Nat} {h : History} {c' : Ents} {e : Entity} (hx : EntsExec dbg cap (.created e :: h) c') :
    ∃ c cr, EntsExec dbg cap h c ∧ c.create dbg = .ok (c', cr) ∧ cr.entity = e := by
  cases hx with
  | create hx hr => exact ⟨_, _, hx, hr, rfl⟩

/-- When the container grows. -/
theorem create_capacity_exact {c c' : Ents} {dbg : Bool} {cr : EntityCreation} (hr : c.create dbg = .ok (c', cr)) :
    c'.capacity = if c.gapIds = [] ∧ c.capacity % u32Size ≤ c.nextFreeId then max c.capacity 1 * 2 else c.capacity := by
  unfold Ents.create at hr
  obtain ⟨⟨id, c1⟩, ht, hr⟩ := bind_eq_ok.1 hr
  have hcap : c'.capacity = c1.capacity := by
    dsimp only at hr
    obtain ⟨_, _, hr⟩ := bind_eq_ok.1 hr
    obtain ⟨_, _, hr⟩ := bind_eq_ok.1 hr
    obtain ⟨_, _, hr⟩ := bind_eq_ok.1 hr
    obtain ⟨_, _, hr⟩ := bind_eq_ok.1 hr
    cases hr; rfl
  rw [hcap]
  unfold Ents.takeId at ht
  split at ht
  · rename_i g hg
    cases ht
    rw [if_neg (by rintro ⟨h0, _⟩; simp [h0] at hg)]
  · rename_i hg
    have hge : c.gapIds = [] := by simpa using hg
    obtain ⟨next, hn, ht⟩ := bind_eq_ok.1 ht
    dsimp only at ht
    split at ht
    · rename_i hw
      simp only [Ents.willGrowWithId, ge_iff_le, decide_eq_true_eq] at hw
      rw [if_pos ⟨hge, hw⟩]
      unfold Ents.grow at ht
      rw [if_neg (by show ¬ max c.capacity 1 * 2 ≤ c.capacity; omega)] at ht
      obtain ⟨c2, h2, ht⟩ := bind_eq_ok.1 ht
      obtain ⟨_, _, h2⟩ := bind_eq_ok.1 h2
      obtain ⟨_, _, h2⟩ := bind_eq_ok.1 h2
      cases h2; cases ht; rfl
    · rename_i hw
      simp only [Ents.willGrowWithId, ge_iff_le, decide_eq_true_eq] at hw
      rw [if_neg (fun h => hw h.2)]
      cases ht; rfl

theorem issued_first (n : Nat) : (issued (firstCreations n)).length = n := by
  induction n with
  | zero => rfl
  | succ n ih => simp [firstCreations, issued, ih]

theorem live_first (n : Nat) : (live (firstCreations n)).length = n := by
  induction n with
  | zero => rfl
  | succ n ih => simp [firstCreations, live, ih]

theorem freeIds_first (n : Nat) : freeIds (firstCreations n) = ⟨n, []⟩ := by
  induction n with
  | zero => rfl
  | succ n ih => simp [firstCreations, freeIds, ih]

theorem uses_first (n i : Nat) (h : n ≤ i) : uses (firstCreations n) i = 0 := by
  induction n with
  | zero => rfl
  | succ n ih =>
    have hne : ¬ n = i := by omega
    have := ih (by omega)
    simp only [uses, firstCreations, issued] at *
    rw [List.filter_cons_of_neg (by simpa using hne)]
    exact this

theorem nextHandle_first (n : Nat) : nextHandle (firstCreations n) = ⟨n, 1⟩ := by
  simp [nextHandle, freeIds_first, uses_first]

theorem first_exec (dbg : Bool) (cap : Nat) (n : Nat) (hn : n < u32Size) : ∃ c, EntsExec dbg cap (firstCreations n) c := by
  induction n with
  | zero => exact ⟨_, .init⟩
  | succ n ih =>
    obtain ⟨c, hx⟩ := ih (by omega)
    have hb : (issued (firstCreations n)).length + 1 < u32Size := by rw [issued_first]; exact hn
    obtain ⟨c', cr, hr⟩ := (exec_inv hx (Or.inr (by omega))).create_ok (dbg := dbg) hb
    have he := create_next hx hr (Or.inr hb)
    rw [nextHandle_first] at he
    refine ⟨c', ?_⟩
    have := EntsExec.create hx hr
    rw [he] at this
    exact this

/-- The capacity after `n` creations, as the code computes it. -/
def crowdCapacity (cap : Nat) : Nat → Nat
  | 0 => cap
  | n + 1 => if crowdCapacity cap n % u32Size ≤ n then max (crowdCapacity cap n) 1 * 2 else crowdCapacity cap n

theorem first_capacity {dbg : Bool} {cap : Nat} : ∀ {n : Nat} {c : Ents}, n < u32Size → EntsExec dbg cap (firstCreations n) c →
    c.capacity = crowdCapacity cap n
  | 0, c, _, hx => by
    cases hx; rfl
  | n + 1, c', hn, hx => by
    obtain ⟨c, cr, hx, hr, -⟩ := created_inv hx
    have ih := first_capacity (by omega) hx
    obtain ⟨h1, h2, -⟩ := exec_free hx (Or.inr (by rw [issued_first]; omega))
    rw [freeIds_first] at h1 h2
    rw [create_capacity_exact hr, h1, ih]
    have : c.gapIds = [] := h2
    simp only [this, true_and, crowdCapacity]

theorem expected_mono (cap n : Nat) : expectedCapacity cap n ≤ expectedCapacity cap (n + 1) := by
  simp only [expectedCapacity]
  split <;> omega

/-- As long as the capacity is below 2^32, it is what one expects. -/
theorem crowd_expected {cap : Nat} : ∀ n, expectedCapacity cap n < u32Size → crowdCapacity cap n = expectedCapacity cap n
  | 0, _ => rfl
  | n + 1, h => by
    have hm := expected_mono cap n
    have ih := crowd_expected (cap := cap) n (by omega)
    simp only [crowdCapacity, expectedCapacity]
    rw [ih, Nat.mod_eq_of_lt (by omega)]
    by_cases hn : n < expectedCapacity cap n
    · rw [if_pos hn, if_neg (by omega)]
    · rw [if_neg hn, if_pos (by omega), Nat.mul_comm]

/-- Doubling below 2^32. -/
theorem crowd_below {cap M : Nat} (hcap : 0 < cap) (hM : cap * 2 ^ M < u32Size) : ∀ n, n ≤ cap * 2 ^ M →
    ∃ m, m ≤ M ∧ crowdCapacity cap n = cap * 2 ^ m ∧ n ≤ cap * 2 ^ m ∧ (m = 0 ∨ cap * 2 ^ m < 2 * n) := by
  intro n
  induction n with
  | zero => intro _; exact ⟨0, Nat.zero_le _, by simp [crowdCapacity], Nat.zero_le _, Or.inl rfl⟩
  | succ n ih =>
    intro hn
    obtain ⟨m, h1, h2, h3, h4⟩ := ih (by omega)
    have hle : cap * 2 ^ m ≤ cap * 2 ^ M := Nat.mul_le_mul_left _ (Nat.pow_le_pow_right (by omega) h1)
    have hmod : cap * 2 ^ m % u32Size = cap * 2 ^ m := Nat.mod_eq_of_lt (by omega)
    have hpos : 0 < cap * 2 ^ m := Nat.mul_pos hcap (Nat.pow_pos (by omega))
    simp only [crowdCapacity]
    rw [h2, hmod]
    by_cases hg : cap * 2 ^ m ≤ n
    · rw [if_pos hg]
      have hmM : m < M := by
        rcases Nat.lt_or_ge m M with h | h
        · exact h
        · have : m = M := by omega
          subst this; omega
      refine ⟨m + 1, hmM, ?_, ?_, Or.inr ?_⟩
      · rw [Nat.max_eq_left hpos, Nat.pow_succ, Nat.mul_assoc]
      · rw [Nat.pow_succ, ← Nat.mul_assoc]; omega
      · rw [Nat.pow_succ, ← Nat.mul_assoc]; omega
    · rw [if_neg hg]
      exact ⟨m, h1, rfl, by omega, h4.imp id (fun h => by omega)⟩

/-- Doubling at every creation, beyond. -/
theorem crowd_beyond {cap M : Nat} (hcap : 0 < cap) (hM : cap * 2 ^ M < u32Size)
    (hr : ∀ i, cap * 2 ^ M * 2 ^ i % u32Size ≤ cap * 2 ^ M) (j : Nat) :
    crowdCapacity cap (cap * 2 ^ M + j) = cap * 2 ^ M * 2 ^ j := by
  have hpos : 0 < cap * 2 ^ M := Nat.mul_pos hcap (Nat.pow_pos (by omega))
  induction j with
  | zero =>
    obtain ⟨m, h1, h2, h3, h4⟩ := crowd_below hcap hM (cap * 2 ^ M) (Nat.le_refl _)
    have : m = M := by
      rcases Nat.lt_or_ge m M with h | h
      · have : cap * 2 ^ (m + 1) ≤ cap * 2 ^ M := Nat.mul_le_mul_left _ (Nat.pow_le_pow_right (by omega) h)
        rw [Nat.pow_succ, ← Nat.mul_assoc] at this
        have := Nat.mul_pos hcap (Nat.pow_pos (n := m) (show 0 < 2 by omega))
        omega
      · omega
    subst this
    simpa using h2
  | succ j ih =>
    show crowdCapacity cap (cap * 2 ^ M + j + 1) = _
    have hp : 0 < cap * 2 ^ M * 2 ^ j := Nat.mul_pos hpos (Nat.pow_pos (by omega))
    simp only [crowdCapacity]
    rw [ih, if_pos (Nat.le_trans (hr j) (Nat.le_add_right _ _)), Nat.max_eq_left hp, Nat.pow_succ, Nat.mul_assoc _ (2 ^ j)]

/-- What is needed of a container to create an entity in a release build, whatever the numbers are. -/
structure Sturdy (c : Ents) : Prop where
  vlen : c.versions.length = c.capacity
  vinit : ∀ i, i < c.capacity → ∃ v, c.versions[i]? = some (some v)
  blen : c.aliveBits.length = Words.getLen c.capacity
  next_le : c.nextFreeId ≤ c.capacity

theorem EntInv.sturdy {c : Ents} {I L : List Entity} (h : EntInv c I L) : Sturdy c :=
  ⟨h.vlen, fun i hi => by obtain ⟨v, hv, _⟩ := h.vinit i hi; exact ⟨v, hv⟩, h.blen, h.next_le⟩

theorem Sturdy.takeId {c : Ents} (h : Sturdy c) (hg : c.gapIds = []) :
    ∃ c1, c.takeId false = .ok (c.nextFreeId, c1) ∧ c1.gapIds = [] ∧ c1.nextFreeId = (c.nextFreeId + 1) % u32Size ∧
      c1.versions.length = c1.capacity ∧ (∀ i, i < c1.capacity → ∃ v, c1.versions[i]? = some (some v)) ∧
      c1.aliveBits.length = Words.getLen c1.capacity ∧ (∀ i, c1.aliveBits.bit i = c.aliveBits.bit i) ∧
      c.nextFreeId < c1.capacity ∧ c.capacity ≤ c1.capacity := by
  have hadd : addU32 false c.nextFreeId 1 = .ok ((c.nextFreeId + 1) % u32Size) := by
    unfold addU32
    split
    · rename_i hlt; rw [Nat.mod_eq_of_lt hlt]
    · simp
  unfold Ents.takeId
  rw [hg]
  simp only [List.getLast?_nil, hadd, ok_bind]
  have hle := h.next_le
  by_cases hw : c.capacity % u32Size ≤ c.nextFreeId
  · have hcap : c.capacity < max c.capacity 1 * 2 := by omega
    have hz := Raw.reallocZeroing_of 0 h.vlen (Nat.le_of_lt hcap)
    obtain ⟨w', hw', hwl, hwb⟩ := Words.realloc_of h.blen (Nat.le_of_lt hcap)
    rw [if_pos (by simpa [Ents.willGrowWithId] using hw)]
    unfold Ents.grow
    rw [if_neg (by show ¬ max c.capacity 1 * 2 ≤ c.capacity; omega)]
    simp only [hz, hw', ok_bind, pure_ok]
    refine ⟨_, rfl, rfl, rfl, ?_, fun i hi => ?_, hwl, hwb, ?_, Nat.le_of_lt hcap⟩
    · simp [h.vlen]; omega
    · show ∃ v, (c.versions ++ _)[i]? = _
      by_cases hi' : i < c.capacity
      · rw [List.getElem?_append_left (by rw [h.vlen]; exact hi')]
        exact h.vinit i hi'
      · rw [List.getElem?_append_right (by rw [h.vlen]; omega), List.getElem?_replicate, h.vlen]
        simp only at hi
        rw [if_pos (by omega)]
        exact ⟨0, rfl⟩
    · show c.nextFreeId < max c.capacity 1 * 2; omega
  · rw [if_neg (by simpa [Ents.willGrowWithId] using hw)]
    have := Nat.mod_le c.capacity u32Size
    exact ⟨_, rfl, rfl, rfl, h.vlen, h.vinit, h.blen, fun _ => rfl, show c.nextFreeId < c.capacity by omega, Nat.le_refl _⟩

/-- A creation in a release build. -/
theorem Sturdy.create {c : Ents} (h : Sturdy c) (hg : c.gapIds = []) (hn : c.nextFreeId < u32Size) :
    ∃ c' cr, c.create false = .ok (c', cr) ∧ cr.entity.id = c.nextFreeId ∧ c'.gapIds = [] ∧
      c'.nextFreeId = (c.nextFreeId + 1) % u32Size ∧ Sturdy c' ∧
      (∀ i, c'.aliveBits.bit i = (decide (i = c.nextFreeId) ^^ c.aliveBits.bit i)) ∧ c.nextFreeId < c'.capacity ∧
      c.capacity ≤ c'.capacity := by
  obtain ⟨c1, ht, t1, t2, t3, t4, t5, t6, t7, t8⟩ := h.takeId hg
  have hbl : c.nextFreeId / 32 < c1.aliveBits.length := by rw [t5]; exact Words.div_lt_getLen t7
  obtain ⟨w, hw, hwl, hwb⟩ := Words.toggle_of_lt hbl
  obtain ⟨v, hv⟩ := t4 _ t7
  obtain ⟨v', ha⟩ : ∃ v', addU32 false v 1 = .ok v' := by
    unfold addU32; split
    · exact ⟨_, rfl⟩
    · exact ⟨_, by simp; rfl⟩
  have hwr := Raw.write_of_lt (a := c1.versions) (i := c.nextFreeId) v' (by rw [t3]; exact t7)
  unfold Ents.create
  simp only [ht, hw, Raw.read_of_some hv, ha, hwr, ok_bind, pure_ok]
  refine ⟨_, _, rfl, rfl, t1, t2, ⟨?_, fun i hi => ?_, ?_, ?_⟩, fun i => ?_, t7, t8⟩
  · simpa using t3
  · show ∃ v, (c1.versions.set _ _)[i]? = _
    rw [List.getElem?_set]
    split
    · rw [if_pos (by rw [t3]; exact t7)]; exact ⟨_, rfl⟩
    · exact t4 i hi
  · show w.length = _; rw [hwl, t5]
  · show c1.nextFreeId ≤ c1.capacity
    rw [t2]
    have := Nat.mod_le (c.nextFreeId + 1) u32Size
    omega
  · show w.bit i = _
    rw [hwb, t6]

end Ecs
