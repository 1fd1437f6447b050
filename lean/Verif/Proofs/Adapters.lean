import Verif.Spec.Adapters
import Verif.Proofs.Basic

/-! Lengths that adapters report. -/

namespace Ecs
open Spec

theorem everyNth_length {α : Type} (k : Nat) (l : List α) :
    (everyNth k l).length = if l.length = 0 then 0 else 1 + (l.length - 1) / (k + 1) := by
  induction h : l.length using Nat.strongRecOn generalizing l with
  | _ n ih =>
    subst h
    match l with
    | [] => rw [everyNth]; rfl
    | x :: l =>
      have hlt : (l.drop k).length < (x :: l).length := by simp only [List.length_drop, List.length_cons]; omega
      rw [everyNth, List.length_cons, ih _ hlt _ rfl, if_neg (show (x :: l).length ≠ 0 by simp), List.length_drop, List.length_cons,
        Nat.add_sub_cancel]
      by_cases h : l.length - k = 0
      · rw [if_pos h, Nat.div_eq_of_lt (by omega)]
      · rw [if_neg h]
        have e : l.length / (k + 1) = (l.length - k - 1) / (k + 1) + 1 := by
          rw [show l.length / (k + 1) = ((l.length - k - 1) + (k + 1)) / (k + 1) by congr 1; omega,
            Nat.add_div_right _ (Nat.succ_pos k)]
        omega

namespace Chain

theorem count_take (n : Nat) (c : Chain) : count (.take n c) = min n (count c) := by simp [count]
theorem count_skip (n : Nat) (c : Chain) : count (.skip n c) = count c - n := by simp [count]
theorem count_zip (c d : Chain) : count (.zip c d) = min (count c) (count d) := by simp [count]
theorem count_stepBy (k : Nat) (c : Chain) :
    count (.stepBy k c) = if count c = 0 then 0 else 1 + (count c - 1) / (k + 1) := by
  rw [count, everyNth_length, List.length_range]

theorem step_mono (k : Nat) {m n : Nat} (h : m ≤ n) :
    (if m = 0 then 0 else 1 + (m - 1) / (k + 1)) ≤ if n = 0 then 0 else 1 + (n - 1) / (k + 1) := by
  have : (m - 1) / (k + 1) ≤ (n - 1) / (k + 1) := Nat.div_le_div_right (by omega)
  by_cases hm : m = 0
  · rw [if_pos hm]; exact Nat.zero_le _
  · rw [if_neg hm, if_neg (by omega)]
    exact Nat.add_le_add_left this 1

/-- The upper bounds are right. -/
theorem hint_upper {q : Nat → Nat × Option Nat} (hq : ∀ n x, (q n).2 = some x → n ≤ x) (c : Chain) :
    ∀ x, (c.hint q).2 = some x → count c ≤ x := by
  induction c with
  | query n => exact hq n
  | slice n => intro x h; cases h; exact Nat.le_refl _
  | each c ih => exact ih
  | take n c ih =>
    intro x h
    rw [count_take]
    unfold hint at h
    split at h
    · cases h; omega
    · dsimp only at h
      split at h
      · next y hy =>
        have := ih y hy
        split at h <;> cases h <;> omega
      · cases h; omega
  | skip n c ih =>
    intro x h
    rw [count_skip]
    unfold hint at h
    obtain ⟨y, hy, rfl⟩ := Option.map_eq_some_iff.1 h
    have := ih y hy
    omega
  | peekable c ih => exact ih
  | stepBy k c ih =>
    intro x h
    rw [count_stepBy]
    unfold hint at h
    obtain ⟨y, hy, rfl⟩ := Option.map_eq_some_iff.1 h
    exact step_mono k (ih y hy)
  | zip c d ihc ihd =>
    intro x h
    rw [count_zip]
    unfold hint at h
    dsimp only at h
    split at h
    · next y z h1 h2 => cases h; have := ihc y h1; have := ihd z h2; omega
    · next y h1 h2 => cases h; have := ihc _ h1; omega
    · next y h1 h2 => cases h; have := ihd _ h2; omega
    · cases h

/-- With a query the lower bound is zero. -/
theorem hint_lower {q : Nat → Nat × Option Nat} (hq : ∀ n, (q n).1 = 0) (c : Chain) (h : hasQuery c = true) : (c.hint q).1 = 0 := by
  induction c with
  | query n => exact hq n
  | slice n => cases h
  | each c ih => exact ih h
  | take n c ih =>
    unfold hint
    split
    · rfl
    · dsimp only; rw [ih h]; omega
  | skip n c ih => unfold hint; dsimp only; rw [ih h]; omega
  | peekable c ih => exact ih h
  | stepBy k c ih => unfold hint; dsimp only; rw [ih h]; rfl
  | zip c d ihc ihd =>
    unfold hint
    dsimp only
    rw [hasQuery, Bool.or_eq_true] at h
    rcases h with h | h
    · rw [ihc h]; omega
    · rw [ihd h]; omega

/-- With exact hints of the queries all hints are exact. -/
theorem hint_exact {q : Nat → Nat × Option Nat} (c : Chain) (hq : hasQuery c = true → ∀ n, q n = (n, some n)) :
    c.hint q = (count c, some (count c)) := by
  induction c with
  | query n => exact hq rfl n
  | slice n => rfl
  | each c ih => exact ih hq
  | take n c ih =>
    unfold hint
    rw [ih hq, count_take]
    dsimp only
    split
    · next h => subst h; simp
    · split <;> simp <;> omega
  | skip n c ih =>
    unfold hint
    rw [ih hq, count_skip]
    rfl
  | peekable c ih => exact ih hq
  | stepBy k c ih =>
    unfold hint
    rw [ih hq, count_stepBy]
    rfl
  | zip c d ihc ihd =>
    unfold hint
    rw [ihc (fun h => hq (by rw [hasQuery, h, Bool.true_or])), ihd (fun h => hq (by rw [hasQuery, h, Bool.or_true])), count_zip]

theorem defaultLen_exact (n : Nat) : defaultLen (n, some n) = .ok n := by
  unfold defaultLen
  simp [rassert, ok_bind]

theorem defaultLen_cases (x : Nat × Option Nat) :
    (x.2 = some x.1 ∧ defaultLen x = .ok x.1) ∨ (x.2 ≠ some x.1 ∧ defaultLen x = .error (.panic .assertFailed)) := by
  unfold defaultLen
  by_cases h : x.2 = some x.1
  · exact .inl ⟨h, by simp only [h, decide_true]; rfl⟩
  · exact .inr ⟨h, by simp only [h, decide_false]; rfl⟩

/-- The adapters that compute a length from the hint. -/
def computes : Chain → Bool
  | take .. | skip .. | peekable _ | stepBy .. | zip .. => true
  | _ => false

theorem len_computes {q : Nat → Nat × Option Nat} {c : Chain} (h : computes c = true) : c.len q = defaultLen (c.hint q) := by
  cases c <;> first | rfl | cases h

/-- A hint that is exact is right. -/
theorem hint_right (c : Chain) (h : (c.hint fun _ => queryHint).2 = some (c.hint fun _ => queryHint).1) :
    (c.hint fun _ => queryHint).1 = count c := by
  by_cases hq : hasQuery c = true
  · have h0 := hint_lower (q := fun _ => queryHint) (fun _ => rfl) c hq
    rw [h0] at h ⊢
    have := hint_upper (q := fun _ => queryHint) (fun n x hx => by cases hx) c 0 h
    omega
  · rw [hint_exact c (fun h => absurd h hq)]

end Chain
end Ecs
