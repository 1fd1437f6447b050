import Verif.Model.Query
import Verif.Spec.Iter
import Verif.Proofs.QueryRun

/-! `len` of an iterator does not change while it is used; what is left after some calls. -/

namespace Ecs
open Spec

theorem CompIter.next_len {it it' : CompIter} {r : Option (List Ref)} (h : it.next = .ok (r, it')) : it'.len = it.len := by
  unfold CompIter.next at h
  split at h
  · cases h; rfl
  · dsimp only at h
    split at h
    · obtain ⟨v, _, h⟩ := bind_eq_ok.1 h
      cases h; rfl
    · cases h; rfl

theorem OrdIter.next_len {dbg : Bool} {it it' : OrdIter} {r : Option (List Ref)} (h : it.next dbg = .ok (r, it')) :
    it'.len = it.len := by
  unfold OrdIter.next at h
  split at h
  · cases h; rfl
  · obtain ⟨⟨rg, v⟩, _, h⟩ := bind_eq_ok.1 h
    obtain ⟨l, _, h⟩ := bind_eq_ok.1 h
    split at h <;> cases h <;> rfl

namespace Spec.Taken

variable {σ α : Type} {next : σ → Res (Option α × σ)}

theorem len_const {len : σ → Nat} (hl : ∀ it r it', next it = .ok (r, it') → len it' = len it) {k : Nat} {it it' : σ}
    (h : Taken next k it it') : len it' = len it := by
  induction h with
  | none => rfl
  | more h1 _ ih => rw [ih, hl _ _ _ h1]

/-- As many calls as there are items can be made; they leave the rest of the items. -/
theorem of_drain {fuel k : Nat} {it : σ} {items : List α} (h : drain next fuel it = .ok items) (hk : k ≤ items.length) :
    ∃ it', Taken next k it it' ∧ drain next (fuel - k) it' = .ok (items.drop k) := by
  induction k generalizing fuel it items with
  | zero => exact ⟨it, .none it, h⟩
  | succ k ih =>
    cases fuel with
    | zero => cases h
    | succ fuel =>
      unfold drain at h
      obtain ⟨⟨r, it1⟩, h1, h⟩ := bind_eq_ok.1 h
      cases r with
      | none => cases h; simp at hk
      | some a =>
        obtain ⟨rest, h2, h⟩ := bind_eq_ok.1 h
        cases h
        obtain ⟨it', h3, h4⟩ := ih h2 (by simpa using hk)
        refine ⟨it', .more h1 h3, ?_⟩
        rw [Nat.add_sub_add_right]
        exact h4

/-- The iterator after `k` calls is determined. -/
theorem unique {k : Nat} {it a b : σ} (h : Taken next k it a) (h' : Taken next k it b) : a = b := by
  induction h generalizing b with
  | none => cases h'; rfl
  | more h1 _ ih =>
    cases h' with
    | more h2 h3 =>
      rw [h1] at h2
      cases h2
      exact ih h3

end Spec.Taken

end Ecs
