import Verif.Proofs.Stale
import Verif.Proofs.EntsOf
import Verif.Proofs.Shape

/-! Ids the store never issued. -/

namespace Ecs
open Spec

/-- Every id below `next_free_id` was issued. -/
theorem next_issued {dbg : Bool} {cap : Nat} {h : History} {c : Ents} (hx : EntsExec dbg cap h c)
    (hb : dbg = true ∨ (issued h).length < u32Size) : ∀ i, i < c.nextFreeId → ∃ x ∈ issued h, x.id = i := by
  induction hx with
  | init => intro i hi; simp [Ents.new] at hi
  | @create h c c' cr hx hr ih =>
    have hb0 : dbg = true ∨ (issued h).length < u32Size :=
      hb.imp id (fun h => by simp only [issued, List.length_cons] at h; omega)
    intro i hi
    unfold Ents.create at hr
    obtain ⟨⟨id, c1⟩, ht, hr⟩ := bind_eq_ok.1 hr
    obtain ⟨_, _, hr⟩ := bind_eq_ok.1 hr
    obtain ⟨_, _, hr⟩ := bind_eq_ok.1 hr
    obtain ⟨_, _, hr⟩ := bind_eq_ok.1 hr
    obtain ⟨_, _, hr⟩ := bind_eq_ok.1 hr
    cases hr
    dsimp only at hi
    have key : i = id ∨ i < c.nextFreeId := by
      unfold Ents.takeId at ht
      split at ht
      · cases ht; exact .inr hi
      · obtain ⟨n, hn, ht⟩ := bind_eq_ok.1 ht
        have hle : n ≤ c.nextFreeId + 1 := by
          unfold addU32 at hn
          split at hn
          · cases hn; omega
          · split at hn
            · cases hn
            · cases hn; exact Nat.mod_le _ _
        have : id = c.nextFreeId ∧ c1.nextFreeId = n := by
          dsimp only at ht
          split at ht
          · obtain ⟨c2, h2, ht⟩ := bind_eq_ok.1 ht
            cases ht
            refine ⟨rfl, ?_⟩
            unfold Ents.grow at h2
            split at h2
            · cases h2; rfl
            · obtain ⟨_, _, h2⟩ := bind_eq_ok.1 h2
              obtain ⟨_, _, h2⟩ := bind_eq_ok.1 h2
              cases h2; rfl
          · cases ht; exact ⟨rfl, rfl⟩
        omega
    rcases key with rfl | hlt
    · exact ⟨_, List.mem_cons_self, rfl⟩
    · obtain ⟨x, h1, h2⟩ := ih hb0 i hlt
      exact ⟨x, List.mem_cons_of_mem _ h1, h2⟩
  | @destroy h c c' e hx hr he ih =>
    intro i hi
    have hb0 : dbg = true ∨ (issued h).length < u32Size := hb
    refine ih hb0 i ?_
    have hinv := exec_inv hx hb0
    have hl := (hinv.destroy_spec hr he).1
    have hlt : e.id < c.nextFreeId := (hinv.ids e.id).1 (.inl (List.mem_map_of_mem hl))
    unfold Ents.destroy at hr
    obtain ⟨_, _, hr⟩ := bind_eq_ok.1 hr
    have : c'.nextFreeId = e.id ∨ c'.nextFreeId = c.nextFreeId := by
      split at hr
      all_goals
        simp only [bind_assoc] at hr
        repeat (first | (obtain ⟨_, _, hr⟩ := bind_eq_ok.1 hr) | split at hr)
        all_goals (cases hr; simp)
    omega

section
variable {U : Universe} {dbg : Bool} {cap : Nat} {h : List Event} {s : Store}

/-- An id that was never issued is behind all ids handed out so far. -/
theorem next_le_of_fresh (hx : LooseExec U dbg cap h s) {i : Nat} (hn : ∀ x ∈ handles h, x.id ≠ i) : s.ents.nextFreeId ≤ i := by
  by_contra hlt
  obtain ⟨x, h1, h2⟩ := next_issued (loose_ents hx) (by rw [issued_entHistory]; exact .inr (issued_lt hx)) i (by omega)
  rw [issued_entHistory] at h1
  exact hn x h1 h2

/-- Destroying an id that was never issued removes no row. -/
theorem destroyRow_fresh (hx : LooseExec U dbg cap h s) {e : Entity} (hc : e.id < s.ents.capacity)
    (hn : ∀ x ∈ handles h, x.id ≠ e.id) : s.destroyRow e = .ok s := by
  have hcr := loose_core hx
  have hbit : s.hasArch.bit e.id = false := by
    by_contra hb
    obtain ⟨x, h1, h2⟩ := bit_given hx e.id (by simpa using hb)
    exact hn x ((given_bit hx).1 x h1) h2
  unfold Store.destroyRow
  rw [Words.isOn_of_lt (by rw [hcr.blen]; exact Words.div_lt_getLen hc), hbit]
  rfl

end
/-- An id that was ever given a row is that of an entity that was given components. -/
theorem stored_given {h : List Event} {i : Nat} (hi : i ∈ stored h) : ∃ x ∈ given h, x.id = i := by
  induction h with
  | nil => cases hi
  | cons ev h ih =>
    cases ev with
    | createdWith e ts f =>
      rcases List.mem_cons.1 hi with rfl | hi
      · exact ⟨e, List.mem_cons_self, rfl⟩
      · obtain ⟨x, h1, h2⟩ := ih hi
        exact ⟨x, List.mem_cons_of_mem _ h1, h2⟩
    | added e vals =>
      by_cases ha : e ∈ alive h
      · simp only [stored, given, ha, if_true] at hi ⊢
        rcases List.mem_cons.1 hi with rfl | hi
        · exact ⟨e, List.mem_cons_self, rfl⟩
        · obtain ⟨x, h1, h2⟩ := ih hi
          exact ⟨x, List.mem_cons_of_mem _ h1, h2⟩
      · simp only [stored, given, ha, if_false] at hi ⊢
        exact ih hi
    | _ => exact ih hi

end Ecs
