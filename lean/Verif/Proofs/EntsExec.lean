import Verif.Spec.EntsExec
import Verif.Proofs.Entities

namespace Ecs
open Spec

theorem exec_inv {dbg : Bool} {cap : Nat} {h : History} {c : Ents} (hx : EntsExec dbg cap h c)
    (hb : dbg = true ∨ (issued h).length < u32Size) : EntInv c (issued h) (live h) := by
  induction hx with
  | init => exact EntInv.new cap
  | create hx hr ih =>
    have hb' : dbg = true ∨ (issued _).length + 1 < u32Size := hb
    have ih := ih (hb'.imp id (fun h => by omega))
    exact (ih.create_spec hr hb').1
  | destroy e hx hr he ih => exact ((ih hb).destroy_spec hr he).2.1

/-- What growth of the container means. -/
theorem create_capacity {c c' : Ents} {I L : List Entity} {dbg : Bool} {cr : EntityCreation}
    (h : EntInv c I L) (hr : c.create dbg = .ok (c', cr)) (hc : c.capacity < u32Size) :
    c'.capacity = c.capacity ∨ (L.length = c.capacity ∧ c'.capacity = max c.capacity 1 * 2) := by
  unfold Ents.create at hr
  obtain ⟨⟨id, c1⟩, ht, hr⟩ := bind_eq_ok.1 hr
  have hcap : c'.capacity = c1.capacity := by
    dsimp only at hr
    obtain ⟨_, _, hr⟩ := bind_eq_ok.1 hr
    obtain ⟨_, _, hr⟩ := bind_eq_ok.1 hr
    obtain ⟨_, _, hr⟩ := bind_eq_ok.1 hr
    obtain ⟨_, _, hr⟩ := bind_eq_ok.1 hr
    cases hr; rfl
  rw [hcap]
  unfold Ents.takeId at ht
  split at ht
  · cases ht; exact Or.inl rfl
  · rename_i hg
    have hge : c.gapIds = [] := by simpa using hg
    obtain ⟨next, hn, ht⟩ := bind_eq_ok.1 ht
    dsimp only at ht
    split at ht
    · rename_i hw
      right
      have hll := h.live_length
      rw [hge] at hll
      simp only [Ents.willGrowWithId, ge_iff_le, decide_eq_true_eq, Nat.mod_eq_of_lt hc] at hw
      have := h.next_le
      refine ⟨by simp at hll; omega, ?_⟩
      unfold Ents.grow at ht
      rw [if_neg (by show ¬ max c.capacity 1 * 2 ≤ c.capacity; omega)] at ht
      obtain ⟨c2, h2, ht⟩ := bind_eq_ok.1 ht
      obtain ⟨_, _, h2⟩ := bind_eq_ok.1 h2
      obtain ⟨_, _, h2⟩ := bind_eq_ok.1 h2
      cases h2; cases ht; rfl
    · cases ht; exact Or.inl rfl

/-- The high-water mark of ids is bounded by the peak number of live handles, and so is capacity. -/
theorem exec_peak {dbg : Bool} {cap : Nat} {h : History} {c : Ents} (hx : EntsExec dbg cap h c)
    (hb : dbg = true ∨ (issued h).length < u32Size) : c.nextFreeId ≤ peak h := by
  induction hx with
  | init => simp [Ents.new]
  | @create h c c' cr hx hr ih =>
    have hb' : dbg = true ∨ (issued h).length + 1 < u32Size := hb
    have hb0 : dbg = true ∨ (issued h).length < u32Size := hb'.imp id (fun h => by omega)
    have ih := ih hb0
    have hi := exec_inv hx hb0
    have hi' := (hi.create_spec hr hb').1
    have hl := hi'.live_length
    simp only [peak]
    -- either a gap was reused (mark unchanged) or there is no gap left
    by_cases hg : c.gapIds = []
    · have hg' : c'.gapIds = [] := by
        unfold Ents.create at hr
        obtain ⟨⟨id, c1⟩, ht, hr⟩ := bind_eq_ok.1 hr
        dsimp only at hr
        obtain ⟨_, _, hr⟩ := bind_eq_ok.1 hr
        obtain ⟨_, _, hr⟩ := bind_eq_ok.1 hr
        obtain ⟨_, _, hr⟩ := bind_eq_ok.1 hr
        obtain ⟨_, _, hr⟩ := bind_eq_ok.1 hr
        cases hr
        show c1.gapIds = []
        unfold Ents.takeId at ht
        rw [hg] at ht
        simp only [List.getLast?_nil] at ht
        obtain ⟨next, hn, ht⟩ := bind_eq_ok.1 ht
        split at ht
        · unfold Ents.grow at ht
          rw [if_neg (by show ¬ max c.capacity 1 * 2 ≤ c.capacity; omega)] at ht
          obtain ⟨c2, h2, ht⟩ := bind_eq_ok.1 ht
          obtain ⟨_, _, h2⟩ := bind_eq_ok.1 h2
          obtain ⟨_, _, h2⟩ := bind_eq_ok.1 h2
          cases h2; cases ht; rw [← hg]
        · cases ht; rw [← hg]
      rw [hg'] at hl
      simp only [List.length_nil, Nat.add_zero] at hl
      show _ ≤ max (live (EntEvent.created cr.entity :: h)).length _
      rw [show live (EntEvent.created cr.entity :: h) = cr.entity :: live h from rfl, hl]
      omega
    · have hn : c'.nextFreeId = c.nextFreeId := by
        unfold Ents.create at hr
        obtain ⟨⟨id, c1⟩, ht, hr⟩ := bind_eq_ok.1 hr
        dsimp only at hr
        obtain ⟨_, _, hr⟩ := bind_eq_ok.1 hr
        obtain ⟨_, _, hr⟩ := bind_eq_ok.1 hr
        obtain ⟨_, _, hr⟩ := bind_eq_ok.1 hr
        obtain ⟨_, _, hr⟩ := bind_eq_ok.1 hr
        cases hr
        show c1.nextFreeId = _
        unfold Ents.takeId at ht
        cases hgl : c.gapIds.getLast? with
        | none => exact absurd (by simpa using hgl) hg
        | some id' => rw [hgl] at ht; cases ht; rfl
      omega
  | @destroy h c c' e hx hr he ih =>
    have ih := ih hb
    have hi := exec_inv hx hb
    obtain ⟨hm, hi', _, _⟩ := hi.destroy_spec hr he
    have hl := hi.live_length
    have hl' := hi'.live_length
    have hn : c'.nextFreeId ≤ c.nextFreeId := by
      have hm' : e.id < c.nextFreeId := (hi.ids e.id).1 (Or.inl (List.mem_map.2 ⟨e, hm, rfl⟩))
      unfold Ents.destroy at hr
      obtain ⟨_, _, hr⟩ := bind_eq_ok.1 hr
      have : ∀ b, ((do
          let lastId ← subU32 dbg c.nextFreeId 1
          if e.id = lastId then return { c with aliveBits := b, nextFreeId := e.id }
          else return { c with aliveBits := b, gapIds := c.gapIds ++ [e.id] } : Res Ents)) = .ok c' →
          c'.nextFreeId ≤ c.nextFreeId := by
        intro b hh
        obtain ⟨_, _, hh⟩ := bind_eq_ok.1 hh
        split at hh
        · cases hh; show e.id ≤ _; omega
        · cases hh; exact Nat.le_refl _
      cases dbg
      · simp only [Bool.false_eq_true, if_false] at hr
        obtain ⟨b, _, hr⟩ := bind_eq_ok.1 hr
        exact this b hr
      · simp only [if_true] at hr
        obtain ⟨_, _, hr⟩ := bind_eq_ok.1 hr
        obtain ⟨_, _, hr⟩ := bind_eq_ok.1 hr
        obtain ⟨b, _, hr⟩ := bind_eq_ok.1 hr
        exact this b hr
    simp only [peak]; omega

theorem exec_capacity {dbg : Bool} {cap : Nat} {h : History} {c : Ents} (hx : EntsExec dbg cap h c)
    (hb : dbg = true ∨ (issued h).length < u32Size) (hc : cap < u32Size)
    (hp : peak h < 2147483648) : c.capacity ≤ max cap (2 * peak h) := by
  induction hx with
  | init => simp [Ents.new]; omega
  | @create h c c' cr hx hr ih =>
    have hb' : dbg = true ∨ (issued h).length + 1 < u32Size := hb
    have hb0 : dbg = true ∨ (issued h).length < u32Size := hb'.imp id (fun h => by omega)
    simp only [peak] at hp ⊢
    have ih := ih hb0 (by omega)
    have hi := exec_inv hx hb0
    have hlt : c.capacity < u32Size := by omega
    have hlive : (live (EntEvent.created cr.entity :: h)).length = (live h).length + 1 := rfl
    rcases create_capacity hi hr hlt with he | ⟨h1, h2⟩
    · omega
    · rw [h2]; omega
  | @destroy h c c' e hx hr he ih =>
    simp only [peak] at hp ⊢
    have ih := ih hb (by omega)
    obtain ⟨_, _, h3, _⟩ := (exec_inv hx hb).destroy_spec hr he
    omega

end Ecs
