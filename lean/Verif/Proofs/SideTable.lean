import Verif.Spec.SideTable
import Verif.Proofs.EntsOf
import Mathlib.Data.List.Perm.Subperm

/-! The numbering of handles, and tables beside a store. -/

namespace Ecs
open Spec

section
variable {dbg : Bool} {cap : Nat} {h : History} {c : Ents}

theorem uses_cons (h : History) (e : Entity) (i : Nat) :
    uses (.created e :: h) i = uses h i + if e.id = i then 1 else 0 := by
  unfold uses
  simp only [issued, List.filter_cons]
  by_cases he : e.id = i <;> simp [he]

/-- The handles given out so far, and those alive. -/
theorem numbered (hx : EntsExec dbg cap h c) (hb : dbg = true ∨ (issued h).length < u32Size) :
    (∀ e, e ∈ issued h ↔ 1 ≤ e.version ∧ e.version ≤ uses h e.id) ∧ (∀ e ∈ live h, e.version = uses h e.id) ∧
    ∀ i, (∃ e ∈ issued h, e.id = i) ↔ i < peak h := by
  induction hx with
  | init =>
    refine ⟨fun e => ⟨fun h => (by cases h), fun h => ?_⟩, fun e he => (by cases he), fun i => ⟨?_, fun h => ?_⟩⟩
    · have : e.version ≤ 0 := h.2
      omega
    · rintro ⟨e, he, -⟩
      cases he
    · cases h
  | @create h c c' cr hx hr ih =>
    have hb' : dbg = true ∨ (issued h).length + 1 < u32Size := hb
    have hb0 : dbg = true ∨ (issued h).length < u32Size := hb'.imp id (fun h => by omega)
    obtain ⟨ih1, ih2, ih3⟩ := ih hb0
    have hn := create_next hx hr hb'
    have hv : cr.entity.version = uses h cr.entity.id + 1 := by rw [hn]; rfl
    have hx' : EntsExec dbg cap (.created cr.entity :: h) c' := .create hx hr
    have hi := exec_inv hx' hb
    have hp := exec_peak hx' hb
    have hids : ∀ e ∈ live (.created cr.entity :: h), e.id < peak (.created cr.entity :: h) := fun e he =>
      Nat.lt_of_lt_of_le ((hi.ids e.id).1 (.inl (List.mem_map_of_mem he))) hp
    refine ⟨fun e => ?_, fun e he => ?_, fun i => ⟨?_, fun hlt => ?_⟩⟩
    · rw [uses_cons]
      show e ∈ cr.entity :: issued h ↔ _
      rw [List.mem_cons, ih1]
      by_cases hid : cr.entity.id = e.id
      · rw [if_pos hid]
        constructor
        · rintro (rfl | ⟨h1, h2⟩)
          · rw [hv]; omega
          · omega
        · rintro ⟨h1, h2⟩
          by_cases h3 : e.version = uses h e.id + 1
          · left
            cases e
            generalize cr.entity = x at *
            cases x
            simp_all
          · right; omega
      · rw [if_neg hid]
        constructor
        · rintro (rfl | h1)
          · exact absurd rfl hid
          · exact h1
        · exact .inr
    · rw [uses_cons]
      rcases List.mem_cons.1 (show e ∈ cr.entity :: live h from he) with rfl | he'
      · rw [if_pos rfl, hv]
      · by_cases hid : cr.entity.id = e.id
        · have hee := hi.eq_of_id (List.mem_cons_self (l := live h)) he hid
          rw [← hee, if_pos rfl, hv]
        · rw [if_neg hid, ih2 e he']
          rfl
    · rintro ⟨e, he, rfl⟩
      rcases List.mem_cons.1 (show e ∈ cr.entity :: issued h from he) with rfl | he'
      · exact hids _ List.mem_cons_self
      · exact Nat.lt_of_lt_of_le ((ih3 e.id).1 ⟨e, he', rfl⟩) (Nat.le_max_right _ _)
    · by_cases hle : (live (.created cr.entity :: h)).length ≤ peak h
      · rw [peak, Nat.max_eq_right hle] at hlt
        obtain ⟨e, he, hid⟩ := (ih3 i).2 hlt
        exact ⟨e, List.mem_cons_of_mem _ he, hid⟩
      · rw [peak, Nat.max_eq_left (by omega)] at hlt hids
        have hall : ((live (.created cr.entity :: h)).map (·.id)).Perm (List.range (live (.created cr.entity :: h)).length) := by
          refine (hi.nodup_live_ids.subperm fun j hj => ?_).perm_of_length_le (by simp)
          obtain ⟨e, he, rfl⟩ := List.mem_map.1 hj
          exact List.mem_range.2 (hids e he)
        obtain ⟨e, he, hid⟩ := List.mem_map.1 (hall.mem_iff.2 (List.mem_range.2 hlt))
        exact ⟨e, hi.sub e he, hid⟩
  | @destroy h c c' e hx hr hd ih =>
    obtain ⟨ih1, ih2, ih3⟩ := ih hb
    refine ⟨ih1, fun x hx => ih2 x (List.mem_of_mem_erase hx), fun i => (ih3 i).trans ?_⟩
    have h1 : (live h).length ≤ peak h := by
      cases h with
      | nil => exact Nat.zero_le _
      | cons ev h => exact Nat.le_max_left _ _
    show i < peak h ↔ i < max ((live h).erase e).length (peak h)
    rw [Nat.max_eq_right (Nat.le_trans List.erase_sublist.length_le h1)]

end

section
variable {α : Type} {U : Universe} {dbg : Bool} {cap : Nat} {s : Store} {e : Entity}

theorem put_issued {k : ClientLog α} (hx : LooseExec U dbg cap (ClientLog.calls k) s) (hp : k.Proper) {v : α} (h : ClientLog.lastPut e k = some v) :
    e ∈ handles (ClientLog.calls k) := by
  induction k generalizing s with
  | nil => cases h
  | cons x k ih =>
    cases x with
    | inl ev =>
      cases hx with
      | step _ hx h1 h2 =>
        have := ih hx hp h
        show e ∈ handles (ev :: ClientLog.calls k)
        cases ev <;> simp [handles, this]
    | inr p =>
      obtain ⟨x, w⟩ := p
      simp only [ClientLog.lastPut] at h
      split at h
      · rename_i hxe
        subst hxe
        rw [handles_eq]
        exact (loose_core (h := ClientLog.calls k) hx).ents.sub x (by rw [← alive_eq]; exact hp.1)
      · exact ih hx hp.2 h

end
end Ecs
