import Verif.Proofs.Layout
import Verif.Spec.Accepted

namespace Ecs.Layout
open Spec

theorem firstAligned_iff {o a s : Nat} (ha : 0 < a) : FirstAligned o a s ↔ s = alignUp o a := by
  constructor
  · rintro ⟨h1, h2, h3⟩
    exact Nat.le_antisymm (h3 _ (Nat.dvd_of_mod_eq_zero (alignUp_dvd o a ha)) (alignUp_ge o a)) (alignUp_le_of_dvd h1 h2)
  · rintro rfl
    exact ⟨Nat.dvd_of_mod_eq_zero (alignUp_dvd o a ha), alignUp_ge o a, fun k hk ho => alignUp_le_of_dvd hk ho⟩

theorem packed_iff (U : Universe) (rows : Nat) (ids : List TypeId) (o : Nat) (starts : List Nat) (fin : Nat) :
    Packed U rows o ids starts fin ↔ offsetsLoop rows o ((ids.map U.size).zip (ids.map U.align)) = (starts, fin) := by
  induction ids generalizing o starts fin with
  | nil =>
    constructor
    · rintro ⟨⟩; rfl
    · intro h; cases h; exact .nil o
  | cons t ids ih =>
    have e : offsetsLoop rows o (((t :: ids).map U.size).zip ((t :: ids).map U.align)) =
        (alignUp o (U.align t) :: (offsetsLoop rows (alignUp o (U.align t) + U.size t * rows) ((ids.map U.size).zip (ids.map U.align))).1,
          (offsetsLoop rows (alignUp o (U.align t) + U.size t * rows) ((ids.map U.size).zip (ids.map U.align))).2) := rfl
    rw [e]
    constructor
    · rintro (_ | ⟨h1, h2⟩)
      rw [(firstAligned_iff (U.align_pos t)).1 h1, Nat.mul_comm] at h2
      rw [(firstAligned_iff (U.align_pos t)).1 h1, (ih _ _ _).1 h2]
    · intro h
      cases h
      refine .cons ((firstAligned_iff (U.align_pos t)).2 rfl) ?_
      rw [Nat.mul_comm rows]
      exact (ih _ _ _).2 rfl

theorem largest_unique {m m' : Nat} {l : List Nat} (h : Largest m l) (h' : Largest m' l) : m = m' :=
  Nat.le_antisymm (h'.2 _ h.1) (h.2 _ h'.1)

theorem share_iff {dbg : Bool} {n m r : Nat} : subUsize dbg (PAGE_SIZE / n) (m % 8) = .ok r ↔ share dbg n m = some r := by
  unfold subUsize share
  rw [show PAGE_SIZE / n + usizeSize = 2 ^ 64 + 16384 / n by rw [Nat.add_comm]]
  by_cases h : m % 8 ≤ 16384 / n
  · rw [if_pos h, if_pos h]
    constructor <;> intro h <;> cases h <;> rfl
  · rw [if_neg h, if_neg h]
    cases dbg
    · constructor <;> intro h <;> cases h <;> rfl
    · constructor <;> intro h <;> cases h

theorem mapM_div_ok {r : Nat} {l caps : List Nat} (h : l.mapM (fun s => divChecked r s) = .ok caps) :
    (∀ s ∈ l, 0 < s) ∧ caps = l.map fun s => r / s := by
  induction l generalizing caps with
  | nil => cases h; exact ⟨(fun _ h => by cases h), rfl⟩
  | cons s l ih =>
    rw [mapM_ok_cons] at h
    obtain ⟨c, hc, h⟩ := bind_eq_ok.1 h
    obtain ⟨cs, hcs, h⟩ := bind_eq_ok.1 h
    cases h
    obtain ⟨h1, h2⟩ := ih hcs
    unfold divChecked at hc
    split at hc
    · cases hc
    · rename_i hs
      cases hc
      refine ⟨fun x hx => ?_, by rw [h2]; rfl⟩
      rcases List.mem_cons.1 hx with rfl | hx
      · omega
      · exact h1 x hx

theorem calcCapacity_iff {dbg : Bool} {sizes aligns : List Nat} (hne : sizes ≠ []) (hal : aligns ≠ []) {cap : Nat} :
    calcCapacity dbg sizes aligns = .ok cap ↔ (∀ s ∈ sizes, 0 < s) ∧
      ∃ m z r, Largest m aligns ∧ Largest z sizes ∧ share dbg sizes.length m = some r ∧ cap = r / z := by
  have hlen : sizes.length ≠ 0 := fun h => hne (List.length_eq_zero_iff.1 h)
  obtain ⟨m, hm, hm1, hm2⟩ := maxUnwrap_ne hal
  obtain ⟨z, -, hz1, hz2⟩ := maxUnwrap_ne hne
  have hcc : calcCapacity dbg sizes aligns = (subUsize dbg (PAGE_SIZE / sizes.length) (m % 8) >>= fun r =>
      sizes.mapM (fun s => divChecked r s) >>= fun caps => minUnwrap caps) := by
    unfold calcCapacity
    simp only [hm, ok_bind, divChecked, hlen, if_false]
  have hmin : ∀ r, (∀ s ∈ sizes, 0 < s) → minUnwrap (sizes.map fun s => r / s) = .ok (r / z) := by
    intro r hpos
    obtain ⟨c, hc1, hc2, hc3⟩ := minUnwrap_ne (l := sizes.map (fun s => r / s)) (by simpa using hne)
    rw [hc1]
    congr 1
    obtain ⟨s, hs, rfl⟩ := List.mem_map.1 hc2
    exact Nat.le_antisymm (hc3 _ (List.mem_map.2 ⟨z, hz1, rfl⟩)) (Nat.div_le_div_left (hz2 s hs) (hpos s hs))
  rw [hcc]
  constructor
  · intro h
    obtain ⟨r, hr, h⟩ := bind_eq_ok.1 h
    obtain ⟨caps, hcaps, h⟩ := bind_eq_ok.1 h
    obtain ⟨hpos, rfl⟩ := mapM_div_ok hcaps
    rw [hmin r hpos] at h
    cases h
    exact ⟨hpos, m, z, r, ⟨hm1, hm2⟩, ⟨hz1, hz2⟩, share_iff.1 hr, rfl⟩
  · rintro ⟨hpos, m', z', r, hm', hz', hr, rfl⟩
    rw [largest_unique hm' ⟨hm1, hm2⟩] at hr
    rw [largest_unique hz' ⟨hz1, hz2⟩]
    rw [share_iff.2 hr]
    show (sizes.mapM (fun s => divChecked r s) >>= fun caps => minUnwrap caps) = _
    rw [mapM_of_forall (g := fun s => r / s) fun s hs => by
      have := hpos s hs
      simp [divChecked, Nat.pos_iff_ne_zero.1 this]]
    exact hmin r hpos

theorem new_iff {U : Universe} {dbg : Bool} {a : Archetype} (ha : a.WF U) (l : Layout) :
    Layout.new dbg a = .ok l ↔ Accepted U dbg a.ids l.entitiesCapacity l.offsets := by
  have hs : a.sizes ≠ [] := by rw [ha.sizes]; simpa using ha.ne
  have hal : a.aligns ≠ [] := by rw [ha.aligns]; simpa using ha.ne
  have hlen : a.sizes.length = a.ids.length := by rw [ha.sizes, List.length_map]
  constructor
  · intro h
    unfold Layout.new at h
    obtain ⟨cap, hc, h⟩ := bind_eq_ok.1 h
    obtain ⟨offs, ho, h⟩ := bind_eq_ok.1 h
    cases h
    obtain ⟨hpos, m, z, r, hm, hz, hr, hcap⟩ := (calcCapacity_iff hs hal).1 hc
    unfold calcOffsets at ho
    obtain ⟨_, hf, ho⟩ := bind_eq_ok.1 ho
    cases ho
    unfold rassert at hf
    split at hf
    · rename_i hf'
      rw [ha.sizes] at hpos hz
      rw [ha.aligns] at hm
      rw [hlen] at hr
      refine ⟨fun t ht => hpos _ (List.mem_map.2 ⟨t, ht, rfl⟩), ⟨m, z, r, hm, hz, hr, hcap⟩, _, of_decide_eq_true hf', ?_⟩
      rw [packed_iff, ← ha.sizes, ← ha.aligns]
    · cases hf
  · rintro ⟨hpos, ⟨m, z, r, hm, hz, hr, hcap⟩, fin, hfin, hp⟩
    rw [← ha.sizes] at hz
    rw [← ha.aligns] at hm
    rw [← hlen] at hr
    have hc : calcCapacity dbg a.sizes a.aligns = .ok l.entitiesCapacity := (calcCapacity_iff hs hal).2 ⟨fun s hs => by
      rw [ha.sizes] at hs
      obtain ⟨t, ht, rfl⟩ := List.mem_map.1 hs
      exact hpos t ht, m, z, r, hm, hz, hr, hcap⟩
    rw [packed_iff, ← ha.sizes, ← ha.aligns] at hp
    rw [new_of hc (by rw [hp]; exact hfin), hp]

end Ecs.Layout
