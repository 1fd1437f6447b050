import Verif.Spec.Life
import Verif.Proofs.StoreExec
import Verif.Proofs.History

/-! The part of the world that belongs to one entity is a function of the life of that entity. -/

namespace Ecs
open Spec

/-- The part of the world that belongs to one entity. -/
@[ext] structure Self where
  live : Bool
  types : List TypeId
  value : TypeId → List Cell
  tags : Nat → Bool

/-- The part of `w` that belongs to `e`. -/
def selfOf (w : World) (e : Entity) : Self where
  live := decide (e ∈ w.live)
  types := w.types e
  value := w.value e
  tags := fun t => w.tags t e

/-- What a deed does. -/
def Self.step (x : Self) : Deed → Self
  | .create => { x with live := true, types := [], tags := fun _ => false }
  | .createWith ts init => { live := true, types := ts, value := init, tags := fun _ => false }
  | .destroy => { x with live := false, types := [], tags := fun _ => false }
  | .add vals =>
    if x.live then { x with types := if ∀ p ∈ vals, p.1 ∈ x.types then x.types
                                     else x.types ++ (vals.map (·.1)).filter (· ∉ x.types)
                            value := store vals x.value }
    else x
  | .remove ts => if x.live then { x with types := x.types.filter (· ∉ ts) } else x
  | .assign vals => if x.live ∧ ∀ p ∈ vals, p.1 ∈ x.types then { x with value := store vals x.value } else x
  | .tag t => { x with tags := at' x.tags t true }
  | .untag t => { x with tags := at' x.tags t false }

def selfOfLife : List Deed → Self
  | [] => ⟨false, [], fun _ => [], fun _ => false⟩
  | d :: l => (selfOfLife l).step d

theorem self_apply {w : World} (hn : w.live.Nodup) (e : Entity) (ev : Event) :
    selfOf (w.apply ev) e = match deed e ev with
      | some d => (selfOf w e).step d
      | none => selfOf w e := by
  have set : ∀ (x : Entity) (T : List TypeId), x ≠ e → selfOf (w.setTypes x T) e = selfOf w e := by
    intro x T hx
    ext1 <;> first | rfl | simp [selfOf, World.setTypes, at', Ne.symm hx]
  cases ev with
  | created x =>
    by_cases hx : x = e
    · subst x; simp only [deed, if_true, World.apply]
      ext1 <;> simp [selfOf, World.birth, Self.step, at']
    · simp only [deed, if_neg hx, World.apply]
      ext1 <;> simp [selfOf, World.birth, at', Ne.symm hx]
  | createdWith x ts init =>
    by_cases hx : x = e
    · subst x; simp only [deed, if_true, World.apply]
      ext1 <;> simp [selfOf, World.birth, World.setTypes, Self.step, at']
    · simp only [deed, if_neg hx, World.apply]
      ext1 <;> simp [selfOf, World.birth, World.setTypes, at', Ne.symm hx]
  | destroyed x =>
    by_cases hx : x = e
    · subst x; simp only [deed, if_true, World.apply]
      ext1 <;> simp [selfOf, Self.step, at', hn.mem_erase_iff]
    · simp only [deed, if_neg hx, World.apply]
      ext1 <;> simp [selfOf, at', Ne.symm hx, hn.mem_erase_iff]
  | added x vals =>
    by_cases hx : x = e
    · subst x; simp only [deed, if_true, World.apply]
      by_cases hl : e ∈ w.live
      · have hl' : (selfOf w e).live = true := by simp [selfOf, hl]
        rw [if_pos hl]
        simp only [Self.step]
        rw [if_pos hl']
        by_cases ha : ∀ p ∈ vals, p.1 ∈ w.types e
        · rw [if_pos ha, if_pos (show ∀ p ∈ vals, p.1 ∈ (selfOf w e).types from ha)]
          ext1 <;> simp [at', selfOf]
        · rw [if_neg ha, if_neg (show ¬ ∀ p ∈ vals, p.1 ∈ (selfOf w e).types from ha)]
          ext1 <;> simp [at', selfOf, World.setTypes] <;> congr 1 <;> funext y <;> by_cases hy : y ∈ w.types e <;> simp [hy]
      · have hl' : ¬ (selfOf w e).live = true := by simp [selfOf, hl]
        rw [if_neg hl]
        simp only [Self.step]
        rw [if_neg hl']
    · simp only [deed, if_neg hx, World.apply]
      by_cases hl : x ∈ w.live
      · rw [if_pos hl]
        by_cases ha : ∀ p ∈ vals, p.1 ∈ w.types x
        · rw [if_pos ha]
          ext1 <;> simp [selfOf, at', Ne.symm hx]
        · rw [if_neg ha]
          ext1 <;> simp [selfOf, at', Ne.symm hx, World.setTypes]
      · rw [if_neg hl]
  | removed x ts =>
    by_cases hx : x = e
    · subst x; simp only [deed, if_true, World.apply]
      by_cases hl : e ∈ w.live
      · have hl' : (selfOf w e).live = true := by simp [selfOf, hl]
        rw [if_pos hl]
        simp only [Self.step]
        rw [if_pos hl']
        ext1 <;> simp [selfOf, World.setTypes, at']
      · have hl' : ¬ (selfOf w e).live = true := by simp [selfOf, hl]
        rw [if_neg hl]
        simp only [Self.step]
        rw [if_neg hl']
    · simp only [deed, if_neg hx, World.apply]
      by_cases hl : x ∈ w.live
      · rw [if_pos hl]; exact set x _ hx
      · rw [if_neg hl]
  | assigned x vals =>
    by_cases hx : x = e
    · subst x; simp only [deed, if_true, World.apply]
      by_cases hl : e ∈ w.live ∧ ∀ p ∈ vals, p.1 ∈ w.types e
      · rw [if_pos hl]
        have : (selfOf w e).live = true ∧ ∀ p ∈ vals, p.1 ∈ (selfOf w e).types := ⟨by simp [selfOf, hl.1], hl.2⟩
        simp only [Self.step]
        rw [if_pos this]
        ext1 <;> simp [selfOf, at']
      · rw [if_neg hl]
        have : ¬ ((selfOf w e).live = true ∧ ∀ p ∈ vals, p.1 ∈ (selfOf w e).types) :=
          fun h => hl ⟨by simpa [selfOf] using h.1, h.2⟩
        simp only [Self.step]
        rw [if_neg this]
    · simp only [deed, if_neg hx, World.apply]
      split
      · ext1 <;> simp [selfOf, at', Ne.symm hx]
      · rfl
  | tagged t x =>
    by_cases hx : x = e
    · subst x; simp only [deed, if_true, World.apply]
      ext1 <;> try rfl
      funext t'
      simp only [selfOf, Self.step, at']
      split
      · simp [at']
      · rfl
    · simp only [deed, if_neg hx, World.apply]
      ext1 <;> try rfl
      funext t'
      simp only [selfOf, at']
      split
      · subst t'; simp [at', Ne.symm hx]
      · rfl
  | untagged t x =>
    by_cases hx : x = e
    · subst x; simp only [deed, if_true, World.apply]
      ext1 <;> try rfl
      funext t'
      simp only [selfOf, Self.step, at']
      split
      · simp [at']
      · rfl
    · simp only [deed, if_neg hx, World.apply]
      ext1 <;> try rfl
      funext t'
      simp only [selfOf, at']
      split
      · subst t'; simp [at', Ne.symm hx]
      · rfl
  | orderedLast g x => rfl
  | orderedAfter g x y => rfl
  | orderedBefore g x y => rfl
  | unordered g x => rfl

theorem self_life {U : Universe} {dbg : Bool} {cap : Nat} {h : List Event} {s : Store} (hx : Exec U dbg cap h s) (e : Entity) :
    selfOf (world h) e = selfOfLife (life e h) := by
  induction hx with
  | init _ => rfl
  | @step h s s' ev hx _ _ _ ih =>
    show selfOf ((world h).apply ev) e = _
    rw [self_apply (exec_rel hx).ents.nodup_live]
    unfold life at ih ⊢
    rw [List.filterMap_cons]
    cases deed e ev with
    | none => exact ih
    | some d =>
      show (selfOf (world h) e).step d = (selfOfLife (h.filterMap (deed e))).step d
      rw [ih]

/-- A creation. -/
def Deed.isBirth : Deed → Bool
  | .create => true
  | .createWith _ _ => true
  | _ => false

theorem handles_life (e : Entity) (h : List Event) : e ∈ handles h ↔ ∃ d ∈ life e h, Deed.isBirth d = true := by
  induction h with
  | nil => simp [handles, life]
  | cons ev h ih =>
    unfold life at ih ⊢
    rw [List.filterMap_cons]
    have two : ∀ (x : Entity), e = x ∨ x ≠ e := fun x => (eq_or_ne e x).imp id Ne.symm
    cases ev with
    | created x => rcases two x with rfl | hx <;> simp_all [handles, deed, Deed.isBirth, Ne.symm]
    | createdWith x _ _ => rcases two x with rfl | hx <;> simp_all [handles, deed, Deed.isBirth, Ne.symm]
    | destroyed x => rcases two x with rfl | hx <;> simp_all [handles, deed, Deed.isBirth]
    | added x _ => rcases two x with rfl | hx <;> simp_all [handles, deed, Deed.isBirth]
    | removed x _ => rcases two x with rfl | hx <;> simp_all [handles, deed, Deed.isBirth]
    | assigned x _ => rcases two x with rfl | hx <;> simp_all [handles, deed, Deed.isBirth]
    | tagged _ x => rcases two x with rfl | hx <;> simp_all [handles, deed, Deed.isBirth]
    | untagged _ x => rcases two x with rfl | hx <;> simp_all [handles, deed, Deed.isBirth]
    | _ => simpa [handles, deed] using ih

end Ecs
