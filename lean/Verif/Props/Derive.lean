import Verif.Model.Derive
import Verif.Props.Layout
import Verif.Proofs.LayoutExact
import Verif.Spec.Run

/-! # C99: the derive macros accept what the store can hold -/

namespace Ecs.Props
open Spec Derive

/-- The type with id `t` is the struct `i`: it is at least as large as its fields together, and has no bytes if they have none. -/
structure IsStruct (U : Universe) (t : TypeId) (i : Item) : Prop where
  large : ∀ fs, i.shape = .struct fs → fs.sum ≤ U.size t
  empty : ∀ fs, i.shape = .struct fs → fs.sum = 0 → U.size t = 0

/-- Entities with a component of type `t` alone have a place in a page. -/
def Storable (U : Universe) (dbg : Bool) (t : TypeId) : Prop :=
  ∃ a l, Archetype.withComponents U [t] = .ok a ∧ Layout.new dbg a = .ok l ∧ 0 < l.entitiesCapacity

/-- **C99, what can be stored.** -/
theorem C99_storable_iff (U : Universe) (dbg : Bool) (t : TypeId) :
    Storable U dbg t ↔ 0 < U.size t ∧ U.size t ≤ PAGE_SIZE - U.align t % 8 := by
  have h8 : U.align t % 8 < 8 := Nat.mod_lt _ (by decide)
  have hw : Archetype.withComponents U [t] = .ok ⟨[t], [U.size t], [U.align t]⟩ := rfl
  have hb : Built U ⟨[t], [U.size t], [U.align t]⟩ := .tuple [t] (by simp) hw
  have hcap : ∀ x, Layout.calcCapacity dbg [U.size t] [U.align t] = x → 0 < U.size t →
      x = .ok ((PAGE_SIZE - U.align t % 8) / U.size t) := by
    intro x hx hp
    rw [← hx]
    unfold Layout.calcCapacity
    have e1 : Layout.maxUnwrap [U.align t] = .ok (U.align t) := rfl
    have e2 : Layout.divChecked PAGE_SIZE [U.size t].length = .ok PAGE_SIZE := by
      show Layout.divChecked PAGE_SIZE 1 = _
      decide
    have e3 : subUsize dbg PAGE_SIZE (U.align t % 8) = .ok (PAGE_SIZE - U.align t % 8) := by
      unfold subUsize; rw [if_pos (by omega)]
    rw [e1, ok_bind, e2, ok_bind, e3, ok_bind]
    simp only [List.mapM_cons, List.mapM_nil, Layout.divChecked]
    rw [if_neg (by omega)]
    rfl
  constructor
  · rintro ⟨a, l, h1, h2, h3⟩
    rw [hw] at h1
    cases h1
    have hp : 0 < U.size t := by
      rcases Nat.eq_zero_or_pos (U.size t) with h | h
      · obtain ⟨p, hp⟩ := C19_zero_sized_component_panics (dbg := dbg) hb (z := t) (by simp) h
        rw [hp] at h2; cases h2
      · exact h
    refine ⟨hp, ?_⟩
    have := hcap _ (Layout.new_ok_cap h2).1 hp
    have e : l.entitiesCapacity = (PAGE_SIZE - U.align t % 8) / U.size t := Except.ok.inj this
    rw [e] at h3
    exact (Nat.div_pos_iff.1 h3).2
  · rintro ⟨h1, h2⟩
    have hc := hcap _ rfl h1
    refine ⟨_, ⟨[0], (PAGE_SIZE - U.align t % 8) / U.size t⟩, hw, ?_, Nat.div_pos h2 h1⟩
    unfold Layout.new
    show (Layout.calcCapacity dbg [U.size t] [U.align t] >>= _) = _
    rw [hc, ok_bind]
    have ho : Layout.calcOffsets [U.size t] [U.align t] ((PAGE_SIZE - U.align t % 8) / U.size t) = .ok [0] := by
      unfold Layout.calcOffsets
      simp only [List.zip_cons_cons, List.zip_nil_left, Layout.offsetsLoop, Layout.alignUp, Nat.zero_mod]
      have : U.size t * ((PAGE_SIZE - U.align t % 8) / U.size t) ≤ PAGE_SIZE :=
        Nat.le_trans (Nat.mul_div_le _ _) (Nat.sub_le _ _)
      simp only [ne_eq, not_true_eq_false, if_false, Nat.zero_add, this, decide_true]
      rfl
    rw [ho]
    rfl

/-- **C99, which items are accepted.** Components are structs with fields and tags structs without; no item is both, and enums and
unions are neither. -/
theorem C99_accepted (i : Item) :
    ((∃ code, Derive.component i = .ok code) ↔ ∃ fs, i.shape = .struct fs ∧ fs ≠ []) ∧
    ((∃ code, Derive.tag i = .ok code) ↔ i.shape = .struct []) := by
  obtain ⟨name, shape⟩ := i
  unfold Derive.component Derive.tag
  cases shape with
  | struct fs =>
    cases fs with
    | nil => simp
    | cons f fs => simp
  | enum n => simp
  | union n => simp

private theorem le_sum {l : List Nat} {x : Nat} (h : x ∈ l) : x ≤ l.sum := by
  induction l with
  | nil => cases h
  | cons y l ih =>
    rw [List.sum_cons]
    rcases List.mem_cons.1 h with rfl | h
    · omega
    · have := ih h; omega

/-- **C99 (partial).** A struct that `derive(Component)` accepts can be stored if it is not too large and a field has a size.
(Missing: structs all of whose fields have size zero are accepted, too, see `C99_counterexample`, and there is no check of the
size.) -/
theorem C99_component_partial {U : Universe} {t : TypeId} {i : Item} {code : String} (dbg : Bool) (hi : IsStruct U t i)
    (h : Derive.component i = .ok code) (hf : ∀ fs, i.shape = .struct fs → ∃ f ∈ fs, 0 < f)
    (hfit : U.size t ≤ PAGE_SIZE - U.align t % 8) : Storable U dbg t := by
  refine (C99_storable_iff U dbg t).2 ⟨?_, hfit⟩
  obtain ⟨fs, hs, _⟩ := (C99_accepted i).1.1 ⟨code, h⟩
  obtain ⟨f, hm, hpos⟩ := hf fs hs
  have h1 := hi.large fs hs
  have h2 : f ≤ fs.sum := le_sum hm
  omega

/-- **C99, structs of nothing.** A struct that `derive(Component)` accepts and whose fields have no size cannot be stored: making its
archetype's layout panics. -/
theorem C99_empty_fields {U : Universe} {t : TypeId} {i : Item} {code : String} (dbg : Bool) (hi : IsStruct U t i)
    (h : Derive.component i = .ok code) (hf : ∀ fs, i.shape = .struct fs → fs.sum = 0) :
    ∃ a p, Archetype.withComponents U [t] = .ok a ∧ Layout.new dbg a = .error (.panic p) := by
  obtain ⟨fs, hs, _⟩ := (C99_accepted i).1.1 ⟨code, h⟩
  have hz := hi.empty fs hs (hf fs hs)
  have hw : Archetype.withComponents U [t] = .ok ⟨[t], [U.size t], [U.align t]⟩ := rfl
  obtain ⟨p, hp⟩ := C19_zero_sized_component_panics (dbg := dbg) (.tuple [t] (by simp) hw) (z := t) (by simp) hz
  exact ⟨_, p, hw, hp⟩

/-- **C99, counterexample.** `struct Marker(());` is accepted as a component and cannot be stored. -/
theorem C99_counterexample : ∃ (U : Universe) (t : TypeId) (i : Item) (code : String), IsStruct U t i ∧
    Derive.component i = .ok code ∧ ∀ dbg, ¬ Storable U dbg t :=
  ⟨demo, 6, ⟨"Marker", .struct [0]⟩, "impl Component for Marker {}", ⟨fun fs h => by cases h; decide, fun fs h _ => rfl⟩, by decide,
    fun dbg h => absurd ((C99_storable_iff demo dbg 6).1 h).1 (by decide)⟩

/-- Non-vacuity: `struct Age(u32);` is accepted and can be stored. -/
example : IsStruct demo 2 ⟨"Age", .struct [4]⟩ ∧ Derive.component ⟨"Age", .struct [4]⟩ = .ok "impl Component for Age {}" ∧
    Storable demo true 2 :=
  have h : IsStruct demo 2 ⟨"Age", .struct [4]⟩ := ⟨fun fs h => by cases h; decide, fun fs h h0 => by cases h; cases h0⟩
  ⟨h, by decide, C99_component_partial true h (code := "impl Component for Age {}") (by decide)
    (fun fs h => by cases h; exact ⟨4, by simp, by decide⟩) (by decide)⟩

end Ecs.Props
