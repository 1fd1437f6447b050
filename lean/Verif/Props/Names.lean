import Verif.Proofs.Names
import Verif.Props.Hint
import Verif.Props.Independent

/-! C82: it does not matter which types name the tags and the order groups, as long as they are different. -/

namespace Ecs.Props
open Spec

variable {τ γ : Nat → Nat} {U : Universe} {dbg : Bool} {cap : Nat} {h : List Event} {s s' : Store}

/-- **C82** Take any calls with any arguments, valid or not, that all returned, and use other types for the tags and the groups,
different ones for different tags and for different groups. Then the same program runs, its creations return the same handles,
and in the end all it can see is the same, up to the names of tags and groups. Contrary to C81, the order of their `TypeId`s
does not matter. -/
theorem C82_names (hτ : τ.Injective) (hγ : γ.Injective) (hx : Runs U dbg cap h s) :
    ∃ s', Runs U dbg cap (h.map (rebrand τ γ)) s' ∧ SeesSame U dbg s s' ∧ TagsNamed τ U dbg s s' ∧ OrdersNamed γ U dbg s s' := by
  obtain ⟨s', h1, h2⟩ := Store.Named.runs hτ hγ hx
  exact ⟨s', h1, h2.sees⟩

theorem named_store (hτ : τ.Injective) (hγ : γ.Injective) (hx : Runs U dbg cap h s)
    (hy : Runs U dbg cap (h.map (rebrand τ γ)) s') : Store.Named τ γ s s' := by
  obtain ⟨s1, h1, h2⟩ := Store.Named.runs hτ hγ hx
  have : s' = s1 := (same_runs hy h1 (by rw [List.forall₂_same]; exact fun ev _ => sameCall_refl ev)).1
  exact this ▸ h2

/-- **C82** Any execution of the renamed program sees the same. -/
theorem C82_sees_same (hτ : τ.Injective) (hγ : γ.Injective) (hx : Runs U dbg cap h s)
    (hy : Runs U dbg cap (h.map (rebrand τ γ)) s') :
    SeesSame U dbg s s' ∧ TagsNamed τ U dbg s s' ∧ OrdersNamed γ U dbg s s' :=
  (named_store hτ hγ hx hy).sees

/-- **C82** The next call ends in the same way: it returns in both programs, or fails in both with the same failure. -/
theorem C82_same_outcome (hτ : τ.Injective) (hγ : γ.Injective) (hx : Runs U dbg cap h s)
    (hy : Runs U dbg cap (h.map (rebrand τ γ)) s') (c : Call) : outcome U dbg s' (rebrandCall τ γ c) = outcome U dbg s c :=
  (named_store hτ hγ hx hy).outcome hτ hγ c

/-- **C82** Different tags must have different names: with one type for both tags of `decorated`, an entity with one of them
has the other. -/
theorem C82_names_must_differ : ∃ (τ : Nat → Nat) (h : List Event) (s s' : Store), Runs demo true 1 h s ∧
    Runs demo true 1 (h.map (rebrand τ id)) s' ∧ ∃ tag e, s'.hasTag (τ tag) e ≠ s.hasTag tag e := by
  have h : ((runFree demo true 1 decorated).any fun s => decide (s.hasTag 6 ⟨2, 1⟩ = .ok false)) = true := by decide +kernel
  have h' : ((runFree demo true 1 (decorated.map (rebrand (fun _ => 5) id))).any fun s =>
      decide (s.hasTag 5 ⟨2, 1⟩ = .ok true)) = true := by decide +kernel
  obtain ⟨s, hs, h⟩ := any_some h
  obtain ⟨s', hs', h'⟩ := any_some h'
  refine ⟨fun _ => 5, decorated, s, s', free_runs (runFree_sound hs), free_runs (runFree_sound hs'), 6, ⟨2, 1⟩, ?_⟩
  rw [of_decide_eq_true h, of_decide_eq_true h']
  exact fun hx => by cases hx

/-- Exchanges the names 5 and 6, and so the order of the tags of `decorated`. -/
def swap56 (t : Nat) : Nat := if t = 5 then 6 else if t = 6 then 5 else t

/-- Exchanges the names 7 and 3. -/
def swap37 (t : Nat) : Nat := if t = 3 then 7 else if t = 7 then 3 else t

/-- The hypotheses of the theorems above. -/
example : swap56.Injective ∧ swap37.Injective ∧
    (∃ s, Runs demo true 1 decorated s ∧ s.hasTag 5 ⟨2, 1⟩ = .ok true ∧ s.getFirstOrdered 7 = .ok (some ⟨2, 1⟩) ∧
      s.tags.tagIds = [5, 6]) ∧
    ∃ s', Runs demo true 1 (decorated.map (rebrand swap56 swap37)) s' ∧ s'.hasTag 6 ⟨2, 1⟩ = .ok true ∧
      s'.getFirstOrdered 3 = .ok (some ⟨2, 1⟩) ∧ s'.hasTag 5 ⟨2, 1⟩ = .ok false := by
  have h : ((runFree demo true 1 decorated).any fun s =>
      decide (s.hasTag 5 ⟨2, 1⟩ = .ok true ∧ s.getFirstOrdered 7 = .ok (some ⟨2, 1⟩) ∧ s.tags.tagIds = [5, 6])) = true := by
    decide +kernel
  have h' : ((runFree demo true 1 (decorated.map (rebrand swap56 swap37))).any fun s =>
      decide (s.hasTag 6 ⟨2, 1⟩ = .ok true ∧ s.getFirstOrdered 3 = .ok (some ⟨2, 1⟩) ∧ s.hasTag 5 ⟨2, 1⟩ = .ok false)) = true := by
    decide +kernel
  obtain ⟨s, hs, h⟩ := any_some h
  obtain ⟨s', hs', h'⟩ := any_some h'
  refine ⟨fun a b hab => ?_, fun a b hab => ?_, ⟨s, free_runs (runFree_sound hs), of_decide_eq_true h⟩,
    s', free_runs (runFree_sound hs'), of_decide_eq_true h'⟩
  · unfold swap56 at hab
    split at hab <;> split at hab <;> (try split at hab) <;> (try split at hab) <;> omega
  · unfold swap37 at hab
    split at hab <;> split at hab <;> (try split at hab) <;> (try split at hab) <;> omega

end Ecs.Props
