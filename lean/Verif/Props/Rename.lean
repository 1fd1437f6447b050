import Verif.Proofs.RenameStore
import Verif.Props.Archetypes
import Verif.Props.Opaque

/-! C81: of the `TypeId`s of component, tag and group types only the order matters; but it does matter. -/

namespace Ecs.Props
open Spec

variable {ρ : TypeId → TypeId} {U U' : Universe} {dbg : Bool} {cap : Nat} {h h' : List Event} {s s' : Store}

/-- An obtainable archetype stays obtainable under the other ids. -/
theorem built_rename (hρ : StrictMono ρ) (hU : Transported ρ U U') {a : Archetype} (ha : Built U a) : Built U' (a.rename ρ) := by
  obtain ⟨_, h2, _, _, _, _, _, h8⟩ := C11_built_is_a_set ha
  have h := (Archetype.withComponents_rename hρ hU a.ids).eq
  rw [h8] at h
  exact .tuple _ (h2.map hρ.injective) h

theorem returns_rename (hρ : StrictMono ρ) (hU : Transported ρ U U') {ev : Event} {t : Store} (hr : Returns U dbg s ev t) :
    Returns U' dbg (s.rename ρ) (rename ρ ev) (t.rename ρ) := by
  have key : ∀ {α β : Type} {f : α → β} {r : Res α} {r' : Res β} {a : α}, Maps f r r' → r = .ok a → r' = .ok (f a) := by
    intro α β f r r' a hm hr
    rw [hm.eq, hr]
    rfl
  cases ev with
  | created e => exact key (f := Store.ren1 ρ) Store.create_rename hr
  | createdWith e ts init =>
    obtain ⟨a, ha, hi, hr⟩ := hr
    exact ⟨a.rename ρ, built_rename hρ hU ha, by rw [← hi]; rfl, key (f := Store.ren1 ρ) (Store.createWith_rename hρ a) hr⟩
  | destroyed e => exact key (Store.destroy_rename e) hr
  | added e v => exact key (Store.add_rename hρ hU e v) hr
  | removed e ts => exact key (Store.remove_rename hρ hU e ts) hr
  | assigned e v =>
    obtain ⟨b, hr⟩ := hr
    exact ⟨b, key (f := Store.ren1 ρ) (Store.assign_rename hρ hU e v) hr⟩
  | tagged k e => exact key (Store.tag_rename hρ k e) hr
  | untagged k e => exact key (Store.untag_rename hρ k e) hr
  | orderedLast g e => exact key (Store.order_rename hρ g e) hr
  | orderedAfter g e x => exact key (Store.orderAfter_rename hρ g e x) hr
  | orderedBefore g e x => exact key (Store.orderBefore_rename hρ g e x) hr
  | unordered g e => exact key (Store.unorder_rename hρ g e) hr

theorem runs_rename (hρ : StrictMono ρ) (hU : Transported ρ U U') (hx : Runs U dbg cap h s) :
    Runs U' dbg cap (h.map (rename ρ)) (s.rename ρ) := by
  induction hx with
  | @init s hs =>
    refine .init ?_
    unfold Store.withCapacity at hs ⊢
    obtain ⟨_, h1, hs⟩ := bind_eq_ok.1 hs
    cases hs
    rw [h1]
    rfl
  | step ev _ hr ih => exact .step _ ih (returns_rename hρ hU hr)

/-- **C81** Take any calls with any arguments, valid or not, that all returned, and let the types have other ids in the same
order. Then the same program runs, its creations return the same handles, and in the end all it can see is the same, up to the
names of types. -/
theorem C81_order_preserving (hρ : StrictMono ρ) (hU : Transported ρ U U') (hx : Runs U dbg cap h s) :
    ∃ s', Runs U' dbg cap (h.map (rename ρ)) s' ∧ SeesRenamed ρ U U' dbg s s' :=
  ⟨_, runs_rename hρ hU hx, Store.sees_rename hρ hU⟩

theorem renamed_store (hρ : StrictMono ρ) (hU : Transported ρ U U') (hx : Runs U dbg cap h s)
    (hy : Runs U' dbg cap (h.map (rename ρ)) s') : s' = s.rename ρ := by
  refine (same_runs hy (runs_rename hρ hU hx) ?_).1
  rw [List.forall₂_same]
  exact fun ev _ => sameCall_refl ev

/-- **C81** Any execution of the renamed program sees the same. -/
theorem C81_sees_same (hρ : StrictMono ρ) (hU : Transported ρ U U') (hx : Runs U dbg cap h s)
    (hy : Runs U' dbg cap (h.map (rename ρ)) s') : SeesRenamed ρ U U' dbg s s' := by
  rw [renamed_store hρ hU hx hy]
  exact Store.sees_rename hρ hU

/-- **C81** The next call ends in the same way: it returns in both programs, or fails in both with the same failure. -/
theorem C81_same_outcome (hρ : StrictMono ρ) (hU : Transported ρ U U') (hx : Runs U dbg cap h s)
    (hy : Runs U' dbg cap (h.map (rename ρ)) s') (c : Call) : outcome U' dbg s' (renameCall ρ c) = outcome U dbg s c := by
  rw [renamed_store hρ hU hx hy]
  have key : ∀ {α β : Type} {f : α → β} {r : Res α} {r' : Res β}, Maps f r r' → (r'.map fun _ => ()) = r.map fun _ => () := by
    intro α β f r r' hm
    rw [hm.eq]
    cases r <;> rfl
  cases c with
  | create => exact key Store.create_rename
  | createWith a => exact key (Store.createWith_rename hρ a)
  | destroy e => exact key (Store.destroy_rename e)
  | add e v => exact key (Store.add_rename hρ hU e v)
  | remove e ts => exact key (Store.remove_rename hρ hU e ts)
  | assign e v => exact key (Store.assign_rename hρ hU e v)
  | tag k e => exact key (Store.tag_rename hρ k e)
  | untag k e => exact key (Store.untag_rename hρ k e)
  | orderLast g e => exact key (Store.order_rename hρ g e)
  | orderAfter g e x => exact key (Store.orderAfter_rename hρ g e x)
  | orderBefore g e x => exact key (Store.orderBefore_rename hρ g e x)
  | unorder g e => exact key (Store.unorder_rename hρ g e)

/-- `demo` with the id `2 * t + 3` for the type `t`. -/
def demoApart : Universe where
  size t := demo.size ((t - 3) / 2)
  align t := demo.align ((t - 3) / 2)
  align_pos _ := demo.align_pos _
  align_dvd _ := demo.align_dvd _

/-- The hypotheses of the theorems above. -/
example : StrictMono (fun t : TypeId => 2 * t + 3) ∧ Transported (fun t => 2 * t + 3) demo demoApart ∧
    (∃ s, Runs demo true 1 hinted s ∧ s.getComponents demo true ⟨0, 2⟩ [1] = .ok (some [[some 7]])) ∧
    ∃ s', Runs demoApart true 1 (hinted.map (rename fun t => 2 * t + 3)) s' ∧
      s'.getComponents demoApart true ⟨0, 2⟩ [5] = .ok (some [[some 7]]) := by
  have h : ((runLoose demo true 1 hinted).any fun s =>
      decide (s.getComponents demo true ⟨0, 2⟩ [1] = .ok (some [[some 7]]))) = true := by decide +kernel
  have h' : ((runLoose demoApart true 1 (hinted.map (rename fun t => 2 * t + 3))).any fun s =>
      decide (s.getComponents demoApart true ⟨0, 2⟩ [5] = .ok (some [[some 7]]))) = true := by decide +kernel
  obtain ⟨s, hs, h⟩ := any_some h
  obtain ⟨s', hs', h'⟩ := any_some h'
  have e : ∀ t : Nat, (2 * t + 3 - 3) / 2 = t := fun t => by omega
  exact ⟨fun a b hab => by dsimp only; omega, ⟨fun t => by simp only [demoApart, e], fun t => by simp only [demoApart, e]⟩,
    ⟨s, loose_runs (runLoose_sound hs), of_decide_eq_true h⟩, s', loose_runs (runLoose_sound hs'), of_decide_eq_true h'⟩

/-- Three types of 2728 bytes aligned to 8 (ids 0, 1, 2) and types of 2730 bytes. -/
def bigFirst : Universe where
  size t := if t < 3 then 2728 else 2730
  align t := if t < 3 then 8 else 1
  align_pos t := by split <;> omega
  align_dvd t := by split <;> omega

/-- The same types with the ids 1, 3, 5, between those of the others. -/
def bigBetween : Universe where
  size t := if t = 1 ∨ t = 3 ∨ t = 5 then 2728 else 2730
  align t := if t = 1 ∨ t = 3 ∨ t = 5 then 8 else 1
  align_pos t := by split <;> omega
  align_dvd t := by split <;> omega

/-- The ids of the types of `bigFirst` in `bigBetween`. -/
def shuffle (t : TypeId) : TypeId := if t < 3 then 2 * t + 1 else if t < 6 then 2 * (t - 3) else t

/-- **C81** The order does matter: six types of the same sizes and alignments are accepted as components of one entity with some
ids, and make the call panic with other ids. So whether a program panics can depend on the hashes the compiler
computes as ids of its types. -/
theorem C81_order_matters : Function.Injective shuffle ∧ Transported shuffle bigFirst bigBetween ∧
    ∃ s a a', Runs bigFirst true 1 [] s ∧ Runs bigBetween true 1 [] s ∧
      Archetype.withComponents bigFirst [0, 1, 2, 3, 4, 5] = .ok a ∧
      Archetype.withComponents bigBetween ([0, 1, 2, 3, 4, 5].map shuffle) = .ok a' ∧
      outcome bigFirst true s (.createWith a) = .ok () ∧
      outcome bigBetween true s (.createWith a') = .error (.panic .assertFailed) := by
  refine ⟨fun a b hab => ?_, ⟨fun t => ?_, fun t => ?_⟩, ?_⟩
  · unfold shuffle at hab
    split at hab <;> split at hab <;> (try split at hab) <;> (try split at hab) <;> omega
  · simp only [shuffle, bigBetween, bigFirst]
    split
    · rw [if_pos (by omega)]
    · split <;> rw [if_neg (by omega)]
  · simp only [shuffle, bigBetween, bigFirst]
    split
    · rw [if_pos (by omega)]
    · split <;> rw [if_neg (by omega)]
  · refine ⟨_, _, _, .init (s := ⟨Ents.new 1, Archs.new, Tags.new 1, Orders.new 1, Raw.allocZeroed 0 1, Raw.allocZeroed 0 1,
      Words.alloc 1⟩) rfl, .init rfl, rfl, rfl, ?_, ?_⟩
    · decide +kernel
    · decide +kernel

end Ecs.Props
