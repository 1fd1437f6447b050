import Verif.Proofs.Client
import Verif.Model.Examples

/-! Property C89: a program that chooses its calls from the answers to the calls before. -/

namespace Ecs.Props
open Spec

section
variable {U : Universe} {dbg : Bool} {cap : Nat}

/-- **C89.** Take any program, choosing each call from the answers so far, whose calls are fine as long as they are
answered by the reference implementation (`Serves`). Then each call of the program to a new store returns, and all the
answers together are some that the reference implementation can give. -/
theorem C89_client_sees_reference {client : Client} {n : Nat} (hc : dbg = true → 0 < cap)
    (hp : Polite U dbg cap client n [] []) :
    ∃ out, runClient U dbg cap client n = .ok out ∧ Plays client n [] [] out := by
  obtain ⟨s, hs⟩ : ∃ s, Store.withCapacity dbg cap = .ok s := by
    unfold Store.withCapacity dassert
    cases dbg with
    | false => exact ⟨_, rfl⟩
    | true => simp only [hc rfl, gt_iff_lt, decide_true]; exact ⟨_, rfl⟩
  obtain ⟨out, h1, h2⟩ := play_plays n (SafeExec.init (U := U) hs) (as := []) (Nat.le_refl _) (fun _ => Nat.le_refl _) hp
  exact ⟨out, by simp only [runClient, hs, ok_bind]; exact h1, h2⟩

/-- A call with a determined answer. -/
theorem serves_unique {h : List Event} {ask : Ask} (hd : determined ask = true) {a a' : Answer} {k k' : List Event}
    (h1 : Serves h ask a k) (h2 : Serves h ask a' k') : a = a' ∧ k = k' := by
  cases h1 <;> first | (cases h2; exact ⟨rfl, rfl⟩) | cases hd

theorem plays_unique {client : Client} (hd : ∀ as ask, client as = some ask → determined ask = true) (n : Nat)
    {h : List Event} {as out out' : List Answer} (h1 : Plays client n h as out) (h2 : Plays client n h as out') : out = out' := by
  induction n generalizing h as with
  | zero => exact h1.trans h2.symm
  | succ n ih =>
    unfold Plays at h1 h2
    cases hc : client as with
    | none => rw [hc] at h1 h2; exact h1.trans h2.symm
    | some ask =>
      rw [hc] at h1 h2
      obtain ⟨a, k, h3, h4⟩ := h1
      obtain ⟨a', k', h5, h6⟩ := h2
      obtain ⟨rfl, rfl⟩ := serves_unique (hd as ask hc) h3 h5
      exact ih h4 h6

/-- **C89**, consequence: a program that only makes calls with determined answers gets the same answers from stores of
any two initial capacities, in both build modes. -/
theorem C89_same_answers {client : Client} {n : Nat} (hc : dbg = true → 0 < cap) (hp : Polite U dbg cap client n [] [])
    {dbg' : Bool} {cap' : Nat} (hc' : dbg' = true → 0 < cap') (hp' : Polite U dbg' cap' client n [] [])
    (hd : ∀ as ask, client as = some ask → determined ask = true) :
    runClient U dbg cap client n = runClient U dbg' cap' client n := by
  obtain ⟨out, h1, h2⟩ := C89_client_sees_reference hc hp
  obtain ⟨out', h3, h4⟩ := C89_client_sees_reference hc' hp'
  rw [h1, h3, plays_unique hd n h2 h4]

end

/-! ### Examples -/

/-- Creates two entities, gives each a component, asks which entities have the component, and destroys the first one in
the answer; then asks again. -/
def pruner : Client
  | [] => some .create
  | [.handle _] => some .create
  | [.handle _, .handle a] => some (.add a [(1, [7])])
  | [.done, .handle b, .handle _] => some (.add b [(1, [8])])
  | [.done, .done, .handle _, .handle _] => some (.query (.readonly [1]))
  | [.rows ((e, _) :: _), .done, .done, .handle _, .handle _] => some (.destroy e)
  | [.done, .rows _, .done, .done, .handle _, .handle _] => some (.query (.readonly [1]))
  | _ => none

private theorem perm_two {a b : Entity} {L : List Entity} (h : L.Perm [a, b]) : L = [a, b] ∨ L = [b, a] := by
  have hl := h.length_eq
  match L, hl with
  | [x, y], _ =>
    have hx := h.mem_iff (a := x)
    have := h.mem_iff (a := y)
    by_cases hxa : x = a
    · subst hxa
      have := List.perm_cons (a := x) |>.1 h
      rw [List.perm_singleton] at this
      exact .inl (by rw [this])
    · have hxb : x = b := by simpa [hxa] using hx
      subst hxb
      have h2 : [x, y].Perm [x, a] := h.trans (List.Perm.swap _ _ _)
      have := List.perm_cons (a := x) |>.1 h2
      rw [List.perm_singleton] at this
      exact .inr (by rw [this])

/-- The calls of `pruner` are fine. -/
theorem pruner_polite : Polite demo true 1 pruner 7 [] [] := by
  intro ask hk; cases hk
  refine ⟨by unfold Fine; decide, fun a h' hs => ?_⟩; cases hs
  intro ask hk; cases hk
  refine ⟨by unfold Fine; decide, fun a h' hs => ?_⟩; cases hs
  intro ask hk; cases hk
  refine ⟨by unfold Fine; decide, fun a h' hs => ?_⟩; cases hs
  intro ask hk; cases hk
  refine ⟨by unfold Fine; decide, fun a h' hs => ?_⟩; cases hs
  intro ask hk; cases hk
  refine ⟨by unfold Fine; decide, fun a h' hs => ?_⟩
  cases hs with | query acc L hL => ?_
  rw [show matching _ _ _ = [⟨1, 1⟩, ⟨0, 1⟩] by decide] at hL
  obtain rfl | rfl := perm_two hL
  · intro ask hk; cases hk
    refine ⟨by unfold Fine; decide, fun a h' hs => ?_⟩; cases hs
    intro ask hk; cases hk
    exact ⟨by unfold Fine; decide, fun _ _ _ => trivial⟩
  · intro ask hk; cases hk
    refine ⟨by unfold Fine; decide, fun a h' hs => ?_⟩; cases hs
    intro ask hk; cases hk
    exact ⟨by unfold Fine; decide, fun _ _ _ => trivial⟩

/-- The hypotheses of `C89_client_sees_reference`, and what the program sees: the store visits the older entity first. -/
example : Polite demo true 1 pruner 7 [] [] ∧ runClient demo true 1 pruner 7 =
    .ok [.rows [(⟨1, 1⟩, [[some 8]])], .done, .rows [(⟨0, 1⟩, [[some 7]]), (⟨1, 1⟩, [[some 8]])],
      .done, .done, .handle ⟨1, 1⟩, .handle ⟨0, 1⟩] :=
  ⟨pruner_polite, by decide⟩

/-- A program that only makes calls with determined answers: it destroys the entity it created if it reads the value it
has written, and then creates another. -/
def checker : Client
  | [] => some .create
  | [.handle a] => some (.add a [(1, [7])])
  | [.done, .handle a] => some (.read a [1])
  | [.values (some [[some 7]]), .done, .handle a] => some (.destroy a)
  | [.done, .values _, .done, .handle _] => some .create
  | [.handle _, .done, .values _, .done, .handle a] => some (.isAlive a)
  | _ => none

theorem checker_polite (dbg : Bool) (cap : Nat) : Polite demo dbg cap checker 6 [] [] := by
  intro ask hk; cases hk
  refine ⟨by simp only [Fine]; decide, fun a h' hs => ?_⟩; cases hs
  intro ask hk; cases hk
  refine ⟨by simp only [Fine]; cases dbg <;> decide, fun a h' hs => ?_⟩; cases hs
  intro ask hk; cases hk
  refine ⟨by simp only [Fine]; decide, fun a h' hs => ?_⟩; cases hs
  intro ask hk; cases hk
  refine ⟨by simp only [Fine]; decide, fun a h' hs => ?_⟩; cases hs
  intro ask hk; cases hk
  refine ⟨by simp only [Fine]; decide, fun a h' hs => ?_⟩; cases hs
  intro ask hk; cases hk
  exact ⟨by simp only [Fine]; decide, fun _ _ _ => trivial⟩

/-- The hypotheses of `C89_same_answers`, and the answers. -/
example : (∀ as ask, checker as = some ask → determined ask = true) ∧
    runClient demo true 1 checker 6 = .ok [.flag false, .handle ⟨0, 2⟩, .done, .values (some [[some 7]]), .done, .handle ⟨0, 1⟩] ∧
    runClient demo false 50 checker 6 = runClient demo true 1 checker 6 := by
  refine ⟨fun as ask hk => ?_, by decide, ?_⟩
  · unfold checker at hk
    split at hk <;> cases hk <;> rfl
  · exact C89_same_answers (fun h => by cases h) (checker_polite false 50) (fun _ => by decide) (checker_polite true 1)
      fun as ask hk => by unfold checker at hk; split at hk <;> cases hk <;> rfl

end Ecs.Props
