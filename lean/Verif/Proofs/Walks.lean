import Verif.Proofs.History

/-! Walking through a group. -/

namespace Ecs
open Spec

theorem follower_skip {α : Type} [DecidableEq α] {l r : List α} {x : α} (h : x ∉ l) :
    follower (l ++ r) x = follower r x := by
  induction l with
  | nil => rfl
  | cons a l ih =>
    simp only [List.mem_cons, not_or] at h
    simp only [List.cons_append, follower, if_neg h.1, ih h.2]

theorem walksForward {s : Store} {w : World} (hc : Core s w) (g : Nat) (pre suf : List Entity)
    (hl : w.order g = pre ++ suf) : WalksForward s g suf.head? suf := by
  induction suf generalizing pre with
  | nil => exact .done
  | cons e l ih =>
    have hnd := hc.order_nodup g
    rw [hl] at hnd
    have hn : e ∉ pre := fun he => (List.nodup_append.1 hnd).2.2 e he e List.mem_cons_self rfl
    refine .step ?_ (ih (pre ++ [e]) (by simp [hl]))
    rw [hc.getNext g (hc.ordLive g e (by simp [hl])), hl, follower_skip hn]
    simp [follower]

theorem walksBackward {s : Store} {w : World} (hc : Core s w) (g : Nat) (pre suf : List Entity)
    (hl : (w.order g).reverse = pre ++ suf) : WalksBackward s g suf.head? suf := by
  induction suf generalizing pre with
  | nil => exact .done
  | cons e l ih =>
    have hnd := List.nodup_reverse.2 (hc.order_nodup g)
    rw [hl] at hnd
    have hn : e ∉ pre := fun he => (List.nodup_append.1 hnd).2.2 e he e List.mem_cons_self rfl
    refine .step ?_ (ih (pre ++ [e]) (by simp [hl]))
    rw [hc.getPrevious g (hc.ordLive g e (List.mem_reverse.1 (by simp [hl]))), preceder, hl, follower_skip hn]
    simp [follower]

theorem Spec.WalksForward.unique {s : Store} {g : Nat} {o : Option Entity} {l l' : List Entity}
    (h : WalksForward s g o l) (h' : WalksForward s g o l') : l = l' := by
  induction h generalizing l' with
  | done => cases h'; rfl
  | step h1 _ ih =>
    cases h' with
    | step h1' h2' =>
      rw [h1] at h1'
      cases h1'
      rw [ih h2']

theorem Spec.WalksBackward.unique {s : Store} {g : Nat} {o : Option Entity} {l l' : List Entity}
    (h : WalksBackward s g o l) (h' : WalksBackward s g o l') : l = l' := by
  induction h generalizing l' with
  | done => cases h'; rfl
  | step h1 _ ih =>
    cases h' with
    | step h1' h2' =>
      rw [h1] at h1'
      cases h1'
      rw [ih h2']

theorem follower_none {α : Type} [DecidableEq α] {l : List α} {x : α} (h : x ∉ l) : follower l x = none := by
  induction l with
  | nil => rfl
  | cons a l ih =>
    simp only [List.mem_cons, not_or] at h
    simp only [follower, if_neg h.1, ih h.2]

theorem preceder_none {α : Type} [DecidableEq α] {l : List α} {x : α} (h : x ∉ l) : preceder l x = none :=
  follower_none (by simpa using h)

end Ecs
