import Verif.Proofs.QueryLen
import Verif.Props.QueryCompAny
import Verif.Props.QueryAny

/-! Property C32: what `len` returns while an iterator is used. `Taken` is in `Spec/Iter.lean`. -/

namespace Ecs.Props
open Spec

section
variable {U : Universe} {dbg : Bool} {cap : Nat} {h : List Event} {s : Store}

private theorem len_iff {σ α : Type} {next : σ → Res (Option α × σ)} {len : σ → Nat}
    (hl : ∀ it r it', next it = .ok (r, it') → len it' = len it) {fuel : Nat} {it : σ} {items : List α}
    (hd : drain next fuel it = .ok items) (hn : len it = items.length) {k : Nat} (hk : k ≤ items.length) :
    ∃ it' rest, Taken next k it it' ∧ drain next (fuel - k) it' = .ok rest ∧ rest = items.drop k ∧
      (len it' = rest.length ↔ k = 0) := by
  obtain ⟨it', h1, h2⟩ := Taken.of_drain hd hk
  refine ⟨it', _, h1, h2, rfl, ?_⟩
  rw [h1.len_const hl, hn, List.length_drop]
  omega

/-- **C32**, what the code does in every state reached by calls that returned: after `k` calls of `next` on the iterator
of a component query, the number returned by `len` is the number of items left if and only if `k = 0`. -/
theorem C32_len_right_iff_fresh (hx : LooseExec U dbg cap h s) (acc : Access) (old : List IterView)
    {fuel : Nat} (hf : (alive h).length < fuel) :
    ∃ it items, componentQueryIter U s acc old = .ok it ∧ runComponentQuery U s acc old fuel = .ok items ∧
      ∀ k ≤ items.length, ∃ it' rest, Taken CompIter.next k it it' ∧ drain CompIter.next (fuel - k) it' = .ok rest ∧
        rest = items.drop k ∧ (it'.len = rest.length ↔ k = 0) := by
  obtain ⟨it, items, h1, h2, h3⟩ := C32_fresh_len hx acc old hf
  refine ⟨it, items, h1, h2, fun k hk => ?_⟩
  unfold runComponentQuery at h2
  simp only [h1, ok_bind] at h2
  exact len_iff (len := CompIter.len) (fun _ _ _ => CompIter.next_len) h2 h3 hk

/-- **C32**, what the code does for ordered queries that can be set up. -/
theorem C32_ordered_len_right_iff_fresh (hx : LooseExec U dbg cap h s) {acc : Access} {g : Nat}
    (old : List (Range × IterView)) {fuel : Nat} (hf : (sequence g h).length < fuel) {it : OrdIter}
    (hi : orderedQueryIter U s g acc old fuel = .ok it) :
    ∃ items, runOrderedQuery U dbg s g acc old fuel = .ok items ∧
      ∀ k ≤ items.length, ∃ it' rest, Taken (OrdIter.next dbg) k it it' ∧
        drain (OrdIter.next dbg) (fuel - k) it' = .ok rest ∧ rest = items.drop k ∧ (it'.len = rest.length ↔ k = 0) := by
  obtain ⟨items, h2, h3⟩ := C32_ordered_fresh_len (dbg := dbg) hx old hf hi
  refine ⟨items, h2, fun k hk => ?_⟩
  unfold runOrderedQuery at h2
  simp only [hi, ok_bind] at h2
  exact len_iff (len := OrdIter.len) (fun _ _ _ => OrdIter.next_len) h2 h3 hk

end

/-- The hypotheses are met by a query with three items, of which two have been taken. -/
example : ∃ s it it', Exec demo true 1 queryHistory s ∧ DistinctTypes (.readonly [4]) ∧
    componentQueryIter demo s (.readonly [4]) [] = .ok it ∧ Taken CompIter.next 2 it it' ∧ it'.len = 3 := by
  have h : ((runExec demo true 1 queryHistory).any fun s =>
      okAnd (componentQueryIter demo s (.readonly [4]) []) fun it =>
      okAnd it.next fun r => r.1.any fun _ => okAnd r.2.next fun r' => r'.1.any fun _ => decide (r'.2.len = 3)) = true := by
    decide
  obtain ⟨s, hs, h⟩ := any_some h
  obtain ⟨it, h1, h⟩ := okAnd_iff h
  obtain ⟨⟨r, it1⟩, h2, h⟩ := okAnd_iff h
  obtain ⟨a, rfl, h⟩ := any_some h
  obtain ⟨⟨r, it2⟩, h3, h⟩ := okAnd_iff h
  obtain ⟨b, rfl, h⟩ := any_some h
  exact ⟨s, it, it2, runExec_sound hs, by decide, h1, .more h2 (.more h3 (.none _)), of_decide_eq_true h⟩

end Ecs.Props
