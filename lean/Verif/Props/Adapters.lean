import Verif.Proofs.Adapters
import Verif.Props.QueryAny
import Verif.Props.QueryDefects
import Verif.Props.QueryCompAny

/-! # C100: the lengths that iterators over queries report -/

namespace Ecs.Props
open Spec

/-- **C100, right or a panic.** Whatever adapters of the standard library are put on fresh iterators of queries: if `len` returns,
it returns the number of items. -/
theorem C100_right_or_panics {c : Chain} :
    c.len (fun _ => queryHint) = .ok (count c) ∨ c.len (fun _ => queryHint) = .error (.panic .assertFailed) := by
  induction c with
  | query n => exact .inl rfl
  | slice n => exact .inl rfl
  | each c ih => exact ih
  | _ =>
    rw [Chain.len_computes rfl]
    rcases Chain.defaultLen_cases (Chain.hint (fun _ => queryHint) _) with ⟨h1, h2⟩ | ⟨_, h2⟩
    · exact .inl (h2.trans (congrArg _ (Chain.hint_right _ h1)))
    · exact .inr h2

/-- **C100 (partial).** Under adapters that ask the inner iterator (`map`, `enumerate`, `inspect`, `fuse`, `by_ref`) the length is
right. (Missing: `take`, `skip`, `zip`, `step_by` and `peekable`, see `C100_panics`; and iterators that are not fresh, see
`C32_len_right_iff_fresh`.) -/
theorem C100_asked_partial {c : Chain} (h : asksQuery c = true) : c.len (fun _ => queryHint) = .ok (count c) := by
  induction c with
  | query n => rfl
  | each c ih => exact ih h
  | _ => cases h

/-- **C100 is false of the code.** All other chains with a query panic when they are asked for their length, unless they have no
items: the length is computed from `size_hint`, which the iterators of queries do not implement. -/
theorem C100_panics {c : Chain} (hq : hasQuery c = true) (ha : asksQuery c = false) (hc : 0 < count c) :
    c.len (fun _ => queryHint) = .error (.panic .assertFailed) := by
  induction c with
  | query n => cases ha
  | slice n => cases hq
  | each c ih => exact ih hq ha hc
  | _ =>
    rw [Chain.len_computes rfl]
    rcases Chain.defaultLen_cases (Chain.hint (fun _ => queryHint) _) with ⟨h1, _⟩ | ⟨_, h2⟩
    · have e := Chain.hint_right _ h1
      rw [Chain.hint_lower (q := fun _ => queryHint) (fun _ => rfl) _ hq] at e
      omega
    · exact h2

/-- **C100, `take` and `skip`.** Also without items: `take` of a positive number and `skip` of any number always panic. -/
theorem C100_take_skip (m n : Nat) :
    (Chain.take (m + 1) (.query n)).len (fun _ => queryHint) = .error (.panic .assertFailed) ∧
    (Chain.skip m (.query n)).len (fun _ => queryHint) = .error (.panic .assertFailed) := by
  constructor <;> rfl

/-- **C100, what would be needed.** With a `size_hint` that says how many items there are, every chain would report the number of its
items. -/
theorem C100_with_exact_hint (c : Chain) : c.len (fun n => (n, some n)) = .ok (count c) := by
  induction c with
  | query n => rfl
  | slice n => rfl
  | each c ih => exact ih
  | _ =>
    rw [Chain.len_computes rfl, Chain.hint_exact _ (fun _ _ => rfl)]
    exact Chain.defaultLen_exact _

variable {U : Universe} {dbg : Bool} {cap : Nat} {h : List Event} {s : Store}

/-- **C100, component queries.** In every state the fresh iterator of a component query is as `Chain.query` describes it: it reports
the number of its items; the same query with `take` panics when asked. -/
theorem C100_component (hx : LooseExec U dbg cap h s) (acc : Access) (old : List IterView) {fuel : Nat} (hf : (alive h).length < fuel) :
    ∃ it items, componentQueryIter U s acc old = .ok it ∧ runComponentQuery U s acc old fuel = .ok items ∧
      (Chain.query it.len).len (fun _ => queryHint) = .ok items.length ∧
      ∀ m, (Chain.take (m + 1) (.query it.len)).len (fun _ => queryHint) = .error (.panic .assertFailed) := by
  obtain ⟨it, items, h1, h2, h3⟩ := C32_fresh_len hx acc old hf
  exact ⟨it, items, h1, h2, congrArg _ h3, fun m => (C100_take_skip m _).1⟩

/-- **C100, ordered queries.** The same. -/
theorem C100_ordered (hx : LooseExec U dbg cap h s) {acc : Access} {g : Nat} (old : List (Range × IterView)) {fuel : Nat}
    (hf : (sequence g h).length < fuel) {it : OrdIter} (hi : orderedQueryIter U s g acc old fuel = .ok it) :
    ∃ items, runOrderedQuery U dbg s g acc old fuel = .ok items ∧
      (Chain.query it.len).len (fun _ => queryHint) = .ok items.length ∧
      ∀ m, (Chain.take (m + 1) (.query it.len)).len (fun _ => queryHint) = .error (.panic .assertFailed) := by
  obtain ⟨items, h1, h2⟩ := C32_ordered_fresh_len (dbg := dbg) hx old hf hi
  exact ⟨items, h1, congrArg _ h2, fun m => (C100_take_skip m _).1⟩

/-- **C100 is false of the code**: three entities are visited; `enumerate` says so, `take(2)` panics. -/
theorem C100_counterexample : ∃ s it items, Exec demo true 1 queryHistory s ∧ componentQueryIter demo s (.readonly [4]) [] = .ok it ∧
    runComponentQuery demo s (.readonly [4]) [] 10 = .ok items ∧ items.length = 3 ∧
    (Chain.each (.query it.len)).len (fun _ => queryHint) = .ok 3 ∧ count (.take 2 (.query it.len)) = 2 ∧
    (Chain.take 2 (.query it.len)).len (fun _ => queryHint) = .error (.panic .assertFailed) := by
  have h : ((runExec demo true 1 queryHistory).any fun s =>
      okAnd (componentQueryIter demo s (.readonly [4]) []) fun it => decide (it.len = 3) &&
      okAnd (runComponentQuery demo s (.readonly [4]) [] 10) fun items => decide (items.length = 3)) = true := by decide
  obtain ⟨s, hs, h⟩ := any_some h
  obtain ⟨it, h1, h⟩ := okAnd_iff h
  rw [Bool.and_eq_true, decide_eq_true_eq] at h
  obtain ⟨items, h2, h3⟩ := okAnd_iff h.2
  refine ⟨s, it, items, runExec_sound hs, h1, h2, of_decide_eq_true h3, congrArg _ h.1, ?_, rfl⟩
  rw [h.1]; decide

/-- Non-vacuity of `C100_panics`: a query of five items, every other of them, zipped with a slice of two. -/
example : (Chain.zip (.stepBy 1 (.query 5)) (.slice 2)).len (fun _ => queryHint) = .error (.panic .assertFailed) :=
  C100_panics (by decide) (by decide) (by rw [Chain.count_zip, Chain.count_stepBy]; decide)

/-- A chain with a query whose length is computed, and right: it has no items. -/
example : (Chain.zip (.query 5) (.slice 0)).len (fun _ => queryHint) = .ok 0 := by decide

/-- `C100_with_exact_hint`: three items. -/
example : (Chain.stepBy 1 (.skip 1 (.query 7))).len (fun n => (n, some n)) = .ok 3 := by decide

end Ecs.Props
