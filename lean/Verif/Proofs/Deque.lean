import Verif.Proofs.Sorting
import Verif.Spec.Deque

/-! An order group used as a double-ended queue. -/

namespace Ecs
open Spec Props

variable {U : Universe} {dbg : Bool} {cap : Nat}

theorem addOrder_rest {s s' : Store} {g : Nat} {e : Entity} (h : s.addOrder dbg g e = .ok s') : { s' with orders := s.orders } = s := by
  unfold Store.addOrder at h
  obtain ⟨o, _, h⟩ := bind_eq_ok.1 h
  cases h
  rfl

theorem addOrderPreviousTo_rest {s s' : Store} {g : Nat} {e x : Entity} (h : s.addOrderPreviousTo dbg g e x = .ok s') :
    { s' with orders := s.orders } = s := by
  unfold Store.addOrderPreviousTo at h
  obtain ⟨o, _, h⟩ := bind_eq_ok.1 h
  cases h
  rfl

theorem removeOrder_rest {s s' : Store} {g : Nat} {e : Entity} (h : s.removeOrder g e = .ok s') : { s' with orders := s.orders } = s := by
  unfold Store.removeOrder at h
  obtain ⟨o, _, h⟩ := bind_eq_ok.1 h
  cases h
  rfl

theorem erase_last : ∀ {l : List Entity} {x : Entity}, l.Nodup → l.getLast? = some x → l.erase x = l.dropLast
  | [], _, _, h => by simp at h
  | [a], x, _, h => by
    simp at h
    simp [h]
  | a :: b :: l, x, hn, h => by
    have hn' := List.nodup_cons.1 hn
    rw [List.getLast?_cons_cons] at h
    have hm : x ∈ b :: l := List.mem_of_getLast? h
    have hne : a ≠ x := fun he => hn'.1 (he ▸ hm)
    rw [List.erase_cons_tail (by simpa using hne), erase_last hn'.2 h]
    rfl

/-- One operation. -/
theorem queueOp_run {g : Nat} {h : List Event} {s : Store} (op : QueueOp) (hx : LooseExec U dbg cap h s)
    (hu : ∀ e, op = .pushBack e ∨ op = .pushFront e → e ∈ alive h ∧ e ∉ sequence g h) :
    ∃ s' h', op.onGroup dbg g s = .ok (s', (op.onList (sequence g h)).2) ∧ LooseExec U dbg cap h' s' ∧ alive h' = alive h ∧
      sequence g h' = (op.onList (sequence g h)).1 ∧ (∀ g', g' ≠ g → sequence g' h' = sequence g' h) ∧ { s' with orders := s.orders } = s := by
  obtain ⟨hn, hlive, hfirst, hlast, -, -⟩ := C41_group_is_sequence hx g
  cases op with
  | pushBack e =>
    obtain ⟨he, hm⟩ := hu e (.inl rfl)
    obtain ⟨s', h1, hx1⟩ := (C41_calls_return hx g he).1 hm
    refine ⟨s', _, ?_, hx1, rfl, if_pos rfl, fun g' hg => if_neg (Ne.symm hg), addOrder_rest h1⟩
    simp only [QueueOp.onGroup, h1, ok_bind]
    rfl
  | pushFront e =>
    obtain ⟨he, hm⟩ := hu e (.inr rfl)
    cases hs : sequence g h with
    | nil =>
      obtain ⟨s', h1, hx1⟩ := (C41_calls_return hx g he).1 hm
      refine ⟨s', _, ?_, hx1, rfl, ?_, fun g' hg => if_neg (Ne.symm hg), addOrder_rest h1⟩
      · simp only [QueueOp.onGroup, hfirst, hs, List.head?_nil, h1, ok_bind]
        rfl
      · simp [sequence, hs, QueueOp.onList]
    | cons x l =>
      obtain ⟨s', h1, hx1⟩ := (C41_calls_return hx g he).2.2.1 x (by rw [hs]; exact List.mem_cons_self) hm
      refine ⟨s', _, ?_, hx1, rfl, ?_, fun g' hg => if_neg (Ne.symm hg), addOrderPreviousTo_rest h1⟩
      · simp only [QueueOp.onGroup, hfirst, hs, List.head?_cons, h1, ok_bind]
        rfl
      · simp [sequence, hs, QueueOp.onList, insertBefore]
  | popFront =>
    cases hs : sequence g h with
    | nil =>
      refine ⟨s, h, ?_, hx, rfl, by rw [hs]; rfl, fun _ _ => rfl, rfl⟩
      simp only [QueueOp.onGroup, hfirst, hs, List.head?_nil, ok_bind]
      rfl
    | cons x l =>
      obtain ⟨s', h1, hx1⟩ := (C41_calls_return hx g (hlive x (by rw [hs]; exact List.mem_cons_self))).2.2.2
      refine ⟨s', _, ?_, hx1, rfl, ?_, fun g' hg => if_neg (Ne.symm hg), removeOrder_rest h1⟩
      · simp only [QueueOp.onGroup, hfirst, hs, List.head?_cons, h1, ok_bind]
        rfl
      · simp [sequence, hs, QueueOp.onList]
  | popBack =>
    cases hs : (sequence g h).getLast? with
    | none =>
      have hnil : sequence g h = [] := List.getLast?_eq_none_iff.1 hs
      refine ⟨s, h, ?_, hx, rfl, by rw [hnil]; rfl, fun _ _ => rfl, rfl⟩
      simp only [QueueOp.onGroup, hlast, hs, ok_bind, QueueOp.onList]
      rfl
    | some x =>
      obtain ⟨s', h1, hx1⟩ := (C41_calls_return hx g (hlive x (List.mem_of_getLast? hs))).2.2.2
      refine ⟨s', _, ?_, hx1, rfl, ?_, fun g' hg => if_neg (Ne.symm hg), removeOrder_rest h1⟩
      · simp only [QueueOp.onGroup, hlast, hs, h1, ok_bind, QueueOp.onList]
        rfl
      · rw [show sequence g (.unordered g x :: h) = (sequence g h).erase x from if_pos rfl, erase_last hn hs]
        rfl

/-- All operations. -/
theorem queue_run {g : Nat} : ∀ (ops : List QueueOp) {h : List Event} {s : Store}, LooseExec U dbg cap h s →
    QueueUse (alive h) ops (sequence g h) →
    ∃ s' h', queueGroup dbg g ops s = .ok (s', (queueList ops (sequence g h)).2) ∧ LooseExec U dbg cap h' s' ∧ alive h' = alive h ∧
      sequence g h' = (queueList ops (sequence g h)).1 ∧ (∀ g', g' ≠ g → sequence g' h' = sequence g' h) ∧ { s' with orders := s.orders } = s
  | [], h, s, hx, _ => ⟨s, h, rfl, hx, rfl, rfl, fun _ _ => rfl, rfl⟩
  | op :: ops, h, s, hx, hu => by
    obtain ⟨s1, h1, r1, hx1, a1, q1, o1, t1⟩ := queueOp_run (g := g) op hx hu.1
    obtain ⟨s2, h2, r2, hx2, a2, q2, o2, t2⟩ := queue_run (g := g) ops hx1 (by rw [a1, q1]; exact hu.2)
    rw [q1] at r2 q2
    refine ⟨s2, h2, ?_, hx2, a2.trans a1, q2, fun g' hg => (o2 g' hg).trans (o1 g' hg), ?_⟩
    · simp only [queueGroup, r1, ok_bind, r2]
      rfl
    · have := congrArg (fun t : Store => { t with orders := s.orders }) t2
      exact this.trans t1

end Ecs
