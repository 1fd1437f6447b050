import Verif.Proofs.Deque

/-! C130: an order group is a double-ended queue. -/

namespace Ecs.Props
open Ecs Ecs.Spec

variable {U : Universe} {dbg : Bool} {cap : Nat} {h : List Event} {s : Store}

/-- **C130.** Any operations of a double-ended queue on a group, in any order, return, and hand out what the same operations on a list hand
out. In the end the group is this list; everything else in the store is as before. -/
theorem C130_queue (hx : LooseExec U dbg cap h s) (g : Nat) (ops : List QueueOp) (hu : QueueUse (alive h) ops (sequence g h)) :
    ∃ s', queueGroup dbg g ops s = .ok (s', (queueList ops (sequence g h)).2) ∧
      Rearranged U dbg cap h s g (queueList ops (sequence g h)).1 s' := by
  obtain ⟨s', h', h1, hx', h2, h3, h4, h5⟩ := queue_run ops hx hu
  exact ⟨s', h1, rearranged_of hx hx' h2 h3 h4 h5⟩

/-- **C130.** First in, first out: entities put at the back of an empty group come out at the front in the same order, and the group is empty
again. -/
theorem C130_first_in_first_out (hx : LooseExec U dbg cap h s) (g : Nat) (l : List Entity) (hl : ∀ e ∈ l, e ∈ alive h) (hn : l.Nodup)
    (he : s.getFirstOrdered g = .ok none) :
    ∃ s', queueGroup dbg g (l.map .pushBack ++ l.map fun _ => .popFront) s =
        .ok (s', l.map (fun _ => none) ++ l.map some) ∧ Rearranged U dbg cap h s g [] s' := by
  have hs : sequence g h = [] := by
    have h1 := (C41_group_is_sequence hx g).2.2.1
    rw [he] at h1
    exact List.head?_eq_none_iff.1 (Except.ok.inj h1).symm
  have pops : ∀ m : List Entity, queueList (m.map fun _ => .popFront) m = ([], m.map some) ∧ QueueUse (alive h) (m.map fun _ => .popFront) m := by
    intro m
    induction m with
    | nil => exact ⟨rfl, trivial⟩
    | cons a m ih => exact ⟨by simp only [List.map_cons, queueList, QueueOp.onList, List.tail_cons, List.head?_cons, ih.1], by simp, ih.2⟩
  have all : ∀ (m k l : List Entity), k ++ m = l → (∀ e ∈ l, e ∈ alive h) → l.Nodup →
      queueList (m.map .pushBack ++ l.map fun _ => .popFront) k = ([], m.map (fun _ => none) ++ l.map some) ∧
      QueueUse (alive h) (m.map .pushBack ++ l.map fun _ => .popFront) k := by
    intro m
    induction m with
    | nil =>
      intro k l hk _ _
      rw [List.append_nil] at hk
      exact hk ▸ pops k
    | cons a m ih =>
      intro k l hk hl hn
      have h1 := ih (k ++ [a]) l (by rw [← hk]; simp) hl hn
      refine ⟨by simp only [List.map_cons, List.cons_append, queueList, QueueOp.onList, h1.1], ?_, h1.2⟩
      rintro e (he | he)
      · cases he
        subst hk
        exact ⟨hl _ (by simp), fun hm => (List.nodup_append.1 hn).2.2 _ hm _ List.mem_cons_self rfl⟩
      · cases he
  obtain ⟨h1, h2⟩ := all l [] l rfl hl hn
  have := C130_queue hx g _ (by rw [hs]; exact h2)
  rw [hs, h1] at this
  exact this

/-- **C130.** Last in, first out: put in front and taken from the front, they come out in the opposite order, and whatever was in the group
is left as it was. -/
theorem C130_last_in_first_out (hx : LooseExec U dbg cap h s) (g : Nat) (l : List Entity) (hl : ∀ e ∈ l, e ∈ alive h ∧ e ∉ sequence g h)
    (hn : l.Nodup) :
    ∃ s', queueGroup dbg g (l.map .pushFront ++ l.map fun _ => .popFront) s =
        .ok (s', l.map (fun _ => none) ++ l.reverse.map some) ∧ Rearranged U dbg cap h s g (sequence g h) s' := by
  have pops : ∀ m q : List Entity, queueList (m.map fun _ => .popFront) (m ++ q) = (q, m.map some) ∧
      QueueUse (alive h) (m.map fun _ => .popFront) (m ++ q) := by
    intro m q
    induction m with
    | nil => exact ⟨rfl, trivial⟩
    | cons a m ih => exact ⟨by simp only [List.map_cons, List.cons_append, queueList, QueueOp.onList, List.tail_cons, List.head?_cons, ih.1], by simp, ih.2⟩
  have all : ∀ (m k : List Entity) (q : List Entity), (∀ e ∈ m, e ∈ alive h ∧ e ∉ k ++ q) → m.Nodup →
      queueList (m.map .pushFront ++ (m.reverse ++ k).map fun _ => .popFront) (k ++ q) =
        (q, m.map (fun _ => none) ++ (m.reverse ++ k).map some) ∧
      QueueUse (alive h) (m.map .pushFront ++ (m.reverse ++ k).map fun _ => .popFront) (k ++ q) := by
    intro m
    induction m with
    | nil => exact fun k q _ _ => pops k q
    | cons a m ih =>
      intro k q hl hn
      have hn' := List.nodup_cons.1 hn
      have h1 := ih (a :: k) q (fun e he => ⟨(hl e (List.mem_cons_of_mem _ he)).1, by
        rw [List.cons_append, List.mem_cons]
        rintro (h | h)
        · exact hn'.1 (h ▸ he)
        · exact (hl e (List.mem_cons_of_mem _ he)).2 h⟩) hn'.2
      rw [show (a :: m).reverse ++ k = m.reverse ++ (a :: k) by simp]
      refine ⟨?_, ?_, h1.2⟩
      · have := h1.1
        simp only [List.map_cons, List.cons_append, queueList, QueueOp.onList] at this ⊢
        rw [this]
      · rintro e (he | he)
        · cases he
        · cases he
          exact hl _ List.mem_cons_self
  obtain ⟨h1, h2⟩ := all l [] (sequence g h) (fun e he => by simpa using hl e he) hn
  simp only [List.append_nil, List.nil_append] at h1 h2
  have hm : (l.reverse.map fun _ => QueueOp.popFront) = l.map fun _ => .popFront := by simp [List.map_const']
  rw [hm] at h1 h2
  have := C130_queue hx g _ h2
  rw [h1] at this
  exact this

/-! ### Examples -/

/-- Four entities, two of them in the group. -/
def waiting : List Event :=
  [.orderedLast 3 ⟨1, 1⟩, .orderedLast 3 ⟨2, 1⟩, .created ⟨3, 1⟩, .created ⟨2, 1⟩, .created ⟨1, 1⟩, .created ⟨0, 1⟩]

def queueOps : List QueueOp := [.pushFront ⟨0, 1⟩, .popBack, .pushBack ⟨3, 1⟩, .popFront, .popFront, .pushBack ⟨0, 1⟩, .popBack, .popBack, .popFront]

/-- The hypotheses of the theorems, and what the program hands out. -/
example : ∃ s s', LooseExec demo true 1 waiting s ∧ QueueUse (alive waiting) queueOps (sequence 3 waiting) ∧
    s.getFirstOrdered 4 = .ok none ∧ (∀ e ∈ [(⟨3, 1⟩ : Entity), ⟨0, 1⟩], e ∈ alive waiting ∧ e ∉ sequence 3 waiting) ∧
    queueGroup true 3 queueOps s = .ok (s', [none, some ⟨1, 1⟩, none, some ⟨0, 1⟩, some ⟨2, 1⟩, none, some ⟨0, 1⟩, some ⟨3, 1⟩, none]) ∧
    s'.getFirstOrdered 3 = .ok none := by
  have h : ((runExec demo true 1 waiting).any fun s => decide (s.getFirstOrdered 4 = .ok none) && okAnd (queueGroup true 3 queueOps s) fun r =>
      decide (r.2 = [none, some ⟨1, 1⟩, none, some ⟨0, 1⟩, some ⟨2, 1⟩, none, some ⟨0, 1⟩, some ⟨3, 1⟩, none] ∧
        r.1.getFirstOrdered 3 = .ok none)) = true := by decide
  obtain ⟨s, hs, h⟩ := any_some h
  simp only [Bool.and_eq_true, decide_eq_true_eq] at h
  obtain ⟨h0, h⟩ := h
  obtain ⟨⟨s', o⟩, h1, h⟩ := okAnd_iff h
  simp only [decide_eq_true_eq] at h
  refine ⟨s, s', (runExec_sound hs).loose, ?_, h0, by decide, ?_, h.2⟩
  · simp [QueueUse, queueOps, QueueOp.onList, waiting, alive, sequence]
  · rw [h1, h.1]

end Ecs.Props
