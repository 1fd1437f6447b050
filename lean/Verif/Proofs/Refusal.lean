import Verif.Spec.Refusal
import Mathlib.Tactic.Tauto

/-! Refused requests. `Sim` compares a program with its version for a refusing allocator: they agree as long as nothing is
refused. `Trk` follows a refusal: after it the program holds a null pointer or has run into undefined behaviour. -/

namespace Ecs
open HeapM

/-- Later heap: more requests. -/
def Later (H H' : Heap) : Prop := H.asked.length ≤ H'.asked.length ∧ H.next ≤ H'.next

theorem Later.trans {H1 H2 H3 : Heap} (a : Later H1 H2) (b : Later H2 H3) : Later H1 H3 :=
  ⟨Nat.le_trans a.1 b.1, Nat.le_trans a.2 b.2⟩

theorem Later.rfl {H : Heap} : Later H H := ⟨Nat.le_refl _, Nat.le_refl _⟩

theorem RefusedIn.first {R : Nat → Bool} {H1 H2 H3 : Heap} (h : RefusedIn R H1 H2) (b : Later H2 H3) : RefusedIn R H1 H3 := by
  obtain ⟨i, h1, h2, h3⟩ := h
  exact ⟨i, h1, Nat.lt_of_lt_of_le h2 b.1, h3⟩

theorem RefusedIn.split {R : Nat → Bool} {H1 H2 H3 : Heap} (h : RefusedIn R H1 H3) : RefusedIn R H1 H2 ∨ RefusedIn R H2 H3 := by
  obtain ⟨i, h1, h2, h3⟩ := h
  by_cases hi : i < H2.asked.length
  · exact .inl ⟨i, h1, hi, h3⟩
  · exact .inr ⟨i, Nat.le_of_not_lt hi, h2, h3⟩

theorem not_refusedIn_self {R : Nat → Bool} {H : Heap} : ¬ RefusedIn R H H := by
  rintro ⟨i, h1, h2, -⟩
  omega

/-- The same request is refused in both runs, or nothing is refused and the runs agree. -/
def Sim {α : Type} (R : Nat → Bool) (p q : HeapM α) : Prop :=
  ∀ H, 0 < H.next → Later H (heapAfter (p H)) ∧ Later H (heapAfter (q H)) ∧
    ((¬ RefusedIn R H (heapAfter (p H)) ∧ q H = p H) ∨
      (RefusedIn R H (heapAfter (p H)) ∧ RefusedIn R H (heapAfter (q H))))

theorem bind_run {α β : Type} (m : HeapM α) (k : α → HeapM β) (H : Heap) :
    (m >>= k) H = match m H with
      | .ok a H' => k a H'
      | .error f H' => .error f H' := by
  show EStateM.bind m k H = _
  unfold EStateM.bind
  cases m H <;> rfl

theorem tryCatch_run {α : Type} (m : HeapM α) (k : Fault → HeapM α) (H : Heap) :
    (tryCatch m k) H = match m H with
      | .ok a H' => .ok a H'
      | .error f H' => k f H' := by
  show EStateM.tryCatch m k H = _
  unfold EStateM.tryCatch
  cases m H <;> rfl

namespace Sim
variable {α β : Type} {R : Nat → Bool}

/-- Programs that do not ask. -/
theorem same (p : HeapM α) (h : ∀ H, (heapAfter (p H)).asked = H.asked ∧ (heapAfter (p H)).next = H.next) : Sim R p p := by
  intro H _
  have hl : Later H (heapAfter (p H)) := ⟨by rw [(h H).1]; exact Nat.le_refl _, by rw [(h H).2]; exact Nat.le_refl _⟩
  refine ⟨hl, hl, .inl ⟨?_, rfl⟩⟩
  rintro ⟨i, h1, h2, -⟩
  rw [(h H).1] at h2
  omega

theorem pure (a : α) : Sim R (Pure.pure a) (Pure.pure a) := same _ fun _ => ⟨rfl, rfl⟩

theorem throw (f : Fault) : Sim R (throw f : HeapM α) (throw f) := same _ fun _ => ⟨rfl, rfl⟩

theorem bind {p q : HeapM α} {k l : α → HeapM β} (h : Sim R p q) (hk : ∀ a, Sim R (k a) (l a)) :
    Sim R (p >>= k) (q >>= l) := by
  intro H hn
  obtain ⟨lp, lq, hc⟩ := h H hn
  have key : ∀ (m : HeapM α) (j : α → HeapM β), Later H (heapAfter (m H)) → (∀ a H', 0 < H'.next → Later H' (heapAfter (j a H'))) →
      Later (heapAfter (m H)) (heapAfter ((m >>= j) H)) := by
    intro m j hm hj
    rw [bind_run]
    cases hr : m H with
    | ok a H' =>
      rw [hr] at hm
      exact hj a H' (Nat.lt_of_lt_of_le hn hm.2)
    | error f H' => exact Later.rfl
  have kp := key p k lp fun a H' h' => (hk a H' h').1
  have kq := key q l lq fun a H' h' => (hk a H' h').2.1
  refine ⟨lp.trans kp, lq.trans kq, ?_⟩
  rcases hc with ⟨hno, he⟩ | ⟨r1, r2⟩
  · rw [bind_run, bind_run, he]
    cases hr : p H with
    | ok a H' =>
      rw [hr] at hno lp
      rcases (hk a H' (Nat.lt_of_lt_of_le hn lp.2)).2.2 with ⟨h1, h2⟩ | ⟨h1, h2⟩
      · exact .inl ⟨fun hb => (hb.split (H2 := H')).elim hno h1, h2⟩
      · refine .inr ⟨?_, ?_⟩
        · obtain ⟨i, a1, a2, a3⟩ := h1
          exact ⟨i, Nat.le_trans lp.1 a1, a2, a3⟩
        · obtain ⟨i, a1, a2, a3⟩ := h2
          exact ⟨i, Nat.le_trans lp.1 a1, a2, a3⟩
    | error f H' =>
      rw [hr] at hno
      exact .inl ⟨hno, rfl⟩
  · exact .inr ⟨r1.first kp, r2.first kq⟩

theorem tryCatch {p q : HeapM α} {k l : Fault → HeapM α} (h : Sim R p q) (hk : ∀ a, Sim R (k a) (l a)) :
    Sim R (tryCatch p k) (MonadExcept.tryCatch q l) := by
  intro H hn
  obtain ⟨lp, lq, hc⟩ := h H hn
  have key : ∀ (m : HeapM α) (j : Fault → HeapM α), Later H (heapAfter (m H)) → (∀ a H', 0 < H'.next → Later H' (heapAfter (j a H'))) →
      Later (heapAfter (m H)) (heapAfter ((MonadExcept.tryCatch m j : HeapM α) H)) := by
    intro m j hm hj
    have e := tryCatch_run m j H
    rw [show (MonadExcept.tryCatch m j : HeapM α) H = _ from e]
    cases hr : m H with
    | error a H' =>
      rw [hr] at hm
      exact hj a H' (Nat.lt_of_lt_of_le hn hm.2)
    | ok f H' => exact Later.rfl
  have kp := key p k lp fun a H' h' => (hk a H' h').1
  have kq := key q l lq fun a H' h' => (hk a H' h').2.1
  refine ⟨lp.trans kp, lq.trans kq, ?_⟩
  rcases hc with ⟨hno, he⟩ | ⟨r1, r2⟩
  · rw [show (MonadExcept.tryCatch p k : HeapM α) H = _ from tryCatch_run p k H,
      show (MonadExcept.tryCatch q l : HeapM α) H = _ from tryCatch_run q l H, he]
    cases hr : p H with
    | error a H' =>
      rw [hr] at hno lp
      rcases (hk a H' (Nat.lt_of_lt_of_le hn lp.2)).2.2 with ⟨h1, h2⟩ | ⟨h1, h2⟩
      · exact .inl ⟨fun hb => (hb.split (H2 := H')).elim hno h1, h2⟩
      · refine .inr ⟨?_, ?_⟩
        · obtain ⟨i, a1, a2, a3⟩ := h1
          exact ⟨i, Nat.le_trans lp.1 a1, a2, a3⟩
        · obtain ⟨i, a1, a2, a3⟩ := h2
          exact ⟨i, Nat.le_trans lp.1 a1, a2, a3⟩
    | ok f H' =>
      rw [hr] at hno
      exact .inl ⟨hno, rfl⟩
  · exact .inr ⟨r1.first kp, r2.first kq⟩

theorem mapM {f g : α → HeapM β} (h : ∀ a, Sim R (f a) (g a)) : ∀ l : List α, Sim R (l.mapM f) (l.mapM g)
  | [] => by simpa using pure (R := R) ([] : List β)
  | a :: l => by
    rw [List.mapM_cons, List.mapM_cons]
    exact bind (h a) fun _ => bind (mapM h l) fun _ => pure _

theorem foldlM {f g : β → α → HeapM β} (h : ∀ b a, Sim R (f b a) (g b a)) :
    ∀ (l : List α) (b : β), Sim R (l.foldlM f b) (l.foldlM g b)
  | [], b => pure b
  | a :: l, b => by
    rw [List.foldlM_cons, List.foldlM_cons]
    exact bind (h b a) fun b' => foldlM h l b'

theorem forM {f : α → HeapM PUnit} (h : ∀ a, Sim R (f a) (f a)) : ∀ l : List α, Sim R (l.forM f) (l.forM f)
  | [] => pure _
  | a :: l => bind (h a) fun _ => forM h l

end Sim

variable {R : Nat → Bool}

theorem sim_alloc (size cap : Nat) : Sim R (alloc size cap) (allocR R size cap) := by
  intro H hn
  unfold alloc allocR
  by_cases h0 : size * cap = 0
  · rw [if_pos h0, if_pos h0]
    exact ⟨Later.rfl, Later.rfl, .inl ⟨not_refusedIn_self, rfl⟩⟩
  · rw [if_neg h0, if_neg h0]
    cases hR : R H.asked.length with
    | true =>
      rw [if_pos rfl]
      refine ⟨⟨by simp [heapAfter], by simp [heapAfter]⟩, ⟨by simp [heapAfter], by simp [heapAfter]⟩, .inr ⟨?_, ?_⟩⟩ <;>
        exact ⟨H.asked.length, Nat.le_refl _, by simp [heapAfter], hR⟩
    | false =>
      rw [if_neg (by decide)]
      refine ⟨⟨by simp [heapAfter], by simp [heapAfter]⟩, ⟨by simp [heapAfter], by simp [heapAfter]⟩, .inl ⟨?_, rfl⟩⟩
      rintro ⟨i, h1, h2, h3⟩
      have : i = H.asked.length := by simp [heapAfter] at h2; omega
      rw [this, hR] at h3
      exact absurd h3 (by decide)

/-- Asking, and then writing to the block. -/
theorem sim_alloc_write {β : Type} (size cap : Nat) {k l : Nat → HeapM β} (hk : ∀ p, Sim R (k p) (l p)) :
    Sim R (alloc size cap >>= k) (allocR R size cap >>= fun p => writeTo p >>= fun _ => l p) := by
  intro H hn
  have h1 := sim_alloc (R := R) size cap
  by_cases hr : RefusedIn R H (heapAfter (alloc size cap H))
  · obtain ⟨a, b, c⟩ := Sim.bind h1 (fun p => (hk p)) H hn
    rcases (h1 H hn).2.2 with ⟨h, -⟩ | ⟨-, hq⟩
    · exact absurd hr h
    have hw : Later (heapAfter (allocR R size cap H))
        (heapAfter ((allocR R size cap >>= fun p => writeTo p >>= fun _ => l p) H)) := by
      rw [bind_run]
      cases he : allocR R size cap H with
      | error f H' => exact Later.rfl
      | ok p H' =>
        have := (h1 H hn).2.1
        rw [he] at this
        show Later H' (heapAfter ((writeTo p >>= fun _ => l p) H'))
        rw [bind_run]
        unfold writeTo
        by_cases hp : p = 0
        · rw [if_pos hp]; exact Later.rfl
        · rw [if_neg hp]
          exact (hk p H' (Nat.lt_of_lt_of_le hn this.2)).2.1
    refine ⟨a, (h1 H hn).2.1.trans hw, .inr ⟨?_, hq.first hw⟩⟩
    have : Later (heapAfter (alloc size cap H)) (heapAfter ((alloc size cap >>= k) H)) := by
      rw [bind_run]
      cases he : alloc size cap H with
      | error f H' => exact Later.rfl
      | ok p H' =>
        have := (h1 H hn).1
        rw [he] at this
        exact (hk p H' (Nat.lt_of_lt_of_le hn this.2)).1
    exact hr.first this
  · have he : (allocR R size cap >>= fun p => writeTo p >>= fun _ => l p) H = (allocR R size cap >>= l) H := by
      rcases (h1 H hn).2.2 with ⟨-, he⟩ | ⟨h, -⟩
      · rw [bind_run, bind_run, he]
        unfold alloc
        by_cases h0 : size * cap = 0
        · rw [if_pos h0]
        · rw [if_neg h0]
          show (writeTo H.next >>= fun _ => l H.next) _ = _
          rw [bind_run]
          unfold writeTo
          rw [if_neg (by omega)]
      · exact absurd h hr
    rw [he]
    exact Sim.bind h1 hk H hn

theorem sim_dealloc (size p cap : Nat) : Sim R (dealloc size p cap) (dealloc size p cap) := by
  apply Sim.same
  intro H
  unfold dealloc freeBytes
  by_cases h : (p, size * cap) ∈ H.blocks
  · rw [if_pos h]; exact ⟨rfl, rfl⟩
  · rw [if_neg h]; exact ⟨rfl, rfl⟩

theorem sim_realloc (size p o n : Nat) : Sim R (realloc size p o n) (reallocR R size p o n) := by
  unfold realloc reallocR
  by_cases h : o = n
  · simp only [h, if_true]
    exact Sim.pure _
  · simp only [h, if_false]
    exact sim_alloc_write _ _ fun q => Sim.bind (sim_dealloc _ _ _) fun _ => Sim.pure _

theorem sim_reallocZeroing (size p o n : Nat) : Sim R (reallocZeroing size p o n) (reallocZeroingR R size p o n) :=
  sim_alloc_write _ _ fun _ => Sim.bind (sim_dealloc _ _ _) fun _ => Sim.pure _

theorem sim_bitsRealloc (p o n : Nat) : Sim R (bitsRealloc p o n) (bitsReallocR R p o n) := by
  unfold bitsRealloc bitsReallocR
  by_cases h : Words.getLen o = Words.getLen n
  · simp only [h, if_true]
    exact Sim.pure _
  · simp only [h, if_false]
    exact sim_alloc_write _ _ fun q => Sim.bind (sim_dealloc _ _ _) fun _ => Sim.pure _

theorem sim_entsNew (cap : Nat) : Sim R (EntsPtrs.new cap) (EntsPtrs.newR R cap) :=
  Sim.bind (sim_alloc _ _) fun _ => Sim.bind (sim_alloc _ _) fun _ => Sim.pure _

theorem sim_entsCreate (c : EntsPtrs) (g : Bool) : Sim R (c.create g) (c.createR R g) := by
  cases g with
  | false => exact Sim.pure _
  | true =>
    show Sim R (c.grow _) (c.growR R _)
    unfold EntsPtrs.grow EntsPtrs.growR
    by_cases h : max c.capacity 1 * 2 ≤ c.capacity
    · simp only [h, if_true]
      exact Sim.pure _
    · simp only [h, if_false]
      exact Sim.bind (sim_reallocZeroing _ _ _ _) fun _ => Sim.bind (sim_bitsRealloc _ _ _) fun _ => Sim.pure _

/-- As `Sim.bind`, if the programs agree only after the values that the plain program returns. -/
theorem Sim.bindOf {α β : Type} {P : α → Prop} {p q : HeapM α} {k l : α → HeapM β} (h : Sim R p q)
    (hp : ∀ H a H', 0 < H.next → p H = .ok a H' → P a) (hk : ∀ a, P a → Sim R (k a) (l a))
    (hkl : ∀ a H, 0 < H.next → Later H (heapAfter (k a H)) ∧ Later H (heapAfter (l a H))) : Sim R (p >>= k) (q >>= l) := by
  intro H hn
  obtain ⟨lp, lq, hc⟩ := h H hn
  have key : ∀ (m : HeapM α) (j : α → HeapM β), Later H (heapAfter (m H)) → (∀ a H', 0 < H'.next → Later H' (heapAfter (j a H'))) →
      Later (heapAfter (m H)) (heapAfter ((m >>= j) H)) := by
    intro m j hm hj
    rw [bind_run]
    cases hr : m H with
    | ok a H' =>
      rw [hr] at hm
      exact hj a H' (Nat.lt_of_lt_of_le hn hm.2)
    | error f H' => exact Later.rfl
  have kp := key p k lp fun a H' h' => (hkl a H' h').1
  have kq := key q l lq fun a H' h' => (hkl a H' h').2
  refine ⟨lp.trans kp, lq.trans kq, ?_⟩
  rcases hc with ⟨hno, he⟩ | ⟨r1, r2⟩
  · rw [bind_run, bind_run, he]
    cases hr : p H with
    | ok a H' =>
      have ha := hp H a H' hn hr
      rw [hr] at hno lp
      rcases (hk a ha H' (Nat.lt_of_lt_of_le hn lp.2)).2.2 with ⟨h1, h2⟩ | ⟨h1, h2⟩
      · exact .inl ⟨fun hb => (hb.split (H2 := H')).elim hno h1, h2⟩
      · refine .inr ⟨?_, ?_⟩
        · obtain ⟨i, a1, a2, a3⟩ := h1
          exact ⟨i, Nat.le_trans lp.1 a1, a2, a3⟩
        · obtain ⟨i, a1, a2, a3⟩ := h2
          exact ⟨i, Nat.le_trans lp.1 a1, a2, a3⟩
    | error f H' =>
      rw [hr] at hno
      exact .inl ⟨hno, rfl⟩
  · exact .inr ⟨r1.first kp, r2.first kq⟩

theorem alloc_pos {size cap p : Nat} {H H' : Heap} (hn : 0 < H.next) (h : alloc size cap H = .ok p H') :
    p ≠ 0 ∧ 0 < H'.next := by
  unfold alloc at h
  split at h
  · cases h
  · cases h
    exact ⟨by omega, by simp⟩

/-- The four allocations of `ArchPtrs.newR`. -/
def ArchPtrs.askR (R : Nat → Bool) (count : Nat) : HeapM ArchPtrs := do
  let ids ← allocR R typeIdSize count
  let sizes ← allocR R 8 count
  let aligns ← allocR R 8 count
  let names ← allocR R strSize count
  return { count := count, ids := ids, sizes := sizes, aligns := aligns, names := names }

/-- Its writes. -/
def ArchPtrs.fill (a : ArchPtrs) : HeapM ArchPtrs := do
  writeTo a.ids
  writeTo a.sizes
  writeTo a.aligns
  writeTo a.names
  return a

theorem archNewR_eq (R : Nat → Bool) (count : Nat) : ArchPtrs.newR R count = ArchPtrs.askR R count >>= ArchPtrs.fill := by
  unfold ArchPtrs.newR ArchPtrs.askR ArchPtrs.fill
  simp only [bind_assoc, pure_bind]

theorem writeTo_same {β : Type} {p : Nat} (hp : p ≠ 0) (k : Unit → HeapM β) : (writeTo p >>= k) = k () := by
  funext H
  rw [bind_run]
  unfold writeTo
  rw [if_neg hp]

theorem later_write {β : Type} {p : Nat} {k : Unit → HeapM β} {H : Heap} (hk : Later H (heapAfter (k () H))) :
    Later H (heapAfter ((writeTo p >>= k) H)) := by
  rw [bind_run]
  unfold writeTo
  by_cases hp : p = 0
  · rw [if_pos hp]; exact Later.rfl
  · rw [if_neg hp]; exact hk

theorem bind_ok_inv {α β : Type} {m : HeapM α} {k : α → HeapM β} {H H' : Heap} {b : β} (h : (m >>= k) H = .ok b H') :
    ∃ a H1, m H = .ok a H1 ∧ k a H1 = .ok b H' := by
  rw [bind_run] at h
  cases hm : m H with
  | ok a H1 => rw [hm] at h; exact ⟨a, H1, rfl, h⟩
  | error f H1 => rw [hm] at h; cases h

theorem sim_archNew (count : Nat) : Sim R (ArchPtrs.new count) (ArchPtrs.newR R count) := by
  rw [archNewR_eq, ← bind_pure (ArchPtrs.new count)]
  refine Sim.bindOf (P := fun a => a.ids ≠ 0 ∧ a.sizes ≠ 0 ∧ a.aligns ≠ 0 ∧ a.names ≠ 0) ?_ ?_ ?_ ?_
  · exact Sim.bind (sim_alloc _ _) fun _ => Sim.bind (sim_alloc _ _) fun _ => Sim.bind (sim_alloc _ _) fun _ =>
      Sim.bind (sim_alloc _ _) fun _ => Sim.pure _
  · intro H a H' hn h
    unfold ArchPtrs.new at h
    obtain ⟨p1, H1, e1, h⟩ := bind_ok_inv h
    obtain ⟨p2, H2, e2, h⟩ := bind_ok_inv h
    obtain ⟨p3, H3, e3, h⟩ := bind_ok_inv h
    obtain ⟨p4, H4, e4, h⟩ := bind_ok_inv h
    obtain ⟨q1, n1⟩ := alloc_pos hn e1
    obtain ⟨q2, n2⟩ := alloc_pos n1 e2
    obtain ⟨q3, n3⟩ := alloc_pos n2 e3
    obtain ⟨q4, n4⟩ := alloc_pos n3 e4
    cases h
    exact ⟨q1, q2, q3, q4⟩
  · rintro a ⟨h1, h2, h3, h4⟩
    unfold ArchPtrs.fill
    rw [writeTo_same h1, writeTo_same h2, writeTo_same h3, writeTo_same h4]
    exact Sim.pure a
  · intro a H _
    exact ⟨Later.rfl, later_write (later_write (later_write (later_write Later.rfl)))⟩

theorem sim_archDrop (a : ArchPtrs) : Sim R a.drop a.drop :=
  Sim.bind (sim_dealloc _ _ _) fun _ => Sim.bind (sim_dealloc _ _ _) fun _ => Sim.bind (sim_dealloc _ _ _) fun _ =>
    sim_dealloc _ _ _

theorem sim_layoutNew (count : Nat) (fits : Bool) : Sim R (LayoutPtr.new count fits) (LayoutPtr.newR R count fits) := by
  unfold LayoutPtr.new LayoutPtr.newR
  refine sim_alloc_write _ _ fun p => ?_
  cases fits with
  | true => exact Sim.pure _
  | false => exact Sim.bind (Sim.throw _) fun _ => Sim.pure _

theorem sim_reserve (c : ArchsPtrs) (count slot : Nat) (fits : Bool) :
    Sim R (c.reserveArchetype count slot fits) (c.reserveArchetypeR R count slot fits) := by
  unfold ArchsPtrs.reserveArchetype ArchsPtrs.reserveArchetypeR
  refine Sim.bind (sim_layoutNew _ _) fun l => ?_
  cases c.archetypes[slot]? with
  | none => exact Sim.bind (sim_archNew _) fun _ => Sim.pure _
  | some a =>
    cases c.layouts[slot]? with
    | none => exact Sim.bind (sim_archNew _) fun _ => Sim.pure _
    | some l => exact Sim.bind (sim_archNew _) fun _ => Sim.bind (sim_archDrop _) fun _ =>
        Sim.bind (sim_dealloc _ _ _) fun _ => Sim.pure _

theorem sim_place (s : StorePtrs) (archetype : Option (Nat × Nat × Bool)) (page : Bool) :
    Sim R (s.place archetype page) (s.placeR R archetype page) := by
  unfold StorePtrs.place StorePtrs.placeR
  cases page with
  | false =>
    cases archetype with
    | none => exact Sim.bind (Sim.pure _) fun a => Sim.bind (Sim.pure _) fun _ => Sim.pure _
    | some t => exact Sim.bind (sim_reserve _ _ _ _) fun a => Sim.bind (Sim.pure _) fun _ => Sim.pure _
  | true =>
    have hpage : ∀ a : ArchsPtrs, Sim R a.newPage (a.newPageR R) := fun a => Sim.bind (sim_alloc _ _) fun _ => Sim.pure _
    cases archetype with
    | none => exact Sim.bind (Sim.pure _) fun a => Sim.bind (hpage a) fun _ => Sim.pure _
    | some t => exact Sim.bind (sim_reserve _ _ _ _) fun a => Sim.bind (hpage a) fun _ => Sim.pure _

theorem sim_create (s : StorePtrs) (g : Bool) : Sim R (s.create g) (s.createR R g) := by
  unfold StorePtrs.create StorePtrs.createR
  refine Sim.bind (sim_entsCreate _ _) fun e => ?_
  by_cases h : e.capacity = s.ents.capacity
  · simp only [h, if_true]
    exact Sim.pure _
  · simp only [h, if_false]
    refine Sim.bind (sim_realloc _ _ _ _) fun _ => Sim.bind (sim_realloc _ _ _ _) fun _ => Sim.bind (sim_bitsRealloc _ _ _) fun _ =>
      Sim.bind (Sim.bind (Sim.mapM (fun _ => sim_bitsRealloc _ _ _) _) fun _ => Sim.pure _) fun _ =>
      Sim.bind (Sim.bind (Sim.mapM (fun _ => Sim.bind (sim_realloc _ _ _ _) fun _ => Sim.bind (sim_realloc _ _ _ _) fun _ => Sim.pure _) _)
        fun _ => Sim.pure _) fun _ => Sim.pure _

theorem sim_step (s : StorePtrs) (op : HeapOp) : Sim R (s.step op) (s.stepR R op) := by
  cases op with
  | create g => exact sim_create s g
  | place t a p =>
    cases t with
    | none => exact sim_place s a p
    | some n =>
      exact Sim.bind (sim_archNew _) fun x => Sim.bind (Sim.tryCatch (sim_place _ _ _) fun f =>
        Sim.bind (sim_archDrop _) fun _ => Sim.throw _) fun _ => Sim.bind (sim_archDrop _) fun _ => Sim.pure _
  | tag i => exact Sim.bind (sim_alloc_write _ _ fun _ => Sim.pure _) fun _ => Sim.pure _
  | group i =>
    exact Sim.bind (sim_alloc_write _ _ fun _ => sim_alloc_write _ _ fun _ => Sim.pure _) fun _ => Sim.pure _

theorem sim_caught (s : StorePtrs) (op : HeapOp) : Sim R (s.caught op) (s.caughtR R op) := by
  refine Sim.tryCatch (sim_step s op) fun f => ?_
  cases f with
  | panic p => exact Sim.pure _
  | ub u => exact Sim.throw _
  | outOfFuel => exact Sim.throw _

theorem sim_withCapacity (dbg : Bool) (cap : Nat) :
    Sim R (StorePtrs.withCapacity dbg cap) (StorePtrs.withCapacityR R dbg cap) := by
  have h1 : Sim R ArchsPtrs.new (ArchsPtrs.newR R) :=
    Sim.bind (sim_alloc _ _) fun _ => Sim.bind (sim_alloc _ _) fun _ => Sim.bind (sim_alloc _ _) fun _ =>
      Sim.bind (sim_alloc _ _) fun _ => Sim.bind (sim_alloc _ _) fun _ => Sim.pure _
  have h2 : Sim R (do
      let ents ← EntsPtrs.new cap
      let archs ← ArchsPtrs.new
      let hasArch ← bitsAlloc cap
      let toIndex ← alloc 4 cap
      let toPage ← alloc 4 cap
      Pure.pure ({ ents := ents, archs := archs, tags := ⟨[], cap⟩, orders := ⟨[], cap⟩, toPage := toPage,
                   toIndex := toIndex, hasArch := hasArch } : StorePtrs)) (do
      let ents ← EntsPtrs.newR R cap
      let archs ← ArchsPtrs.newR R
      let hasArch ← bitsAllocR R cap
      let toIndex ← allocR R 4 cap
      let toPage ← allocR R 4 cap
      Pure.pure ({ ents := ents, archs := archs, tags := ⟨[], cap⟩, orders := ⟨[], cap⟩, toPage := toPage,
                   toIndex := toIndex, hasArch := hasArch } : StorePtrs)) :=
    Sim.bind (sim_entsNew _) fun _ => Sim.bind h1 fun _ => Sim.bind (sim_alloc _ _) fun _ =>
      Sim.bind (sim_alloc _ _) fun _ => Sim.bind (sim_alloc _ _) fun _ => Sim.pure _
  unfold StorePtrs.withCapacity StorePtrs.withCapacityR
  by_cases h : (dbg && decide (cap = 0)) = true
  · simp only [h, if_true]
    exact Sim.bind (Sim.throw _) fun _ => h2
  · simp only [h]
    exact h2

theorem sim_drop (s : StorePtrs) : Sim R s.drop s.drop :=
  Sim.bind (sim_dealloc _ _ _) fun _ => Sim.bind (sim_dealloc _ _ _) fun _ => Sim.bind (sim_dealloc _ _ _) fun _ =>
    Sim.bind (Sim.bind (sim_dealloc _ _ _) fun _ => sim_dealloc _ _ _) fun _ =>
    Sim.bind (Sim.bind (Sim.forM sim_archDrop _) fun _ => Sim.bind (Sim.forM (fun _ => sim_dealloc _ _ _) _) fun _ =>
      Sim.forM (fun _ => sim_dealloc _ _ _) _) fun _ =>
    Sim.bind (Sim.forM (fun _ => sim_dealloc _ _ _) _) fun _ =>
    Sim.forM (fun _ => Sim.bind (sim_dealloc _ _ _) fun _ => sim_dealloc _ _ _) _

theorem sim_life (dbg : Bool) (cap : Nat) (ops : List HeapOp) :
    Sim R (StorePtrs.life dbg cap ops) (StorePtrs.lifeR R dbg cap ops) :=
  Sim.bind (sim_withCapacity _ _) fun _ => Sim.bind (Sim.foldlM sim_caught _ _) fun s => sim_drop s

/-! ### Following a refusal -/

/-- If there is a null pointer to begin with (`n`) or a request is refused, then the result has `N`, or the program ended in undefined
behaviour, or in a panic and `E` holds. -/
def Trk {α : Type} (R : Nat → Bool) (n : Prop) (q : HeapM α) (N : α → Prop) (E : Prop) : Prop :=
  ∀ H, NoNull H → Later H (heapAfter (q H)) ∧ NoNull (heapAfter (q H)) ∧
    match q H with
    | .ok a H' => n ∨ RefusedIn R H H' → N a
    | .error f H' => (∃ u, f = .ub u) ∨ ((∃ p, f = .panic p) ∧ (n ∨ RefusedIn R H H' → E))

namespace Trk
variable {α β : Type} {n n' E E' : Prop} {N N' : α → Prop}

theorem conseq {q : HeapM α} (h : Trk R n q N E) (hn : n' → n) (hN : ∀ a, N a → N' a) (hE : E → E') : Trk R n' q N' E' := by
  intro H hs
  obtain ⟨a, b, c⟩ := h H hs
  refine ⟨a, b, ?_⟩
  cases hq : q H with
  | ok x H' =>
    rw [hq] at c
    exact fun hx => hN _ (c (hx.imp hn id))
  | error f H' =>
    rw [hq] at c
    exact c.imp id fun hp => ⟨hp.1, fun hx => hE (hp.2 (hx.imp hn id))⟩

theorem pure (a : α) (h : n → N a) : Trk R n (Pure.pure a) N E := by
  intro H hs
  exact ⟨Later.rfl, hs, fun hx => hx.elim h fun hr => absurd hr not_refusedIn_self⟩

theorem panics (p : Panic) (h : n → E) : Trk R n (throw (.panic p) : HeapM α) N E := by
  intro H hs
  exact ⟨Later.rfl, hs, .inr ⟨⟨p, rfl⟩, fun hx => hx.elim h fun hr => absurd hr not_refusedIn_self⟩⟩

theorem bind {M : β → Prop} {q : HeapM α} {k : α → HeapM β} (h : Trk R n q N E) (hk : ∀ a, Trk R (N a) (k a) M E) :
    Trk R n (q >>= k) M E := by
  intro H hs
  obtain ⟨a, b, c⟩ := h H hs
  rw [bind_run]
  cases hq : q H with
  | ok x H' =>
    rw [hq] at a b c
    obtain ⟨a', b', c'⟩ := hk x H' b
    refine ⟨a.trans a', b', ?_⟩
    show match k x H' with
      | .ok a H'' => n ∨ RefusedIn R H H'' → M a
      | .error f H'' => (∃ u, f = .ub u) ∨ ((∃ p, f = .panic p) ∧ (n ∨ RefusedIn R H H'' → E))
    have comb : ∀ {H'' : Heap}, n ∨ RefusedIn R H H'' → N x ∨ RefusedIn R H' H'' := by
      intro H'' hx
      rcases hx with hx | hx
      · exact .inl (c (.inl hx))
      · rcases hx.split (H2 := H') with hx | hx
        · exact .inl (c (.inr hx))
        · exact .inr hx
    cases hkr : k x H' with
    | ok y H'' =>
      rw [hkr] at c'
      exact fun hx => c' (comb hx)
    | error f H'' =>
      rw [hkr] at c'
      exact c'.imp id fun hp => ⟨hp.1, fun hx => hp.2 (comb hx)⟩
  | error f H' =>
    rw [hq] at a b c
    exact ⟨a, b, c⟩

/-- A null pointer elsewhere stays. -/
def Strict (R : Nat → Bool) (q : HeapM α) : Prop := ∀ n : Prop, Trk R n q (fun _ => n) n

theorem strictBind {q : HeapM α} {k : α → HeapM β} (h : Strict R q) (hk : ∀ a, Strict R (k a)) : Strict R (q >>= k) :=
  fun n => bind (h n) fun a => hk a n

theorem strictPure (a : α) : Strict R (Pure.pure a) := fun _ => pure _ id

/-- The same for programs that do not panic. -/
def Calm (R : Nat → Bool) (q : HeapM α) : Prop := ∀ n E : Prop, Trk R n q (fun _ => n) E

theorem Calm.strict {q : HeapM α} (h : Calm R q) : Strict R q := fun n => h n n

theorem calmBind {q : HeapM α} {k : α → HeapM β} (h : Calm R q) (hk : ∀ a, Calm R (k a)) : Calm R (q >>= k) :=
  fun n E => bind (h n E) fun a => hk a n E

theorem calmPure (a : α) : Calm R (Pure.pure a) := fun _ _ => pure _ id

theorem calmMapM {f : α → HeapM β} (h : ∀ a, Calm R (f a)) : ∀ l : List α, Calm R (l.mapM f)
  | [] => by simpa using calmPure (R := R) ([] : List β)
  | a :: l => by
    rw [List.mapM_cons]
    exact calmBind (h a) fun _ => calmBind (calmMapM h l) fun _ => calmPure _

theorem calmForM {f : α → HeapM PUnit} (h : ∀ a, Calm R (f a)) : ∀ l : List α, Calm R (l.forM f)
  | [] => calmPure _
  | a :: l => calmBind (h a) fun _ => calmForM h l

end Trk
open Trk

variable {n E : Prop}

theorem trk_alloc (size cap : Nat) : Trk R n (allocR R size cap) (fun p => n ∨ p = 0) E := by
  intro H hs
  unfold allocR
  by_cases h0 : size * cap = 0
  · rw [if_pos h0]
    exact ⟨Later.rfl, hs, .inl ⟨_, rfl⟩⟩
  · rw [if_neg h0]
    cases hR : R H.asked.length with
    | true =>
      rw [if_pos rfl]
      exact ⟨⟨by simp [heapAfter], by simp [heapAfter]⟩, hs, fun _ => .inr rfl⟩
    | false =>
      rw [if_neg (by decide)]
      refine ⟨⟨by simp [heapAfter], by simp [heapAfter]⟩, ⟨by simp [heapAfter], ?_⟩, ?_⟩
      · intro b hb
        rcases List.mem_cons.mp hb with rfl | hb
        · exact Nat.pos_iff_ne_zero.mp hs.1
        · exact hs.2 b hb
      · rintro (hx | ⟨i, h1, h2, h3⟩)
        · exact .inl hx
        · have : i = H.asked.length := by simp at h2; omega
          rw [this, hR] at h3
          exact absurd h3 (by decide)

theorem trk_write (p : Nat) : Trk R (n ∨ p = 0) (writeTo p) (fun _ => n) E := by
  intro H hs
  unfold writeTo
  by_cases hp : p = 0
  · rw [if_pos hp]
    exact ⟨Later.rfl, hs, .inl ⟨_, rfl⟩⟩
  · rw [if_neg hp]
    exact ⟨Later.rfl, hs, fun hx => hx.elim (fun h => h.elim id fun h => absurd h hp) fun hr => absurd hr not_refusedIn_self⟩

theorem trk_dealloc (size p cap : Nat) : Trk R (n ∨ p = 0) (dealloc size p cap) (fun _ => n) E := by
  intro H hs
  unfold dealloc freeBytes
  by_cases h : (p, size * cap) ∈ H.blocks
  · rw [if_pos h]
    refine ⟨Later.rfl, ⟨hs.1, fun b hb => hs.2 b (List.mem_of_mem_erase hb)⟩, ?_⟩
    rintro ((hx | hx) | ⟨i, h1, h2, -⟩)
    · exact hx
    · exact absurd hx (hs.2 _ h)
    · exact absurd h2 (Nat.not_lt.mpr h1)
  · rw [if_neg h]
    exact ⟨Later.rfl, hs, .inl ⟨_, rfl⟩⟩

theorem calm_dealloc (size p cap : Nat) : Calm R (dealloc size p cap) :=
  fun _ _ => (trk_dealloc size p cap).conseq .inl (fun _ h => h) id

theorem trk_reallocZeroing (size p o m : Nat) : Trk R (n ∨ p = 0) (reallocZeroingR R size p o m) (fun _ => n) E :=
  bind (trk_alloc _ _) fun q => bind (trk_write q) fun _ => bind (trk_dealloc _ _ _) fun _ => Trk.pure _ id

theorem trk_realloc (size p o m : Nat) : Trk R (n ∨ p = 0) (reallocR R size p o m) (fun q => n ∨ q = 0) E := by
  unfold reallocR
  by_cases h : o = m
  · simp only [h, if_true]
    exact Trk.pure _ id
  · simp only [h, if_false]
    exact bind (trk_alloc _ _) fun q => bind (trk_write q) fun _ => bind (trk_dealloc _ _ _) fun _ => Trk.pure _ .inl

theorem trk_bitsRealloc (p o m : Nat) : Trk R (n ∨ p = 0) (bitsReallocR R p o m) (fun q => n ∨ q = 0) E := by
  unfold bitsReallocR
  by_cases h : Words.getLen o = Words.getLen m
  · simp only [h, if_true]
    exact Trk.pure _ id
  · simp only [h, if_false]
    exact bind (trk_alloc _ _) fun q => bind (trk_write q) fun _ => bind (trk_dealloc _ _ _) fun _ => Trk.pure _ .inl

theorem calm_alloc_write (size cap : Nat) {β : Type} {k : Nat → HeapM β} (hk : ∀ p, Calm R (k p)) :
    Calm R (allocR R size cap >>= fun p => writeTo p >>= fun _ => k p) :=
  fun n E => bind (trk_alloc _ _) fun q => bind (trk_write q) fun _ => hk q n E

theorem calm_realloc (size p o m : Nat) : Calm R (reallocR R size p o m) := by
  unfold reallocR
  by_cases h : o = m
  · simp only [h, if_true]
    exact calmPure _
  · simp only [h, if_false]
    exact calm_alloc_write _ _ fun q => calmBind (calm_dealloc _ _ _) fun _ => calmPure _

theorem calm_bitsRealloc (p o m : Nat) : Calm R (bitsReallocR R p o m) := by
  unfold bitsReallocR
  by_cases h : Words.getLen o = Words.getLen m
  · simp only [h, if_true]
    exact calmPure _
  · simp only [h, if_false]
    exact calm_alloc_write _ _ fun q => calmBind (calm_dealloc _ _ _) fun _ => calmPure _

theorem calm_archDrop (a : ArchPtrs) : Calm R a.drop :=
  calmBind (calm_dealloc _ _ _) fun _ => calmBind (calm_dealloc _ _ _) fun _ => calmBind (calm_dealloc _ _ _) fun _ =>
    calm_dealloc _ _ _

theorem calm_archNew (count : Nat) : Calm R (ArchPtrs.newR R count) := by
  intro n E
  unfold ArchPtrs.newR
  refine bind (trk_alloc _ _) fun p1 => bind (trk_alloc _ _) fun p2 => bind (trk_alloc _ _) fun p3 => bind (trk_alloc _ _) fun p4 =>
    bind (N := fun _ => ((n ∨ p2 = 0) ∨ p3 = 0) ∨ p4 = 0) ((trk_write p1).conseq (fun h => ?_) (fun _ h => h) id) fun _ =>
    bind (N := fun _ => (n ∨ p3 = 0) ∨ p4 = 0) ((trk_write p2).conseq (fun h => ?_) (fun _ h => h) id) fun _ =>
    bind (N := fun _ => n ∨ p4 = 0) ((trk_write p3).conseq (fun h => ?_) (fun _ h => h) id) fun _ =>
    bind (trk_write p4) fun _ => Trk.pure _ id
  all_goals tauto

theorem strict_layoutNew (count : Nat) (fits : Bool) : Strict R (LayoutPtr.newR R count fits) := by
  unfold LayoutPtr.newR
  refine fun n => bind (trk_alloc _ _) fun p => bind (trk_write p) fun _ => ?_
  cases fits with
  | true => exact Trk.pure _ id
  | false => exact bind (N := fun _ => n) (panics _ id) fun _ => Trk.pure _ id

theorem strict_reserve (c : ArchsPtrs) (count slot : Nat) (fits : Bool) :
    Strict R (c.reserveArchetypeR R count slot fits) := by
  unfold ArchsPtrs.reserveArchetypeR
  refine strictBind (strict_layoutNew _ _) fun l => ?_
  cases c.archetypes[slot]? with
  | none => exact strictBind (calm_archNew _).strict fun _ => strictPure _
  | some a =>
    cases c.layouts[slot]? with
    | none => exact strictBind (calm_archNew _).strict fun _ => strictPure _
    | some l => exact strictBind (calm_archNew _).strict fun _ => strictBind (calm_archDrop _).strict fun _ =>
        strictBind (calm_dealloc _ _ _).strict fun _ => strictPure _

/-- The store holds a null pointer. -/
def StorePtrs.Null (s : StorePtrs) : Prop :=
  (((((0 ∈ s.archs.pages ∨ s.ents.versions = 0) ∨ s.ents.alive = 0) ∨ s.hasArch = 0) ∨ s.toPage = 0) ∨ s.toIndex = 0)

theorem reserve_pages {c c' : ArchsPtrs} {count slot : Nat} {fits : Bool} {H H' : Heap}
    (h : c.reserveArchetypeR R count slot fits H = .ok c' H') : c'.pages = c.pages := by
  unfold ArchsPtrs.reserveArchetypeR at h
  obtain ⟨l, H1, -, h⟩ := bind_ok_inv h
  cases hA : c.archetypes[slot]? with
  | none =>
    rw [hA] at h
    obtain ⟨a, H2, -, h⟩ := bind_ok_inv h
    cases h; rfl
  | some a =>
    cases hL : c.layouts[slot]? with
    | none =>
      rw [hA, hL] at h
      obtain ⟨a, H2, -, h⟩ := bind_ok_inv h
      cases h; rfl
    | some l =>
      rw [hA, hL] at h
      obtain ⟨a, H2, -, h⟩ := bind_ok_inv h
      obtain ⟨-, H3, -, h⟩ := bind_ok_inv h
      obtain ⟨-, H4, -, h⟩ := bind_ok_inv h
      cases h; rfl

/-- With what is known of the result. -/
theorem Trk.and {α : Type} {q : HeapM α} {N : α → Prop} {Q : α → Prop} (h : Trk R n q N E)
    (hq : ∀ H a H', q H = .ok a H' → Q a) : Trk R n q (fun a => N a ∧ Q a) E := by
  intro H hs
  obtain ⟨a, b, c⟩ := h H hs
  refine ⟨a, b, ?_⟩
  cases hr : q H with
  | ok x H' =>
    rw [hr] at c
    exact fun hx => ⟨c hx, hq _ _ _ hr⟩
  | error f H' =>
    rw [hr] at c
    exact c

theorem trk_newPage {X : Prop} (a : ArchsPtrs) (hn : n → 0 ∈ a.pages ∨ X) :
    Trk R n (a.newPageR R) (fun b => 0 ∈ b.pages ∨ X) E := by
  unfold ArchsPtrs.newPageR pageNewR
  refine bind (trk_alloc _ _) fun p => Trk.pure _ ?_
  rintro (h | h)
  · rcases hn h with h | h
    · exact .inl (List.mem_append_left _ h)
    · exact .inr h
  · exact .inl (by simp [h])

/-- One of the other pointers is null. -/
def StorePtrs.NullRest (s : StorePtrs) : Prop :=
  s.ents.versions = 0 ∨ s.ents.alive = 0 ∨ s.hasArch = 0 ∨ s.toPage = 0 ∨ s.toIndex = 0

theorem null_iff (s : StorePtrs) : s.Null ↔ 0 ∈ s.archs.pages ∨ s.NullRest := by
  unfold StorePtrs.Null StorePtrs.NullRest
  tauto

theorem trk_place (s : StorePtrs) (archetype : Option (Nat × Nat × Bool)) (page : Bool) :
    Trk R s.Null (s.placeR R archetype page) StorePtrs.Null s.Null := by
  have h1 : Trk R s.Null (match archetype with
      | some (count, slot, fits) => s.archs.reserveArchetypeR R count slot fits
      | none => Pure.pure s.archs) (fun a => s.Null ∧ a.pages = s.archs.pages) s.Null := by
    cases archetype with
    | none => exact Trk.pure _ fun h => ⟨h, rfl⟩
    | some t => exact (strict_reserve _ _ _ _ _).and fun _ _ _ h => reserve_pages h
  have h2 : ∀ a : ArchsPtrs, 0 ∈ a.pages ∨ s.NullRest → ({ s with archs := a } : StorePtrs).Null := by
    intro a h
    rw [null_iff]
    exact h
  have h3 : ∀ a : ArchsPtrs, s.Null ∧ a.pages = s.archs.pages → 0 ∈ a.pages ∨ s.NullRest := by
    rintro a ⟨h, e⟩
    rw [e]
    exact (null_iff s).mp h
  unfold StorePtrs.placeR
  cases page with
  | false =>
    cases archetype with
    | none => exact bind h1 fun a => bind (Trk.pure (N := fun a => 0 ∈ a.pages ∨ s.NullRest) a (h3 a)) fun b => Trk.pure _ (h2 b)
    | some t => exact bind h1 fun a => bind (Trk.pure (N := fun a => 0 ∈ a.pages ∨ s.NullRest) a (h3 a)) fun b => Trk.pure _ (h2 b)
  | true =>
    cases archetype with
    | none => exact bind h1 fun a => bind (trk_newPage a (h3 a)) fun b => Trk.pure _ (h2 b)
    | some t => exact bind h1 fun a => bind (trk_newPage a (h3 a)) fun b => Trk.pure _ (h2 b)

theorem trk_entsCreate (c : EntsPtrs) (g : Bool) :
    Trk R ((n ∨ c.versions = 0) ∨ c.alive = 0) (c.createR R g) (fun c' => (n ∨ c'.versions = 0) ∨ c'.alive = 0) E := by
  cases g with
  | false => exact Trk.pure _ id
  | true =>
    show Trk R _ (c.growR R _) _ E
    unfold EntsPtrs.growR
    by_cases h : max c.capacity 1 * 2 ≤ c.capacity
    · simp only [h, if_true]
      exact Trk.pure _ id
    · simp only [h, if_false]
      refine bind ((trk_reallocZeroing (n := n ∨ c.alive = 0) _ _ _ _).conseq (fun h => ?_) (fun _ h => h) id) fun _ =>
        bind (trk_bitsRealloc _ _ _) fun _ => Trk.pure _ fun h => ?_
      all_goals tauto

theorem trk_create (s : StorePtrs) (g : Bool) : Trk R s.Null (s.createR R g) StorePtrs.Null s.Null := by
  unfold StorePtrs.createR
  refine bind (N := fun e => ((((0 ∈ s.archs.pages ∨ s.hasArch = 0) ∨ s.toPage = 0) ∨ s.toIndex = 0) ∨ e.versions = 0) ∨ e.alive = 0)
    ((trk_entsCreate (n := ((0 ∈ s.archs.pages ∨ s.hasArch = 0) ∨ s.toPage = 0) ∨ s.toIndex = 0) _ _).conseq
      (fun h => ?_) (fun _ h => h) id) fun e => ?_
  · unfold StorePtrs.Null at h
    tauto
  · by_cases h : e.capacity = s.ents.capacity
    · simp only [h, if_true]
      refine Trk.pure _ fun h => ?_
      unfold StorePtrs.Null
      dsimp only
      tauto
    · simp only [h, if_false]
      refine bind ((trk_realloc (n := ((0 ∈ s.archs.pages ∨ s.hasArch = 0) ∨ s.toIndex = 0) ∨ e.versions = 0 ∨ e.alive = 0) _ _ _ _).conseq
          (fun h => ?_) (fun _ h => h) id) fun p1 =>
        bind ((trk_realloc (n := ((0 ∈ s.archs.pages ∨ s.hasArch = 0) ∨ e.versions = 0 ∨ e.alive = 0) ∨ p1 = 0) _ _ _ _).conseq
          (fun h => ?_) (fun _ h => h) id) fun p2 =>
        bind ((trk_bitsRealloc (n := (0 ∈ s.archs.pages ∨ e.versions = 0 ∨ e.alive = 0) ∨ p1 = 0 ∨ p2 = 0) _ _ _).conseq
          (fun h => ?_) (fun _ h => h) id) fun p3 =>
        bind ((calmBind (calmMapM (fun _ => calm_bitsRealloc _ _ _) _) fun _ => calmPure _ :
          Calm R (TagsPtrs.growR R s.tags e.capacity)) _ _) fun t =>
        bind ((calmBind (calmMapM (fun _ => calmBind (calm_realloc _ _ _ _) fun _ => calmBind (calm_realloc _ _ _ _) fun _ =>
            calmPure _) _) fun _ => calmPure _ : Calm R (OrdersPtrs.growR R s.orders e.capacity)) _ _) fun o =>
        Trk.pure _ fun h => ?_
      · tauto
      · tauto
      · tauto
      · unfold StorePtrs.Null
        dsimp only
        tauto

/-- Cleaning up after a failure. -/
theorem Trk.guarded {α : Type} {q : HeapM α} {N : α → Prop} {d : HeapM Unit} (h : Trk R n q N E) (hd : Calm R d) :
    Trk R n (tryCatch q fun f => d >>= fun _ => throw f) N E := by
  intro H hs
  obtain ⟨l, sn, c⟩ := h H hs
  have e := tryCatch_run q (fun f => d >>= fun _ => throw f) H
  rw [show (tryCatch q (fun f => d >>= fun _ => throw f) : HeapM α) H = _ from e]
  cases hq : q H with
  | ok s' H' =>
    rw [hq] at l sn c
    exact ⟨l, sn, c⟩
  | error f H' =>
    rw [hq] at l sn c
    obtain ⟨l', sn', c'⟩ := hd (n ∨ RefusedIn R H H') False H' sn
    dsimp only
    rw [bind_run]
    cases hd : d H' with
    | error f' H'' =>
      rw [hd] at l' sn' c'
      refine ⟨l.trans l', sn', ?_⟩
      rcases c' with c' | ⟨hp, c'⟩
      · exact .inl c'
      · refine .inr ⟨hp, fun h => (c' ?_).elim⟩
        rcases h with h | h
        · exact .inl (.inl h)
        · rcases h.split (H2 := H') with h | h
          · exact .inl (.inr h)
          · exact .inr h
    | ok u H'' =>
      rw [hd] at l' sn' c'
      refine ⟨l.trans l', sn', ?_⟩
      rcases c with c | ⟨hp, c⟩
      · exact .inl c
      · refine .inr ⟨hp, fun h => c ?_⟩
        rcases h with h | h
        · exact .inl h
        · rcases h.split (H2 := H') with h | h
          · exact .inr h
          · exact c' (.inr h)

theorem trk_step (s : StorePtrs) (op : HeapOp) : Trk R s.Null (s.stepR R op) StorePtrs.Null s.Null := by
  cases op with
  | create g => exact trk_create s g
  | place t a p =>
    cases t with
    | none => exact trk_place s a p
    | some n =>
      exact bind (calm_archNew _ _ _) fun x => bind ((trk_place s a p).guarded (calm_archDrop x)) fun s' =>
        bind (calm_archDrop _ _ _) fun _ => Trk.pure _ id
  | tag i => exact bind ((calm_alloc_write _ _ fun _ => calmPure _ : Calm R (s.tags.newTagR R i)) _ _) fun _ => Trk.pure _ id
  | group i =>
    exact bind ((calm_alloc_write _ _ fun _ => calm_alloc_write _ _ fun _ => calmPure _ : Calm R (s.orders.newGroupR R i)) _ _)
      fun _ => Trk.pure _ id

theorem calm_create (s : StorePtrs) (g : Bool) : Calm R (s.createR R g) := by
  unfold StorePtrs.createR
  refine calmBind ?_ fun e => ?_
  · cases g with
    | false => exact calmPure _
    | true =>
      show Calm R (s.ents.growR R _)
      unfold EntsPtrs.growR
      by_cases h : max s.ents.capacity 1 * 2 ≤ s.ents.capacity
      · simp only [h, if_true]
        exact calmPure _
      · simp only [h, if_false]
        exact calmBind (fun _ _ => (trk_reallocZeroing _ _ _ _).conseq .inl (fun _ h => h) id) fun _ =>
          calmBind (calm_bitsRealloc _ _ _) fun _ => calmPure _
  · by_cases h : e.capacity = s.ents.capacity
    · simp only [h, if_true]
      exact calmPure _
    · simp only [h, if_false]
      exact calmBind (calm_realloc _ _ _ _) fun _ => calmBind (calm_realloc _ _ _ _) fun _ => calmBind (calm_bitsRealloc _ _ _) fun _ =>
        calmBind (calmBind (calmMapM (fun _ => calm_bitsRealloc _ _ _) _) fun _ => calmPure _) fun _ =>
        calmBind (calmBind (calmMapM (fun _ => calmBind (calm_realloc _ _ _ _) fun _ => calmBind (calm_realloc _ _ _ _) fun _ =>
          calmPure _) _) fun _ => calmPure _) fun _ => calmPure _

theorem strict_step (s : StorePtrs) (op : HeapOp) (hop : op.noPage) : Strict R (s.stepR R op) := by
  have hplace : ∀ a, Strict R (s.placeR R a false) := by
    intro a
    unfold StorePtrs.placeR
    cases a with
    | none => exact strictBind (strictPure _) fun a => strictBind (strictPure _) fun _ => strictPure _
    | some t => exact strictBind (strict_reserve _ _ _ _) fun a => strictBind (strictPure _) fun _ => strictPure _
  cases op with
  | create g => exact (calm_create s g).strict
  | place t a p =>
    have hp : p = false := hop
    subst hp
    cases t with
    | none => exact hplace a
    | some m =>
      exact fun n => bind (calm_archNew _ _ _) fun x => bind ((hplace a n).guarded (calm_archDrop x)) fun s' =>
        bind (calm_archDrop _ _ _) fun _ => Trk.pure _ id
  | tag i => exact (calmBind (calm_alloc_write _ _ fun _ => calmPure _ : Calm R (s.tags.newTagR R i)) fun _ => calmPure _).strict
  | group i =>
    exact (calmBind (calm_alloc_write _ _ fun _ => calm_alloc_write _ _ fun _ => calmPure _ : Calm R (s.orders.newGroupR R i))
      fun _ => calmPure _).strict

theorem trk_caught (s : StorePtrs) (op : HeapOp) : Trk R s.Null (s.caughtR R op) StorePtrs.Null E := by
  intro H hs
  obtain ⟨l, sn, c⟩ := trk_step (R := R) s op H hs
  have e := tryCatch_run (s.stepR R op) (fun | .panic _ => Pure.pure s | f => throw f) H
  rw [show s.caughtR R op H = _ from e]
  cases hq : s.stepR R op H with
  | ok s' H' =>
    rw [hq] at l sn c
    exact ⟨l, sn, c⟩
  | error f H' =>
    rw [hq] at l sn c
    rcases c with ⟨u, rfl⟩ | ⟨⟨p, rfl⟩, c⟩
    · exact ⟨l, sn, .inl ⟨u, rfl⟩⟩
    · exact ⟨l, sn, c⟩

theorem trk_ops : ∀ (ops : List HeapOp) (s : StorePtrs), Trk R s.Null (ops.foldlM (StorePtrs.caughtR R) s) StorePtrs.Null E
  | [], _ => Trk.pure _ id
  | op :: ops, s => by
    rw [List.foldlM_cons]
    exact bind (trk_caught s op) fun s' => trk_ops ops s'

theorem trk_pages : ∀ l : List Nat, Trk R (0 ∈ l ∨ n) (l.forM pageDrop) (fun _ => n) E
  | [] => Trk.pure _ fun h => by simpa using h
  | p :: l => by
    refine bind (N := fun _ => 0 ∈ l ∨ n) ((trk_dealloc 1 p 16384).conseq (fun h => ?_) (fun _ h => h) id) fun _ => trk_pages l
    simp only [List.mem_cons] at h
    rcases h with (h | h) | h
    · exact .inr h.symm
    · exact .inl (.inl h)
    · exact .inl (.inr h)

theorem trk_drop (s : StorePtrs) : Trk R s.Null s.drop (fun _ => False) E := by
  unfold StorePtrs.drop
  refine bind (trk_dealloc _ _ _) fun _ => bind (trk_dealloc _ _ _) fun _ => bind (trk_dealloc _ _ _) fun _ =>
    bind (N := fun _ => 0 ∈ s.archs.pages ∨ False) (bind (trk_dealloc _ _ _) fun _ =>
      (trk_dealloc _ _ _).conseq id (fun _ h => .inl h) id) fun _ => ?_
  refine bind (N := fun _ => False) (bind (calmForM calm_archDrop _ _ _) fun _ =>
    bind (calmForM (fun _ => calm_dealloc _ _ _) _ _ _) fun _ => trk_pages _) fun _ => ?_
  exact bind (calmForM (fun _ => calm_dealloc _ _ _) _ _ _) fun _ =>
    calmForM (fun _ => calmBind (calm_dealloc _ _ _) fun _ => calm_dealloc _ _ _) _ _ _

theorem trk_entsNew (cap : Nat) : Trk R n (EntsPtrs.newR R cap) (fun c => (n ∨ c.versions = 0) ∨ c.alive = 0) E :=
  bind (trk_alloc _ _) fun _ => bind (trk_alloc _ _) fun _ => Trk.pure _ id

theorem trk_archsNew : Trk R n (ArchsPtrs.newR R) (fun c => n ∨ 0 ∈ c.pages) E := by
  refine bind (trk_alloc _ _) fun _ => bind (trk_alloc _ _) fun _ => bind (trk_alloc _ _) fun _ => bind (trk_alloc _ _) fun _ =>
    bind (trk_alloc _ _) fun _ => Trk.pure _ fun h => ?_
  simp only [List.mem_cons, eq_comm (a := (0 : Nat))]
  tauto

theorem trk_withCapacity (dbg : Bool) (cap : Nat) : Trk R False (StorePtrs.withCapacityR R dbg cap) StorePtrs.Null False := by
  have h2 : Trk R False (do
      let ents ← EntsPtrs.newR R cap
      let archs ← ArchsPtrs.newR R
      let hasArch ← bitsAllocR R cap
      let toIndex ← allocR R 4 cap
      let toPage ← allocR R 4 cap
      Pure.pure ({ ents := ents, archs := archs, tags := ⟨[], cap⟩, orders := ⟨[], cap⟩, toPage := toPage,
                   toIndex := toIndex, hasArch := hasArch } : StorePtrs)) StorePtrs.Null False := by
    refine bind (trk_entsNew _) fun _ => bind trk_archsNew fun _ => bind (trk_alloc _ _) fun _ =>
      bind (trk_alloc _ _) fun _ => bind (trk_alloc _ _) fun _ => Trk.pure _ fun h => ?_
    unfold StorePtrs.Null
    dsimp only
    tauto
  unfold StorePtrs.withCapacityR
  by_cases h : (dbg && decide (cap = 0)) = true
  · simp only [h, if_true]
    exact bind (N := fun _ => False) (panics _ id) fun _ => h2
  · simp only [h]
    exact h2

theorem trk_life (dbg : Bool) (cap : Nat) (ops : List HeapOp) :
    Trk R False (StorePtrs.lifeR R dbg cap ops) (fun _ => False) False :=
  bind (trk_withCapacity _ _) fun s => bind (trk_ops ops s) fun s' => trk_drop s'

/-! ### Resource stores -/

/-- More requests after the run than before. -/
def Mono {α : Type} (q : HeapM α) : Prop := ∀ H, 0 < H.next → Later H (heapAfter (q H))

namespace Mono
variable {α β : Type}

theorem pure (a : α) : Mono (Pure.pure a) := fun _ _ => Later.rfl

theorem bind {q : HeapM α} {k : α → HeapM β} (h : Mono q) (hk : ∀ a, Mono (k a)) : Mono (q >>= k) := by
  intro H hn
  have l := h H hn
  rw [bind_run]
  cases hr : q H with
  | ok a H' =>
    rw [hr] at l
    exact l.trans (hk a H' (Nat.lt_of_lt_of_le hn l.2))
  | error f H' =>
    rw [hr] at l
    exact l

theorem write (p : Nat) : Mono (writeTo p) := by
  intro H _
  unfold writeTo
  by_cases hp : p = 0
  · rw [if_pos hp]; exact Later.rfl
  · rw [if_neg hp]; exact Later.rfl

theorem left {p q : HeapM α} (h : Sim R p q) : Mono p := fun H hn => (h H hn).1

theorem right {p q : HeapM α} (h : Sim R p q) : Mono q := fun H hn => (h H hn).2.1

theorem foldlM {f : β → α → HeapM β} (h : ∀ b a, Mono (f b a)) : ∀ (l : List α) (b : β), Mono (l.foldlM f b)
  | [], b => pure b
  | a :: l, b => by
    rw [List.foldlM_cons]
    exact bind (h b a) fun b' => foldlM h l b'

end Mono

/-- Folds that agree on states with `P`, which the plain fold keeps. -/
theorem Sim.foldlOf {α β : Type} {P : β → Prop} {f g : β → α → HeapM β} (h : ∀ b a, P b → Sim R (f b a) (g b a))
    (hp : ∀ b a H b' H', P b → 0 < H.next → f b a H = .ok b' H' → P b') (hf : ∀ b a, Mono (f b a)) (hg : ∀ b a, Mono (g b a)) :
    ∀ (l : List α) (b : β), P b → Sim R (l.foldlM f b) (l.foldlM g b)
  | [], b, _ => Sim.pure b
  | a :: l, b, hb => by
    rw [List.foldlM_cons, List.foldlM_cons]
    exact Sim.bindOf (P := P) (h b a hb) (fun H b' H' hn e => hp b a H b' H' hb hn e) (fun b' hb' => foldlOf h hp hf hg l b' hb')
      fun b' H hn => ⟨Mono.foldlM hf l b' H hn, Mono.foldlM hg l b' H hn⟩

theorem realloc_pos {size p o m q : Nat} {H H' : Heap} (hp : p ≠ 0) (hn : 0 < H.next) (h : realloc size p o m H = .ok q H') :
    q ≠ 0 := by
  unfold realloc at h
  by_cases he : o = m
  · simp only [he, if_true] at h
    cases h
    exact hp
  · simp only [he, if_false] at h
    obtain ⟨q', H1, e1, h⟩ := bind_ok_inv h
    obtain ⟨-, H2, -, h⟩ := bind_ok_inv h
    cases h
    exact (alloc_pos hn e1).1

theorem mono_resCreate (r : ResPtrs) (g : Bool) : Mono (r.create g) := by
  unfold ResPtrs.create
  refine Mono.bind (Mono.left (sim_entsCreate (R := fun _ => false) _ _)) fun e => ?_
  by_cases h : e.capacity = r.ents.capacity
  · simp only [h, if_true]
    exact Mono.pure _
  · simp only [h, if_false]
    exact Mono.bind (Mono.left (sim_realloc (R := fun _ => false) _ _ _ _)) fun _ => Mono.pure _

theorem mono_resCreateR (r : ResPtrs) (g : Bool) : Mono (r.createR R g) := by
  unfold ResPtrs.createR
  refine Mono.bind (Mono.right (sim_entsCreate _ _)) fun e => ?_
  by_cases h : e.capacity = r.ents.capacity
  · simp only [h, if_true]
    exact Mono.bind (Mono.write _) fun _ => Mono.pure _
  · simp only [h, if_false]
    exact Mono.bind (Mono.right (sim_realloc _ _ _ _)) fun _ => Mono.bind (Mono.write _) fun _ => Mono.pure _

theorem sim_resCreate (r : ResPtrs) (g : Bool) (hr : r.elements ≠ 0) : Sim R (r.create g) (r.createR R g) := by
  unfold ResPtrs.create ResPtrs.createR
  refine Sim.bind (sim_entsCreate _ _) fun e => ?_
  by_cases h : e.capacity = r.ents.capacity
  · simp only [h, if_true]
    rw [writeTo_same hr]
    exact Sim.pure _
  · simp only [h, if_false]
    refine Sim.bindOf (P := fun q => q ≠ 0) (sim_realloc _ _ _ _) (fun H q H' hn e => realloc_pos hr hn e) (fun q hq => ?_) ?_
    · rw [writeTo_same hq]
      exact Sim.pure _
    · intro q H _
      exact ⟨Later.rfl, later_write Later.rfl⟩

theorem resCreate_keeps (r : ResPtrs) (g : Bool) (H : Heap) (r' : ResPtrs) (H' : Heap) (hr : r.elements ≠ 0) (hn : 0 < H.next)
    (h : r.create g H = .ok r' H') : r'.elements ≠ 0 := by
  unfold ResPtrs.create at h
  obtain ⟨e, H1, e1, h⟩ := bind_ok_inv h
  have l1 := Mono.left (sim_entsCreate (R := fun _ => false) r.ents g) H hn
  rw [e1] at l1
  by_cases he : e.capacity = r.ents.capacity
  · simp only [he, if_true] at h
    cases h
    exact hr
  · simp only [he, if_false] at h
    obtain ⟨q, H2, e2, h⟩ := bind_ok_inv h
    cases h
    exact realloc_pos hr (Nat.lt_of_lt_of_le hn l1.2) e2

theorem sim_resLife (size cap : Nat) (ops : List Bool) : Sim R (ResPtrs.life size cap ops) (ResPtrs.lifeR R size cap ops) := by
  unfold ResPtrs.life ResPtrs.lifeR
  refine Sim.bindOf (P := fun r => r.elements ≠ 0)
    (Sim.bind (sim_alloc _ _) fun _ => Sim.bind (sim_entsNew _) fun _ => Sim.pure _) ?_ ?_ ?_
  · intro H r H' hn h
    obtain ⟨p, H1, e1, h⟩ := bind_ok_inv h
    obtain ⟨e, H2, e2, h⟩ := bind_ok_inv h
    cases h
    exact (alloc_pos hn e1).1
  · intro r hr
    exact Sim.bind (Sim.foldlOf (P := fun r => r.elements ≠ 0) (fun r g hr => sim_resCreate r g hr)
      (fun r g H r' H' hr hn e => resCreate_keeps r g H r' H' hr hn e) mono_resCreate mono_resCreateR ops r hr)
      fun _ => Sim.bind (sim_dealloc _ _ _) fun _ => sim_dealloc _ _ _
  · intro r H hn
    have hd : ∀ r : ResPtrs, Mono r.drop := fun r =>
      Mono.left (R := fun _ => false) (Sim.bind (sim_dealloc _ _ _) fun _ => sim_dealloc _ _ _)
    exact ⟨Mono.bind (Mono.foldlM mono_resCreate ops r) hd H hn, Mono.bind (Mono.foldlM mono_resCreateR ops r) hd H hn⟩

theorem trk_resCreate (r : ResPtrs) (g : Bool) :
    Trk R ((r.elements = 0 ∨ r.ents.versions = 0) ∨ r.ents.alive = 0) (r.createR R g)
      (fun r' => (False ∨ r'.ents.versions = 0) ∨ r'.ents.alive = 0) E := by
  unfold ResPtrs.createR
  refine bind (trk_entsCreate _ _) fun e => ?_
  by_cases h : e.capacity = r.ents.capacity
  · simp only [h, if_true]
    exact bind ((trk_write (n := (False ∨ e.versions = 0) ∨ e.alive = 0) _).conseq (fun h => by tauto) (fun _ h => h) id)
      fun _ => Trk.pure _ id
  · simp only [h, if_false]
    exact bind ((trk_realloc (n := (False ∨ e.versions = 0) ∨ e.alive = 0) _ _ _ _).conseq (fun h => by tauto) (fun _ h => h) id)
      fun q => bind (trk_write _) fun _ => Trk.pure _ id

theorem trk_resOps : ∀ (ops : List Bool) (r : ResPtrs), Trk R ((False ∨ r.ents.versions = 0) ∨ r.ents.alive = 0)
    (ops.foldlM (ResPtrs.createR R) r) (fun r' => (False ∨ r'.ents.versions = 0) ∨ r'.ents.alive = 0) E
  | [], _ => Trk.pure _ id
  | g :: ops, r => by
    rw [List.foldlM_cons]
    exact bind ((trk_resCreate r g).conseq (fun h => by tauto) (fun _ h => h) id) fun r' => trk_resOps ops r'

theorem trk_resLife (size cap : Nat) (g : Bool) (ops : List Bool) :
    Trk R False (ResPtrs.lifeR R size cap (g :: ops)) (fun _ => False) False := by
  refine bind (N := fun r => (r.elements = 0 ∨ r.ents.versions = 0) ∨ r.ents.alive = 0)
    (bind (trk_alloc _ _) fun p => bind (trk_entsNew _) fun e => Trk.pure _ fun h => by tauto) fun r =>
    bind (N := fun r' => (False ∨ r'.ents.versions = 0) ∨ r'.ents.alive = 0) ?_ fun r' => bind (trk_dealloc _ _ _) fun _ => trk_dealloc _ _ _
  rw [List.foldlM_cons]
  exact bind (trk_resCreate r g) fun r' => trk_resOps ops r'

end Ecs
