import Verif.Proofs.Heap
import Verif.Spec.HeapSizes

/-! `Requests P m Q`: every request that `m` makes to the allocator has `P`, also if `m` fails, and the value it returns has `Q`. -/

namespace Ecs

/-- All requests made so far have `P`. -/
def Heap.All (P : Nat × Nat → Prop) (H : Heap) : Prop := ∀ q ∈ H.asked, P q

/-- The requests of `m` have `P`; its value has `Q`. -/
def Requests {α : Type} (P : Nat × Nat → Prop) (m : HeapM α) (Q : α → Prop) : Prop :=
  ∀ H, H.All P → match m H with
    | .ok a H' => H'.All P ∧ Q a
    | .error _ H' => H'.All P

namespace Requests
variable {α β : Type} {P : Nat × Nat → Prop} {Q : α → Prop} {Q' : β → Prop}

theorem pure {a : α} (h : Q a) : Requests P (Pure.pure a) Q := fun _ hH => ⟨hH, h⟩

theorem throw (f : Fault) : Requests P (MonadExcept.throw f : HeapM α) Q := fun _ hH => hH

theorem seq {m : HeapM α} {k : α → HeapM β} (h1 : Requests P m Q) (h2 : ∀ a, Q a → Requests P (k a) Q') : Requests P (m >>= k) Q' := by
  intro H hH
  have h1 := h1 H hH
  show match EStateM.bind m k H with | .ok a H' => _ | .error _ H' => _
  unfold EStateM.bind
  cases hm : m H with
  | ok a H1 => rw [hm] at h1; exact h2 a h1.2 H1 h1.1
  | error f H1 => rw [hm] at h1; exact h1

theorem weaken {m : HeapM α} {Q1 : α → Prop} (h : Requests P m Q) (hq : ∀ a, Q a → Q1 a) : Requests P m Q1 := by
  intro H hH
  have h := h H hH
  cases hm : m H with
  | ok a H1 => rw [hm] at h; exact ⟨h.1, hq a h.2⟩
  | error f H1 => rw [hm] at h; exact h

theorem caught {m : HeapM α} {k : Fault → HeapM α} (h : Requests P m Q) (hk : ∀ f, Requests P (k f) Q) :
    Requests P (MonadExcept.tryCatch m k) Q := by
  intro H hH
  have h := h H hH
  show match EStateM.tryCatch m k H with | .ok a H' => _ | .error _ H' => _
  unfold EStateM.tryCatch
  cases hm : m H with
  | ok a H1 => rw [hm] at h; exact h
  | error f H1 => rw [hm] at h; exact hk f H1 h

theorem ite {c : Prop} [Decidable c] {m n : HeapM α} (h1 : c → Requests P m Q) (h2 : ¬ c → Requests P n Q) :
    Requests P (if c then m else n) Q := by
  split
  · exact h1 ‹_›
  · exact h2 ‹_›

theorem forM {f : α → HeapM PUnit} (h : ∀ a, Requests P (f a) fun _ => True) (l : List α) : Requests P (l.forM f) fun _ => True := by
  induction l with
  | nil => exact .pure trivial
  | cons a l ih =>
    rw [List.forM_eq_forM, List.forM_cons]
    exact .seq (h a) fun _ _ => ih

theorem mapM {f : α → HeapM β} (h : ∀ a, Requests P (f a) fun _ => True) (l : List α) : Requests P (l.mapM f) fun _ => True := by
  induction l with
  | nil => exact .pure trivial
  | cons a l ih =>
    rw [List.mapM_cons]
    exact .seq (h a) fun _ _ => .seq ih fun _ _ => .pure trivial

end Requests

open HeapM

section
variable {P : Nat × Nat → Prop}

theorem requests_alloc {size cap : Nat} (h : P (size, cap)) : Requests P (alloc size cap) fun _ => True := by
  intro H hH
  unfold alloc
  by_cases h0 : size * cap = 0
  · rw [if_pos h0]; exact hH
  · rw [if_neg h0]
    refine ⟨fun q hq => ?_, trivial⟩
    rcases List.mem_cons.1 hq with rfl | hq
    · exact h
    · exact hH q hq

theorem requests_dealloc (size p cap : Nat) : Requests P (dealloc size p cap) fun _ => True := by
  intro H hH
  unfold dealloc freeBytes
  by_cases h0 : (p, size * cap) ∈ H.blocks
  · rw [if_pos h0]; exact ⟨hH, trivial⟩
  · rw [if_neg h0]; exact hH

theorem requests_realloc {size p old new : Nat} (h : P (size, new)) : Requests P (realloc size p old new) fun _ => True := by
  unfold realloc
  exact .ite (fun _ => .pure trivial) fun _ => .seq (requests_alloc h) fun _ _ => .seq (requests_dealloc _ _ _) fun _ _ => .pure trivial

theorem requests_reallocZeroing {size p old new : Nat} (h : P (size, new)) : Requests P (reallocZeroing size p old new) fun _ => True := by
  unfold reallocZeroing
  exact .seq (requests_alloc h) fun _ _ => .seq (requests_dealloc _ _ _) fun _ _ => .pure trivial

theorem requests_bitsRealloc {p old new : Nat} (h : P (4, Words.getLen new)) : Requests P (bitsRealloc p old new) fun _ => True := by
  unfold bitsRealloc
  exact .ite (fun _ => .pure trivial) fun _ => .seq (requests_alloc h) fun _ _ => .seq (requests_dealloc _ _ _) fun _ _ => .pure trivial

/-- Requests of tables with one entry or one bit for each entity, up to the capacity `c`. -/
def Tables (P : Nat × Nat → Prop) (c : Nat) : Prop := ∀ c' ≤ c, P (4, c') ∧ P (4, Words.getLen c')

theorem Tables.mono {c d : Nat} (h : Tables P c) (hd : d ≤ c) : Tables P d := fun c' hc => h c' (hc.trans hd)

/-- Requests of an archetype with `n` types and of its layout. -/
def Types (P : Nat × Nat → Prop) (n : Nat) : Prop := P (8, n) ∧ P (16, n)

theorem EntsPtrs.requests_new {c : Nat} (h : Tables P c) : Requests P (EntsPtrs.new c) fun e => e.capacity = c := by
  unfold EntsPtrs.new
  exact .seq (requests_alloc (h c (Nat.le_refl c)).1) fun _ _ => .seq (requests_alloc (h c (Nat.le_refl c)).2) fun _ _ => .pure rfl

theorem EntsPtrs.requests_create (e : EntsPtrs) (g : Bool) (h : Tables P (HeapOp.capacity e.capacity (.create g))) :
    Requests P (e.create g) fun e' => e'.capacity = HeapOp.capacity e.capacity (.create g) := by
  unfold EntsPtrs.create
  cases g with
  | false => exact .pure rfl
  | true =>
    show Requests P (EntsPtrs.grow e _) _
    unfold EntsPtrs.grow
    refine .ite (fun hc => absurd hc (by omega)) fun _ => ?_
    exact .seq (requests_reallocZeroing (h _ (Nat.le_refl _)).1) fun _ _ =>
      .seq (requests_bitsRealloc (h _ (Nat.le_refl _)).2) fun _ _ => .pure rfl

theorem EntsPtrs.requests_drop (e : EntsPtrs) : Requests P e.drop fun _ => True := by
  unfold EntsPtrs.drop
  exact .seq (requests_dealloc _ _ _) fun _ _ => requests_dealloc _ _ _

theorem ArchPtrs.requests_new {n : Nat} (h : Types P n) : Requests P (ArchPtrs.new n) fun _ => True := by
  unfold ArchPtrs.new
  exact .seq (requests_alloc h.2) fun _ _ => .seq (requests_alloc h.1) fun _ _ => .seq (requests_alloc h.1) fun _ _ =>
    .seq (requests_alloc h.2) fun _ _ => .pure trivial

theorem ArchPtrs.requests_drop (a : ArchPtrs) : Requests P a.drop fun _ => True := by
  unfold ArchPtrs.drop
  exact .seq (requests_dealloc _ _ _) fun _ _ => .seq (requests_dealloc _ _ _) fun _ _ => .seq (requests_dealloc _ _ _) fun _ _ =>
    requests_dealloc _ _ _

theorem ArchsPtrs.requests_reserve (c : ArchsPtrs) {n : Nat} (slot : Nat) (fits : Bool) (h : Types P n) :
    Requests P (c.reserveArchetype n slot fits) fun _ => True := by
  unfold ArchsPtrs.reserveArchetype LayoutPtr.new
  refine .seq (Q := fun _ => True) (.seq (requests_alloc h.1) fun _ _ => ?_) fun _ _ => ?_
  · cases fits with
    | true => exact .pure trivial
    | false => exact .throw _
  · split
    · exact .seq (ArchPtrs.requests_new h) fun _ _ => .seq (ArchPtrs.requests_drop _) fun _ _ => .seq (requests_dealloc _ _ _) fun _ _ =>
        .pure trivial
    · exact .seq (ArchPtrs.requests_new h) fun _ _ => .pure trivial

end

namespace StorePtrs
variable {P : Nat × Nat → Prop}

/-- The capacities of the containers of a store are `c`. -/
def Has (c : Nat) (s : StorePtrs) : Prop := s.ents.capacity = c ∧ s.tags.capacity = c ∧ s.orders.capacity = c

theorem requests_withCapacity (dbg : Bool) {cap : Nat} (h : Tables P cap) (hp : P (1, 16384)) :
    Requests P (withCapacity dbg cap) (Has cap) := by
  have hc := h cap (Nat.le_refl cap)
  unfold withCapacity
  refine .ite (fun _ => .seq (Q := fun _ => True) (.throw _) fun _ _ => ?_) fun _ => ?_
  all_goals
    refine .seq (EntsPtrs.requests_new h) fun e he => ?_
    refine .seq (Q := fun _ => True) ?_ fun _ _ => ?_
    · unfold ArchsPtrs.new
      exact .seq (requests_alloc hp) fun _ _ => .seq (requests_alloc hp) fun _ _ => .seq (requests_alloc hp) fun _ _ =>
        .seq (requests_alloc hp) fun _ _ => .seq (requests_alloc hp) fun _ _ => .pure trivial
    · exact .seq (requests_alloc hc.2) fun _ _ => .seq (requests_alloc hc.1) fun _ _ => .seq (requests_alloc hc.1) fun _ _ =>
        .pure ⟨he, rfl, rfl⟩

theorem requests_create (s : StorePtrs) (g : Bool) {c : Nat} (hs : s.Has c) (h : Tables P (HeapOp.capacity c (.create g))) :
    Requests P (s.create g) (Has (HeapOp.capacity c (.create g))) := by
  obtain ⟨h1, h2, h3⟩ := hs
  subst h1
  unfold create
  refine .seq (s.ents.requests_create g h) fun e he => ?_
  have hc := h _ (Nat.le_refl _)
  refine .ite (fun heq => .pure ⟨he, ?_, ?_⟩) fun _ => ?_
  · exact h2.trans (heq.symm.trans he)
  · exact h3.trans (heq.symm.trans he)
  · rw [← he] at hc
    refine .seq (requests_realloc hc.1) fun _ _ => .seq (requests_realloc hc.1) fun _ _ => .seq (requests_bitsRealloc hc.2) fun _ _ => ?_
    refine .seq (Q := fun t : TagsPtrs => t.capacity = e.capacity) ?_ fun t ht => ?_
    · unfold TagsPtrs.grow
      exact .seq (.mapM (fun _ => requests_bitsRealloc hc.2) _) fun _ _ => .pure rfl
    refine .seq (Q := fun o : OrdersPtrs => o.capacity = e.capacity) ?_ fun o ho => .pure ⟨he, ht.trans he, ho.trans he⟩
    unfold OrdersPtrs.grow
    exact .seq (.mapM (fun _ => .seq (requests_realloc hc.1) fun _ _ => .seq (requests_realloc hc.1) fun _ _ => .pure trivial) _)
      fun _ _ => .pure rfl

theorem requests_place (s : StorePtrs) (a : Option (Nat × Nat × Bool)) (page : Bool) {c : Nat} (hs : s.Has c) (hp : P (1, 16384))
    (ha : ∀ n slot fits, a = some (n, slot, fits) → Types P n) : Requests P (s.place a page) (Has c) := by
  have hk : ∀ archs : ArchsPtrs, Requests P (if page then archs.newPage >>= fun archs => pure { s with archs := archs }
      else pure archs >>= fun archs => pure { s with archs := archs }) (Has c) := by
    intro archs
    refine .ite (fun _ => .seq (Q := fun _ => True) ?_ fun _ _ => .pure hs) fun _ => .pure hs
    unfold ArchsPtrs.newPage
    exact .seq (requests_alloc hp) fun _ _ => .pure trivial
  unfold place
  rcases a with _ | ⟨n, slot, fits⟩
  · exact .seq (Q := fun _ => True) (.pure trivial) fun a _ => hk a
  · exact .seq (ArchsPtrs.requests_reserve _ _ _ (ha n slot fits rfl)) fun a _ => hk a

theorem requests_step (s : StorePtrs) (op : HeapOp) {c : Nat} (hs : s.Has c) (hp : P (1, 16384)) (h : Tables P (op.capacity c))
    (ht : ∀ n ∈ op.counts, Types P n) : Requests P (s.step op) (Has (op.capacity c)) := by
  cases op with
  | create g => exact s.requests_create g hs h
  | place temporary archetype page =>
    have hp' := s.requests_place archetype page hs hp fun n slot fits he => ht n (by simp [HeapOp.counts, he])
    cases temporary with
    | none => exact hp'
    | some n =>
      unfold step
      refine .seq (ArchPtrs.requests_new (ht n (by simp [HeapOp.counts]))) fun a _ => ?_
      refine .seq (.caught hp' fun f => ?_) fun s' hs' => .seq a.requests_drop fun _ _ => .pure hs'
      exact .seq a.requests_drop fun _ _ => .throw _
  | tag i =>
    unfold step TagsPtrs.newTag
    obtain ⟨h1, h2, h3⟩ := hs
    refine .seq (Q := fun t : TagsPtrs => t.capacity = c) (.seq (requests_alloc ?_) fun _ _ => .pure h2) fun t ht => .pure ⟨h1, ht, h3⟩
    exact h2 ▸ (h c (Nat.le_refl _)).2
  | group i =>
    unfold step OrdersPtrs.newGroup
    obtain ⟨h1, h2, h3⟩ := hs
    have hc : P (4, s.orders.capacity) := h3 ▸ (h c (Nat.le_refl _)).1
    exact .seq (Q := fun t : OrdersPtrs => t.capacity = c) (.seq (requests_alloc hc) fun _ _ => .seq (requests_alloc hc) fun _ _ => .pure h3)
      fun t ht => .pure ⟨h1, h2, ht⟩

theorem HeapOp_le_capacity (c : Nat) (op : HeapOp) : c ≤ op.capacity c := by
  unfold HeapOp.capacity
  split <;> omega

theorem le_foldl_capacity (ops : List HeapOp) (c : Nat) : c ≤ ops.foldl HeapOp.capacity c := by
  induction ops generalizing c with
  | nil => exact Nat.le_refl c
  | cons op ops ih => exact (HeapOp_le_capacity c op).trans (ih _)

/-- An operation that panics leaves the capacity as it was; here the capacity is bounded by `d`. -/
theorem requests_caught (s : StorePtrs) (op : HeapOp) {c : Nat} (hs : s.Has c) (hp : P (1, 16384)) (h : Tables P (op.capacity c))
    (ht : ∀ n ∈ op.counts, Types P n) : Requests P (s.caught op) fun s' => ∃ c' ≤ op.capacity c, s'.Has c' := by
  unfold caught
  refine .caught ((s.requests_step op hs hp h ht).weaken fun _ h => ⟨_, Nat.le_refl _, h⟩) fun f => ?_
  cases f with
  | panic p => exact .pure ⟨c, HeapOp_le_capacity c op, hs⟩
  | ub u => exact .throw _
  | outOfFuel => exact .throw _

theorem capacity_mono {c d : Nat} (h : c ≤ d) (op : HeapOp) : op.capacity c ≤ op.capacity d := by
  unfold HeapOp.capacity
  split <;> omega

theorem foldl_capacity_mono {c d : Nat} (h : c ≤ d) (ops : List HeapOp) : ops.foldl HeapOp.capacity c ≤ ops.foldl HeapOp.capacity d := by
  induction ops generalizing c d with
  | nil => exact h
  | cons op ops ih => exact ih (capacity_mono h op)

theorem requests_caughts (ops : List HeapOp) (s : StorePtrs) {c : Nat} (hs : s.Has c) (hp : P (1, 16384))
    (h : Tables P (ops.foldl HeapOp.capacity c)) (ht : ∀ op ∈ ops, ∀ n ∈ op.counts, Types P n) :
    Requests P (ops.foldlM caught s) fun _ => True := by
  induction ops generalizing s c with
  | nil => exact .pure trivial
  | cons op ops ih =>
    rw [List.foldlM_cons]
    refine .seq (s.requests_caught op hs hp (h.mono (le_foldl_capacity ops _)) (ht op (by simp))) fun s' ⟨c', hc, hs'⟩ => ?_
    exact ih s' hs' (h.mono (foldl_capacity_mono hc ops)) fun op hop => ht op (by simp [hop])

theorem requests_drop (s : StorePtrs) : Requests P s.drop fun _ => True := by
  unfold drop
  refine .seq (requests_dealloc _ _ _) fun _ _ => .seq (requests_dealloc _ _ _) fun _ _ => .seq (requests_dealloc _ _ _) fun _ _ =>
    .seq s.ents.requests_drop fun _ _ => .seq (Q := fun _ => True) ?_ fun _ _ => .seq (Q := fun _ => True) ?_ fun _ _ => ?_
  · unfold ArchsPtrs.drop
    exact .seq (.forM ArchPtrs.requests_drop _) fun _ _ => .seq (.forM (fun l => requests_dealloc _ _ _) _) fun _ _ =>
      .forM (fun p => requests_dealloc _ _ _) _
  · exact .forM (fun _ => requests_dealloc _ _ _) _
  · exact .forM (fun _ => .seq (requests_dealloc _ _ _) fun _ _ => requests_dealloc _ _ _) _

theorem requests_life (dbg : Bool) {cap : Nat} (ops : List HeapOp) (hp : P (1, 16384)) (h : Tables P (ops.foldl HeapOp.capacity cap))
    (ht : ∀ op ∈ ops, ∀ n ∈ op.counts, Types P n) : Requests P (life dbg cap ops) fun _ => True := by
  unfold life
  exact .seq (requests_withCapacity dbg (h.mono (le_foldl_capacity ops cap)) hp) fun s hs =>
    .seq (requests_caughts ops s hs hp h ht) fun s' _ => s'.requests_drop

theorem capacity_foldl (ops : List HeapOp) (S : Shape) : (ops.foldl Shape.caught S).capacity = ops.foldl HeapOp.capacity S.capacity := by
  induction ops generalizing S with
  | nil => rfl
  | cons op ops ih =>
    rw [List.foldl_cons, List.foldl_cons, ih]
    congr 1
    unfold Shape.caught
    rcases op with g | ⟨t, _ | ⟨n, slot, fits⟩, page⟩ | i | i
    · cases g <;> rfl
    · rfl
    · cases fits
      · rfl
      · show (Shape.reserve S _).capacity = S.capacity
        unfold Shape.reserve
        repeat' split
        all_goals rfl
    · rfl
    · rfl

end StorePtrs

namespace ResPtrs
variable {P : Nat × Nat → Prop}

theorem requests_life {size cap : Nat} (ops : List Bool)
    (h : Tables P ((ops.map HeapOp.create).foldl HeapOp.capacity cap))
    (he : ∀ c ≤ (ops.map HeapOp.create).foldl HeapOp.capacity cap, P (size, c)) : Requests P (life size cap ops) fun _ => True := by
  have hle := StorePtrs.le_foldl_capacity (ops.map HeapOp.create) cap
  unfold life
  refine .seq (Q := fun r : ResPtrs => r.ents.capacity = cap ∧ r.size = size) ?_ fun r hr =>
    .seq (Q := fun _ => True) ?_ fun r _ => ?_
  · unfold withCapacity
    exact .seq (requests_alloc (he cap hle)) fun _ _ => .seq (EntsPtrs.requests_new (h.mono hle)) fun e he => .pure ⟨he, rfl⟩
  · obtain ⟨h1, h2⟩ := hr
    clear hle
    induction ops generalizing r cap with
    | nil => exact .pure trivial
    | cons g ops ih =>
      have hle := StorePtrs.le_foldl_capacity (ops.map HeapOp.create) (HeapOp.capacity cap (.create g))
      rw [List.foldlM_cons]
      refine .seq (Q := fun r : ResPtrs => r.ents.capacity = HeapOp.capacity cap (.create g) ∧ r.size = size) ?_ fun r' hr' =>
        ih (cap := HeapOp.capacity cap (.create g)) h he r' hr'.1 hr'.2
      subst h1 h2
      unfold create
      refine .seq (r.ents.requests_create g (h.mono hle)) fun e hc => ?_
      refine .ite (fun _ => .pure ⟨hc, rfl⟩) fun _ => .seq (requests_realloc ?_) fun _ _ => .pure ⟨hc, rfl⟩
      exact he _ (hc ▸ hle)
  · exact r.ents.requests_drop

end ResPtrs

end Ecs
