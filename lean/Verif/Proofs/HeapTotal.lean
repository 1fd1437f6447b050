import Verif.Proofs.HeapSizes
import Verif.Spec.HeapTotal
import Mathlib.Tactic.Ring

/-! `Costs a b m Q`: the bytes requested by `m`, on top of a budget `a`, stay within the budget `b`, also if `m` fails, and the value
it returns has `Q`. The budgets play the role of a potential. -/

namespace Ecs

/-- See above. -/
def Costs {α : Type} (a b : Nat) (m : HeapM α) (Q : α → Prop) : Prop :=
  ∀ H, match m H with
    | .ok v H' => H'.total + a ≤ H.total + b ∧ Q v
    | .error _ H' => H'.total + a ≤ H.total + b

namespace Costs
variable {α β : Type} {a b c : Nat} {Q : α → Prop} {Q' : β → Prop}

theorem pure {v : α} (h : Q v) : Costs a a (Pure.pure v) Q := fun _ => ⟨Nat.le_refl _, h⟩

theorem throw (f : Fault) : Costs a a (MonadExcept.throw f : HeapM α) Q := fun _ => Nat.le_refl _

theorem le {m : HeapM α} {b' : Nat} (h : Costs a b m Q) (hb : b ≤ b') : Costs a b' m Q := by
  intro H
  have h := h H
  cases hm : m H with
  | ok v H1 => rw [hm] at h; exact ⟨by have := h.1; omega, h.2⟩
  | error f H1 => rw [hm] at h; exact (show _ ≤ _ by have : _ ≤ _ := h; omega)

theorem seq {m : HeapM α} {k : α → HeapM β} (h1 : Costs a b m Q) (h2 : ∀ v, Q v → Costs b c (k v) Q') (hc : b ≤ c) :
    Costs a c (m >>= k) Q' := by
  intro H
  have h1 := h1 H
  show match EStateM.bind m k H with | .ok v H' => _ | .error _ H' => _
  unfold EStateM.bind
  cases hm : m H with
  | ok v H1 =>
    rw [hm] at h1
    have h2 := h2 v h1.2 H1
    have h1 := h1.1
    dsimp only
    cases hk : k v H1 with
    | ok w H2 => rw [hk] at h2; exact ⟨by have := h2.1; omega, h2.2⟩
    | error f H2 => rw [hk] at h2; exact (show _ ≤ _ by have : _ ≤ _ := h2; omega)
  | error f H1 =>
    rw [hm] at h1
    exact (show _ ≤ _ by have : _ ≤ _ := h1; omega)

theorem weaken {m : HeapM α} {Q1 : α → Prop} (h : Costs a b m Q) (hq : ∀ v, Q v → Q1 v) : Costs a b m Q1 := by
  intro H
  have h := h H
  cases hm : m H with
  | ok v H1 => rw [hm] at h; exact ⟨h.1, hq v h.2⟩
  | error f H1 => rw [hm] at h; exact h

theorem caught {m : HeapM α} {k : Fault → HeapM α} (h : Costs a b m Q) (hk : ∀ f, Costs b b (k f) Q) :
    Costs a b (MonadExcept.tryCatch m k) Q := by
  intro H
  have h := h H
  show match EStateM.tryCatch m k H with | .ok v H' => _ | .error _ H' => _
  unfold EStateM.tryCatch
  cases hm : m H with
  | ok v H1 => rw [hm] at h; exact h
  | error f H1 =>
    rw [hm] at h
    have h : H1.total + a ≤ H.total + b := h
    have hk := hk f H1
    show match k f H1 with | .ok v H' => _ | .error _ H' => _
    cases hkm : k f H1 with
    | ok w H2 => rw [hkm] at hk; exact ⟨by have := hk.1; omega, hk.2⟩
    | error f H2 => rw [hkm] at hk; exact (show _ ≤ _ by have : _ ≤ _ := hk; omega)

theorem ite {p : Prop} [Decidable p] {m n : HeapM α} (h1 : p → Costs a b m Q) (h2 : ¬ p → Costs a b n Q) :
    Costs a b (if p then m else n) Q := by
  split
  · exact h1 ‹_›
  · exact h2 ‹_›

theorem forM {f : α → HeapM PUnit} (h : ∀ v, Costs a a (f v) fun _ => True) (l : List α) : Costs a a (l.forM f) fun _ => True := by
  induction l with
  | nil => exact .pure trivial
  | cons v l ih =>
    rw [List.forM_eq_forM, List.forM_cons]
    exact .seq (h v) (fun _ _ => ih) (Nat.le_refl _)

theorem mapM {k : Nat} {f : α → HeapM β} (h : ∀ v a, Costs a (a + k) (f v) fun _ => True) (l : List α) :
    Costs a (a + k * l.length) (l.mapM f) fun r => r.length = l.length := by
  induction l generalizing a with
  | nil => exact .pure rfl
  | cons v l ih =>
    rw [List.mapM_cons]
    refine .seq (h v a) (fun w _ => ?_) (by rw [List.length_cons, Nat.mul_add]; omega)
    refine (Costs.seq ih (fun r hr => .pure (by simp [hr])) (Nat.le_refl _)).le ?_
    rw [List.length_cons, Nat.mul_add]; omega

end Costs

open HeapM

section
variable {a : Nat}

theorem costs_alloc (size cap : Nat) : Costs a (a + size * cap) (alloc size cap) fun _ => True := by
  intro H
  unfold alloc
  by_cases h0 : size * cap = 0
  · rw [if_pos h0]; exact (show _ ≤ _ by omega)
  · rw [if_neg h0]
    refine ⟨?_, trivial⟩
    simp only [Heap.total, List.map_cons, List.sum_cons]
    exact Nat.le_of_eq (by ring)

theorem costs_dealloc (size p cap : Nat) : Costs a a (dealloc size p cap) fun _ => True := by
  intro H
  unfold dealloc freeBytes
  by_cases h0 : (p, size * cap) ∈ H.blocks
  · rw [if_pos h0]; exact ⟨Nat.le_refl _, trivial⟩
  · rw [if_neg h0]

theorem costs_reallocZeroing (size p old new : Nat) : Costs a (a + size * new) (reallocZeroing size p old new) fun _ => True := by
  unfold reallocZeroing
  exact .seq (costs_alloc size new) (fun _ _ => .seq (costs_dealloc _ _ _) (fun _ _ => .pure trivial) (Nat.le_refl _)) (Nat.le_refl _)

theorem costs_realloc (size p old new : Nat) : Costs a (a + size * new) (realloc size p old new) fun _ => True := by
  unfold realloc
  exact .ite (fun _ => (Costs.pure trivial).le (by omega)) fun _ => costs_reallocZeroing size p old new

/-- A bit vector for `len > 0` entities takes at most five bytes per entity. -/
theorem bits_le {len : Nat} (h : 0 < len) : 4 * Words.getLen len ≤ 5 * len := by unfold Words.getLen; omega

theorem costs_bitsAlloc {len : Nat} (h : 0 < len) : Costs a (a + 5 * len) (bitsAlloc len) fun _ => True :=
  (costs_alloc 4 _).le (by have := bits_le h; omega)

theorem costs_bitsRealloc (p old : Nat) {new : Nat} (h : 0 < new) : Costs a (a + 5 * new) (bitsRealloc p old new) fun _ => True := by
  unfold bitsRealloc
  refine .ite (fun _ => (Costs.pure trivial).le (by omega)) fun _ => ?_
  have := bits_le h
  exact .seq ((costs_alloc 4 _).le (by omega)) (fun _ _ => .seq (costs_dealloc _ _ _) (fun _ _ => .pure trivial) (Nat.le_refl _)) (Nat.le_refl _)

theorem EntsPtrs.costs_new {c : Nat} (h : 0 < c) : Costs a (a + 9 * c) (EntsPtrs.new c) fun e => e.capacity = c := by
  unfold EntsPtrs.new
  refine .seq (costs_alloc 4 c) (fun _ _ => .seq ((costs_bitsAlloc h).le ?_) (fun _ _ => .pure rfl) (Nat.le_refl _)) ?_ <;> omega

theorem EntsPtrs.costs_create (e : EntsPtrs) (g : Bool) (h : 0 < e.capacity) :
    Costs a (a + if g then 9 * (2 * e.capacity) else 0) (e.create g) fun e' => e'.capacity = if g then 2 * e.capacity else e.capacity := by
  unfold EntsPtrs.create
  cases g with
  | false => exact .pure rfl
  | true =>
    show Costs a (a + 9 * (2 * e.capacity)) (EntsPtrs.grow e _) _
    rw [show max e.capacity 1 * 2 = 2 * e.capacity by omega]
    unfold EntsPtrs.grow
    refine .ite (fun hc => absurd hc (by omega)) fun _ => ?_
    refine .seq (costs_reallocZeroing 4 _ _ _) (fun _ _ => .seq ((costs_bitsRealloc _ _ (by omega)).le ?_) (fun _ _ => .pure rfl)
      (Nat.le_refl _)) ?_ <;> omega

theorem EntsPtrs.costs_drop (e : EntsPtrs) : Costs a a e.drop fun _ => True := by
  unfold EntsPtrs.drop
  exact .seq (costs_dealloc _ _ _) (fun _ _ => costs_dealloc _ _ _) (Nat.le_refl _)

theorem ArchPtrs.costs_new (n : Nat) : Costs a (a + 48 * n) (ArchPtrs.new n) fun _ => True := by
  unfold ArchPtrs.new
  refine .seq (costs_alloc typeIdSize n) (fun _ _ => .seq (costs_alloc 8 n) (fun _ _ => .seq (costs_alloc 8 n) (fun _ _ =>
    .seq ((costs_alloc strSize n).le ?_) (fun _ _ => .pure trivial) (Nat.le_refl _)) ?_) ?_) ?_ <;>
    simp only [typeIdSize, strSize] <;> omega

theorem ArchPtrs.costs_drop (p : ArchPtrs) : Costs a a p.drop fun _ => True := by
  unfold ArchPtrs.drop
  exact .seq (costs_dealloc _ _ _) (fun _ _ => .seq (costs_dealloc _ _ _) (fun _ _ => .seq (costs_dealloc _ _ _) (fun _ _ =>
    costs_dealloc _ _ _) (Nat.le_refl _)) (Nat.le_refl _)) (Nat.le_refl _)

theorem ArchsPtrs.costs_reserve (c : ArchsPtrs) (n slot : Nat) (fits : Bool) :
    Costs a (a + 56 * n) (c.reserveArchetype n slot fits) fun _ => True := by
  unfold ArchsPtrs.reserveArchetype LayoutPtr.new
  refine .seq (b := a + 8 * n) (Q := fun _ => True) (.seq (costs_alloc 8 n) (fun _ _ => ?_) (Nat.le_refl _)) (fun _ _ => ?_) (by omega)
  · cases fits with
    | true => exact .pure trivial
    | false => exact .throw _
  · split
    · refine .seq ((ArchPtrs.costs_new n).le ?_) (fun _ _ => .seq (ArchPtrs.costs_drop _) (fun _ _ => .seq (costs_dealloc _ _ _)
        (fun _ _ => .pure trivial) (Nat.le_refl _)) (Nat.le_refl _)) (Nat.le_refl _)
      omega
    · exact .seq ((ArchPtrs.costs_new n).le (by omega)) (fun _ _ => .pure trivial) (Nat.le_refl _)

end

namespace StorePtrs
variable {a : Nat}

/-- The capacity is at most `c`, there are at most `T` tags and `G` groups. -/
structure Within (c T G : Nat) (s : StorePtrs) : Prop where
  pos : 0 < s.ents.capacity
  cap : s.ents.capacity ≤ c
  tagCap : s.tags.capacity = s.ents.capacity
  orderCap : s.orders.capacity = s.ents.capacity
  tags : s.tags.bitvecs.length ≤ T
  groups : s.orders.links.length ≤ G

/-- Twice the bytes for each entity that the tables of a store with `T` tags and `G` groups take. -/
def rate (T G : Nat) : Nat := 44 + 10 * T + 16 * G

theorem costs_withCapacity (dbg : Bool) {cap : Nat} (h : 0 < cap) :
    Costs a (a + (22 * cap + 5 * 16384)) (withCapacity dbg cap) (Within cap 0 0) := by
  unfold withCapacity
  rw [if_neg (by simp; omega)]
  refine .seq (EntsPtrs.costs_new h) (fun e he => ?_) (by omega)
  refine .seq (b := a + 9 * cap + 5 * 16384) (Q := fun _ => True) ?_ (fun _ _ => ?_) (by omega)
  · unfold ArchsPtrs.new pageNew
    refine .seq (costs_alloc 1 16384) (fun _ _ => .seq (costs_alloc 1 16384) (fun _ _ => .seq (costs_alloc 1 16384) (fun _ _ =>
      .seq (costs_alloc 1 16384) (fun _ _ => .seq (costs_alloc 1 16384) (fun _ _ => (Costs.pure trivial).le ?_) ?_) ?_) ?_) ?_) ?_ <;> omega
  · refine .seq (costs_bitsAlloc h) (fun _ _ => .seq (costs_alloc 4 cap) (fun _ _ => .seq ((costs_alloc 4 cap).le ?_) (fun _ _ =>
      .pure ?_) (Nat.le_refl _)) ?_) ?_
    · omega
    · exact ⟨by dsimp only; omega, Nat.le_of_eq he, he.symm, he.symm, Nat.le_refl _, Nat.le_refl _⟩
    all_goals omega

theorem costs_growTags (c : TagsPtrs) {new T : Nat} (h : 0 < new) (hT : c.bitvecs.length ≤ T) :
    Costs a (a + 5 * new * T) (c.grow new) fun t => t.capacity = new ∧ t.bitvecs.length ≤ T := by
  have := Nat.mul_le_mul_left (5 * new) hT
  unfold TagsPtrs.grow
  refine (Costs.seq (.mapM (fun _ _ => costs_bitsRealloc _ _ h) _) (fun r hr => .pure ⟨rfl, ?_⟩) (Nat.le_refl _)).le (by omega)
  show r.length ≤ T
  omega

theorem costs_growOrders (c : OrdersPtrs) {new G : Nat} (hG : c.links.length ≤ G) :
    Costs a (a + 8 * new * G) (c.grow new) fun o => o.capacity = new ∧ o.links.length ≤ G := by
  have := Nat.mul_le_mul_left (8 * new) hG
  unfold OrdersPtrs.grow
  refine (Costs.seq (.mapM (k := 8 * new) (fun _ x => ?_) _) (fun r hr => .pure ⟨rfl, ?_⟩) (Nat.le_refl _)).le (by omega)
  · refine .seq (costs_realloc 4 _ _ new) (fun _ _ => .seq ((costs_realloc 4 _ _ new).le ?_) (fun _ _ => .pure trivial) (Nat.le_refl _)) ?_ <;> omega
  · show r.length ≤ G
    omega

theorem costs_create (s : StorePtrs) (g : Bool) {c T G : Nat} (hs : s.Within c T G) :
    Costs (a + rate T G * c) (a + rate T G * HeapOp.capacity c (.create g)) (s.create g)
      (Within (HeapOp.capacity c (.create g)) T G) := by
  obtain ⟨h0, h1, h2, h3, h4, h5⟩ := hs
  unfold create
  cases g with
  | false =>
    refine .seq (b := a + rate T G * c) (s.ents.costs_create false h0) (fun e he => ?_) (Nat.le_refl _)
    have he : e.capacity = s.ents.capacity := he
    refine .ite (fun _ => .pure ⟨?_, ?_, ?_, ?_, h4, h5⟩) fun hc => absurd he hc
    · exact he ▸ h0
    · exact he ▸ h1
    · exact h2.trans he.symm
    · exact h3.trans he.symm
  | true =>
    have hcap : HeapOp.capacity c (.create true) = 2 * c := by
      show max c 1 * 2 = _
      omega
    rw [hcap]
    have h6 : rate T G * (2 * c) = rate T G * c + (22 * (2 * c) + 5 * (2 * c) * T + 8 * (2 * c) * G) := by unfold rate; ring
    have h7 := Nat.mul_le_mul_right T (Nat.mul_le_mul_left 5 (Nat.mul_le_mul_left 2 h1))
    have h8 := Nat.mul_le_mul_right G (Nat.mul_le_mul_left 8 (Nat.mul_le_mul_left 2 h1))
    rw [h6]
    generalize rate T G * c = x at *
    refine .seq (b := a + x + 9 * (2 * s.ents.capacity)) (s.ents.costs_create true h0) (fun e he => ?_) (by omega)
    have he : e.capacity = 2 * s.ents.capacity := he
    refine .ite (fun hc => absurd hc (by omega)) fun _ => ?_
    rw [← he] at h7 h8 ⊢
    have hp : 0 < e.capacity := by omega
    refine .seq (costs_realloc 4 _ _ _) (fun _ _ => ?_) (by omega)
    refine .seq (costs_realloc 4 _ _ _) (fun _ _ => ?_) (by omega)
    refine .seq (costs_bitsRealloc _ _ hp) (fun _ _ => ?_) (by omega)
    refine .seq (costs_growTags _ hp h4) (fun t ht => ?_) (by omega)
    refine .seq ((costs_growOrders _ h5).le (by omega)) (fun o ho => .pure ?_) (Nat.le_refl _)
    exact ⟨hp, by show e.capacity ≤ _; omega, ht.1, ho.1, ht.2, ho.2⟩

theorem costs_place (s : StorePtrs) (r : Option (Nat × Nat × Bool)) (page : Bool) {c T G : Nat} (hs : s.Within c T G) :
    Costs a (a + HeapOp.extra (.place none r page)) (s.place r page) (Within c T G) := by
  have hw : ∀ archs, Within c T G { s with archs := archs } := fun _ => ⟨hs.pos, hs.cap, hs.tagCap, hs.orderCap, hs.tags, hs.groups⟩
  have hk : ∀ b (archs : ArchsPtrs), Costs b (b + if page then 16384 else 0)
      (if page then archs.newPage >>= fun archs => pure { s with archs := archs }
        else pure archs >>= fun archs => pure { s with archs := archs }) (Within c T G) := by
    intro b archs
    refine .ite (fun h => ?_) fun h => ?_
    · rw [if_pos h]
      refine .seq (Q := fun _ => True) ?_ (fun _ _ => .pure (hw _)) (Nat.le_refl _)
      unfold ArchsPtrs.newPage pageNew
      exact .seq ((costs_alloc 1 16384).le (by omega)) (fun _ _ => .pure trivial) (Nat.le_refl _)
    · rw [if_neg h]
      exact .pure (hw _)
  unfold place HeapOp.extra
  rcases r with _ | ⟨n, slot, fits⟩
  · exact .seq (Q := fun _ => True) (.pure trivial) (fun x _ => (hk a x).le (by simp)) (Nat.le_add_right _ _)
  · exact .seq (ArchsPtrs.costs_reserve _ _ _ _) (fun x _ => (hk _ x).le (by simp [Nat.add_assoc])) (by simp)

/-- The number of tags after an operation that starts with `T` tags, and the same for groups. -/
def tagsAfter (T : Nat) (op : HeapOp) : Nat := T + if op.isTag then 1 else 0
def groupsAfter (G : Nat) (op : HeapOp) : Nat := G + if op.isGroup then 1 else 0

theorem costs_step (s : StorePtrs) (op : HeapOp) {c T G : Nat} (hs : s.Within c T G) :
    Costs (a + rate T G * c) (a + rate (tagsAfter T op) (groupsAfter G op) * op.capacity c + op.extra) (s.step op)
      (Within (op.capacity c) (tagsAfter T op) (groupsAfter G op)) := by
  cases op with
  | create g => exact s.costs_create g hs
  | place temporary archetype page =>
    have hp := fun b => s.costs_place (a := b) archetype page hs
    cases temporary with
    | none => exact hp _
    | some n =>
      unfold step
      refine .seq (ArchPtrs.costs_new n) (fun p _ => ?_) ?_
      · refine .seq (.caught (hp _) fun f => ?_) (fun s' hs' => .seq p.costs_drop (fun _ _ => (Costs.pure hs').le ?_) ?_) ?_
        · exact .seq p.costs_drop (fun _ _ => .throw _) (Nat.le_refl _)
        all_goals
          simp only [HeapOp.extra, tagsAfter, groupsAfter, HeapOp.isTag, HeapOp.isGroup, HeapOp.capacity, Option.getD_some, Option.getD_none,
            Bool.false_eq_true, if_false, Nat.add_zero]
          omega
      · simp only [HeapOp.extra, tagsAfter, groupsAfter, HeapOp.isTag, HeapOp.isGroup, HeapOp.capacity, Option.getD_some,
            Bool.false_eq_true, if_false, Nat.add_zero]
        omega
  | tag i =>
    obtain ⟨h0, h1, h2, h3, h4, h5⟩ := hs
    unfold step TagsPtrs.newTag
    have h6 : rate (T + 1) G * c = rate T G * c + 10 * c := by unfold rate; ring
    show Costs _ (a + rate (T + 1) G * c + 0) _ (Within c (T + 1) G)
    rw [h6]
    refine .seq (Q := fun t : TagsPtrs => t.capacity = s.ents.capacity ∧ t.bitvecs.length ≤ T + 1) ?_
      (fun t ht => .pure ⟨h0, h1, ht.1, h3, ht.2, h5⟩) (Nat.le_refl _)
    refine .seq ((costs_bitsAlloc (h2 ▸ h0)).le (by omega)) (fun p _ => .pure ⟨h2, ?_⟩) (Nat.le_refl _)
    simp only [List.length_append, List.length_cons, List.length_take, List.length_drop]
    omega
  | group i =>
    obtain ⟨h0, h1, h2, h3, h4, h5⟩ := hs
    unfold step OrdersPtrs.newGroup
    have h6 : rate T (G + 1) * c = rate T G * c + 16 * c := by unfold rate; ring
    show Costs _ (a + rate T (G + 1) * c + 0) _ (Within c T (G + 1))
    rw [h6]
    refine .seq (Q := fun o : OrdersPtrs => o.capacity = s.ents.capacity ∧ o.links.length ≤ G + 1) ?_
      (fun t ht => .pure ⟨h0, h1, h2, ht.1, h4, ht.2⟩) (Nat.le_refl _)
    refine .seq (costs_alloc 4 _) (fun p _ => .seq ((costs_alloc 4 _).le (by omega)) (fun q _ => .pure ⟨h3, ?_⟩) (Nat.le_refl _)) (by omega)
    simp only [List.length_append, List.length_cons, List.length_take, List.length_drop]
    omega

theorem costs_caught (s : StorePtrs) (op : HeapOp) {c T G : Nat} (hs : s.Within c T G) :
    Costs (a + rate T G * c) (a + rate (tagsAfter T op) (groupsAfter G op) * op.capacity c + op.extra) (s.caught op)
      (Within (op.capacity c) (tagsAfter T op) (groupsAfter G op)) := by
  unfold caught
  refine .caught (s.costs_step op hs) fun f => ?_
  cases f with
  | panic p =>
    exact .pure ⟨hs.pos, hs.cap.trans (HeapOp_le_capacity c op), hs.tagCap, hs.orderCap, hs.tags.trans (Nat.le_add_right _ _),
      hs.groups.trans (Nat.le_add_right _ _)⟩
  | ub u => exact .throw _
  | outOfFuel => exact .throw _

theorem costs_caughts (ops : List HeapOp) (s : StorePtrs) {c T G : Nat} (hs : s.Within c T G) :
    Costs (a + rate T G * c) (a + rate (T + ops.countP HeapOp.isTag) (G + ops.countP HeapOp.isGroup) * ops.foldl HeapOp.capacity c +
      (ops.map HeapOp.extra).sum) (ops.foldlM caught s) fun _ => True := by
  induction ops generalizing s c T G a with
  | nil => exact .pure trivial
  | cons op ops ih =>
    rw [List.foldlM_cons]
    have hstep := fun s' hs' => ih (a := a + op.extra) (c := op.capacity c) (T := tagsAfter T op) (G := groupsAfter G op) s' hs'
    have e1 : tagsAfter T op + ops.countP HeapOp.isTag = T + (op :: ops).countP HeapOp.isTag := by
      unfold tagsAfter; rw [List.countP_cons]; omega
    have e2 : groupsAfter G op + ops.countP HeapOp.isGroup = G + (op :: ops).countP HeapOp.isGroup := by
      unfold groupsAfter; rw [List.countP_cons]; omega
    rw [e1, e2] at hstep
    have h1 := s.costs_caught (a := a) op hs
    rw [Nat.add_right_comm] at h1
    refine (Costs.seq h1 hstep ?_).le ?_
    · rw [← e1, ← e2]
      have h3 : rate (tagsAfter T op) (groupsAfter G op) * op.capacity c ≤
          rate (tagsAfter T op + ops.countP HeapOp.isTag) (groupsAfter G op + ops.countP HeapOp.isGroup) *
            ops.foldl HeapOp.capacity (op.capacity c) :=
        Nat.mul_le_mul (by unfold rate; omega) (le_foldl_capacity ops _)
      omega
    · rw [List.map_cons, List.sum_cons, List.foldl_cons]
      omega

theorem costs_drop (s : StorePtrs) : Costs a a s.drop fun _ => True := by
  have hle := Nat.le_refl a
  unfold drop
  refine .seq (costs_dealloc _ _ _) (fun _ _ => .seq (costs_dealloc _ _ _) (fun _ _ => .seq (costs_dealloc _ _ _) (fun _ _ =>
    .seq s.ents.costs_drop (fun _ _ => .seq (Q := fun _ => True) ?_ (fun _ _ => .seq (Q := fun _ => True) ?_ (fun _ _ => ?_) hle) hle) hle) hle) hle) hle
  · unfold ArchsPtrs.drop
    exact .seq (.forM ArchPtrs.costs_drop _) (fun _ _ => .seq (.forM (fun l => costs_dealloc _ _ _) _) (fun _ _ =>
      .forM (fun p => costs_dealloc _ _ _) _) hle) hle
  · exact .forM (fun _ => costs_dealloc _ _ _) _
  · exact .forM (fun _ => .seq (costs_dealloc _ _ _) (fun _ _ => costs_dealloc _ _ _) hle) _

theorem costs_life (dbg : Bool) {cap : Nat} (h : 0 < cap) (ops : List HeapOp) :
    Costs 0 (rate (ops.countP HeapOp.isTag) (ops.countP HeapOp.isGroup) * ops.foldl HeapOp.capacity cap + 5 * 16384 +
      (ops.map HeapOp.extra).sum) (life dbg cap ops) fun _ => True := by
  unfold life
  have h0 : rate 0 0 * cap = 44 * cap := rfl
  have hc := fun s hs => costs_caughts (a := 5 * 16384) ops s (c := cap) (T := 0) (G := 0) hs
  simp only [Nat.zero_add] at hc
  have hle : rate 0 0 * cap ≤ rate (ops.countP HeapOp.isTag) (ops.countP HeapOp.isGroup) * ops.foldl HeapOp.capacity cap :=
    Nat.mul_le_mul (by unfold rate; omega) (le_foldl_capacity ops cap)
  refine .seq (b := 5 * 16384 + rate 0 0 * cap) ((costs_withCapacity (a := 0) dbg h).le (by omega)) (fun s hs => ?_) (by omega)
  exact .seq ((hc s hs).le (by omega)) (fun s' _ => s'.costs_drop) (Nat.le_refl _)

end StorePtrs

namespace ResPtrs
variable {a : Nat}

theorem costs_life {size cap : Nat} (h : 0 < cap) (ops : List Bool) :
    Costs 0 (2 * (size + 9) * (ops.map HeapOp.create).foldl HeapOp.capacity cap) (life size cap ops) fun _ => True := by
  have hle := StorePtrs.le_foldl_capacity (ops.map HeapOp.create) cap
  have hm := Nat.mul_le_mul_left (2 * (size + 9)) hle
  have hq : size * cap + 9 * cap ≤ 2 * (size + 9) * cap := by rw [← Nat.add_mul]; exact Nat.mul_le_mul_right _ (by omega)
  unfold life
  refine .seq (b := 2 * (size + 9) * cap) (Q := fun r : ResPtrs => r.ents.capacity = cap ∧ r.size = size) ?_ (fun r hr =>
    .seq (b := 2 * (size + 9) * (ops.map HeapOp.create).foldl HeapOp.capacity cap) (Q := fun _ => True) ?_ (fun r _ => r.ents.costs_drop) (Nat.le_refl _)) hm
  · unfold withCapacity
    exact .seq (costs_alloc size cap) (fun _ _ => .seq ((EntsPtrs.costs_new h).le (by omega)) (fun e he => .pure ⟨he, rfl⟩) (Nat.le_refl _)) (by omega)
  · obtain ⟨h1, h2⟩ := hr
    clear hle hm hq
    induction ops generalizing r cap with
    | nil => exact .pure trivial
    | cons g ops ih =>
      have hle := StorePtrs.le_foldl_capacity (ops.map HeapOp.create) (HeapOp.capacity cap (.create g))
      have hm := Nat.mul_le_mul_left (2 * (size + 9)) hle
      rw [List.foldlM_cons]
      have hp : 0 < HeapOp.capacity cap (.create g) := Nat.lt_of_lt_of_le h (StorePtrs.HeapOp_le_capacity cap (.create g))
      refine .seq (b := 2 * (size + 9) * HeapOp.capacity cap (.create g))
        (Q := fun r : ResPtrs => r.ents.capacity = HeapOp.capacity cap (.create g) ∧ r.size = size) ?_ (fun r' hr' =>
        ih (cap := HeapOp.capacity cap (.create g)) hp r' hr'.1 hr'.2) hm
      clear ih hm hle
      subst h1 h2
      unfold create
      cases g with
      | false =>
        refine .seq (r.ents.costs_create false h) (fun e hc => ?_) (Nat.le_refl _)
        exact .ite (fun _ => .pure ⟨hc, rfl⟩) fun hn => absurd hc hn
      | true =>
        have hcap : HeapOp.capacity r.ents.capacity (.create true) = 2 * r.ents.capacity := by
          show max r.ents.capacity 1 * 2 = _
          omega
        rw [hcap]
        have h6 : 2 * (r.size + 9) * (2 * r.ents.capacity) = 2 * (r.size + 9) * r.ents.capacity + 9 * (2 * r.ents.capacity) +
            r.size * (2 * r.ents.capacity) := by ring
        rw [h6]
        refine .seq (r.ents.costs_create true h) (fun e hc => ?_) (Nat.le_add_right _ _)
        have hc : e.capacity = 2 * r.ents.capacity := hc
        refine .ite (fun hn => absurd hn (by omega)) fun _ => .seq ((costs_realloc r.size _ _ _).le (by rw [hc]; exact Nat.le_refl _)) (fun _ _ => .pure ⟨hc, rfl⟩) (Nat.le_refl _)

end ResPtrs
end Ecs
