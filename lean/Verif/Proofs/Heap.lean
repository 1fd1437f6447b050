import Verif.Model.Heap
import Mathlib.Algebra.Order.Group.Multiset
import Mathlib.Tactic.Abel

/-! Ownership of heap blocks: `Takes m pre Q post` says that `m`, run on a heap that contains at least the blocks
`pre`, returns a value with `Q`, replaces these blocks by `post`, and leaves all other blocks alone. -/

namespace Ecs

/-- The blocks of the heap, in any order. -/
def Heap.bag (H : Heap) : Multiset Block := (H.blocks : Multiset Block)

/-- `m` returns a value with `Q`, replacing the blocks `pre` by `post`. -/
def Takes {α : Type} (m : HeapM α) (pre : Multiset Block) (Q : α → Prop) (post : α → Multiset Block) : Prop :=
  ∀ H F, H.bag = pre + F → ∃ a H', m H = .ok a H' ∧ Q a ∧ H'.bag = post a + F

namespace Takes
variable {α β : Type} {Q : α → Prop} {Q' : β → Prop}

theorem pure (a : α) {pre : Multiset Block} {post : α → Multiset Block} (hq : Q a) (h : post a = pre) :
    Takes (Pure.pure a) pre Q post := by
  intro H F hH
  exact ⟨a, H, rfl, hq, by rw [h, hH]⟩

/-- First `m`, which needs only some of the blocks, then `k`. -/
theorem seq {m : HeapM α} {k : α → HeapM β} {pre pre1 R : Multiset Block} {mid : α → Multiset Block}
    {post : β → Multiset Block} (h1 : Takes m pre1 Q mid) (hp : pre = pre1 + R)
    (h2 : ∀ a, Q a → Takes (k a) (mid a + R) Q' post) : Takes (m >>= k) pre Q' post := by
  intro H F hH
  obtain ⟨a, H1, e1, q1, b1⟩ := h1 H (R + F) (by rw [hH, hp, add_assoc])
  obtain ⟨b, H2, e2, q2, b2⟩ := h2 a q1 H1 F (by rw [b1, add_assoc])
  refine ⟨b, H2, ?_, q2, b2⟩
  show EStateM.bind m k H = _
  unfold EStateM.bind
  rw [e1]
  exact e2

theorem conseq {m : HeapM α} {Q1 : α → Prop} {pre pre' : Multiset Block} {post post' : α → Multiset Block}
    (h : Takes m pre Q post) (hp : pre' = pre) (hq : ∀ a, Q a → Q1 a ∧ post a = post' a) : Takes m pre' Q1 post' := by
  intro H F hH
  obtain ⟨a, H', e, q, b⟩ := h H F (by rw [hH, hp])
  exact ⟨a, H', e, (hq a q).1, by rw [b, (hq a q).2]⟩

theorem frame {m : HeapM α} {pre : Multiset Block} {post : α → Multiset Block} (h : Takes m pre Q post)
    (R : Multiset Block) : Takes m (pre + R) Q (fun a => post a + R) := by
  intro H F hH
  obtain ⟨a, H', e, q, b⟩ := h H (R + F) (by rw [hH, add_assoc])
  exact ⟨a, H', e, q, by rw [b, add_assoc]⟩

end Takes

open HeapM

theorem takes_alloc {size cap : Nat} (h : 0 < size * cap) :
    Takes (alloc size cap) 0 (fun _ => True) (fun p => {(p, size * cap)}) := by
  intro H F hH
  refine ⟨H.next, { next := H.next + 1, blocks := (H.next, size * cap) :: H.blocks, asked := (size, cap) :: H.asked }, ?_, trivial, ?_⟩
  · unfold alloc
    rw [if_neg (Nat.ne_of_gt h)]
  · unfold Heap.bag at *
    dsimp only
    rw [← Multiset.cons_coe, hH, zero_add, Multiset.singleton_add]

theorem takes_dealloc (size p cap : Nat) : Takes (dealloc size p cap) {(p, size * cap)} (fun _ => True) (fun _ => 0) := by
  intro H F hH
  have hm : (p, size * cap) ∈ H.blocks := by
    have : (p, size * cap) ∈ H.bag := by rw [hH]; simp
    exact this
  refine ⟨(), { H with blocks := H.blocks.erase (p, size * cap) }, ?_, trivial, ?_⟩
  · unfold dealloc freeBytes
    rw [if_pos hm]
  · unfold Heap.bag at *
    dsimp only
    have h1 : (H.blocks : Multiset Block) = {(p, size * cap)} + ((H.blocks.erase (p, size * cap) : List Block) : Multiset Block) := by
      rw [Multiset.singleton_add, Multiset.cons_coe, Multiset.coe_eq_coe]
      exact List.perm_cons_erase hm
    rw [h1] at hH
    rw [add_left_cancel hH, zero_add]

theorem takes_realloc {size p old new : Nat} (h : 0 < size * new) :
    Takes (realloc size p old new) {(p, size * old)} (fun _ => True) (fun q => {(q, size * new)}) := by
  unfold realloc
  split
  · rename_i he
    exact .pure _ trivial (by rw [he])
  · refine .seq (takes_alloc h) (zero_add _).symm fun q _ => ?_
    refine .seq (takes_dealloc size p old) (add_comm _ _) fun _ _ => ?_
    exact .pure _ trivial (by simp)

theorem takes_reallocZeroing {size p old new : Nat} (h : 0 < size * new) :
    Takes (reallocZeroing size p old new) {(p, size * old)} (fun _ => True) (fun q => {(q, size * new)}) := by
  unfold reallocZeroing
  refine .seq (takes_alloc h) (zero_add _).symm fun q _ => ?_
  refine .seq (takes_dealloc size p old) (add_comm _ _) fun _ _ => ?_
  exact .pure _ trivial (by simp)

theorem getLen_pos (n : Nat) : 0 < 4 * Words.getLen n := by unfold Words.getLen; omega

theorem takes_bitsAlloc (len : Nat) : Takes (bitsAlloc len) 0 (fun _ => True) (fun p => {(p, 4 * Words.getLen len)}) :=
  takes_alloc (getLen_pos len)

theorem takes_bitsDealloc (p len : Nat) :
    Takes (bitsDealloc p len) {(p, 4 * Words.getLen len)} (fun _ => True) (fun _ => 0) :=
  takes_dealloc 4 p _

theorem takes_bitsRealloc (p old new : Nat) :
    Takes (bitsRealloc p old new) {(p, 4 * Words.getLen old)} (fun _ => True) (fun q => {(q, 4 * Words.getLen new)}) := by
  unfold bitsRealloc
  split
  · rename_i he
    exact .pure _ trivial (by rw [he])
  · refine .seq (takes_alloc (getLen_pos new)) (zero_add _).symm fun q _ => ?_
    refine .seq (takes_dealloc 4 p _) (add_comm _ _) fun _ _ => ?_
    exact .pure _ trivial (by simp)

/-! Loops -/

/-- The blocks owned by the elements of a list. -/
def bagOf {α : Type} (f : α → Multiset Block) (l : List α) : Multiset Block := (l.map f).sum

@[simp] theorem bagOf_nil {α : Type} (f : α → Multiset Block) : bagOf f [] = 0 := rfl
@[simp] theorem bagOf_cons {α : Type} (f : α → Multiset Block) (a : α) (l : List α) : bagOf f (a :: l) = f a + bagOf f l := by
  simp [bagOf]
@[simp] theorem bagOf_append {α : Type} (f : α → Multiset Block) (l l' : List α) :
    bagOf f (l ++ l') = bagOf f l + bagOf f l' := by simp [bagOf]

theorem bagOf_insert {α : Type} (f : α → Multiset Block) (a : α) (i : Nat) (l : List α) :
    bagOf f (l.take i ++ a :: l.drop i) = f a + bagOf f l := by
  conv_rhs => rw [← List.take_append_drop i l]
  simp only [bagOf_append, bagOf_cons]
  abel

theorem length_take_drop {α : Type} (a : α) (i : Nat) (l : List α) : (l.take i ++ a :: l.drop i).length = l.length + 1 := by
  rw [List.length_append, List.length_cons, List.length_take, List.length_drop]
  omega

theorem bagOf_set {α : Type} (f : α → Multiset Block) {l : List α} {i : Nat} {old : α} (h : l[i]? = some old) (a : α) :
    bagOf f (l.set i a) + f old = f a + bagOf f l := by
  induction l generalizing i with
  | nil => simp at h
  | cons b l ih =>
    cases i with
    | zero =>
      simp only [List.getElem?_cons_zero, Option.some.injEq] at h
      subst h
      simp only [List.set_cons_zero, bagOf_cons]
      abel
    | succ i =>
      simp only [List.getElem?_cons_succ] at h
      simp only [List.set_cons_succ, bagOf_cons]
      rw [add_assoc, ih h]
      abel

theorem takes_forM {α : Type} {f : α → HeapM PUnit} {pre : α → Multiset Block}
    (h : ∀ a, Takes (f a) (pre a) (fun _ => True) (fun _ => 0)) (l : List α) :
    Takes (l.forM f) (bagOf pre l) (fun _ => True) (fun _ => 0) := by
  induction l with
  | nil => exact .pure _ trivial rfl
  | cons a l ih =>
    rw [List.forM_eq_forM, List.forM_cons]
    refine .seq (h a) (bagOf_cons _ _ _) fun _ _ => ?_
    exact ih.conseq (zero_add _) fun _ _ => ⟨trivial, rfl⟩

theorem takes_mapM {α β : Type} {f : α → HeapM β} {pre : α → Multiset Block} {post : β → Multiset Block}
    (h : ∀ a, Takes (f a) (pre a) (fun _ => True) post) (l : List α) :
    Takes (l.mapM f) (bagOf pre l) (fun l' => l'.length = l.length) (bagOf post) := by
  induction l with
  | nil => exact .pure _ rfl rfl
  | cons a l ih =>
    rw [List.mapM_cons]
    refine .seq (h a) (bagOf_cons _ _ _) fun b _ => ?_
    refine .seq ih (add_comm _ _) fun bs hbs => ?_
    exact .pure _ (by rw [List.length_cons, List.length_cons, hbs]) (by rw [bagOf_cons, add_comm])

/-! The containers -/

namespace EntsPtrs

def bag (c : EntsPtrs) : Multiset Block := {(c.versions, 4 * c.capacity)} + {(c.alive, 4 * Words.getLen c.capacity)}

theorem takes_new {cap : Nat} (h : 0 < cap) : Takes (new cap) 0 (fun c => c.capacity = cap) bag := by
  unfold new
  refine .seq (takes_alloc (by omega)) (zero_add 0).symm fun p _ => ?_
  refine .seq (takes_bitsAlloc cap) (by rw [add_zero, zero_add]) fun q _ => ?_
  exact .pure _ rfl (by unfold bag; abel)

theorem takes_create (c : EntsPtrs) (grows : Bool) (h : 0 < c.capacity) :
    Takes (c.create grows) c.bag (fun c' => c'.capacity = if grows then max c.capacity 1 * 2 else c.capacity) bag := by
  unfold create
  split
  · unfold grow
    split
    · omega
    · unfold bag
      refine .seq (takes_reallocZeroing (by omega)) rfl fun p _ => ?_
      refine .seq (takes_bitsRealloc _ _ _) (add_comm _ _) fun q _ => ?_
      exact .pure _ rfl (by abel)
  · exact .pure _ rfl rfl

theorem takes_drop (c : EntsPtrs) : Takes c.drop c.bag (fun _ => True) (fun _ => 0) := by
  unfold drop bag
  refine .seq (takes_bitsDealloc _ _) (add_comm _ _) fun _ _ => ?_
  exact (takes_dealloc _ _ _).conseq (zero_add _) fun _ _ => ⟨trivial, rfl⟩

end EntsPtrs

namespace ArchPtrs

def bag (a : ArchPtrs) : Multiset Block :=
  {(a.ids, typeIdSize * a.count)} + {(a.sizes, 8 * a.count)} + {(a.aligns, 8 * a.count)} + {(a.names, strSize * a.count)}

theorem takes_new {count : Nat} (h : 0 < count) : Takes (new count) 0 (fun a => a.count = count) bag := by
  unfold new
  refine .seq (takes_alloc (by unfold typeIdSize; omega)) (zero_add 0).symm fun p _ => ?_
  refine .seq (takes_alloc (by omega)) (zero_add _).symm fun q _ => ?_
  refine .seq (takes_alloc (by omega)) (zero_add _).symm fun r _ => ?_
  refine .seq (takes_alloc (by unfold strSize; omega)) (zero_add _).symm fun t _ => ?_
  exact .pure _ rfl (by unfold bag; abel)

theorem takes_drop (a : ArchPtrs) : Takes a.drop a.bag (fun _ => True) (fun _ => 0) := by
  unfold drop bag
  refine .seq (takes_dealloc _ _ _) (by rw [add_assoc, add_assoc]) fun _ _ => ?_
  refine .seq (takes_dealloc _ _ _) (zero_add _) fun _ _ => ?_
  refine .seq (takes_dealloc _ _ _) (zero_add _) fun _ _ => ?_
  exact (takes_dealloc _ _ _).conseq (zero_add _) fun _ _ => ⟨trivial, rfl⟩

end ArchPtrs

namespace LayoutPtr

def bag (l : LayoutPtr) : Multiset Block := {(l.offsets, 8 * l.count)}

theorem takes_new {count : Nat} (h : 0 < count) : Takes (new count true) 0 (fun l => l.count = count) bag := by
  unfold new
  refine .seq (takes_alloc (by omega)) (zero_add 0).symm fun p _ => ?_
  exact .pure _ rfl (by unfold bag; simp)

theorem takes_drop (l : LayoutPtr) : Takes l.drop l.bag (fun _ => True) (fun _ => 0) := takes_dealloc _ _ _

end LayoutPtr

def pageBag (p : Nat) : Multiset Block := {(p, 1 * 16384)}

theorem takes_pageNew : Takes pageNew 0 (fun _ => True) pageBag := takes_alloc (by omega)

theorem takes_pageDrop (p : Nat) : Takes (pageDrop p) (pageBag p) (fun _ => True) (fun _ => 0) := takes_dealloc _ _ _

namespace ArchsPtrs

def bag (c : ArchsPtrs) : Multiset Block :=
  bagOf ArchPtrs.bag c.archetypes + bagOf LayoutPtr.bag c.layouts + bagOf pageBag c.pages

/-- Counts and lengths. -/
def shape (c : ArchsPtrs) : List Nat × List Nat × Nat := (c.archetypes.map (·.count), c.layouts.map (·.count), c.pages.length)

theorem takes_new : Takes new 0 (fun c => c.shape = ([], [], 5)) bag := by
  unfold new
  refine .seq takes_pageNew (zero_add 0).symm fun p0 _ => ?_
  refine .seq takes_pageNew (zero_add _).symm fun p1 _ => ?_
  refine .seq takes_pageNew (zero_add _).symm fun p2 _ => ?_
  refine .seq takes_pageNew (zero_add _).symm fun p3 _ => ?_
  refine .seq takes_pageNew (zero_add _).symm fun p4 _ => ?_
  exact .pure _ rfl (by unfold bag; simp only [bagOf_nil, bagOf_cons]; abel)

/-- The counts after an archetype has been put into a slot, or at the end if there is no such slot. -/
def putCount (l : List Nat) (slot count : Nat) : List Nat := if slot < l.length then l.set slot count else l ++ [count]

theorem takes_reserve (c : ArchsPtrs) {count : Nat} (slot : Nat) (h : 0 < count) (hl : c.archetypes.length = c.layouts.length) :
    Takes (c.reserveArchetype count slot true) c.bag
      (fun c' => c'.shape = (putCount c.shape.1 slot count, putCount c.shape.2.1 slot count, c.shape.2.2)) bag := by
  unfold reserveArchetype
  refine .seq (LayoutPtr.takes_new h) (zero_add _).symm fun l hlc => ?_
  split
  · rename_i oldA oldL h1 h2
    refine .seq (ArchPtrs.takes_new h) (zero_add _).symm fun a hac => ?_
    have e1 := bagOf_set ArchPtrs.bag h1 a
    have e2 := bagOf_set LayoutPtr.bag h2 l
    refine .seq (R := bagOf ArchPtrs.bag (c.archetypes.set slot a) + (l.bag + bagOf LayoutPtr.bag c.layouts) + bagOf pageBag c.pages)
      oldA.takes_drop ?_ fun _ _ => ?_
    · have : a.bag + (l.bag + c.bag) = (a.bag + bagOf ArchPtrs.bag c.archetypes) + (l.bag + bagOf LayoutPtr.bag c.layouts) +
          bagOf pageBag c.pages := by unfold bag; abel
      rw [this, ← e1]
      abel
    · refine .seq (R := bagOf ArchPtrs.bag (c.archetypes.set slot a) + bagOf LayoutPtr.bag (c.layouts.set slot l) + bagOf pageBag c.pages)
        oldL.takes_drop ?_ fun _ _ => ?_
      · rw [← e2]; abel
      · have l1 : slot < c.archetypes.length := (List.getElem?_eq_some_iff.1 h1).1
        have l2 : slot < c.layouts.length := (List.getElem?_eq_some_iff.1 h2).1
        refine .pure _ ?_ (by unfold bag; abel)
        simp only [shape, putCount, List.length_map, l1, l2, if_true, List.map_set, hac, hlc]
  · rename_i hno
    have l1 : ¬ slot < c.archetypes.length := fun hlt =>
      hno _ _ (List.getElem?_eq_getElem hlt) (List.getElem?_eq_getElem (hl ▸ hlt))
    have l2 : ¬ slot < c.layouts.length := hl ▸ l1
    refine .seq (ArchPtrs.takes_new h) (zero_add _).symm fun a hac => ?_
    refine .pure _ ?_ (by unfold bag; simp only [bagOf_append, bagOf_cons, bagOf_nil]; abel)
    simp only [shape, putCount, List.length_map, l1, l2, if_false, List.map_append, List.map_cons, List.map_nil, hac, hlc]

theorem takes_newPage (c : ArchsPtrs) : Takes c.newPage c.bag (fun c' => c'.shape = (c.shape.1, c.shape.2.1, c.shape.2.2 + 1)) bag := by
  unfold newPage
  refine .seq takes_pageNew (zero_add _).symm fun p _ => ?_
  exact .pure _ (by simp [shape]) (by unfold bag; simp only [bagOf_append, bagOf_cons, bagOf_nil]; abel)

theorem takes_drop (c : ArchsPtrs) : Takes c.drop c.bag (fun _ => True) (fun _ => 0) := by
  unfold drop bag
  refine .seq (takes_forM ArchPtrs.takes_drop _) (add_assoc _ _ _) fun _ _ => ?_
  refine .seq (takes_forM LayoutPtr.takes_drop _) (zero_add _) fun _ _ => ?_
  exact (takes_forM takes_pageDrop _).conseq (zero_add _) fun _ _ => ⟨trivial, rfl⟩

end ArchsPtrs

namespace TagsPtrs

def bag (c : TagsPtrs) : Multiset Block := bagOf (fun p => {(p, 4 * Words.getLen c.capacity)}) c.bitvecs

theorem takes_newTag (c : TagsPtrs) (i : Nat) : Takes (c.newTag i) c.bag (fun c' => c'.capacity = c.capacity ∧ c'.bitvecs.length = c.bitvecs.length + 1) bag := by
  unfold newTag
  refine .seq (takes_bitsAlloc _) (zero_add _).symm fun p _ => ?_
  exact .pure _ ⟨rfl, length_take_drop _ _ _⟩ (by unfold bag; rw [bagOf_insert])

theorem takes_grow (c : TagsPtrs) (new : Nat) : Takes (c.grow new) c.bag (fun c' => c'.capacity = new ∧ c'.bitvecs.length = c.bitvecs.length) bag := by
  unfold grow
  refine .seq (takes_mapM (fun p => takes_bitsRealloc p c.capacity new) _) (add_zero _).symm fun ps hps => ?_
  exact .pure _ ⟨rfl, hps⟩ (by unfold bag; rw [add_zero])

theorem takes_drop (c : TagsPtrs) : Takes c.drop c.bag (fun _ => True) (fun _ => 0) :=
  takes_forM (fun p => takes_bitsDealloc p c.capacity) _

end TagsPtrs

namespace OrdersPtrs

def bag (c : OrdersPtrs) : Multiset Block := bagOf (fun p => {(p.1, 4 * c.capacity)} + {(p.2, 4 * c.capacity)}) c.links

theorem takes_newGroup (c : OrdersPtrs) (i : Nat) (h : 0 < c.capacity) :
    Takes (c.newGroup i) c.bag (fun c' => c'.capacity = c.capacity ∧ c'.links.length = c.links.length + 1) bag := by
  unfold newGroup
  refine .seq (takes_alloc (by omega)) (zero_add _).symm fun p _ => ?_
  refine .seq (takes_alloc (by omega)) (zero_add _).symm fun q _ => ?_
  refine .pure _ ⟨rfl, length_take_drop _ _ _⟩ ?_
  unfold bag
  rw [bagOf_insert]
  abel

theorem takes_grow (c : OrdersPtrs) {new : Nat} (h : 0 < new) : Takes (c.grow new) c.bag (fun c' => c'.capacity = new ∧ c'.links.length = c.links.length) bag := by
  unfold grow
  refine .seq (takes_mapM (post := fun p => {(p.1, 4 * new)} + {(p.2, 4 * new)}) (fun p => ?_) _) (add_zero _).symm fun ps hps => ?_
  · refine .seq (takes_realloc (by omega)) (add_comm _ _) fun p _ => ?_
    refine .seq (takes_realloc (by omega)) (add_comm _ _) fun q _ => ?_
    exact .pure _ trivial rfl
  · exact .pure _ ⟨rfl, hps⟩ (by unfold bag; rw [add_zero])

theorem takes_drop (c : OrdersPtrs) : Takes c.drop c.bag (fun _ => True) (fun _ => 0) := by
  refine takes_forM (fun p => ?_) _
  refine .seq (takes_dealloc _ _ _) (add_comm _ _) fun _ _ => ?_
  exact (takes_dealloc _ _ _).conseq (zero_add _) fun _ _ => ⟨trivial, rfl⟩

end OrdersPtrs

namespace StorePtrs

def bag (s : StorePtrs) : Multiset Block :=
  s.ents.bag + s.archs.bag + s.tags.bag + s.orders.bag + {(s.toPage, 4 * s.ents.capacity)} +
    {(s.toIndex, 4 * s.ents.capacity)} + {(s.hasArch, 4 * Words.getLen s.ents.capacity)}

/-- Capacities, counts and lengths. -/
structure Shape where
  capacity : Nat
  tags : Nat
  groups : Nat
  archetypes : List Nat
  layouts : List Nat
  pages : Nat

/-- The shape of a store's memory. -/
def shape (s : StorePtrs) : Shape :=
  ⟨s.ents.capacity, s.tags.bitvecs.length, s.orders.links.length, s.archs.shape.1, s.archs.shape.2.1, s.archs.shape.2.2⟩

/-- The capacities are in step. -/
structure Good (s : StorePtrs) : Prop where
  pos : 0 < s.ents.capacity
  tags : s.tags.capacity = s.ents.capacity
  orders : s.orders.capacity = s.ents.capacity
  slots : s.archs.archetypes.length = s.archs.layouts.length

/-- What the operations do to the shape. -/
def Shape.reserve (S : Shape) : Option (Nat × Nat × Bool) → Shape
  | some (count, slot, _) => { S with archetypes := ArchsPtrs.putCount S.archetypes slot count
                                      layouts := ArchsPtrs.putCount S.layouts slot count }
  | none => S

/-- What the operations that do not panic do to the shape. -/
def Shape.step (S : Shape) : HeapOp → Shape
  | .create grows => { S with capacity := if grows then max S.capacity 1 * 2 else S.capacity }
  | .place _ archetype page => { S.reserve archetype with pages := if page then S.pages + 1 else S.pages }
  | .tag _ => { S with tags := S.tags + 1 }
  | .group _ => { S with groups := S.groups + 1 }

theorem takes_withCapacity (dbg : Bool) {cap : Nat} (h : 0 < cap) :
    Takes (withCapacity dbg cap) 0 (fun s => s.Good ∧ s.shape = ⟨cap, 0, 0, [], [], 5⟩) bag := by
  unfold withCapacity
  rw [if_neg (by simp; omega)]
  refine .seq (EntsPtrs.takes_new h) (zero_add _).symm fun c hc => ?_
  refine .seq ArchsPtrs.takes_new (zero_add _).symm fun a ha => ?_
  refine .seq (takes_bitsAlloc _) (zero_add _).symm fun p _ => ?_
  refine .seq (takes_alloc (by omega)) (zero_add _).symm fun q _ => ?_
  refine .seq (takes_alloc (by omega)) (zero_add _).symm fun r _ => ?_
  refine .pure _ ⟨⟨by dsimp only; omega, hc.symm, hc.symm, ?_⟩, ?_⟩ ?_
  · have h1 := congrArg (fun x => x.1.length) ha
    have h2 := congrArg (fun x => x.2.1.length) ha
    simp only [ArchsPtrs.shape, List.length_map, List.length_nil] at h1 h2
    exact h1.trans h2.symm
  · unfold shape; dsimp only; rw [ha, hc]; rfl
  · unfold bag
    simp only [hc, TagsPtrs.bag, OrdersPtrs.bag, bagOf_nil]
    abel

theorem takes_create (s : StorePtrs) (grows : Bool) (h : s.Good) :
    Takes (s.create grows) s.bag (fun s' => s'.Good ∧ s'.shape = s.shape.step (.create grows)) bag := by
  unfold create
  dsimp only
  refine .seq (R := s.archs.bag + s.tags.bag + s.orders.bag + {(s.toPage, 4 * s.ents.capacity)} +
    {(s.toIndex, 4 * s.ents.capacity)} + {(s.hasArch, 4 * Words.getLen s.ents.capacity)})
    (s.ents.takes_create grows h.pos) (by unfold bag; abel) fun c hcc => ?_
  have hp := h.pos
  have hc : s.ents.capacity ≤ c.capacity := by rw [hcc]; split <;> omega
  have hsh : c.capacity = (s.shape.step (.create grows)).capacity := hcc
  split
  · rename_i he
    refine .pure _ ⟨⟨by dsimp only; omega, by rw [h.tags, he], by rw [h.orders, he], h.slots⟩, ?_⟩ ?_
    · show Shape.mk c.capacity _ _ _ _ _ = _
      rw [hsh]; rfl
    unfold bag
    dsimp only
    rw [he]
    abel
  · refine .seq (R := c.bag + s.archs.bag + s.tags.bag + s.orders.bag +
      {(s.toIndex, 4 * s.ents.capacity)} + {(s.hasArch, 4 * Words.getLen s.ents.capacity)})
      (takes_realloc (by omega)) (by abel) fun p _ => ?_
    refine .seq (R := c.bag + s.archs.bag + s.tags.bag + s.orders.bag + {(p, 4 * c.capacity)} +
      {(s.hasArch, 4 * Words.getLen s.ents.capacity)})
      (takes_realloc (by omega)) (by abel) fun q _ => ?_
    refine .seq (R := c.bag + s.archs.bag + s.tags.bag + s.orders.bag + {(p, 4 * c.capacity)} + {(q, 4 * c.capacity)})
      (takes_bitsRealloc _ _ _) (by abel) fun r _ => ?_
    refine .seq (R := c.bag + s.archs.bag + s.orders.bag + {(p, 4 * c.capacity)} + {(q, 4 * c.capacity)} +
      {(r, 4 * Words.getLen c.capacity)}) (s.tags.takes_grow _) (by abel) fun t ht => ?_
    refine .seq (R := c.bag + s.archs.bag + t.bag + {(p, 4 * c.capacity)} + {(q, 4 * c.capacity)} +
      {(r, 4 * Words.getLen c.capacity)}) (s.orders.takes_grow (by omega)) (by abel) fun o ho => ?_
    refine .pure _ ⟨⟨by dsimp only; omega, ht.1, ho.1, h.slots⟩, ?_⟩ ?_
    · show Shape.mk c.capacity t.bitvecs.length o.links.length _ _ _ = _
      rw [hsh, ht.2, ho.2]; rfl
    unfold bag
    abel

/-- The archetypes an operation makes have components and fit into a page. -/
def OpOk : HeapOp → Prop
  | .place temporary archetype _ =>
    (∀ n, temporary = some n → 0 < n) ∧ ∀ count slot fits, archetype = some (count, slot, fits) → 0 < count ∧ fits = true
  | _ => True

theorem takes_place (s : StorePtrs) (temporary : Option Nat) (archetype : Option (Nat × Nat × Bool)) (page : Bool)
    (ha : ∀ count slot fits, archetype = some (count, slot, fits) → 0 < count ∧ fits = true) (h : s.Good) :
    Takes (s.place archetype page) s.bag (fun s' => s'.Good ∧ s'.shape = s.shape.step (.place temporary archetype page)) bag := by
  have key : ∀ c : ArchsPtrs, c.archetypes.length = c.layouts.length →
      c.shape = ((s.shape.reserve archetype).archetypes, (s.shape.reserve archetype).layouts, s.shape.pages) → Takes (do
      let archs ← if page then c.newPage else pure c
      return { s with archs := archs }) (c.bag + (s.ents.bag + s.tags.bag + s.orders.bag + {(s.toPage, 4 * s.ents.capacity)} +
    {(s.toIndex, 4 * s.ents.capacity)} + {(s.hasArch, 4 * Words.getLen s.ents.capacity)}))
      (fun s' => s'.Good ∧ s'.shape = s.shape.step (.place temporary archetype page)) bag := by
    intro c hc hs
    have hr : ∀ S : Shape, (S.reserve archetype).capacity = S.capacity ∧ (S.reserve archetype).tags = S.tags ∧
        (S.reserve archetype).groups = S.groups := by
      intro S
      cases archetype <;> exact ⟨rfl, rfl, rfl⟩
    obtain ⟨r1, r2, r3⟩ := hr s.shape
    cases page with
    | true =>
      refine .seq c.takes_newPage rfl fun c' hc' => ?_
      have e1 : c'.archetypes.map (·.count) = c.archetypes.map (·.count) := congrArg (·.1) hc'
      have e2 : c'.layouts.map (·.count) = c.layouts.map (·.count) := congrArg (·.2.1) hc'
      refine .pure _ ⟨⟨h.pos, h.tags, h.orders, ?_⟩, ?_⟩ (by unfold bag; abel)
      · have e3 := congrArg List.length e1
        have e4 := congrArg List.length e2
        simp only [List.length_map] at e3 e4
        show c'.archetypes.length = c'.layouts.length
        omega
      · show Shape.mk s.ents.capacity _ _ c'.shape.1 c'.shape.2.1 c'.shape.2.2 = _
        rw [hc', hs]
        unfold Shape.step
        dsimp only
        rw [r1, r2, r3]; rfl
    | false =>
      refine .pure _ ⟨⟨h.pos, h.tags, h.orders, hc⟩, ?_⟩ (by unfold bag; abel)
      show Shape.mk s.ents.capacity _ _ c.shape.1 c.shape.2.1 c.shape.2.2 = _
      rw [hs]
      unfold Shape.step
      dsimp only
      rw [r1, r2, r3]; rfl
  unfold place
  match archetype, ha with
  | some (count, slot, fits), ha =>
    obtain ⟨h1, h2⟩ := ha count slot fits rfl
    subst h2
    have hp : s.bag = s.archs.bag + (s.ents.bag + s.tags.bag + s.orders.bag + {(s.toPage, 4 * s.ents.capacity)} +
      {(s.toIndex, 4 * s.ents.capacity)} + {(s.hasArch, 4 * Words.getLen s.ents.capacity)}) := by unfold bag; abel
    refine .seq (s.archs.takes_reserve slot h1 h.slots) hp fun c hc => key c ?_ hc
    have e1 := congrArg (fun x => x.1.length) hc
    have e2 := congrArg (fun x => x.2.1.length) hc
    have hs := h.slots
    simp only [ArchsPtrs.shape, ArchsPtrs.putCount, List.length_map] at e1 e2
    rw [e1, e2, ← hs]
    split <;> simp [hs]
  | none, ha => exact (key s.archs h.slots rfl).conseq (by unfold bag; abel) fun _ hq => ⟨hq, rfl⟩

/-- A computation that returns is not affected by a handler. -/
theorem takes_tryCatch {α : Type} {m : HeapM α} {k : Fault → HeapM α} {pre : Multiset Block} {Q : α → Prop} {post : α → Multiset Block}
    (h : Takes m pre Q post) : Takes (MonadExcept.tryCatch m k) pre Q post := by
  intro H F hH
  obtain ⟨a, H', e, q, b⟩ := h H F hH
  refine ⟨a, H', ?_, q, b⟩
  show EStateM.tryCatch m k H = _
  unfold EStateM.tryCatch
  rw [e]

theorem takes_step (s : StorePtrs) (op : HeapOp) (ho : OpOk op) (h : s.Good) :
    Takes (s.step op) s.bag (fun s' => s'.Good ∧ s'.shape = s.shape.step op) bag := by
  cases op with
  | create grows => exact s.takes_create grows h
  | place temporary archetype page =>
    cases temporary with
    | none => exact s.takes_place none archetype page ho.2 h
    | some n =>
      unfold step
      refine .seq (ArchPtrs.takes_new (ho.1 n rfl)) (zero_add _).symm fun a _ => ?_
      refine .seq (takes_tryCatch (s.takes_place (some n) archetype page ho.2 h)) (add_comm _ _) fun s' hs => ?_
      refine .seq a.takes_drop (add_comm _ _) fun _ _ => ?_
      exact .pure _ hs (zero_add _).symm
  | tag i =>
    unfold step
    refine .seq (R := s.ents.bag + s.archs.bag + s.orders.bag + {(s.toPage, 4 * s.ents.capacity)} +
      {(s.toIndex, 4 * s.ents.capacity)} + {(s.hasArch, 4 * Words.getLen s.ents.capacity)})
      (s.tags.takes_newTag i) (by unfold bag; abel) fun c hc => ?_
    refine .pure _ ⟨⟨h.pos, hc.1.trans h.tags, h.orders, h.slots⟩, ?_⟩ (by unfold bag; abel)
    show Shape.mk _ c.bitvecs.length _ _ _ _ = _
    rw [hc.2]; rfl
  | group i =>
    unfold step
    refine .seq (R := s.ents.bag + s.archs.bag + s.tags.bag + {(s.toPage, 4 * s.ents.capacity)} +
      {(s.toIndex, 4 * s.ents.capacity)} + {(s.hasArch, 4 * Words.getLen s.ents.capacity)})
      (s.orders.takes_newGroup i (by rw [h.orders]; exact h.pos)) (by unfold bag; abel) fun c hc => ?_
    refine .pure _ ⟨⟨h.pos, h.tags, hc.1.trans h.orders, h.slots⟩, ?_⟩ (by unfold bag; abel)
    show Shape.mk _ _ c.links.length _ _ _ = _
    rw [hc.2]; rfl

theorem takes_drop (s : StorePtrs) : Takes s.drop s.bag (fun _ => True) (fun _ => 0) := by
  unfold drop
  refine .seq (R := s.ents.bag + s.archs.bag + s.tags.bag + s.orders.bag + {(s.toPage, 4 * s.ents.capacity)} +
    {(s.hasArch, 4 * Words.getLen s.ents.capacity)}) (takes_dealloc _ _ _) (by unfold bag; abel) fun _ _ => ?_
  refine .seq (R := s.ents.bag + s.archs.bag + s.tags.bag + s.orders.bag +
    {(s.hasArch, 4 * Words.getLen s.ents.capacity)}) (takes_dealloc _ _ _) (by abel) fun _ _ => ?_
  refine .seq (R := s.ents.bag + s.archs.bag + s.tags.bag + s.orders.bag) (takes_bitsDealloc _ _) (by abel) fun _ _ => ?_
  refine .seq (R := s.archs.bag + s.tags.bag + s.orders.bag) s.ents.takes_drop (by abel) fun _ _ => ?_
  refine .seq (R := s.tags.bag + s.orders.bag) s.archs.takes_drop (by abel) fun _ _ => ?_
  refine .seq (R := s.orders.bag) s.tags.takes_drop (by abel) fun _ _ => ?_
  exact s.orders.takes_drop.conseq (by abel) fun _ _ => ⟨trivial, rfl⟩

/-- The archetypes an operation makes have components. -/
def OpFair : HeapOp → Prop
  | .place temporary archetype _ =>
    (∀ n, temporary = some n → 0 < n) ∧ ∀ count slot fits, archetype = some (count, slot, fits) → 0 < count
  | _ => True

/-- The size of the block that an operation leaves behind for ever. -/
def leak : HeapOp → List Nat
  | .place _ (some (count, _, false)) _ => [8 * count]
  | _ => []

/-- What an operation of a program that catches panics does to the shape. -/
def Shape.caught (S : Shape) (op : HeapOp) : Shape := if leak op = [] then S.step op else S

theorem bind_ok {α β : Type} {m : HeapM α} {f : α → HeapM β} {H H' : Heap} {a : α} (h : m H = .ok a H') : (m >>= f) H = f a H' := by
  show EStateM.bind m f H = _
  unfold EStateM.bind
  rw [h]

theorem bind_error {α β : Type} {m : HeapM α} {f : α → HeapM β} {H H' : Heap} {e : Fault} (h : m H = .error e H') :
    (m >>= f) H = .error e H' := by
  show EStateM.bind m f H = _
  unfold EStateM.bind
  rw [h]

theorem tryCatch_error {α : Type} {m : HeapM α} {k : Fault → HeapM α} {H H' : Heap} {e : Fault} (h : m H = .error e H') :
    (MonadExcept.tryCatch m k : HeapM α) H = k e H' := by
  show EStateM.tryCatch m k H = _
  unfold EStateM.tryCatch
  rw [h]
  rfl

theorem place_panics (s : StorePtrs) (count slot : Nat) (page : Bool) (hc : 0 < count) (H : Heap) :
    s.place (some (count, slot, false)) page H =
      .error (.panic .assertFailed) ⟨H.next + 1, (H.next, 8 * count) :: H.blocks, (8, count) :: H.asked⟩ := by
  have h1 : LayoutPtr.new count false H = .error (.panic .assertFailed) ⟨H.next + 1, (H.next, 8 * count) :: H.blocks, (8, count) :: H.asked⟩ := by
    have h0 : alloc 8 count H = .ok H.next ⟨H.next + 1, (H.next, 8 * count) :: H.blocks, (8, count) :: H.asked⟩ := by
      unfold alloc
      rw [if_neg (by omega)]
    exact bind_ok h0
  exact bind_error (bind_error h1)

theorem caught_spec (s : StorePtrs) (op : HeapOp) (ho : OpFair op) (h : s.Good) (H : Heap) (F : Multiset Block)
    (hH : H.bag = s.bag + F) : ∃ s' H' L, s.caught op H = .ok s' H' ∧ s'.Good ∧ s'.shape = s.shape.caught op ∧
      H'.bag = s'.bag + (((L : List Block) : Multiset Block) + F) ∧ L.map (·.2) = leak op := by
  by_cases hl : leak op = []
  · have hok : OpOk op := by
      cases op with
      | place temporary archetype page =>
        refine ⟨ho.1, fun count slot fits he => ⟨ho.2 count slot fits he, ?_⟩⟩
        subst he
        cases fits with
        | true => rfl
        | false => cases hl
      | _ => trivial
    obtain ⟨s', H', e, q, b⟩ := takes_tryCatch (k := fun
      | .panic _ => return s
      | f => throw f) (s.takes_step op hok h) H F hH
    refine ⟨s', H', [], e, q.1, ?_, ?_, hl.symm⟩
    · unfold Shape.caught; rw [if_pos hl]; exact q.2
    · rw [b]; simp
  · match op, ho with
    | .place temporary (some (count, slot, false)) page, ho =>
      have hc := ho.2 count slot false rfl
      have hsh : s.shape.caught (.place temporary (some (count, slot, false)) page) = s.shape := if_neg hl
      cases temporary with
      | none =>
        refine ⟨s, ⟨H.next + 1, (H.next, 8 * count) :: H.blocks, (8, count) :: H.asked⟩, [(H.next, 8 * count)], ?_, h, hsh.symm, ?_, rfl⟩
        · exact tryCatch_error (place_panics s count slot page hc H)
        · show ((_ :: H.blocks : List Block) : Multiset Block) = _
          rw [← Multiset.cons_coe, ← Multiset.singleton_add]
          unfold Heap.bag at hH
          rw [hH, Multiset.coe_singleton]
          abel
      | some n =>
        obtain ⟨a, H1, e1, -, b1⟩ := (ArchPtrs.takes_new (ho.1 n rfl)) H (s.bag + F) (by rw [hH, zero_add])
        obtain ⟨_, H2, e2, -, b2⟩ := a.takes_drop ⟨H1.next + 1, (H1.next, 8 * count) :: H1.blocks, (8, count) :: H1.asked⟩
          ({(H1.next, 8 * count)} + (s.bag + F)) (by
            show ((_ :: H1.blocks : List Block) : Multiset Block) = _
            rw [← Multiset.cons_coe, ← Multiset.singleton_add]
            unfold Heap.bag at b1
            rw [b1]
            abel)
        refine ⟨s, H2, [(H1.next, 8 * count)], ?_, h, hsh.symm, ?_, rfl⟩
        · have e3 : s.step (.place (some n) (some (count, slot, false)) page) H = .error (.panic .assertFailed) H2 := by
            refine (bind_ok e1).trans (bind_error ?_)
            refine (tryCatch_error (place_panics s count slot page hc H1)).trans ?_
            exact bind_ok e2
          exact tryCatch_error e3
        · rw [b2, Multiset.coe_singleton, zero_add]
          abel
    | .create _, _ | .tag _, _ | .group _, _ | .place _ none _, _ | .place _ (some (_, _, true)) _, _ => exact absurd rfl hl

theorem caughts_spec (ops : List HeapOp) (ho : ∀ op ∈ ops, OpFair op) (s : StorePtrs) (h : s.Good) (H : Heap) (F : Multiset Block)
    (hH : H.bag = s.bag + F) : ∃ s' H' L, ops.foldlM caught s H = .ok s' H' ∧ s'.Good ∧ s'.shape = ops.foldl Shape.caught s.shape ∧
      H'.bag = s'.bag + (((L : List Block) : Multiset Block) + F) ∧ (L.map (·.2)).Perm (ops.flatMap leak) := by
  induction ops generalizing s H F with
  | nil => exact ⟨s, H, [], rfl, h, rfl, by rw [hH]; simp, .nil⟩
  | cons op ops ih =>
    obtain ⟨s1, H1, L1, e1, g1, sh1, b1, l1⟩ := s.caught_spec op (ho op (by simp)) h H F hH
    obtain ⟨s2, H2, L2, e2, g2, sh2, b2, l2⟩ := ih (fun op hop => ho op (by simp [hop])) s1 g1 H1 _ b1
    refine ⟨s2, H2, L1 ++ L2, ?_, g2, ?_, ?_, ?_⟩
    · rw [List.foldlM_cons]
      show EStateM.bind _ _ H = _
      unfold EStateM.bind
      rw [e1]
      exact e2
    · rw [sh2, sh1]; rfl
    · rw [b2, ← Multiset.coe_add]; abel
    · rw [List.map_append, l1, List.flatMap_cons]
      exact .append_left _ l2

/-- The life of a store up to its drop, and the drop. -/
theorem life_spec (dbg : Bool) {cap : Nat} (h : 0 < cap) (ops : List HeapOp) (ho : ∀ op ∈ ops, OpFair op) (H : Heap) :
    ∃ s0 H0 s H1 H2 L, withCapacity dbg cap H = .ok s0 H0 ∧ ops.foldlM caught s0 H0 = .ok s H1 ∧ s.Good ∧
      s.shape = ops.foldl Shape.caught ⟨cap, 0, 0, [], [], 5⟩ ∧ s.drop H1 = .ok () H2 ∧
      life dbg cap ops H = .ok () H2 ∧ H2.blocks.Perm (L ++ H.blocks) ∧ (L.map (·.2)).Perm (ops.flatMap leak) ∧
      H1.bag = s.bag + (↑L + H.bag) := by
  obtain ⟨s0, H0, e0, ⟨g0, sh0⟩, b0⟩ := takes_withCapacity dbg h H H.bag (by simp)
  obtain ⟨s, H1, L, e1, g1, sh1, b1, l1⟩ := caughts_spec ops ho s0 g0 H0 _ b0
  obtain ⟨_, H2, e2, -, b2⟩ := s.takes_drop H1 _ b1
  refine ⟨s0, H0, s, H1, H2, L, e0, e1, g1, by rw [sh1, sh0], e2, ?_, ?_, l1, b1⟩
  · show EStateM.bind _ _ H = _
    unfold EStateM.bind
    rw [e0]
    show EStateM.bind _ _ H0 = _
    unfold EStateM.bind
    rw [e1]
    exact e2
  · rw [zero_add] at b2
    unfold Heap.bag at b2
    rw [Multiset.coe_add] at b2
    exact Multiset.coe_eq_coe.1 b2

end StorePtrs

namespace ResPtrs

def bag (r : ResPtrs) : Multiset Block := {(r.elements, r.size * r.ents.capacity)} + r.ents.bag

/-- A resource store of a type of `size` bytes with at least the capacity `cap`. -/
structure Good (size cap : Nat) (r : ResPtrs) : Prop where
  le : cap ≤ r.ents.capacity
  size : r.size = size

variable {size cap : Nat} (hs : 0 < size) (hcap : 0 < cap)
include hs hcap

theorem takes_withCapacity : Takes (withCapacity size cap) 0 (Good size cap) bag := by
  unfold withCapacity
  refine .seq (takes_alloc (Nat.mul_pos hs hcap)) (zero_add _).symm fun p _ => ?_
  refine .seq (EntsPtrs.takes_new hcap) (zero_add _).symm fun c hc => ?_
  refine .pure _ ⟨by dsimp only; omega, rfl⟩ ?_
  unfold bag
  dsimp only
  rw [hc]
  abel

theorem takes_create (r : ResPtrs) (grows : Bool) (h : Good size cap r) :
    Takes (r.create grows) r.bag (Good size cap) bag := by
  unfold create
  dsimp only
  have hp := h.le
  refine .seq (R := {(r.elements, r.size * r.ents.capacity)}) (r.ents.takes_create grows (by omega)) (by unfold bag; abel) fun c hcc => ?_
  have hc : r.ents.capacity ≤ c.capacity := by rw [hcc]; split <;> omega
  split
  · rename_i he
    refine .pure _ ⟨by dsimp only; omega, h.size⟩ ?_
    unfold bag
    dsimp only
    rw [he]
    abel
  · refine .seq (R := c.bag) (takes_realloc (Nat.mul_pos (by rw [h.size]; exact hs) (by omega))) (by abel) fun p _ => ?_
    exact .pure _ ⟨by dsimp only; omega, h.size⟩ (by unfold bag; abel)

theorem takes_creates (ops : List Bool) (r : ResPtrs) (h : Good size cap r) :
    Takes (ops.foldlM create r) r.bag (Good size cap) bag := by
  induction ops generalizing r with
  | nil => exact .pure _ h rfl
  | cons op ops ih =>
    rw [List.foldlM_cons]
    refine .seq (r.takes_create hs hcap op h) (add_zero _).symm fun r' hr => ?_
    rw [add_zero]
    exact ih r' hr

/-- All of the life but the drop. -/
theorem takes_use (ops : List Bool) :
    Takes (withCapacity size cap >>= fun r => ops.foldlM create r) 0 (Good size cap) bag :=
  .seq (takes_withCapacity hs hcap) (zero_add _).symm fun r hr => by
    rw [add_zero]
    exact takes_creates hs hcap ops r hr

omit hs hcap

theorem takes_drop (r : ResPtrs) : Takes r.drop r.bag (fun _ => True) (fun _ => {(r.elements, r.size * r.ents.capacity)}) := by
  unfold drop bag
  exact (r.ents.takes_drop.frame {(r.elements, r.size * r.ents.capacity)}).conseq (add_comm _ _) fun _ _ => ⟨trivial, zero_add _⟩

end ResPtrs

end Ecs
