import Verif.Model.Orders
import Verif.Spec.Sequence
import Verif.Proofs.Search
import Verif.Proofs.Basic

namespace Ecs
open Spec

/-! ### Lists -/

theorem follower_not_mem {l : List Nat} {x : Nat} (h : x ∉ l) : follower l x = none := by
  induction l with
  | nil => rfl
  | cons a l ih =>
    simp only [List.mem_cons, not_or] at h
    unfold follower
    rw [if_neg h.1, ih h.2]

theorem follower_append (p q : List Nat) (x : Nat) :
    follower (p ++ q) x = if x ∈ p then (follower p x).or q.head? else follower q x := by
  induction p with
  | nil => simp
  | cons a p ih =>
    simp only [List.cons_append, follower]
    by_cases hx : x = a
    · subst hx
      simp [List.head?_append]
    · rw [if_neg hx, if_neg hx, ih]
      simp [hx]

theorem follower_getLast {A : List Nat} {y : Nat} (hA : A.Nodup) (hy : y ∈ A) :
    follower A y = none ↔ A.getLast? = some y := by
  induction A with
  | nil => simp at hy
  | cons a A ih =>
    rw [List.nodup_cons] at hA
    unfold follower
    by_cases h : y = a
    · subst h
      cases A with
      | nil => simp
      | cons b A =>
        simp only [if_true, List.head?_cons, reduceCtorEq, false_iff, List.getLast?_cons_cons]
        intro hl
        exact hA.1 (List.mem_of_getLast? hl)
    · rw [if_neg h]
      simp only [List.mem_cons, h, false_or] at hy
      rw [ih hA.2 hy]
      cases A with
      | nil => simp at hy
      | cons b A => rw [List.getLast?_cons_cons]

/-- Inserting `e` between `A` and `B`. -/
theorem follower_insert {A B : List Nat} {e : Nat} (hn : (A ++ B).Nodup) (he : e ∉ A ++ B) (y : Nat) :
    follower (A ++ e :: B) y =
      if y = e then B.head? else if A.getLast? = some y then some e else follower (A ++ B) y := by
  rw [List.mem_append, not_or] at he
  obtain ⟨hA, hB, hd⟩ := List.nodup_append.1 hn
  rw [follower_append, follower_append]
  by_cases hy : y = e
  · subst hy
    rw [if_neg he.1, if_pos rfl]; simp [follower]
  · rw [if_neg hy]
    by_cases hyA : y ∈ A
    · rw [if_pos hyA, if_pos hyA]
      by_cases hl : A.getLast? = some y
      · rw [if_pos hl, (follower_getLast hA hyA).2 hl]; simp
      · rw [if_neg hl]
        have : follower A y ≠ none := fun h => hl ((follower_getLast hA hyA).1 h)
        cases hf : follower A y with
        | none => exact absurd hf this
        | some z => simp
    · rw [if_neg hyA, if_neg hyA]
      have hl : A.getLast? ≠ some y := fun h => hyA (List.mem_of_getLast? h)
      rw [if_neg hl]
      simp [follower, hy]

theorem preceder_insert {A B : List Nat} {e : Nat} (hn : (A ++ B).Nodup) (he : e ∉ A ++ B) (y : Nat) :
    preceder (A ++ e :: B) y =
      if y = e then A.getLast? else if B.head? = some y then some e else preceder (A ++ B) y := by
  unfold preceder
  have h1 : (A ++ e :: B).reverse = B.reverse ++ e :: A.reverse := by simp
  have h2 : (A ++ B).reverse = B.reverse ++ A.reverse := by simp
  have h3 : (B.reverse ++ A.reverse).Nodup := by rw [← h2]; exact List.nodup_reverse.2 hn
  have h4 : e ∉ B.reverse ++ A.reverse := by rw [← h2, List.mem_reverse]; exact he
  rw [h1, h2, follower_insert h3 h4]
  simp

theorem preceder_not_mem {l : List Nat} {x : Nat} (h : x ∉ l) : preceder l x = none :=
  follower_not_mem (by simpa using h)

theorem mem_of_follower {l : List Nat} {x y : Nat} (h : follower l x = some y) : y ∈ l := by
  induction l with
  | nil => simp [follower] at h
  | cons a l ih =>
    unfold follower at h
    split at h
    · exact List.mem_cons_of_mem _ (List.mem_of_mem_head? h)
    · exact List.mem_cons_of_mem _ (ih h)

theorem mem_of_preceder {l : List Nat} {x y : Nat} (h : preceder l x = some y) : y ∈ l := by
  have := mem_of_follower h
  simpa using this

theorem insertAfter_split {l : List Nat} {x y : Nat} (hx : x ∈ l) :
    ∃ A B, l = A ++ B ∧ A.getLast? = some x ∧ insertAfter x y l = A ++ y :: B := by
  induction l with
  | nil => simp at hx
  | cons a l ih =>
    unfold insertAfter
    by_cases h : a = x
    · subst h
      exact ⟨[a], l, rfl, rfl, by simp⟩
    · have : x ∈ l := by
        rcases List.mem_cons.1 hx with rfl | h'
        · exact absurd rfl h
        · exact h'
      obtain ⟨A, B, h1, h2, h3⟩ := ih this
      refine ⟨a :: A, B, by simp [h1], ?_, by simp [h, h3]⟩
      cases A with
      | nil => simp at h2
      | cons b A => rw [List.getLast?_cons_cons]; exact h2

theorem insertBefore_split {l : List Nat} {x y : Nat} (hx : x ∈ l) :
    ∃ A B, l = A ++ B ∧ B.head? = some x ∧ insertBefore x y l = A ++ y :: B := by
  induction l with
  | nil => simp at hx
  | cons a l ih =>
    unfold insertBefore
    by_cases h : a = x
    · subst h
      exact ⟨[], a :: l, rfl, rfl, by simp⟩
    · have : x ∈ l := by
        rcases List.mem_cons.1 hx with rfl | h'
        · exact absurd rfl h
        · exact h'
      obtain ⟨A, B, h1, h2, h3⟩ := ih this
      exact ⟨a :: A, B, by simp [h1], h2, by simp [h, h3]⟩

theorem nodup_middle {A B : List Nat} {e : Nat} : (A ++ e :: B).Nodup ↔ (A ++ B).Nodup ∧ e ∉ A ++ B := by
  rw [List.perm_middle.nodup_iff, List.nodup_cons, and_comm]

/-! ### Link arrays -/

/-- The raw buffer `a` has `cap` elements, element `x` being `f x`. -/
def Links (cap : Nat) (a : Raw Nat) (f : Nat → Nat) : Prop :=
  a.length = cap ∧ ∀ x < cap, a[x]? = some (some (f x))

namespace Links
variable {cap : Nat} {a : Raw Nat} {f : Nat → Nat}

theorem read (h : Links cap a f) {x : Nat} (hx : x < cap) : Raw.read a x = .ok (f x) :=
  Raw.read_of_some (h.2 x hx)

theorem write (h : Links cap a f) {i : Nat} (hi : i < cap) (v : Nat) :
    ∃ a', Raw.write a i v = .ok a' ∧ Links cap a' (fun x => if x = i then v else f x) := by
  refine ⟨_, Raw.write_of_lt v (by rw [h.1]; exact hi), by simp [h.1], fun x hx => ?_⟩
  rw [List.getElem?_set]
  by_cases hxi : i = x
  · subst hxi; simp [h.1, hi]
  · rw [if_neg hxi, h.2 x hx]
    simp only [if_neg (fun e : x = i => hxi e.symm)]

theorem congr (h : Links cap a f) {f' : Nat → Nat} (hf : ∀ x < cap, f x = f' x) : Links cap a f' :=
  ⟨h.1, fun x hx => by rw [h.2 x hx, hf x hx]⟩

theorem grow (h : Links cap a f) {n : Nat} (hn : cap ≤ n) (hf : ∀ x, cap ≤ x → f x = NULL_ID) :
    ∃ a', Group.growLinks a cap n = .ok a' ∧ Links n a' f := by
  refine ⟨a ++ List.replicate (n - cap) (some NULL_ID), ?_, ?_, fun x hx => ?_⟩
  · unfold Group.growLinks
    rw [Raw.realloc_of h.1 hn]
    simp [h.1]
  · simp [h.1]; omega
  · rw [List.getElem?_append, h.1]
    by_cases hxc : x < cap
    · rw [if_pos hxc, h.2 x hxc]
    · rw [if_neg hxc, List.getElem?_replicate, if_pos (by omega), hf x (by omega)]

end Links

/-! ### One group -/

namespace Group

/-- The links of `g` (allocated for ids below `cap`) represent the sequence `l`. -/
structure Rep (cap : Nat) (g : Group) (l : List Nat) : Prop where
  nodup : l.Nodup
  lt : ∀ x ∈ l, x < cap ∧ x ≠ NULL_ID
  fwd : Links cap g.fwd (fun x => (follower l x).getD NULL_ID)
  bwd : Links cap g.bwd (fun x => (preceder l x).getD NULL_ID)
  head : g.head = l.head?.getD NULL_ID
  tail : g.tail = l.getLast?.getD NULL_ID

variable {cap : Nat} {g : Group} {l : List Nat}

theorem Rep.new (cap : Nat) : Rep cap (Group.new cap) [] where
  nodup := List.nodup_nil
  lt := by simp
  fwd := ⟨by simp [Group.new, allocLinks], by
    intro x hx; simp [Group.new, allocLinks, List.getElem?_replicate, hx, follower]⟩
  bwd := ⟨by simp [Group.new, allocLinks], by
    intro x hx; simp [Group.new, allocLinks, List.getElem?_replicate, hx, preceder, follower]⟩
  head := rfl
  tail := rfl

theorem Rep.null (h : Rep cap g l) {o : Option Nat} (ho : ∀ x, o = some x → x ∈ l) :
    o.getD NULL_ID = NULL_ID ↔ o = none := by
  cases o with
  | none => simp
  | some x => simp [(h.lt x (ho x rfl)).2]

theorem assertNoOrder_ok (dbg : Bool) : assertEntityHasNoOrder dbg NULL_ID NULL_ID = .ok () := by
  cases dbg <;> rfl

theorem Rep.add (h : Rep cap g l) (dbg : Bool) {e : Nat} (he : e < cap) (hn : e ≠ NULL_ID) (hl : e ∉ l) :
    ∃ g', g.add dbg e = .ok g' ∧ Rep cap g' (l ++ [e]) := by
  unfold Group.add
  rcases List.eq_nil_or_concat l with rfl | ⟨l0, t, rfl⟩
  · have hh : g.head = NULL_ID := h.head
    rw [if_pos hh]
    refine ⟨_, rfl, by simp, by simp [he, hn], ?_, ?_, rfl, rfl⟩
    · refine h.fwd.congr fun x hx => ?_
      simp [follower]
    · refine h.bwd.congr fun x hx => ?_
      simp [preceder, follower]
  · have ht : t ∈ l0.concat t := by simp
    have htl : (l0.concat t).getLast? = some t := by simp
    have hh : g.head ≠ NULL_ID := by
      rw [h.head, Ne, h.null (fun x hx => List.mem_of_mem_head? hx)]
      cases l0 <;> simp
    rw [if_neg hh, h.fwd.read he, h.bwd.read he, follower_not_mem hl, preceder_not_mem hl]
    simp only [Option.getD_none, ok_bind, assertNoOrder_ok]
    have htail : g.tail = t := by rw [h.tail, htl]; rfl
    rw [htail]
    obtain ⟨f', hf1, hf2⟩ := h.fwd.write (h.lt t ht).1 e
    obtain ⟨b', hb1, hb2⟩ := h.bwd.write he t
    rw [hf1, hb1]
    have hn' : (l0.concat t ++ []).Nodup := by simpa using h.nodup
    have he' : e ∉ l0.concat t ++ [] := by simpa using hl
    refine ⟨_, rfl, nodup_middle.2 ⟨hn', he'⟩, ?_, ?_, ?_, ?_, ?_⟩
    · intro x hx
      rcases List.mem_append.1 hx with hx | hx
      · exact h.lt x hx
      · rw [List.mem_singleton.1 hx]; exact ⟨he, hn⟩
    · refine hf2.congr fun x hx => ?_
      rw [follower_insert hn' he' x, List.append_nil]
      by_cases hx1 : x = e
      · subst hx1
        have : x ≠ t := fun h' => hl (h' ▸ ht)
        rw [if_neg this, if_pos rfl, follower_not_mem hl]; rfl
      · rw [if_neg hx1, htl]
        by_cases hx2 : x = t
        · subst hx2; simp
        · rw [if_neg hx2, if_neg (by simpa using fun h' : t = x => hx2 h'.symm)]
    · refine hb2.congr fun x hx => ?_
      rw [preceder_insert hn' he' x, List.append_nil, htl]
      by_cases hx1 : x = e <;> simp [hx1]
    · show g.head = _
      rw [h.head]; cases l0 <;> simp
    · show e = _
      simp

/-- Adding a member of a sequence of at least two elements trips the debug assertion. -/
theorem Rep.links_of_mem (h : Rep cap g l) {e : Nat} (he : e ∈ l) (h2 : l ≠ [e]) (f b : Nat)
    (hf : f = (follower l e).getD NULL_ID) (hb : b = (preceder l e).getD NULL_ID) :
    assertEntityHasNoOrder true f b = .error (.panic .debugAssert) := by
  have key : f ≠ NULL_ID ∨ b ≠ NULL_ID := by
    subst hf hb
    rw [Ne, Ne, h.null (fun x hx => mem_of_follower hx), h.null (fun x hx => mem_of_preceder hx)]
    by_contra hc
    simp only [not_or, Classical.not_not] at hc
    have hl := (follower_getLast h.nodup he).1 hc.1
    have hh := (follower_getLast (List.nodup_reverse.2 h.nodup) (by simpa using he)).1 hc.2
    rw [List.getLast?_reverse] at hh
    cases l with
    | nil => simp at he
    | cons a l =>
      simp only [List.head?_cons, Option.some.injEq] at hh
      subst hh
      cases l with
      | nil => exact h2 rfl
      | cons b l =>
        rw [List.getLast?_cons_cons] at hl
        exact (List.nodup_cons.1 h.nodup).1 (List.mem_of_getLast? hl)
  unfold assertEntityHasNoOrder dassert
  rcases key with k | k
  · simp [k]
  · by_cases k' : f = NULL_ID <;> simp [k, k']

theorem Rep.add_twice (h : Rep cap g l) {e : Nat} (he : e ∈ l) (h2 : l ≠ [e]) :
    g.add true e = .error (.panic .debugAssert) := by
  unfold Group.add
  have hh : g.head ≠ NULL_ID := by
    rw [h.head, Ne, h.null (fun x hx => List.mem_of_mem_head? hx)]
    cases l <;> simp at he ⊢
  rw [if_neg hh, h.fwd.read (h.lt e he).1, h.bwd.read (h.lt e he).1]
  simp only [ok_bind]
  rw [h.links_of_mem he h2 _ _ rfl rfl]; rfl

theorem Rep.addNextTo (h : Rep cap g l) (dbg : Bool) {e x : Nat} (he : e < cap) (hn : e ≠ NULL_ID)
    (hl : e ∉ l) (hx : x ∈ l) :
    ∃ g', g.addNextTo dbg e x = .ok g' ∧ Rep cap g' (insertAfter x e l) := by
  obtain ⟨A, B, rfl, hA, hI⟩ := insertAfter_split (y := e) hx
  rw [hI]
  have hxe : x ≠ e := fun h' => hl (h' ▸ hx)
  have hxA : x ∈ A := List.mem_of_getLast? hA
  obtain ⟨nA, nB, nd⟩ := List.nodup_append.1 h.nodup
  have hfx : follower (A ++ B) x = B.head? := by
    rw [follower_append, if_pos hxA, (follower_getLast nA hxA).2 hA]; rfl
  have hBA : A.getLast? ≠ none := by rw [hA]; simp
  unfold Group.addNextTo
  rw [h.fwd.read he, h.bwd.read he, follower_not_mem hl, preceder_not_mem hl]
  simp only [Option.getD_none, ok_bind, assertNoOrder_ok]
  rw [h.fwd.read (h.lt x hx).1, hfx]
  simp only [ok_bind]
  have hlt' : ∀ z ∈ A ++ e :: B, z < cap ∧ z ≠ NULL_ID := by
    intro z hz
    rw [List.perm_middle.mem_iff] at hz
    rcases List.mem_cons.1 hz with rfl | hz
    · exact ⟨he, hn⟩
    · exact h.lt z hz
  have hhead : (A ++ e :: B).head? = (A ++ B).head? := by cases A <;> simp at hA ⊢
  cases B with
  | nil =>
    obtain ⟨f', hf1, hf2⟩ := h.fwd.write (h.lt x hx).1 e
    obtain ⟨b', hb1, hb2⟩ := h.bwd.write he x
    have htail : g.tail = x := by rw [h.tail]; simp [hA]
    simp only [List.head?_nil, Option.getD_none, ne_eq, not_true, if_false, pure_ok, ok_bind, hf1, hb1]
    refine ⟨_, rfl, nodup_middle.2 ⟨h.nodup, hl⟩, hlt', ?_, ?_, ?_, ?_⟩
    · refine hf2.congr fun y hy => ?_
      rw [follower_insert h.nodup hl y, hA]
      by_cases hy1 : y = e
      · subst hy1
        rw [if_neg (fun h' => hxe h'.symm), if_pos rfl, follower_not_mem hl]; rfl
      · rw [if_neg hy1]
        by_cases hy2 : y = x
        · simp [hy2]
        · rw [if_neg hy2, if_neg (by simpa using fun h' : x = y => hy2 h'.symm)]
    · refine hb2.congr fun y hy => ?_
      rw [preceder_insert h.nodup hl y, hA]
      by_cases hy1 : y = e <;> simp [hy1]
    · show g.head = _; rw [hhead, h.head]
    · show (if g.tail = x then e else g.tail) = _
      rw [if_pos htail]; simp
  | cons b B =>
    have hbl : b ∈ A ++ b :: B := by simp
    have hbe : b ≠ e := fun h' => hl (h' ▸ hbl)
    have hbx : b ≠ x := fun h' => nd x hxA b (by simp) h'.symm
    obtain ⟨b1, hb1, hb1'⟩ := h.bwd.write (h.lt b hbl).1 e
    obtain ⟨f1, hf1, hf1'⟩ := h.fwd.write he b
    obtain ⟨f2, hf2, hf2'⟩ := hf1'.write (h.lt x hx).1 e
    obtain ⟨b2, hb2, hb2'⟩ := hb1'.write he x
    have htail : g.tail ≠ x := by
      rw [h.tail]
      intro h'
      have : (b :: B).getLast? = some x := by
        cases hg : (b :: B).getLast? with
        | none => simp at hg
        | some z =>
          rw [List.getLast?_append, hg] at h'
          simp at h'; rw [h']
      exact nd x hxA x (List.mem_of_getLast? this) rfl
    have hbn : b ≠ NULL_ID := (h.lt b hbl).2
    simp only [List.head?_cons, Option.getD_some, ne_eq, hbn, not_false_iff, if_true, hb1, hf1, ok_bind,
      pure_ok, hf2, hb2]
    refine ⟨_, rfl, nodup_middle.2 ⟨h.nodup, hl⟩, hlt', ?_, ?_, ?_, ?_⟩
    · refine hf2'.congr fun y hy => ?_
      rw [follower_insert h.nodup hl y, hA]
      by_cases hy1 : y = e
      · subst hy1
        rw [if_neg (fun h' => hxe h'.symm), if_pos rfl, if_pos rfl]; rfl
      · rw [if_neg hy1, if_neg hy1]
        by_cases hy2 : y = x
        · subst hy2; simp
        · rw [if_neg hy2, if_neg (by simpa using fun h' : x = y => hy2 h'.symm)]
    · refine hb2'.congr fun y hy => ?_
      rw [preceder_insert h.nodup hl y, hA]
      by_cases hy1 : y = e
      · simp [hy1]
      · by_cases hy2 : y = b
        · subst hy2; rw [if_neg hy1, if_pos rfl, if_neg hy1, if_pos (by simp)]; rfl
        · rw [if_neg hy1, if_neg hy1, if_neg hy2, if_neg (by simpa using fun h' : b = y => hy2 h'.symm)]
    · show g.head = _; rw [hhead, h.head]
    · show (if g.tail = x then e else g.tail) = _
      rw [if_neg htail, h.tail, List.getLast?_append, List.getLast?_append, List.getLast?_cons_cons]

theorem Rep.addPreviousTo (h : Rep cap g l) (dbg : Bool) {e x : Nat} (he : e < cap) (hn : e ≠ NULL_ID)
    (hl : e ∉ l) (hx : x ∈ l) :
    ∃ g', g.addPreviousTo dbg e x = .ok g' ∧ Rep cap g' (insertBefore x e l) := by
  obtain ⟨A, B, rfl, hB, hI⟩ := insertBefore_split (y := e) hx
  rw [hI]
  have hxe : x ≠ e := fun h' => hl (h' ▸ hx)
  have hxB : x ∈ B := List.mem_of_mem_head? hB
  obtain ⟨nA, nB, nd⟩ := List.nodup_append.1 h.nodup
  have hpx : preceder (A ++ B) x = A.getLast? := by
    unfold preceder
    rw [List.reverse_append, follower_append, if_pos (by simpa using hxB),
      (follower_getLast (List.nodup_reverse.2 nB) (by simpa using hxB)).2 (by simpa using hB)]
    simp
  unfold Group.addPreviousTo
  rw [h.fwd.read he, h.bwd.read he, follower_not_mem hl, preceder_not_mem hl]
  simp only [Option.getD_none, ok_bind, assertNoOrder_ok]
  rw [h.bwd.read (h.lt x hx).1, hpx]
  simp only [ok_bind]
  have hlt' : ∀ z ∈ A ++ e :: B, z < cap ∧ z ≠ NULL_ID := by
    intro z hz
    rw [List.perm_middle.mem_iff] at hz
    rcases List.mem_cons.1 hz with rfl | hz
    · exact ⟨he, hn⟩
    · exact h.lt z hz
  have htail : (A ++ e :: B).getLast? = (A ++ B).getLast? := by
    cases B with
    | nil => simp at hB
    | cons b B => simp [List.getLast?_append, List.getLast?_cons_cons]
  rcases List.eq_nil_or_concat A with rfl | ⟨A0, a, rfl⟩
  · obtain ⟨b', hb1, hb2⟩ := h.bwd.write (h.lt x hx).1 e
    obtain ⟨f', hf1, hf2⟩ := h.fwd.write he x
    have hhead : g.head = x := by rw [h.head]; simp [hB]
    simp only [List.getLast?_nil, Option.getD_none, ne_eq, not_true, if_false, pure_ok, ok_bind, hf1, hb1]
    refine ⟨_, rfl, nodup_middle.2 ⟨h.nodup, hl⟩, hlt', ?_, ?_, ?_, ?_⟩
    · refine hf2.congr fun y hy => ?_
      rw [follower_insert h.nodup hl y, hB]
      by_cases hy1 : y = e <;> simp [hy1]
    · refine hb2.congr fun y hy => ?_
      rw [preceder_insert h.nodup hl y, hB]
      by_cases hy1 : y = e
      · subst hy1
        rw [if_neg (fun h' => hxe h'.symm), if_pos rfl, preceder_not_mem hl]; rfl
      · rw [if_neg hy1]
        by_cases hy2 : y = x
        · simp [hy2]
        · rw [if_neg hy2, if_neg (by simpa using fun h' : x = y => hy2 h'.symm)]
    · show (if g.head = x then e else g.head) = _
      rw [if_pos hhead]; simp
    · show g.tail = _; rw [htail, h.tail]
  · have hal : a ∈ A0.concat a ++ B := by simp
    have hae : a ≠ e := fun h' => hl (h' ▸ hal)
    have hax : a ≠ x := fun h' => nd a (by simp) x hxB h'
    have hga : (A0.concat a).getLast? = some a := by simp
    obtain ⟨f1, hf1, hf1'⟩ := h.fwd.write (h.lt a hal).1 e
    obtain ⟨b1, hb1, hb1'⟩ := h.bwd.write he a
    obtain ⟨b2, hb2, hb2'⟩ := hb1'.write (h.lt x hx).1 e
    obtain ⟨f2, hf2, hf2'⟩ := hf1'.write he x
    have hhead : g.head ≠ x := by
      rw [h.head]
      intro h'
      have : (A0.concat a).head? = some x := by
        cases hg : (A0.concat a).head? with
        | none => simp at hg
        | some z =>
          rw [List.head?_append, hg] at h'
          simp at h'; rw [h']
      exact nd x (List.mem_of_mem_head? this) x hxB rfl
    have han : a ≠ NULL_ID := (h.lt a hal).2
    rw [hga]
    simp only [Option.getD_some, ne_eq, han, not_false_iff, if_true, hb1, hf1, ok_bind,
      pure_ok, hf2, hb2]
    refine ⟨_, rfl, nodup_middle.2 ⟨h.nodup, hl⟩, hlt', ?_, ?_, ?_, ?_⟩
    · refine hf2'.congr fun y hy => ?_
      rw [follower_insert h.nodup hl y, hB, hga]
      by_cases hy1 : y = e
      · simp [hy1]
      · rw [if_neg hy1, if_neg hy1]
        by_cases hy2 : y = a
        · subst hy2; simp
        · have hy3 : ¬ a = y := fun h' => hy2 h'.symm
          rw [if_neg hy2, if_neg (by simpa using hy3)]
    · refine hb2'.congr fun y hy => ?_
      rw [preceder_insert h.nodup hl y, hB, hga]
      by_cases hy1 : y = e
      · subst hy1
        rw [if_neg (fun h' => hxe h'.symm), if_pos rfl, if_pos rfl]; rfl
      · rw [if_neg hy1, if_neg hy1]
        by_cases hy2 : y = x
        · subst hy2; simp
        · have hy3 : ¬ x = y := fun h' => hy2 h'.symm
          rw [if_neg hy2, if_neg (by simpa using hy3)]
    · show (if g.head = x then e else g.head) = _
      rw [if_neg hhead, h.head]; cases A0 <;> simp
    · show g.tail = _; rw [htail, h.tail]

theorem Rep.addNextTo_twice (h : Rep cap g l) {e x : Nat} (he : e ∈ l) (h2 : l ≠ [e]) :
    g.addNextTo true e x = .error (.panic .debugAssert) := by
  unfold Group.addNextTo
  rw [h.fwd.read (h.lt e he).1, h.bwd.read (h.lt e he).1]
  simp only [ok_bind]
  rw [h.links_of_mem he h2 _ _ rfl rfl]; rfl

theorem Rep.addPreviousTo_twice (h : Rep cap g l) {e x : Nat} (he : e ∈ l) (h2 : l ≠ [e]) :
    g.addPreviousTo true e x = .error (.panic .debugAssert) := by
  unfold Group.addPreviousTo
  rw [h.fwd.read (h.lt e he).1, h.bwd.read (h.lt e he).1]
  simp only [ok_bind]
  rw [h.links_of_mem he h2 _ _ rfl rfl]; rfl

/-- What the three calls do to the sole member: its links then point to itself. -/
theorem Rep.add_sole {e : Nat} (h : Rep cap g [e]) (dbg : Bool) :
    ∃ g', g.add dbg e = .ok g' ∧ g'.fwd[e]? = some (some e) ∧ g'.bwd[e]? = some (some e) ∧
      g'.head = e ∧ g'.tail = e := by
  have hl := h.lt e (by simp)
  have hh : g.head = e := h.head
  have ht : g.tail = e := h.tail
  unfold Group.add
  rw [if_neg (by rw [hh]; exact hl.2), h.fwd.read hl.1, h.bwd.read hl.1]
  simp only [ok_bind, follower, preceder, List.reverse_singleton, if_true, List.head?_nil, Option.getD_none,
    assertNoOrder_ok]
  rw [ht]
  obtain ⟨f', hf1, hf2⟩ := h.fwd.write hl.1 e
  obtain ⟨b', hb1, hb2⟩ := h.bwd.write hl.1 e
  rw [hf1, hb1]
  exact ⟨_, rfl, by rw [hf2.2 e hl.1]; simp, by rw [hb2.2 e hl.1]; simp, hh, rfl⟩

theorem Rep.addNextTo_sole {e : Nat} (h : Rep cap g [e]) (dbg : Bool) :
    ∃ g', g.addNextTo dbg e e = .ok g' ∧ g'.fwd[e]? = some (some e) ∧ g'.bwd[e]? = some (some e) ∧
      g'.head = e ∧ g'.tail = e := by
  have hl := h.lt e (by simp)
  have hh : g.head = e := h.head
  have ht : g.tail = e := h.tail
  unfold Group.addNextTo
  rw [h.fwd.read hl.1, h.bwd.read hl.1]
  simp only [ok_bind, follower, preceder, List.reverse_singleton, if_true, List.head?_nil, Option.getD_none,
    assertNoOrder_ok, ne_eq, not_true_eq_false, if_false, pure_ok]
  obtain ⟨f', hf1, hf2⟩ := h.fwd.write hl.1 e
  obtain ⟨b', hb1, hb2⟩ := h.bwd.write hl.1 e
  rw [hf1, hb1]
  exact ⟨_, rfl, by rw [hf2.2 e hl.1]; simp, by rw [hb2.2 e hl.1]; simp, hh, by simp [ht]⟩

theorem Rep.addPreviousTo_sole {e : Nat} (h : Rep cap g [e]) (dbg : Bool) :
    ∃ g', g.addPreviousTo dbg e e = .ok g' ∧ g'.fwd[e]? = some (some e) ∧ g'.bwd[e]? = some (some e) ∧
      g'.head = e ∧ g'.tail = e := by
  have hl := h.lt e (by simp)
  have hh : g.head = e := h.head
  have ht : g.tail = e := h.tail
  unfold Group.addPreviousTo
  rw [h.fwd.read hl.1, h.bwd.read hl.1]
  simp only [ok_bind, follower, preceder, List.reverse_singleton, if_true, List.head?_nil, Option.getD_none,
    assertNoOrder_ok, ne_eq, not_true_eq_false, if_false, pure_ok]
  obtain ⟨f', hf1, hf2⟩ := h.fwd.write hl.1 e
  obtain ⟨b', hb1, hb2⟩ := h.bwd.write hl.1 e
  rw [hb1]
  simp only [ok_bind]
  rw [hf1]
  exact ⟨_, rfl, by rw [hf2.2 e hl.1]; simp, by rw [hb2.2 e hl.1]; simp, by simp [hh], ht⟩

theorem remove_eq (g : Group) (e : Nat) : g.remove e =
    (Raw.read g.fwd e >>= fun f => Raw.read g.bwd e >>= fun b =>
      (if f ≠ NULL_ID then Raw.write g.bwd f b else pure g.bwd) >>= fun bwd =>
      Raw.read bwd e >>= fun b =>
      (if b ≠ NULL_ID then Raw.write g.fwd b f else pure g.fwd) >>= fun fwd =>
      Raw.read fwd e >>= fun f =>
      Raw.write bwd e NULL_ID >>= fun bwd =>
      Raw.write fwd e NULL_ID >>= fun fwd =>
      .ok { fwd := fwd, bwd := bwd, head := if g.head = e then f else g.head,
            tail := if g.tail = e then b else g.tail }) := by
  unfold Group.remove
  congr 1; funext f; congr 1; funext b
  by_cases hf : f ≠ NULL_ID
  · rw [if_pos hf, if_pos hf]
    congr 1; funext bwd; dsimp only; congr 1; funext b
    by_cases hb : b ≠ NULL_ID
    · rw [if_pos hb, if_pos hb]; rfl
    · rw [if_neg hb, if_neg hb]; rfl
  · rw [if_neg hf, if_neg hf]
    simp only [pure_ok, ok_bind]
    congr 1; funext b
    by_cases hb : b ≠ NULL_ID
    · rw [if_pos hb, if_pos hb]
    · rw [if_neg hb, if_neg hb]; rfl

theorem Rep.remove (h : Rep cap g l) {e : Nat} (he : e < cap) (hn : e ≠ NULL_ID) :
    ∃ g', g.remove e = .ok g' ∧ Rep cap g' (l.erase e) := by
  rw [remove_eq]
  rw [h.fwd.read he, h.bwd.read he]
  simp only [ok_bind]
  by_cases hl : e ∈ l
  · obtain ⟨A, B, rfl⟩ := List.append_of_mem hl
    obtain ⟨hnd, hne⟩ := nodup_middle.1 h.nodup
    have hAB := List.mem_append.not.1 hne
    rw [not_or] at hAB
    have herase : (A ++ e :: B).erase e = A ++ B := by
      rw [List.erase_append_right _ hAB.1]; simp
    rw [herase, follower_insert hnd hne, if_pos rfl, preceder_insert hnd hne, if_pos rfl]
    have hlt' : ∀ z ∈ A ++ B, z < cap ∧ z ≠ NULL_ID := fun z hz =>
      h.lt z (List.perm_middle.mem_iff.2 (List.mem_cons_of_mem _ hz))
    have hhB : ∀ x, B.head? = some x → x ∈ A ++ B := fun x hx =>
      List.mem_append_right _ (List.mem_of_mem_head? hx)
    have hhA : ∀ x, A.getLast? = some x → x ∈ A ++ B := fun x hx =>
      List.mem_append_left _ (List.mem_of_getLast? hx)
    -- the two intermediate arrays
    have hb1 : ∃ b1, (if B.head?.getD NULL_ID ≠ NULL_ID then
          Raw.write g.bwd (B.head?.getD NULL_ID) (A.getLast?.getD NULL_ID) else pure g.bwd) = .ok b1 ∧
        Links cap b1 (fun y => if B.head? = some y then A.getLast?.getD NULL_ID
          else (preceder (A ++ e :: B) y).getD NULL_ID) := by
      cases hB : B.head? with
      | none =>
        refine ⟨g.bwd, by simp, h.bwd.congr fun y hy => by simp⟩
      | some b =>
        have := hlt' b (hhB b hB)
        obtain ⟨b', hb', hb2⟩ := h.bwd.write this.1 (A.getLast?.getD NULL_ID)
        refine ⟨b', by simp [this.2, hb'], hb2.congr fun y hy => ?_⟩
        by_cases hyb : y = b
        · simp [hyb]
        · have hyb' : ¬ b = y := fun h' => hyb h'.symm
          simp [hyb, hyb']
    obtain ⟨b1, hb1, hb1'⟩ := hb1
    have hbe : ∀ x, x ∈ A ++ B → x ≠ e := fun x hx h' => hne (h' ▸ hx)
    have hBe : B.head? ≠ some e := fun h' => hbe e (hhB e h') rfl
    have hAe : A.getLast? ≠ some e := fun h' => hbe e (hhA e h') rfl
    have hb1e : Raw.read b1 e = .ok (A.getLast?.getD NULL_ID) := by
      rw [hb1'.read he, if_neg hBe, preceder_insert hnd hne, if_pos rfl]
    have hf1 : ∃ f1, (if A.getLast?.getD NULL_ID ≠ NULL_ID then
          Raw.write g.fwd (A.getLast?.getD NULL_ID) (B.head?.getD NULL_ID) else pure g.fwd) = .ok f1 ∧
        Links cap f1 (fun y => if A.getLast? = some y then B.head?.getD NULL_ID
          else (follower (A ++ e :: B) y).getD NULL_ID) := by
      cases hA : A.getLast? with
      | none =>
        refine ⟨g.fwd, by simp, h.fwd.congr fun y hy => by simp⟩
      | some b =>
        have := hlt' b (hhA b hA)
        obtain ⟨b', hb', hb2⟩ := h.fwd.write this.1 (B.head?.getD NULL_ID)
        refine ⟨b', by simp [this.2, hb'], hb2.congr fun y hy => ?_⟩
        by_cases hyb : y = b
        · simp [hyb]
        · have hyb' : ¬ b = y := fun h' => hyb h'.symm
          simp [hyb, hyb']
    obtain ⟨f1, hf1, hf1'⟩ := hf1
    have hf1e : Raw.read f1 e = .ok (B.head?.getD NULL_ID) := by
      rw [hf1'.read he, if_neg hAe, follower_insert hnd hne, if_pos rfl]
    obtain ⟨b2, hb2, hb2'⟩ := hb1'.write he NULL_ID
    obtain ⟨f2, hf2, hf2'⟩ := hf1'.write he NULL_ID
    rw [hb1, ok_bind, hb1e, ok_bind, hf1, ok_bind, hf1e, ok_bind, hb2, ok_bind, hf2, ok_bind]
    refine ⟨_, rfl, hnd, hlt', ?_, ?_, ?_, ?_⟩
    · refine hf2'.congr fun y hy => ?_
      by_cases hy1 : y = e
      · subst hy1; simp [follower_not_mem hne]
      · rw [if_neg hy1, follower_insert hnd hne, if_neg hy1]
        by_cases hy2 : A.getLast? = some y
        · have hyA := List.mem_of_getLast? hy2
          rw [if_pos hy2, follower_append, if_pos hyA,
            (follower_getLast (List.nodup_append.1 hnd).1 hyA).2 hy2]
          rfl
        · rw [if_neg hy2, if_neg hy2]
    · refine hb2'.congr fun y hy => ?_
      by_cases hy1 : y = e
      · subst hy1; simp [preceder_not_mem hne]
      · rw [if_neg hy1, preceder_insert hnd hne, if_neg hy1]
        by_cases hy2 : B.head? = some y
        · have hyB := List.mem_of_mem_head? hy2
          rw [if_pos hy2]
          unfold preceder
          rw [List.reverse_append, follower_append, if_pos (by simpa using hyB),
            (follower_getLast (List.nodup_reverse.2 (List.nodup_append.1 hnd).2.1) (by simpa using hyB)).2
              (by simpa using hy2)]
          simp
        · rw [if_neg hy2, if_neg hy2]
    · show (if g.head = e then _ else g.head) = _
      rw [h.head]
      cases A with
      | nil => simp
      | cons a A =>
        have : a ≠ e := hbe a (by simp)
        simp [this]
    · show (if g.tail = e then _ else g.tail) = _
      rw [h.tail]
      cases B with
      | nil => simp
      | cons b B =>
        have hne' : (A ++ e :: b :: B).getLast? = (b :: B).getLast? := by
          rw [List.getLast?_append, List.getLast?_cons_cons]
          cases hg : (b :: B).getLast? with
          | none => simp at hg
          | some z => rfl
        have hne2 : (A ++ b :: B).getLast? = (b :: B).getLast? := by
          rw [List.getLast?_append]
          cases hg : (b :: B).getLast? with
          | none => simp at hg
          | some z => rfl
        rw [hne', hne2]
        cases hg : (b :: B).getLast? with
        | none => simp at hg
        | some z =>
          have : z ≠ e := hbe z (List.mem_append_right _ (List.mem_of_getLast? hg))
          simp [this]
  · rw [List.erase_of_not_mem hl, follower_not_mem hl, preceder_not_mem hl]
    have h1 : g.head ≠ e := by
      rw [h.head]
      cases hh : l.head? with
      | none => exact fun h' => hn h'.symm
      | some z => exact fun h' => hl (h' ▸ List.mem_of_mem_head? hh)
    have h2 : g.tail ≠ e := by
      rw [h.tail]
      cases hh : l.getLast? with
      | none => exact fun h' => hn h'.symm
      | some z => exact fun h' => hl (h' ▸ List.mem_of_getLast? hh)
    obtain ⟨b2, hb2, hb2'⟩ := h.bwd.write he NULL_ID
    obtain ⟨f2, hf2, hf2'⟩ := h.fwd.write he NULL_ID
    simp only [Option.getD_none, ne_eq, not_true, if_false, pure_ok, ok_bind, h.bwd.read he,
      h.fwd.read he, preceder_not_mem hl, follower_not_mem hl, if_neg h1, if_neg h2, hb2, hf2]
    refine ⟨_, rfl, h.nodup, h.lt, ?_, ?_, h.head, h.tail⟩
    · refine hf2'.congr fun y hy => ?_
      by_cases hy1 : y = e
      · subst hy1; simp [follower_not_mem hl]
      · simp [hy1]
    · refine hb2'.congr fun y hy => ?_
      by_cases hy1 : y = e
      · subst hy1; simp [preceder_not_mem hl]
      · simp [hy1]

theorem Rep.grow (h : Rep cap g l) {n : Nat} (hn : cap ≤ n) :
    ∃ g', g.grow cap n = .ok g' ∧ Rep n g' l := by
  have hnl : ∀ x, cap ≤ x → x ∉ l := fun x hx hm => by have := (h.lt x hm).1; omega
  obtain ⟨b, hb, hb'⟩ := h.bwd.grow hn (fun x hx => by simp [preceder_not_mem (hnl x hx)])
  obtain ⟨f, hf, hf'⟩ := h.fwd.grow hn (fun x hx => by simp [follower_not_mem (hnl x hx)])
  refine ⟨{ g with fwd := f, bwd := b }, ?_, h.nodup, fun x hx => ⟨?_, (h.lt x hx).2⟩, hf', hb', h.head,
    h.tail⟩
  · unfold Group.grow; simp [hb, hf]
  · have := (h.lt x hx).1; omega

end Group

/-! ### All groups -/

namespace Orders

/-- The container represents the sequence `f group` for every group. -/
structure Rep (c : Orders) (f : Nat → List Nat) : Prop where
  incr : Incr c.groupIds
  len : c.groups.length = c.groupIds.length
  reg : ∀ gid g, lookupK c.groupIds c.groups gid = some g → g.Rep c.entityCapacity (f gid)
  unreg : ∀ gid, lookupK c.groupIds c.groups gid = none → f gid = []

theorem Rep.new (cap : Nat) : (Orders.new cap).Rep (fun _ => []) :=
  ⟨List.Pairwise.nil, rfl, by intro gid g h; simp [lookupK, Orders.new, binarySearch] at h, fun _ _ => rfl⟩

variable {c : Orders} {f : Nat → List Nat}

theorem Rep.reserve (h : c.Rep f) (gid : Nat) :
    ∃ c' i g, c.reserveGroup gid = (c', i) ∧ c'.Rep f ∧ c'.entityCapacity = c.entityCapacity ∧
      c'.groupIds[i]? = some gid ∧ c'.groups[i]? = some g ∧ g.Rep c.entityCapacity (f gid) := by
  unfold reserveGroup
  cases hb : binarySearch c.groupIds gid with
  | found i =>
    have hi := binarySearch_found hb
    have hl : i < c.groups.length := by rw [h.len]; exact (List.getElem?_eq_some_iff.1 hi).1
    refine ⟨c, i, c.groups[i], rfl, h, rfl, hi, List.getElem?_eq_getElem hl, ?_⟩
    exact h.reg gid _ ((lookupK_iff h.incr).2 ⟨i, hi, List.getElem?_eq_getElem hl⟩)
  | notFound j =>
    obtain ⟨hj, _, _⟩ := binarySearch_notFound h.incr.le hb
    have hnone : f gid = [] := h.unreg gid (lookupK_notFound hb)
    refine ⟨_, j, Group.new c.entityCapacity, rfl, ⟨h.incr.insertIdx hb, ?_, ?_, ?_⟩, rfl, ?_, ?_, ?_⟩
    · simp only
      rw [List.length_insertIdx_of_le_length hj, List.length_insertIdx_of_le_length (by rw [h.len]; exact hj), h.len]
    · intro k g
      simp only
      rw [lookupK_insert h.incr h.len _ hb]
      by_cases hk : k = gid
      · subst hk
        rw [if_pos rfl, hnone]
        rintro ⟨⟩
        exact Group.Rep.new _
      · rw [if_neg hk]; exact h.reg k g
    · intro k
      simp only
      rw [lookupK_insert h.incr h.len _ hb]
      by_cases hk : k = gid
      · simp [hk]
      · rw [if_neg hk]; exact h.unreg k
    · simp only
      rw [List.getElem?_insertIdx]; simp [hj]
    · simp only
      rw [List.getElem?_insertIdx]; simp [hj, h.len]
    · rw [hnone]; exact Group.Rep.new _

/-- `Function.update` for sequences. -/
def upd (f : Nat → List Nat) (gid : Nat) (l : List Nat) : Nat → List Nat :=
  fun k => if k = gid then l else f k

theorem Rep.set (h : c.Rep f) {i gid : Nat} {g : Group} {l : List Nat} (hi : c.groupIds[i]? = some gid)
    (hg : g.Rep c.entityCapacity l) :
    ({ c with groups := c.groups.set i g } : Orders).Rep (upd f gid l) := by
  refine ⟨h.incr, by simp [h.len], ?_, ?_⟩
  · intro k g'
    simp only
    rw [lookupK_set h.incr h.len g hi]
    unfold upd
    by_cases hk : k = gid
    · rw [if_pos hk, if_pos hk]; rintro ⟨⟩; exact hg
    · rw [if_neg hk, if_neg hk]; exact h.reg k g'
  · intro k
    simp only
    rw [lookupK_set h.incr h.len g hi]
    unfold upd
    by_cases hk : k = gid
    · simp [hk]
    · rw [if_neg hk, if_neg hk]; exact h.unreg k

theorem Rep.add (h : c.Rep f) (dbg : Bool) (gid : Nat) {e : Nat} (he : e < c.entityCapacity)
    (hn : e ≠ NULL_ID) (hl : e ∉ f gid) :
    ∃ c', c.add dbg gid e = .ok c' ∧ c'.Rep (upd f gid (f gid ++ [e])) ∧
      c'.entityCapacity = c.entityCapacity := by
  obtain ⟨c1, i, g, h1, h2, h3, h4, h5, h6⟩ := h.reserve gid
  obtain ⟨g', h7, h8⟩ := h6.add dbg he hn hl
  refine ⟨{ c1 with groups := c1.groups.set i g' }, ?_, h2.set h4 (by rw [h3]; exact h8), h3⟩
  unfold Orders.add onGroup; rw [h1]; simp [idxUnchecked_of_some h5, h7]

theorem Rep.addNextTo (h : c.Rep f) (dbg : Bool) (gid : Nat) {e x : Nat} (he : e < c.entityCapacity)
    (hn : e ≠ NULL_ID) (hl : e ∉ f gid) (hx : x ∈ f gid) :
    ∃ c', c.addNextTo dbg gid e x = .ok c' ∧ c'.Rep (upd f gid (insertAfter x e (f gid))) ∧
      c'.entityCapacity = c.entityCapacity := by
  obtain ⟨c1, i, g, h1, h2, h3, h4, h5, h6⟩ := h.reserve gid
  obtain ⟨g', h7, h8⟩ := h6.addNextTo dbg he hn hl hx
  refine ⟨{ c1 with groups := c1.groups.set i g' }, ?_, h2.set h4 (by rw [h3]; exact h8), h3⟩
  unfold Orders.addNextTo onGroup; rw [h1]; simp [idxUnchecked_of_some h5, h7]

theorem Rep.addPreviousTo (h : c.Rep f) (dbg : Bool) (gid : Nat) {e x : Nat} (he : e < c.entityCapacity)
    (hn : e ≠ NULL_ID) (hl : e ∉ f gid) (hx : x ∈ f gid) :
    ∃ c', c.addPreviousTo dbg gid e x = .ok c' ∧ c'.Rep (upd f gid (insertBefore x e (f gid))) ∧
      c'.entityCapacity = c.entityCapacity := by
  obtain ⟨c1, i, g, h1, h2, h3, h4, h5, h6⟩ := h.reserve gid
  obtain ⟨g', h7, h8⟩ := h6.addPreviousTo dbg he hn hl hx
  refine ⟨{ c1 with groups := c1.groups.set i g' }, ?_, h2.set h4 (by rw [h3]; exact h8), h3⟩
  unfold Orders.addPreviousTo onGroup; rw [h1]; simp [idxUnchecked_of_some h5, h7]

theorem Rep.add_twice (h : c.Rep f) {gid e : Nat} (he : e ∈ f gid) (h2 : f gid ≠ [e]) :
    c.add true gid e = .error (.panic .debugAssert) := by
  obtain ⟨c1, i, g, h1, _, _, _, h5, h6⟩ := h.reserve gid
  unfold Orders.add onGroup; rw [h1]; simp [idxUnchecked_of_some h5, h6.add_twice he h2]

theorem Rep.addNextTo_twice (h : c.Rep f) {gid e x : Nat} (he : e ∈ f gid) (h2 : f gid ≠ [e]) :
    c.addNextTo true gid e x = .error (.panic .debugAssert) := by
  obtain ⟨c1, i, g, h1, _, _, _, h5, h6⟩ := h.reserve gid
  unfold Orders.addNextTo onGroup; rw [h1]; simp [idxUnchecked_of_some h5, h6.addNextTo_twice he h2]

theorem Rep.addPreviousTo_twice (h : c.Rep f) {gid e x : Nat} (he : e ∈ f gid) (h2 : f gid ≠ [e]) :
    c.addPreviousTo true gid e x = .error (.panic .debugAssert) := by
  obtain ⟨c1, i, g, h1, _, _, _, h5, h6⟩ := h.reserve gid
  unfold Orders.addPreviousTo onGroup; rw [h1]; simp [idxUnchecked_of_some h5, h6.addPreviousTo_twice he h2]

/-- The links of `e` in group `gid` point to `e`, which is the only end of the group. -/
def Looped (c : Orders) (gid e : Nat) : Prop :=
  c.getHead gid = .ok (some e) ∧ c.getTail gid = .ok (some e) ∧ c.getNext gid e = .ok (some e) ∧
    c.getPrevious gid e = .ok (some e)

theorem Rep.looped (h : c.Rep f) {gid i e : Nat} {g' : Group} (hi : c.groupIds[i]? = some gid)
    (hg : i < c.groups.length) (he : e ≠ NULL_ID) (h1 : g'.fwd[e]? = some (some e)) (h2 : g'.bwd[e]? = some (some e))
    (h3 : g'.head = e) (h4 : g'.tail = e) : Looped { c with groups := c.groups.set i g' } gid e := by
  obtain ⟨j, hb, hj⟩ := binarySearch_of_mem h.incr.le (List.mem_of_getElem? hi)
  have : j = i := h.incr.getElem?_inj hj hi
  subst this
  have hs : (c.groups.set j g')[j]? = some g' := List.getElem?_set_self hg
  refine ⟨?_, ?_, ?_, ?_⟩
  · unfold getHead getGroupIndex; simp [hb, idxUnchecked_of_some hs, h3, nullToNone, he]
  · unfold getTail getGroupIndex; simp [hb, idxUnchecked_of_some hs, h4, nullToNone, he]
  · unfold getNext; simp [hb, idxUnchecked_of_some hs, Raw.read_of_some h1, nullToNone, he]
  · unfold getPrevious; simp [hb, idxUnchecked_of_some hs, Raw.read_of_some h2, nullToNone, he]

theorem Rep.add_sole (h : c.Rep f) (dbg : Bool) {gid e : Nat} (he : f gid = [e]) :
    (∃ c', c.add dbg gid e = .ok c' ∧ Looped c' gid e) ∧
    (∃ c', c.addNextTo dbg gid e e = .ok c' ∧ Looped c' gid e) ∧
    (∃ c', c.addPreviousTo dbg gid e e = .ok c' ∧ Looped c' gid e) := by
  obtain ⟨c1, i, g, h1, h2, _, h4, h5, h6⟩ := h.reserve gid
  rw [he] at h6
  have hn := (h6.lt e (by simp)).2
  have hlt := (List.getElem?_eq_some_iff.1 h5).1
  refine ⟨?_, ?_, ?_⟩
  · obtain ⟨g', a1, a2, a3, a4, a5⟩ := h6.add_sole dbg
    refine ⟨_, ?_, h2.looped h4 hlt hn a2 a3 a4 a5⟩
    unfold Orders.add onGroup; rw [h1]; simp [idxUnchecked_of_some h5, a1]
  · obtain ⟨g', a1, a2, a3, a4, a5⟩ := h6.addNextTo_sole dbg
    refine ⟨_, ?_, h2.looped h4 hlt hn a2 a3 a4 a5⟩
    unfold Orders.addNextTo onGroup; rw [h1]; simp [idxUnchecked_of_some h5, a1]
  · obtain ⟨g', a1, a2, a3, a4, a5⟩ := h6.addPreviousTo_sole dbg
    refine ⟨_, ?_, h2.looped h4 hlt hn a2 a3 a4 a5⟩
    unfold Orders.addPreviousTo onGroup; rw [h1]; simp [idxUnchecked_of_some h5, a1]

/-- Locating a registered group. -/
theorem Rep.get (h : c.Rep f) {gid i : Nat} (hb : binarySearch c.groupIds gid = .found i) :
    ∃ g, c.groups[i]? = some g ∧ c.groupIds[i]? = some gid ∧ g.Rep c.entityCapacity (f gid) := by
  have hi := binarySearch_found hb
  have hl : i < c.groups.length := by rw [h.len]; exact (List.getElem?_eq_some_iff.1 hi).1
  exact ⟨c.groups[i], List.getElem?_eq_getElem hl, hi,
    h.reg gid _ ((lookupK_iff h.incr).2 ⟨i, hi, List.getElem?_eq_getElem hl⟩)⟩

theorem Rep.remove (h : c.Rep f) (gid : Nat) {e : Nat} (he : e < c.entityCapacity)
    (hn : e ≠ NULL_ID) :
    ∃ c', c.remove gid e = .ok c' ∧ c'.Rep (upd f gid ((f gid).erase e)) ∧
      c'.entityCapacity = c.entityCapacity := by
  unfold Orders.remove
  cases hb : binarySearch c.groupIds gid with
  | notFound j =>
    refine ⟨c, rfl, ?_, rfl⟩
    have : upd f gid ((f gid).erase e) = f := by
      funext k; unfold upd
      by_cases hk : k = gid
      · subst hk; simp [h.unreg k (lookupK_notFound hb)]
      · simp [hk]
    rw [this]; exact h
  | found i =>
    obtain ⟨g, h1, h2, h3⟩ := h.get hb
    obtain ⟨g', h7, h8⟩ := h3.remove he hn
    refine ⟨{ c with groups := c.groups.set i g' }, ?_, h.set h2 h8, rfl⟩
    simp [onGroup, idxUnchecked_of_some h1, h7]

theorem mapM_groups {op : Group → Res Group} {P : Group → Group → Prop} (l : List Group)
    (hf : ∀ w ∈ l, ∃ w', op w = .ok w' ∧ P w w') :
    ∃ l', l.mapM op = .ok l' ∧ List.Forall₂ P l l' := by
  induction l with
  | nil => exact ⟨[], rfl, .nil⟩
  | cons w l ih =>
    obtain ⟨w', h1, h2⟩ := hf w (by simp)
    obtain ⟨l', h3, h4⟩ := ih (fun v hv => hf v (by simp [hv]))
    exact ⟨w' :: l', by rw [mapM_ok_cons, h1, h3]; rfl, .cons h2 h4⟩

/-- Applying an operation to every group. -/
theorem Rep.mapAll (h : c.Rep f) (op : Group → Res Group) (F : List Nat → List Nat) (n : Nat)
    (hF : F [] = [])
    (hop : ∀ g l, g.Rep c.entityCapacity l → ∃ g', op g = .ok g' ∧ g'.Rep n (F l)) :
    ∃ gs, c.groups.mapM op = .ok gs ∧
      ({ c with groups := gs, entityCapacity := n } : Orders).Rep (fun gid => F (f gid)) := by
  have hrep : ∀ g ∈ c.groups, ∃ l, g.Rep c.entityCapacity l := by
    intro g hg
    obtain ⟨i, hi, rfl⟩ := List.getElem_of_mem hg
    have hi' : i < c.groupIds.length := by rw [← h.len]; exact hi
    have hk : c.groupIds[i]? = some c.groupIds[i] := List.getElem?_eq_getElem hi'
    exact ⟨_, h.reg c.groupIds[i] _ ((lookupK_iff h.incr).2 ⟨i, hk, List.getElem?_eq_getElem hi⟩)⟩
  obtain ⟨gs, h1, h2⟩ := mapM_groups (op := op) (P := fun w w' => op w = .ok w') c.groups (by
    intro g hg
    obtain ⟨l, hl⟩ := hrep g hg
    obtain ⟨g', hg', _⟩ := hop g l hl
    exact ⟨g', hg', hg'⟩)
  refine ⟨gs, h1, h.incr, by rw [← h.len]; exact h2.length_eq.symm, ?_, ?_⟩
  · intro gid g hg
    simp only at hg ⊢
    obtain ⟨i, hi, hgi⟩ := (lookupK_iff h.incr).1 hg
    have hi' : i < gs.length := (List.getElem?_eq_some_iff.1 hgi).1
    have hi0 : i < c.groups.length := by rw [h2.length_eq]; exact hi'
    have hr := h.reg gid _ ((lookupK_iff h.incr).2 ⟨i, hi, List.getElem?_eq_getElem hi0⟩)
    obtain ⟨g', hg', hr'⟩ := hop _ _ hr
    have := (List.forall₂_iff_get.1 h2).2 i hi0 hi'
    simp only [List.get_eq_getElem] at this
    rw [this] at hg'
    cases hg'
    have : g = gs[i] := by
      rw [List.getElem?_eq_getElem hi'] at hgi
      exact (Option.some.inj hgi).symm
    rw [this]; exact hr'
  · intro gid hg
    simp only at hg ⊢
    have : lookupK c.groupIds c.groups gid = none := by
      cases hl : lookupK c.groupIds c.groups gid with
      | none => rfl
      | some g0 =>
        obtain ⟨i, hi, hgi⟩ := (lookupK_iff h.incr).1 hl
        have hi0 : i < gs.length := by rw [← h2.length_eq]; exact (List.getElem?_eq_some_iff.1 hgi).1
        rw [(lookupK_iff (v := gs[i]) h.incr).2 ⟨i, hi, List.getElem?_eq_getElem hi0⟩] at hg
        cases hg
    rw [h.unreg gid this, hF]

theorem Rep.removeAll (h : c.Rep f) {e : Nat} (he : e < c.entityCapacity) (hn : e ≠ NULL_ID) :
    ∃ c', c.removeAll e = .ok c' ∧ c'.Rep (fun gid => (f gid).erase e) ∧
      c'.entityCapacity = c.entityCapacity := by
  obtain ⟨gs, h1, h2⟩ := h.mapAll (fun g => g.remove e) (fun l => l.erase e) c.entityCapacity rfl
    (fun g l hg => hg.remove he hn)
  exact ⟨_, by unfold Orders.removeAll; rw [h1]; rfl, h2, rfl⟩

theorem Rep.grow (h : c.Rep f) (dbg : Bool) {n : Nat} (hn : c.entityCapacity ≤ n) :
    ∃ c', c.grow dbg n = .ok c' ∧ c'.Rep f ∧ c'.entityCapacity = n := by
  obtain ⟨gs, h1, h2⟩ := h.mapAll (fun g => g.grow c.entityCapacity n) (fun l => l) n rfl
    (fun g l hg => hg.grow hn)
  refine ⟨{ c with groups := gs, entityCapacity := n }, ?_, h2, rfl⟩
  unfold Orders.grow subUsize
  rw [if_pos hn, h1]; rfl

theorem nullToNone_getD {o : Option Nat} (h : ∀ x, o = some x → x ≠ NULL_ID) :
    nullToNone (o.getD NULL_ID) = o := by
  cases o with
  | none => rfl
  | some x => simp [nullToNone, h x rfl]

theorem Rep.getNext (h : c.Rep f) (gid : Nat) {e : Nat} (he : e < c.entityCapacity) :
    c.getNext gid e = .ok (follower (f gid) e) := by
  unfold Orders.getNext
  cases hb : binarySearch c.groupIds gid with
  | notFound j => rw [h.unreg gid (lookupK_notFound hb)]; rfl
  | found i =>
    obtain ⟨g, h1, h2, h3⟩ := h.get hb
    simp only [idxUnchecked_of_some h1, ok_bind, h3.fwd.read he, pure_ok]
    rw [nullToNone_getD (fun x hx => (h3.lt x (mem_of_follower hx)).2)]

theorem Rep.getPrevious (h : c.Rep f) (gid : Nat) {e : Nat} (he : e < c.entityCapacity) :
    c.getPrevious gid e = .ok (preceder (f gid) e) := by
  unfold Orders.getPrevious
  cases hb : binarySearch c.groupIds gid with
  | notFound j => rw [h.unreg gid (lookupK_notFound hb)]; rfl
  | found i =>
    obtain ⟨g, h1, h2, h3⟩ := h.get hb
    simp only [idxUnchecked_of_some h1, ok_bind, h3.bwd.read he, pure_ok]
    rw [nullToNone_getD (fun x hx => (h3.lt x (mem_of_preceder hx)).2)]

theorem Rep.getHead (h : c.Rep f) (gid : Nat) : c.getHead gid = .ok (f gid).head? := by
  unfold Orders.getHead getGroupIndex
  cases hb : binarySearch c.groupIds gid with
  | notFound j => rw [h.unreg gid (lookupK_notFound hb)]; rfl
  | found i =>
    obtain ⟨g, h1, h2, h3⟩ := h.get hb
    simp only [idxUnchecked_of_some h1, ok_bind, pure_ok]
    rw [h3.head, nullToNone_getD (fun x hx => (h3.lt x (List.mem_of_mem_head? hx)).2)]

theorem Rep.getTail (h : c.Rep f) (gid : Nat) : c.getTail gid = .ok (f gid).getLast? := by
  unfold Orders.getTail getGroupIndex
  cases hb : binarySearch c.groupIds gid with
  | notFound j => rw [h.unreg gid (lookupK_notFound hb)]; rfl
  | found i =>
    obtain ⟨g, h1, h2, h3⟩ := h.get hb
    simp only [idxUnchecked_of_some h1, ok_bind, pure_ok]
    rw [h3.tail, nullToNone_getD (fun x hx => (h3.lt x (List.mem_of_getLast? hx)).2)]

theorem Rep.nodup (h : c.Rep f) (gid : Nat) : (f gid).Nodup := by
  cases hl : lookupK c.groupIds c.groups gid with
  | none => rw [h.unreg gid hl]; exact List.nodup_nil
  | some g => exact (h.reg gid g hl).nodup

theorem Rep.lt (h : c.Rep f) (gid : Nat) : ∀ x ∈ f gid, x < c.entityCapacity ∧ x ≠ NULL_ID := by
  cases hl : lookupK c.groupIds c.groups gid with
  | none => rw [h.unreg gid hl]; simp
  | some g => exact (h.reg gid g hl).lt

theorem Rep.drop (h : c.Rep f) : c.drop = .ok () := by
  have hrep : ∀ g ∈ c.groups, ∃ l, g.Rep c.entityCapacity l := by
    intro g hg
    obtain ⟨i, hi, rfl⟩ := List.getElem_of_mem hg
    have hi' : i < c.groupIds.length := by rw [← h.len]; exact hi
    have hk : c.groupIds[i]? = some c.groupIds[i] := List.getElem?_eq_getElem hi'
    exact ⟨_, h.reg c.groupIds[i] _ ((lookupK_iff h.incr).2 ⟨i, hk, List.getElem?_eq_getElem hi⟩)⟩
  unfold Orders.drop
  generalize c.groups = gs at hrep
  induction gs with
  | nil => rfl
  | cons g gs ih =>
    obtain ⟨l, hl⟩ := hrep g (by simp)
    unfold dropLoop Raw.dealloc
    rw [if_pos hl.bwd.1, if_pos hl.fwd.1]
    exact ih (fun w hw => hrep w (by simp [hw]))

end Orders
end Ecs
