import Verif.Proofs.Walks
import Verif.Proofs.QueryOrdAny

/-! Adding a member of a group again: where the links lead afterwards, and loops along links without an end. -/

namespace Ecs
open Spec

theorem preceder_self {A B : List Nat} {y : Nat} (h : y ∉ B) : preceder (A ++ y :: B) y = A.getLast? := by
  unfold preceder
  have : (A ++ y :: B).reverse = B.reverse ++ y :: A.reverse := by simp
  rw [this, follower_self (by simpa using h), List.head?_reverse]

/-- Members before `e` are followed by members up to `e`. -/
theorem follower_before {P C : List Nat} {e y : Nat} (hn : (P ++ e :: C).Nodup) (hy : y ∈ P) :
    ∃ z ∈ P ++ [e], follower (P ++ e :: C) y = some z := by
  have hs : P ++ e :: C = (P ++ [e]) ++ C := by simp
  have hn' : (P ++ [e]).Nodup := by rw [hs] at hn; exact (List.nodup_append.1 hn).1
  have hym : y ∈ P ++ [e] := by simp [hy]
  have hne : y ≠ e := by
    rintro rfl
    exact (List.nodup_append.1 hn').2.2 y hy y (by simp) rfl
  rw [hs, follower_append, if_pos hym]
  cases hf : follower (P ++ [e]) y with
  | none =>
    have := (follower_getLast hn' hym).1 hf
    simp at this
    exact (hne this.symm).elim
  | some z => exact ⟨z, mem_of_follower hf, rfl⟩

namespace Group

/-- Following the links from the head stays among the ids `S` and has no end. -/
structure Stuck (cap : Nat) (g : Group) (S : List Nat) : Prop where
  head : g.head ∈ S
  lt : ∀ x ∈ S, x < cap ∧ x ≠ NULL_ID
  next : ∀ x ∈ S, ∃ y ∈ S, g.fwd[x]? = some (some y)

variable {cap : Nat} {g : Group} {l : List Nat} {dbg : Bool}

theorem Rep.assert_again (h : Rep cap g l) {e : Nat} (hd : dbg = false ∨ l = [e]) :
    assertEntityHasNoOrder dbg ((follower l e).getD NULL_ID) ((preceder l e).getD NULL_ID) = .ok () := by
  rcases hd with rfl | rfl
  · rfl
  · simp [follower, preceder, assertNoOrder_ok]

theorem Rep.head_ne (h : Rep cap g l) {e : Nat} (he : e ∈ l) : g.head ≠ NULL_ID := by
  rw [h.head, Ne, h.null (fun x hx => List.mem_of_mem_head? hx)]
  cases l with
  | nil => cases he
  | cons a l => simp

theorem Rep.head_mem (h : Rep cap g l) {e : Nat} (he : e ∈ l) : g.head ∈ l := by
  rw [h.head]
  cases l with
  | nil => cases he
  | cons a l => simp

theorem Rep.add_again (h : Rep cap g l) {e : Nat} (he : e ∈ l) (hd : dbg = false ∨ l = [e]) :
    ∃ g', g.add dbg e = .ok g' ∧ Stuck cap g' l := by
  have hl := h.lt e he
  obtain ⟨t, ht⟩ : ∃ t, l.getLast? = some t := by
    cases l with
    | nil => cases he
    | cons a l => exact ⟨_, List.getLast?_eq_getLast_of_ne_nil (by simp)⟩
  have htm := List.mem_of_getLast? ht
  have htail : g.tail = t := by rw [h.tail, ht]; rfl
  unfold Group.add
  rw [if_neg (h.head_ne he), h.fwd.read hl.1, h.bwd.read hl.1]
  simp only [ok_bind, h.assert_again hd, htail]
  obtain ⟨f', hf1, hf2⟩ := h.fwd.write (h.lt t htm).1 e
  obtain ⟨b', hb1, _⟩ := h.bwd.write hl.1 t
  rw [hf1, hb1]
  refine ⟨_, rfl, h.head_mem he, h.lt, fun x hx => ?_⟩
  rw [hf2.2 x (h.lt x hx).1]
  by_cases hxt : x = t
  · exact ⟨e, he, by simp [hxt]⟩
  · cases hf : follower l x with
    | none =>
      rw [follower_getLast h.nodup hx, ht] at hf
      cases hf
      exact (hxt rfl).elim
    | some z => exact ⟨z, mem_of_follower hf, by simp [hxt, hf]⟩

/-- The forward links after adding the member `e` again next to the member `x`. -/
theorem Rep.addNextTo_again (h : Rep cap g l) {e x : Nat} (he : e ∈ l) (hx : x ∈ l) (hd : dbg = false ∨ l = [e]) :
    ∃ g', g.addNextTo dbg e x = .ok g' ∧ g'.head = g.head ∧ Links cap g'.fwd fun y =>
      if y = x then e else if y = e ∧ (follower l x).isSome then (follower l x).getD NULL_ID
      else (follower l y).getD NULL_ID := by
  have hl := h.lt e he
  have hlx := h.lt x hx
  unfold Group.addNextTo
  rw [h.fwd.read hl.1, h.bwd.read hl.1]
  simp only [ok_bind, h.assert_again hd, h.fwd.read hlx.1]
  cases hf : follower l x with
  | none =>
    obtain ⟨f', hf1, hf2⟩ := h.fwd.write hlx.1 e
    obtain ⟨b', hb1, _⟩ := h.bwd.write hl.1 x
    simp only [Option.getD_none, ne_eq, not_true_eq_false, if_false, pure_ok, ok_bind, hf1, hb1]
    refine ⟨_, rfl, rfl, hf2.congr fun y _ => ?_⟩
    simp
  | some z =>
    have hz := mem_of_follower hf
    obtain ⟨f1, hf1, hf2⟩ := h.fwd.write hl.1 z
    obtain ⟨b1, hb1, hb2⟩ := h.bwd.write (h.lt z hz).1 e
    obtain ⟨f2, hf3, hf4⟩ := hf2.write hlx.1 e
    obtain ⟨b2, hb3, _⟩ := hb2.write hl.1 x
    simp only [Option.getD_some, ne_eq, (h.lt z hz).2, not_false_eq_true, if_true, pure_ok, ok_bind, hf1, hb1, hf3, hb3]
    refine ⟨_, rfl, rfl, hf4.congr fun y _ => ?_⟩
    simp

/-- The forward links after adding the member `e` again in front of the member `x`. -/
theorem Rep.addPreviousTo_again (h : Rep cap g l) {e x : Nat} (he : e ∈ l) (hx : x ∈ l) (hd : dbg = false ∨ l = [e]) :
    ∃ g', g.addPreviousTo dbg e x = .ok g' ∧ g'.head = (if g.head = x then e else g.head) ∧ Links cap g'.fwd fun y =>
      if y = e then x else if preceder l x = some y then e else (follower l y).getD NULL_ID := by
  have hl := h.lt e he
  have hlx := h.lt x hx
  unfold Group.addPreviousTo
  rw [h.fwd.read hl.1, h.bwd.read hl.1]
  simp only [ok_bind, h.assert_again hd, h.bwd.read hlx.1]
  cases hf : preceder l x with
  | none =>
    obtain ⟨f', hf1, hf2⟩ := h.fwd.write hl.1 x
    obtain ⟨b', hb1, _⟩ := h.bwd.write hlx.1 e
    simp only [Option.getD_none, ne_eq, not_true_eq_false, if_false, pure_ok, ok_bind, hf1, hb1]
    refine ⟨_, rfl, rfl, hf2.congr fun y _ => ?_⟩
    simp
  | some z =>
    have hz := mem_of_preceder hf
    obtain ⟨f1, hf1, hf2⟩ := h.fwd.write (h.lt z hz).1 e
    obtain ⟨b1, hb1, hb2⟩ := h.bwd.write hl.1 z
    obtain ⟨f2, hf3, hf4⟩ := hf2.write hl.1 x
    obtain ⟨b2, hb3, _⟩ := hb2.write hlx.1 e
    simp only [Option.getD_some, ne_eq, (h.lt z hz).2, not_false_eq_true, if_true, pure_ok, ok_bind, hf1, hb1, hf3, hb3]
    refine ⟨_, rfl, rfl, hf4.congr fun y _ => ?_⟩
    simp only [Option.some.injEq, eq_comm]

/-- Next to itself. -/
theorem Rep.addNextTo_self {A C : List Nat} {e : Nat} (h : Rep cap g (A ++ e :: C)) (hd : dbg = false ∨ A ++ e :: C = [e]) :
    ∃ g', g.addNextTo dbg e e = .ok g' ∧ Stuck cap g' (A ++ [e]) := by
  have he : e ∈ A ++ e :: C := by simp
  obtain ⟨g', h1, h2, h3⟩ := h.addNextTo_again he he hd
  refine ⟨g', h1, ?_, fun x hx => h.lt x ?_, fun y hy => ?_⟩
  · rw [h2, h.head]
    cases A <;> simp
  · simp only [List.mem_append, List.mem_singleton, List.mem_cons] at hx ⊢
    tauto
  · have hylt := h.lt y (by simp only [List.mem_append, List.mem_singleton, List.mem_cons] at hy ⊢; tauto)
    rw [h3.2 y hylt.1]
    by_cases hye : y = e
    · exact ⟨e, by simp, by simp [hye]⟩
    · have hyA : y ∈ A := by simpa [hye] using hy
      obtain ⟨z, hz, hf⟩ := follower_before h.nodup hyA
      exact ⟨z, hz, by simp [hye, hf]⟩

/-- In front of itself. -/
theorem Rep.addPreviousTo_self {A C : List Nat} {e : Nat} (h : Rep cap g (A ++ e :: C)) (hd : dbg = false ∨ A ++ e :: C = [e]) :
    ∃ g', g.addPreviousTo dbg e e = .ok g' ∧ Stuck cap g' (A ++ [e]) := by
  have he : e ∈ A ++ e :: C := by simp
  obtain ⟨g', h1, h2, h3⟩ := h.addPreviousTo_again he he hd
  refine ⟨g', h1, ?_, fun x hx => h.lt x ?_, fun y hy => ?_⟩
  · rw [h2]
    split
    · simp
    · rw [h.head]
      cases A <;> simp
  · simp only [List.mem_append, List.mem_singleton, List.mem_cons] at hx ⊢
    tauto
  · have hylt := h.lt y (by simp only [List.mem_append, List.mem_singleton, List.mem_cons] at hy ⊢; tauto)
    rw [h3.2 y hylt.1]
    by_cases hye : y = e
    · exact ⟨e, by simp, by simp [hye]⟩
    · have hyA : y ∈ A := by simpa [hye] using hy
      obtain ⟨z, hz, hf⟩ := follower_before h.nodup hyA
      by_cases hp : preceder (A ++ e :: C) e = some y
      · exact ⟨e, by simp, by simp [hp]⟩
      · exact ⟨z, hz, by simp [hye, hf, hp]⟩

/-- Next to an earlier member. -/
theorem Rep.addNextTo_earlier {A B C : List Nat} {e x : Nat} (h : Rep cap g (A ++ x :: B ++ e :: C)) :
    ∃ g', g.addNextTo false e x = .ok g' ∧ Stuck cap g' (A ++ x :: B ++ [e]) := by
  have hsub : ∀ y, y ∈ A ++ x :: B ++ [e] → y ∈ A ++ x :: B ++ e :: C := by
    intro y hy
    simp only [List.mem_append, List.mem_singleton, List.mem_cons] at hy ⊢
    tauto
  obtain ⟨g', h1, h2, h3⟩ := h.addNextTo_again (e := e) (x := x) (by simp) (by simp) (.inl rfl)
  refine ⟨g', h1, ?_, fun y hy => h.lt y (hsub y hy), fun y hy => ?_⟩
  · rw [h2, h.head]
    cases A <;> simp
  · rw [h3.2 y (h.lt y (hsub y hy)).1]
    obtain ⟨zx, hzx, hfx⟩ := follower_before h.nodup (y := x) (by simp)
    by_cases hyx : y = x
    · exact ⟨e, by simp, by simp [hyx]⟩
    · by_cases hye : y = e
      · refine ⟨zx, hzx, ?_⟩
        simp only [if_neg hyx, hfx, hye, Option.isSome_some, and_self, if_true, Option.getD_some]
        rw [if_neg (hye ▸ hyx)]
      · have hyP : y ∈ A ++ x :: B := by
          rcases List.mem_append.1 hy with hy | hy
          · exact hy
          · exact (hye (List.mem_singleton.1 hy)).elim
        obtain ⟨z, hz, hf⟩ := follower_before h.nodup hyP
        exact ⟨z, hz, by simp only [hyx, hye, hf, if_false, false_and, Option.getD_some]⟩

/-- In front of an earlier member. -/
theorem Rep.addPreviousTo_earlier {A B C : List Nat} {e x : Nat} (h : Rep cap g (A ++ x :: B ++ e :: C)) :
    ∃ g', g.addPreviousTo false e x = .ok g' ∧ Stuck cap g' (A ++ x :: B ++ [e]) := by
  have hsub : ∀ y, y ∈ A ++ x :: B ++ [e] → y ∈ A ++ x :: B ++ e :: C := by
    intro y hy
    simp only [List.mem_append, List.mem_singleton, List.mem_cons] at hy ⊢
    tauto
  obtain ⟨g', h1, h2, h3⟩ := h.addPreviousTo_again (e := e) (x := x) (by simp) (by simp) (.inl rfl)
  refine ⟨g', h1, ?_, fun y hy => h.lt y (hsub y hy), fun y hy => ?_⟩
  · rw [h2]
    split
    · simp
    · rw [h.head]
      cases A <;> simp
  · rw [h3.2 y (h.lt y (hsub y hy)).1]
    by_cases hye : y = e
    · exact ⟨x, by simp, by simp [hye]⟩
    · have hyP : y ∈ A ++ x :: B := by
        rcases List.mem_append.1 hy with hy | hy
        · exact hy
        · exact (hye (List.mem_singleton.1 hy)).elim
      obtain ⟨z, hz, hf⟩ := follower_before h.nodup hyP
      by_cases hp : preceder (A ++ x :: B ++ e :: C) x = some y
      · exact ⟨e, by simp, by simp only [hye, hp, if_false, if_true]⟩
      · exact ⟨z, hz, by simp only [hye, hf, hp, if_false, Option.getD_some]⟩

/-- Next to the last member. -/
theorem Rep.addNextTo_last {A B : List Nat} {e x : Nat} (h : Rep cap g (A ++ e :: B ++ [x])) :
    ∃ g', g.addNextTo false e x = .ok g' ∧ Stuck cap g' (A ++ e :: B ++ [x]) := by
  obtain ⟨g', h1, h2, h3⟩ := h.addNextTo_again (e := e) (x := x) (by simp) (by simp) (.inl rfl)
  have hx : x ∉ A ++ e :: B := fun hx => (List.nodup_append.1 h.nodup).2.2 x hx x (by simp) rfl
  have hfx : follower (A ++ e :: B ++ [x]) x = none := follower_self hx
  refine ⟨g', h1, ?_, h.lt, fun y hy => ?_⟩
  · rw [h2]
    exact h.head_mem (e := e) (by simp)
  · rw [h3.2 y (h.lt y hy).1]
    by_cases hyx : y = x
    · exact ⟨e, by simp, by simp [hyx]⟩
    · have hyP : y ∈ A ++ e :: B := by
        rcases List.mem_append.1 hy with hy | hy
        · exact hy
        · exact (hyx (List.mem_singleton.1 hy)).elim
      obtain ⟨z, hz, hf⟩ := follower_before h.nodup hyP
      exact ⟨z, hz, by simp only [hyx, hfx, hf, if_false, Option.isSome_none, Bool.false_eq_true, and_false, Option.getD_some]⟩

/-- Next to a later member which is not the last one: the members in between, and it, are skipped. -/
theorem Rep.addNextTo_later {A B C : List Nat} {e x c : Nat} (h : Rep cap g (A ++ e :: B ++ x :: c :: C)) :
    ∃ g', g.addNextTo false e x = .ok g' ∧ Path cap g' (A ++ e :: c :: C) := by
  have hsub : ∀ y, y ∈ A ++ e :: c :: C → y ∈ A ++ e :: B ++ x :: c :: C := by
    intro y hy
    simp only [List.mem_append, List.mem_cons] at hy ⊢
    tauto
  have hnd := h.nodup
  have hx : x ∉ A ++ e :: B := fun hx => (List.nodup_append.1 hnd).2.2 x hx x (by simp) rfl
  have hfx : follower (A ++ e :: B ++ x :: c :: C) x = some c := follower_self hx
  obtain ⟨g', h1, h2, h3⟩ := h.addNextTo_again (e := e) (x := x) (by simp) (by simp) (.inl rfl)
  refine ⟨g', h1, ?_, fun y hy => h.lt y (hsub y hy), fun P y Q hl => ?_⟩
  · rw [h2, h.head]
    cases A <;> simp
  · have hy : y ∈ A ++ e :: c :: C := by rw [hl]; simp
    rw [h3.2 y (h.lt y (hsub y hy)).1]
    have hn' : (A ++ e :: c :: C).Nodup := by
      have hs : (A ++ e :: c :: C).Sublist (A ++ e :: B ++ x :: c :: C) := by
        rw [List.append_assoc]
        refine List.Sublist.append_left ?_ _
        rw [List.cons_append]
        exact List.Sublist.cons_cons _ ((List.sublist_cons_self _ _).trans (List.sublist_append_right _ _))
      exact hs.nodup hnd
    have hyP : y ∉ P := fun h0 => (List.nodup_append.1 (hl ▸ hn')).2.2 y h0 y (by simp) rfl
    have hfy : follower (A ++ e :: c :: C) y = Q.head? := by rw [hl]; exact follower_self hyP
    have hxy : y ≠ x := by
      rintro rfl
      have : y ∉ c :: C := (List.nodup_cons.1 (List.nodup_append.1 hnd).2.1).1
      simp only [List.mem_append, List.mem_cons] at hy hx this
      tauto
    have heA : e ∉ A := fun h0 => by
      rw [List.append_assoc] at hnd
      exact (List.nodup_append.1 hnd).2.2 e h0 e (by simp) rfl
    by_cases hye : y = e
    · subst hye
      rw [follower_self heA] at hfy
      simp only [hxy, if_false, hfx, true_and, Option.isSome_some, if_true, Option.getD_some, ← hfy, List.head?_cons]
    · simp only [hxy, hye, if_false, false_and]
      congr 2
      rw [← hfy]
      congr 1
      by_cases hyA : y ∈ A
      · rw [follower_append (A ++ e :: B), if_pos (by simp [hyA]), follower_append A, follower_append A, if_pos hyA, if_pos hyA]
        simp [Option.or_assoc]
      · have hyC : y ∈ c :: C := by
          simp only [List.mem_append, List.mem_cons] at hy ⊢
          tauto
        have hyB : y ∉ A ++ e :: B := fun h0 => (List.nodup_append.1 hnd).2.2 y h0 y (List.mem_cons_of_mem _ hyC) rfl
        rw [follower_append (A ++ e :: B), if_neg hyB, follower_append A, if_neg hyA]
        simp only [follower, hxy, hye, if_false]

/-- In front of a later member: the members in between are skipped. -/
theorem Rep.addPreviousTo_later {A B C : List Nat} {e x : Nat} (h : Rep cap g (A ++ e :: B ++ x :: C)) :
    ∃ g', g.addPreviousTo false e x = .ok g' ∧ Path cap g' (A ++ e :: x :: C) := by
  have hsub : ∀ y, y ∈ A ++ e :: x :: C → y ∈ A ++ e :: B ++ x :: C := by
    intro y hy
    simp only [List.mem_append, List.mem_cons] at hy ⊢
    tauto
  have hnd := h.nodup
  have hx : x ∉ A ++ e :: B := fun hx => (List.nodup_append.1 hnd).2.2 x hx x (by simp) rfl
  have hxC : x ∉ C := (List.nodup_cons.1 (List.nodup_append.1 hnd).2.1).1
  have hpx : preceder (A ++ e :: B ++ x :: C) x = (e :: B).getLast? := by
    rw [preceder_self hxC, List.getLast?_append_of_ne_nil _ (by simp)]
  obtain ⟨g', h1, h2, h3⟩ := h.addPreviousTo_again (e := e) (x := x) (by simp) (by simp) (.inl rfl)
  refine ⟨g', h1, ?_, fun y hy => h.lt y (hsub y hy), fun P y Q hl => ?_⟩
  · rw [h2, h.head, if_neg]
    · cases A <;> simp
    · intro h0
      cases A with
      | nil => simp at h0 hx; exact hx.1 h0.symm
      | cons a A => simp at h0 hx; exact hx.1 h0.symm
  · have hy : y ∈ A ++ e :: x :: C := by rw [hl]; simp
    rw [h3.2 y (h.lt y (hsub y hy)).1]
    have hn' : (A ++ e :: x :: C).Nodup := by
      have hs : (A ++ e :: x :: C).Sublist (A ++ e :: B ++ x :: C) := by
        rw [List.append_assoc]
        refine List.Sublist.append_left ?_ _
        rw [List.cons_append]
        exact List.Sublist.cons_cons _ (List.sublist_append_right _ _)
      exact hs.nodup hnd
    have hyP : y ∉ P := fun h0 => (List.nodup_append.1 (hl ▸ hn')).2.2 y h0 y (by simp) rfl
    have hfy : follower (A ++ e :: x :: C) y = Q.head? := by rw [hl]; exact follower_self hyP
    have heA : e ∉ A := fun h0 => by
      rw [List.append_assoc] at hnd
      exact (List.nodup_append.1 hnd).2.2 e h0 e (by simp) rfl
    by_cases hye : y = e
    · subst hye
      rw [follower_self heA] at hfy
      simp only [if_true, ← hfy, List.head?_cons, Option.getD_some]
    · have hyB : y ∉ B := by
        intro h0
        have h1 : y ∉ A := fun h2 => by
          rw [List.append_assoc] at hnd
          exact (List.nodup_append.1 hnd).2.2 y h2 y (by simp [h0]) rfl
        have h2 : y ∉ x :: C := fun h2 => (List.nodup_append.1 hnd).2.2 y (by simp [h0]) y h2 rfl
        simp only [List.mem_append, List.mem_cons] at hy h2
        tauto
      have hnp : preceder (A ++ e :: B ++ x :: C) x ≠ some y := by
        rw [hpx]
        intro h0
        have := List.mem_of_getLast? h0
        simp [hye, hyB] at this
      simp only [hye, hnp, if_false]
      congr 2
      rw [← hfy]
      congr 1
      by_cases hyA : y ∈ A
      · rw [follower_append (A ++ e :: B), if_pos (by simp [hyA]), follower_append A, follower_append A, if_pos hyA, if_pos hyA]
        simp [Option.or_assoc]
      · have hyB' : y ∉ A ++ e :: B := by simp [hyA, hye, hyB]
        rw [follower_append (A ++ e :: B), if_neg hyB', follower_append A, if_neg hyA]
        simp only [follower, hye, if_false]

end Group

namespace Orders
variable {c : Orders} {f : Nat → List Nat}

theorem Rep.onGroup_holds (h : c.Rep f) {gid : Nat} {op : Group → Res Group} {P : Group → Prop}
    (hop : ∀ g, g.Rep c.entityCapacity (f gid) → ∃ g', op g = .ok g' ∧ P g') :
    ∃ c' g', (c.reserveGroup gid).1.onGroup (c.reserveGroup gid).2 op = .ok c' ∧ c'.Holds gid g' ∧ P g' := by
  obtain ⟨c1, i, g, h1, h2, h3, h4, h5, h6⟩ := h.reserve gid
  obtain ⟨g', h7, h8⟩ := hop g h6
  have hlt := (List.getElem?_eq_some_iff.1 h5).1
  refine ⟨{ c1 with groups := c1.groups.set i g' }, g', ?_, ?_, h8⟩
  · rw [h1]; unfold onGroup; simp [idxUnchecked_of_some h5, h7]
  · obtain ⟨j, hb, hj⟩ := binarySearch_of_mem h2.incr.le (List.mem_of_getElem? h4)
    have : j = i := h2.incr.getElem?_inj hj h4
    subst this
    exact ⟨j, hb, List.getElem?_set_self hlt⟩

end Orders

namespace Group
variable {U : Universe} {s : Store} {w : World} {gr : Group} {S : List Entity}

theorem Stuck.read (hg : gr.Stuck s.ents.capacity (S.map (·.id))) {e : Entity} (he : e ∈ S) :
    ∃ y ∈ S, Raw.read gr.fwd e.id = .ok y.id := by
  obtain ⟨y, hy, h⟩ := hg.next e.id (List.mem_map_of_mem he)
  obtain ⟨y, hyS, rfl⟩ := List.mem_map.1 hy
  exact ⟨y, hyS, Raw.read_of_some h⟩

/-- The inner loop stays among the members. -/
theorem Stuck.rangeLoop_mem (hg : gr.Stuck s.ents.capacity (S.map (·.id))) (page : Nat) (fuel : Nat) {e : Entity} (he : e ∈ S)
    (n : Nat) {r : Nat × Nat} (hr : orderedRangeLoop s gr.fwd page fuel e.id n = .ok r) : ∃ y ∈ S, r.1 = y.id := by
  induction fuel generalizing e n with
  | zero => cases hr
  | succ fuel ih =>
    unfold orderedRangeLoop at hr
    obtain ⟨y, hy, hread⟩ := hg.read he
    rw [if_neg (hg.lt e.id (List.mem_map_of_mem he)).2] at hr
    obtain ⟨p, _, hr⟩ := bind_eq_ok.1 hr
    obtain ⟨i, _, hr⟩ := bind_eq_ok.1 hr
    split at hr
    · cases hr
      exact ⟨e, he, rfl⟩
    · rw [hread, ok_bind] at hr
      exact ih hy _ hr

/-- The outer loop never returns. -/
theorem Stuck.outerLoop_not_ok (hg : gr.Stuck s.ents.capacity (S.map (·.id))) (acc : Access) (fuel : Nat) {e : Entity} (he : e ∈ S)
    (r : List (Range × IterView) × Nat) : orderedOuterLoop U s acc gr.fwd fuel e.id ≠ .ok r := by
  induction fuel generalizing e r with
  | zero => intro hr; cases hr
  | succ fuel ih =>
    intro hr
    unfold orderedOuterLoop at hr
    obtain ⟨y, hy, hread⟩ := hg.read he
    rw [if_neg (hg.lt e.id (List.mem_map_of_mem he)).2] at hr
    obtain ⟨p, _, hr⟩ := bind_eq_ok.1 hr
    obtain ⟨i, _, hr⟩ := bind_eq_ok.1 hr
    obtain ⟨_, _, hr⟩ := bind_eq_ok.1 hr
    obtain ⟨_, _, hr⟩ := bind_eq_ok.1 hr
    obtain ⟨_, _, hr⟩ := bind_eq_ok.1 hr
    obtain ⟨_, _, hr⟩ := bind_eq_ok.1 hr
    split at hr
    · rw [hread, ok_bind] at hr
      exact ih hy _ hr
    · obtain ⟨_, _, hr⟩ := bind_eq_ok.1 hr
      rw [hread, ok_bind] at hr
      obtain ⟨⟨z, n⟩, hz, hr⟩ := bind_eq_ok.1 hr
      obtain ⟨z', hz', rfl⟩ := hg.rangeLoop_mem p fuel hy _ hz
      obtain ⟨r', hr', _⟩ := bind_eq_ok.1 hr
      exact ih hz' r' hr'

/-- If an archetype is recorded for every member, the inner loop does not fail. -/
theorem Stuck.rangeLoop (hg : gr.Stuck s.ents.capacity (S.map (·.id))) (hrec : ∀ e ∈ S, Recorded s e) (page : Nat) (fuel : Nat)
    {e : Entity} (he : e ∈ S) (n : Nat) :
    orderedRangeLoop s gr.fwd page fuel e.id n = .error .outOfFuel ∨
    ∃ y ∈ S, ∃ m, orderedRangeLoop s gr.fwd page fuel e.id n = .ok (y.id, m) := by
  induction fuel generalizing e n with
  | zero => exact .inl rfl
  | succ fuel ih =>
    unfold orderedRangeLoop
    obtain ⟨y, hy, hread⟩ := hg.read he
    obtain ⟨p, i, _, _, _, hpos, _⟩ := hrec e he
    rw [if_neg (hg.lt e.id (List.mem_map_of_mem he)).2, Raw.read_of_some hpos.page, Raw.read_of_some hpos.index]
    simp only [ok_bind]
    split
    · exact .inr ⟨e, he, n, rfl⟩
    · rw [hread, ok_bind]
      exact ih hy _

/-- If an archetype is recorded for every member, the outer loop goes on without end. -/
theorem Stuck.outerLoop (hg : gr.Stuck s.ents.capacity (S.map (·.id))) (h : Readable s w) (hrec : ∀ e ∈ S, Recorded s e)
    (acc : Access) (fuel : Nat) {e : Entity} (he : e ∈ S) :
    orderedOuterLoop U s acc gr.fwd fuel e.id = .error .outOfFuel := by
  induction fuel generalizing e with
  | zero => rfl
  | succ fuel ih =>
    unfold orderedOuterLoop
    obtain ⟨y, hy, hread⟩ := hg.read he
    obtain ⟨p, i, a, l, pg, hpos, hpo⟩ := hrec e he
    obtain ⟨ev1, ev2⟩ := h.even hpo
    obtain ⟨ai, h3, h4, h5, h6⟩ := id hpo
    rw [if_neg (hg.lt e.id (List.mem_map_of_mem he)).2, Raw.read_of_some hpos.page, Raw.read_of_some hpos.index]
    simp only [ok_bind, idx_of_some h3, idxUnchecked_of_some h4, idxUnchecked_of_some h5, idxUnchecked_of_some h6, hread]
    by_cases hinc : acc.included a = true
    · have hcov := (Access.included_covers (acc := acc) ev1.sorted).1 hinc
      obtain ⟨offs, go1, go2⟩ := offsets_even ev1 ev2 acc.types hcov.mem
      simp only [hinc, Bool.not_true, Bool.false_eq_true, if_false, Access.getOffsets_eq, go2, ok_bind]
      rcases hg.rangeLoop hrec p fuel hy (i + 1) with hr | ⟨z, hz, m, hr⟩
      · rw [hr]; rfl
      · rw [hr, ok_bind]
        simp only [ih hz]
        rfl
    · simp only [hinc, Bool.not_false, if_true]
      exact ih hy

end Group

theorem Orders.Holds.head {c : Orders} {g : Nat} {gr : Group} (h : c.Holds g gr) : c.getHead g = .ok (Orders.nullToNone gr.head) := by
  obtain ⟨i, hb, hi⟩ := h
  unfold Orders.getHead Orders.getGroupIndex
  simp [hb, idxUnchecked_of_some hi]

theorem Orders.Holds.next {c : Orders} {g : Nat} {gr : Group} (h : c.Holds g gr) {x y : Nat} (hx : gr.fwd[x]? = some (some y)) :
    c.getNext g x = .ok (Orders.nullToNone y) := by
  obtain ⟨i, hb, hi⟩ := h
  unfold Orders.getNext
  simp [hb, idxUnchecked_of_some hi, Raw.read_of_some hx]

namespace Core
variable {s : Store} {w : World} {o : Orders} {g : Nat} {gr : Group}

theorem mapNull (hc : Core s w) {e : Entity} (he : e ∈ w.live) (hn : e.id ≠ NULL_ID) :
    Store.mapEntity { s with orders := o } (Orders.nullToNone e.id) = .ok (some e) := by
  have : Orders.nullToNone e.id = (some e).map (·.id) := by simp [Orders.nullToNone, hn]
  rw [this]
  exact hc.mapEntity (o := some e) (fun x hx => by cases hx; exact he)

/-- The first member of a group without an end is one of the members, and no walk from a member ends. -/
theorem stuck (hc : Core s w) (hb : o.Holds g gr) {S : List Entity} (hS : ∀ e ∈ S, e ∈ w.live)
    (hg : gr.Stuck s.ents.capacity (S.map (·.id))) :
    (∃ e ∈ S, gr.head = e.id ∧ Store.getFirstOrdered { s with orders := o } g = .ok (some e)) ∧
    ∀ e ∈ S, (∃ y ∈ S, Store.getNextOrdered { s with orders := o } g e = .ok (some y)) ∧
      ∀ l, ¬ WalksForward { s with orders := o } g (some e) l := by
  have hnext : ∀ e ∈ S, ∃ y ∈ S, Store.getNextOrdered { s with orders := o } g e = .ok (some y) := by
    intro e he
    obtain ⟨y, hy, h1⟩ := hg.next e.id (List.mem_map_of_mem he)
    obtain ⟨y, hyS, rfl⟩ := List.mem_map.1 hy
    refine ⟨y, hyS, ?_⟩
    unfold Store.getNextOrdered
    simp only [hb.next h1, ok_bind]
    exact hc.mapNull (hS y hyS) (hg.lt y.id hy).2
  refine ⟨?_, fun e he => ⟨hnext e he, fun l hw => ?_⟩⟩
  · obtain ⟨e, he, h1⟩ := List.mem_map.1 hg.head
    refine ⟨e, he, h1.symm, ?_⟩
    unfold Store.getFirstOrdered
    simp only [hb.head, ok_bind, ← h1]
    exact hc.mapNull (hS e he) (hg.lt e.id (List.mem_map_of_mem he)).2
  · induction l generalizing e with
    | nil => cases hw
    | cons a l ih =>
      obtain ⟨y, hy, hn⟩ := hnext e he
      cases hw with
      | step h1 h2 =>
        rw [hn] at h1
        cases h1
        exact ih y hy h2

/-- A walk along a path. -/
theorem path (hc : Core s w) (hb : o.Holds g gr) {L : List Entity} (hL : ∀ e ∈ L, e ∈ w.live)
    (hg : gr.Path s.ents.capacity (L.map (·.id))) :
    Store.getFirstOrdered { s with orders := o } g = .ok L.head? ∧ WalksForward { s with orders := o } g L.head? L := by
  have hmap : ∀ M : List Entity, (∀ e ∈ M, e ∈ L) →
      Store.mapEntity { s with orders := o } (Orders.nullToNone ((M.map (·.id)).head?.getD NULL_ID)) = .ok M.head? := by
    intro M hM
    cases M with
    | nil => simp [Orders.nullToNone]; rfl
    | cons e M =>
      have he := hM e (by simp)
      exact hc.mapNull (hL e he) (hg.lt e.id (List.mem_map_of_mem he)).2
  constructor
  · unfold Store.getFirstOrdered
    simp only [hb.head, ok_bind, hg.head]
    exact hmap L fun _ h => h
  · have : ∀ M A, L = A ++ M → WalksForward { s with orders := o } g M.head? M := by
      intro M
      induction M with
      | nil => exact fun _ _ => .done
      | cons e M ih =>
        intro A hA
        refine .step ?_ (ih (A ++ [e]) (by simp [hA]))
        unfold Store.getNextOrdered
        simp only [hb.next (hg.next (A.map (·.id)) e.id (M.map (·.id)) (by simp [hA])), ok_bind]
        exact hmap M fun x hx => by simp [hA, hx]
    exact this L [] rfl

end Core
end Ecs
