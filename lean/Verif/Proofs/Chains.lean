import Verif.Proofs.Stray
import Verif.Spec.Chains

/-! Groups with chains beside them (`Spec/Chains.lean`): the links of a group represent several lists at once. -/

namespace Ecs
open Spec

/-! ### Several lists -/

/-- The neighbour after `y` in one of the lists. -/
def nexts (ls : List (List Nat)) (y : Nat) : Option Nat := ls.findSome? (follower · y)

/-- The neighbour before `y` in one of the lists. -/
def prevs (ls : List (List Nat)) (y : Nat) : Option Nat := ls.findSome? (preceder · y)

theorem nexts_not_mem {ls : List (List Nat)} {y : Nat} (h : y ∉ ls.flatten) : nexts ls y = none := by
  unfold nexts
  rw [List.findSome?_eq_none_iff]
  intro l hl
  exact follower_not_mem fun hy => h (List.mem_flatten.2 ⟨l, hl, hy⟩)

theorem nexts_mid (P Q : List (List Nat)) (l : List Nat) (y : Nat) :
    nexts (P ++ l :: Q) y = (nexts P y).or ((follower l y).or (nexts Q y)) := by
  unfold nexts
  rw [List.findSome?_append, List.findSome?_cons]
  cases follower l y <;> simp

theorem prevs_eq (ls : List (List Nat)) (y : Nat) : prevs ls y = nexts (ls.map List.reverse) y := by
  unfold prevs nexts
  rw [List.findSome?_map]; rfl

theorem flatten_reverse_perm (ls : List (List Nat)) : (ls.map List.reverse).flatten.Perm ls.flatten := by
  induction ls with
  | nil => exact .refl _
  | cons l ls ih => simpa using List.Perm.append l.reverse_perm ih

theorem prevs_not_mem {ls : List (List Nat)} {y : Nat} (h : y ∉ ls.flatten) : prevs ls y = none := by
  rw [prevs_eq]
  exact nexts_not_mem (by rw [(flatten_reverse_perm ls).mem_iff]; exact h)

theorem flatten_mid (P Q : List (List Nat)) (l : List Nat) : (P ++ l :: Q).flatten = P.flatten ++ (l ++ Q.flatten) := by simp

/-- In which list a member is. -/
theorem nexts_of_mem {P Q : List (List Nat)} {l : List Nat} {y : Nat} (hn : (P ++ l :: Q).flatten.Nodup) (hy : y ∈ l) :
    nexts (P ++ l :: Q) y = follower l y := by
  rw [flatten_mid] at hn
  obtain ⟨_, h2, h3⟩ := List.nodup_append.1 hn
  obtain ⟨_, _, h4⟩ := List.nodup_append.1 h2
  rw [nexts_mid, nexts_not_mem (fun h => h3 y h y (List.mem_append_left _ hy) rfl), nexts_not_mem (fun h => h4 y hy y h rfl)]
  simp

theorem prevs_of_mem {P Q : List (List Nat)} {l : List Nat} {y : Nat} (hn : (P ++ l :: Q).flatten.Nodup) (hy : y ∈ l) :
    prevs (P ++ l :: Q) y = preceder l y := by
  have h1 : ((P ++ l :: Q).map List.reverse) = P.map List.reverse ++ l.reverse :: Q.map List.reverse := by simp
  rw [prevs_eq, h1, nexts_of_mem (by rw [← h1, (flatten_reverse_perm _).nodup_iff]; exact hn) (by simpa using hy)]
  rfl

theorem nexts_insert {P Q : List (List Nat)} {A B : List Nat} {e : Nat} (hn : (P ++ (A ++ B) :: Q).flatten.Nodup)
    (he : e ∉ (P ++ (A ++ B) :: Q).flatten) (y : Nat) :
    nexts (P ++ (A ++ e :: B) :: Q) y =
      if y = e then B.head? else if A.getLast? = some y then some e else nexts (P ++ (A ++ B) :: Q) y := by
  rw [flatten_mid] at hn he
  obtain ⟨h1, h2, h3⟩ := List.nodup_append.1 hn
  obtain ⟨h4, h5, h6⟩ := List.nodup_append.1 h2
  simp only [List.mem_append, not_or] at he
  rw [nexts_mid, nexts_mid, follower_insert h4 (by simpa using he.2.1)]
  by_cases hy : y = e
  · subst hy
    rw [if_pos rfl, if_pos rfl, nexts_not_mem he.1, nexts_not_mem he.2.2]
    simp
  · rw [if_neg hy, if_neg hy]
    by_cases hA : A.getLast? = some y
    · have hyA := List.mem_of_getLast? hA
      rw [if_pos hA, if_pos hA, nexts_not_mem (fun h => h3 y h y (by simp [hyA]) rfl)]
      simp
    · rw [if_neg hA, if_neg hA]

theorem prevs_insert {P Q : List (List Nat)} {A B : List Nat} {e : Nat} (hn : (P ++ (A ++ B) :: Q).flatten.Nodup)
    (he : e ∉ (P ++ (A ++ B) :: Q).flatten) (y : Nat) :
    prevs (P ++ (A ++ e :: B) :: Q) y =
      if y = e then A.getLast? else if B.head? = some y then some e else prevs (P ++ (A ++ B) :: Q) y := by
  have h1 : (P ++ (A ++ e :: B) :: Q).map List.reverse = P.map List.reverse ++ (B.reverse ++ e :: A.reverse) :: Q.map List.reverse := by
    simp
  have h2 : (P ++ (A ++ B) :: Q).map List.reverse = P.map List.reverse ++ (B.reverse ++ A.reverse) :: Q.map List.reverse := by
    simp
  have hp := flatten_reverse_perm (P ++ (A ++ B) :: Q)
  rw [h2] at hp
  rw [prevs_eq, prevs_eq, h1, h2, nexts_insert (hp.nodup_iff.2 hn) (by rw [hp.mem_iff]; exact he)]
  simp

theorem nexts_mem {ls : List (List Nat)} {y z : Nat} (h : nexts ls y = some z) : z ∈ ls.flatten := by
  obtain ⟨l, hl, hf⟩ := List.exists_of_findSome?_eq_some h
  exact List.mem_flatten.2 ⟨l, hl, mem_of_follower hf⟩

theorem prevs_mem {ls : List (List Nat)} {y z : Nat} (h : prevs ls y = some z) : z ∈ ls.flatten := by
  obtain ⟨l, hl, hf⟩ := List.exists_of_findSome?_eq_some h
  exact List.mem_flatten.2 ⟨l, hl, mem_of_preceder hf⟩

/-- A list of at most one element has no neighbours. -/
theorem nexts_short {P Q : List (List Nat)} {l : List Nat} (hl : l.length ≤ 1) (y : Nat) :
    nexts (P ++ l :: Q) y = nexts (P ++ Q) y := by
  have : follower l y = none := by
    match l, hl with
    | [], _ => rfl
    | [a], _ => simp [follower]
  rw [nexts_mid, this]
  unfold nexts
  rw [List.findSome?_append]; simp

theorem prevs_short {P Q : List (List Nat)} {l : List Nat} (hl : l.length ≤ 1) (y : Nat) :
    prevs (P ++ l :: Q) y = prevs (P ++ Q) y := by
  rw [prevs_eq, prevs_eq, List.map_append, List.map_append, List.map_cons, nexts_short (by simpa using hl)]

/-! ### What the calls do to the links, whatever they are -/

namespace Group
variable {cap : Nat} {g : Group} {f b : Nat → Nat} {e x : Nat}

theorem add_links (hf : Links cap g.fwd f) (hb : Links cap g.bwd b) (dbg : Bool) (he : e < cap) (hh : g.head ≠ NULL_ID)
    (ht : g.tail < cap) (hfe : f e = NULL_ID) (hbe : b e = NULL_ID) :
    ∃ g', g.add dbg e = .ok g' ∧ Links cap g'.fwd (fun y => if y = g.tail then e else f y) ∧
      Links cap g'.bwd (fun y => if y = e then g.tail else b y) ∧ g'.head = g.head ∧ g'.tail = e := by
  obtain ⟨f1, hf1, hf2⟩ := hf.write ht e
  obtain ⟨b1, hb1, hb2⟩ := hb.write he g.tail
  refine ⟨{ g with fwd := f1, bwd := b1, tail := e }, ?_, hf2, hb2, rfl, rfl⟩
  unfold Group.add
  rw [if_neg hh, hf.read he, hb.read he, hfe, hbe]
  simp only [ok_bind, assertNoOrder_ok, hf1, hb1, pure_ok]

theorem addNextTo_links (hf : Links cap g.fwd f) (hb : Links cap g.bwd b) (dbg : Bool) (he : e < cap) (hx : x < cap)
    (hxe : x ≠ e) (hfe : f e = NULL_ID) (hbe : b e = NULL_ID) (hfx : f x ≠ NULL_ID → f x < cap) :
    ∃ g', g.addNextTo dbg e x = .ok g' ∧
      Links cap g'.fwd (fun y => if y = x then e else if y = e then f x else f y) ∧
      Links cap g'.bwd (fun y => if y = e then x else if f x ≠ NULL_ID ∧ y = f x then e else b y) ∧
      g'.head = g.head ∧ g'.tail = if g.tail = x then e else g.tail := by
  unfold Group.addNextTo
  rw [hf.read he, hb.read he, hfe, hbe]
  simp only [ok_bind, assertNoOrder_ok, hf.read hx]
  by_cases hz : f x = NULL_ID
  · obtain ⟨f1, hf1, hf2⟩ := hf.write hx e
    obtain ⟨b1, hb1, hb2⟩ := hb.write he x
    rw [if_neg (by simp [hz])]
    simp only [pure_ok, ok_bind, hf1, hb1]
    refine ⟨_, rfl, hf2.congr fun y _ => ?_, hb2.congr fun y _ => ?_, rfl, rfl⟩
    · by_cases h1 : y = x
      · simp [h1]
      · by_cases h2 : y = e
        · simp [h1, h2, hfe, hz]
        · simp [h1, h2]
    · simp [hz]
  · obtain ⟨b1, hb1, hb2⟩ := hb.write (hfx hz) e
    obtain ⟨f1, hf1, hf2⟩ := hf.write he (f x)
    obtain ⟨f3, hf3, hf4⟩ := hf2.write hx e
    obtain ⟨b3, hb3, hb4⟩ := hb2.write he x
    rw [if_pos hz]
    simp only [pure_ok, ok_bind, hf1, hb1, hf3, hb3]
    refine ⟨_, rfl, hf4, hb4.congr fun y _ => ?_, rfl, rfl⟩
    simp [hz]

theorem addPreviousTo_links (hf : Links cap g.fwd f) (hb : Links cap g.bwd b) (dbg : Bool) (he : e < cap) (hx : x < cap)
    (hxe : x ≠ e) (hfe : f e = NULL_ID) (hbe : b e = NULL_ID) (hbx : b x ≠ NULL_ID → b x < cap) :
    ∃ g', g.addPreviousTo dbg e x = .ok g' ∧
      Links cap g'.fwd (fun y => if y = e then x else if b x ≠ NULL_ID ∧ y = b x then e else f y) ∧
      Links cap g'.bwd (fun y => if y = x then e else if y = e then b x else b y) ∧
      g'.tail = g.tail ∧ g'.head = if g.head = x then e else g.head := by
  unfold Group.addPreviousTo
  rw [hf.read he, hb.read he, hfe, hbe]
  simp only [ok_bind, assertNoOrder_ok, hb.read hx]
  by_cases hz : b x = NULL_ID
  · obtain ⟨f1, hf1, hf2⟩ := hf.write he x
    obtain ⟨b1, hb1, hb2⟩ := hb.write hx e
    rw [if_neg (by simp [hz])]
    simp only [pure_ok, ok_bind, hf1, hb1]
    refine ⟨_, rfl, hf2.congr fun y _ => ?_, hb2.congr fun y _ => ?_, rfl, rfl⟩
    · simp [hz]
    · by_cases h1 : y = x
      · simp [h1]
      · by_cases h2 : y = e
        · simp [h1, h2, hbe, hz]
        · simp [h1, h2]
  · obtain ⟨f1, hf1, hf2⟩ := hf.write (hbx hz) e
    obtain ⟨b1, hb1, hb2⟩ := hb.write he (b x)
    obtain ⟨b3, hb3, hb4⟩ := hb2.write hx e
    obtain ⟨f3, hf3, hf4⟩ := hf2.write he x
    rw [if_pos hz]
    simp only [pure_ok, ok_bind, hf1, hb1, hf3, hb3]
    refine ⟨_, rfl, hf4.congr fun y _ => ?_, hb4, rfl, rfl⟩
    simp [hz]

theorem remove_links (hf : Links cap g.fwd f) (hb : Links cap g.bwd b) (he : e < cap)
    (hfe : f e ≠ NULL_ID → f e < cap ∧ f e ≠ e) (hbe : b e ≠ NULL_ID → b e < cap ∧ b e ≠ e) :
    ∃ g', g.remove e = .ok g' ∧
      Links cap g'.fwd (fun y => if y = e then NULL_ID else if b e ≠ NULL_ID ∧ y = b e then f e else f y) ∧
      Links cap g'.bwd (fun y => if y = e then NULL_ID else if f e ≠ NULL_ID ∧ y = f e then b e else b y) ∧
      g'.head = (if g.head = e then f e else g.head) ∧ g'.tail = if g.tail = e then b e else g.tail := by
  rw [remove_eq, hf.read he, hb.read he]
  simp only [ok_bind]
  have k1 : ∃ b1, (if f e ≠ NULL_ID then Raw.write g.bwd (f e) (b e) else pure g.bwd) = .ok b1 ∧
      Links cap b1 (fun y => if f e ≠ NULL_ID ∧ y = f e then b e else b y) := by
    by_cases hz : f e = NULL_ID
    · exact ⟨g.bwd, by rw [if_neg (by simp [hz])]; rfl, hb.congr fun y _ => by simp [hz]⟩
    · obtain ⟨b1, h1, h2⟩ := hb.write (hfe hz).1 (b e)
      exact ⟨b1, by rw [if_pos hz]; exact h1, h2.congr fun y _ => by simp [hz]⟩
  obtain ⟨b1, h1, h1'⟩ := k1
  have h2 : Raw.read b1 e = .ok (b e) := by
    rw [h1'.read he, if_neg (fun h => (hfe h.1).2 h.2.symm)]
  have k2 : ∃ f1, (if b e ≠ NULL_ID then Raw.write g.fwd (b e) (f e) else pure g.fwd) = .ok f1 ∧
      Links cap f1 (fun y => if b e ≠ NULL_ID ∧ y = b e then f e else f y) := by
    by_cases hz : b e = NULL_ID
    · exact ⟨g.fwd, by rw [if_neg (by simp [hz])]; rfl, hf.congr fun y _ => by simp [hz]⟩
    · obtain ⟨b1, h1, h2⟩ := hf.write (hbe hz).1 (f e)
      exact ⟨b1, by rw [if_pos hz]; exact h1, h2.congr fun y _ => by simp [hz]⟩
  obtain ⟨f1, h3, h3'⟩ := k2
  have h4 : Raw.read f1 e = .ok (f e) := by
    rw [h3'.read he, if_neg (fun h => (hbe h.1).2 h.2.symm)]
  obtain ⟨b2, h5, h5'⟩ := h1'.write he NULL_ID
  obtain ⟨f2, h6, h6'⟩ := h3'.write he NULL_ID
  rw [h1, ok_bind, h2, ok_bind, h3, ok_bind, h4, ok_bind, h5, ok_bind, h6, ok_bind]
  exact ⟨_, rfl, h6', h5', rfl, rfl⟩

/-! ### The links represent several lists -/

/-- The links of `g` represent the lists `ls`. -/
structure Linked (cap : Nat) (g : Group) (ls : List (List Nat)) : Prop where
  nodup : ls.flatten.Nodup
  lt : ∀ x ∈ ls.flatten, x < cap ∧ x ≠ NULL_ID
  fwd : Links cap g.fwd (fun x => (nexts ls x).getD NULL_ID)
  bwd : Links cap g.bwd (fun x => (prevs ls x).getD NULL_ID)

namespace Linked
variable {ls P Q : List (List Nat)} {l A B : List Nat}

theorem null (h : Linked cap g ls) {o : Option Nat} (ho : ∀ x, o = some x → x ∈ ls.flatten) :
    o.getD NULL_ID = NULL_ID ↔ o = none := by
  cases o with
  | none => simp
  | some x => simp [(h.lt x (ho x rfl)).2]

/-- Lists of one element are the same as none. -/
theorem short (h : Linked cap g (P ++ Q)) (hl : l.length ≤ 1) (hd : ∀ x ∈ l, x ∉ (P ++ Q).flatten ∧ x < cap ∧ x ≠ NULL_ID) :
    Linked cap g (P ++ l :: Q) := by
  refine ⟨?_, fun x hx => ?_, h.fwd.congr fun y _ => by rw [nexts_short hl], h.bwd.congr fun y _ => by rw [prevs_short hl]⟩
  · have : (P ++ l :: Q).flatten.Perm (l ++ (P ++ Q).flatten) := by
      rw [flatten_mid, List.flatten_append]
      exact List.perm_append_comm_assoc _ _ _
    rw [this.nodup_iff]
    refine List.nodup_append.2 ⟨?_, h.nodup, fun x hx y hy hxy => (hd x hx).1 (hxy ▸ hy)⟩
    match l, hl with
    | [], _ => exact List.nodup_nil
    | [a], _ => simp
  · rw [flatten_mid] at hx
    rcases List.mem_append.1 hx with hx | hx
    · exact h.lt x (by simp only [List.flatten_append]; exact List.mem_append_left _ hx)
    · rcases List.mem_append.1 hx with hx | hx
      · exact (hd x hx).2
      · exact h.lt x (by simp only [List.flatten_append]; exact List.mem_append_right _ hx)

theorem unshort (h : Linked cap g (P ++ l :: Q)) (hl : l.length ≤ 1) : Linked cap g (P ++ Q) := by
  have hs : (P ++ Q).flatten.Sublist (P ++ l :: Q).flatten := by
    rw [flatten_mid, List.flatten_append]
    exact List.Sublist.append (List.Sublist.refl _) (List.sublist_append_right _ _)
  exact ⟨h.nodup.sublist hs, fun x hx => h.lt x (hs.mem hx), h.fwd.congr fun y _ => by rw [nexts_short hl],
    h.bwd.congr fun y _ => by rw [prevs_short hl]⟩

theorem flatten_insert (P Q : List (List Nat)) (A B : List Nat) (e : Nat) :
    (P ++ (A ++ e :: B) :: Q).flatten.Perm (e :: (P ++ (A ++ B) :: Q).flatten) := by
  rw [flatten_mid, flatten_mid]
  have h1 : (A ++ e :: B) ++ Q.flatten = A ++ e :: (B ++ Q.flatten) := by simp
  have h2 : (A ++ B) ++ Q.flatten = A ++ (B ++ Q.flatten) := by simp
  rw [h1, h2]
  exact (List.Perm.append_left _ List.perm_middle).trans List.perm_middle

/-- One more element in one of the lists. -/
theorem insert {g' : Group} (h : Linked cap g (P ++ (A ++ B) :: Q)) (he : e ∉ (P ++ (A ++ B) :: Q).flatten) (hc : e < cap)
    (hn : e ≠ NULL_ID)
    (h1 : Links cap g'.fwd (fun y => if y = e then B.head?.getD NULL_ID else if A.getLast? = some y then e
      else (nexts (P ++ (A ++ B) :: Q) y).getD NULL_ID))
    (h2 : Links cap g'.bwd (fun y => if y = e then A.getLast?.getD NULL_ID else if B.head? = some y then e
      else (prevs (P ++ (A ++ B) :: Q) y).getD NULL_ID)) :
    Linked cap g' (P ++ (A ++ e :: B) :: Q) := by
  have hp := flatten_insert P Q A B e
  refine ⟨hp.nodup_iff.2 (List.nodup_cons.2 ⟨he, h.nodup⟩), fun x hx => ?_, h1.congr fun y _ => ?_, h2.congr fun y _ => ?_⟩
  · rcases List.mem_cons.1 (hp.mem_iff.1 hx) with rfl | hx
    · exact ⟨hc, hn⟩
    · exact h.lt x hx
  · rw [nexts_insert h.nodup he]
    split
    · rfl
    · split <;> rfl
  · rw [prevs_insert h.nodup he]
    split
    · rfl
    · split <;> rfl

theorem read_next (h : Linked cap g (P ++ l :: Q)) {y : Nat} (hy : y ∈ l) : nexts (P ++ l :: Q) y = follower l y :=
  nexts_of_mem h.nodup hy

theorem mem_mid {y : Nat} (hy : y ∈ l) : y ∈ (P ++ l :: Q).flatten := by
  rw [flatten_mid]; exact List.mem_append_right _ (List.mem_append_left _ hy)

theorem last_follower (hn : (A ++ B).Nodup) (hx : A.getLast? = some x) : follower (A ++ B) x = B.head? := by
  have hxA := List.mem_of_getLast? hx
  rw [follower_append, if_pos hxA, (follower_getLast (List.nodup_append.1 hn).1 hxA).2 hx]; rfl

theorem first_preceder (hn : (A ++ B).Nodup) (hx : B.head? = some x) : preceder (A ++ B) x = A.getLast? := by
  unfold preceder
  rw [List.reverse_append, last_follower (by rw [← List.reverse_append]; exact List.nodup_reverse.2 hn) (by simpa using hx)]
  simp

theorem mid_nodup (h : Linked cap g (P ++ l :: Q)) : l.Nodup := by
  have := h.nodup
  rw [flatten_mid] at this
  exact (List.nodup_append.1 (List.nodup_append.1 this).2.1).1

/-- `add_entity_next_to_order_by`. -/
theorem addNextTo (h : Linked cap g (P ++ l :: Q)) (dbg : Bool) (hc : e < cap) (hn : e ≠ NULL_ID)
    (he : e ∉ (P ++ l :: Q).flatten) (hx : x ∈ l) :
    ∃ g', g.addNextTo dbg e x = .ok g' ∧ Linked cap g' (P ++ insertAfter x e l :: Q) ∧ g'.head = g.head ∧
      g'.tail = if g.tail = x then e else g.tail := by
  obtain ⟨A, B, rfl, hA, hI⟩ := insertAfter_split (y := e) hx
  rw [hI]
  have hxm := mem_mid (P := P) (Q := Q) hx
  have hxe : x ≠ e := fun h' => he (h' ▸ hxm)
  have hfx : nexts (P ++ (A ++ B) :: Q) x = B.head? := by rw [h.read_next hx, last_follower h.mid_nodup hA]
  have hB : ∀ z, B.head? = some z → z ∈ (P ++ (A ++ B) :: Q).flatten := fun z hz =>
    mem_mid (List.mem_append_right _ (List.mem_of_mem_head? hz))
  obtain ⟨g', r, h1, h2, h3, h4⟩ := addNextTo_links h.fwd h.bwd dbg hc (h.lt x hxm).1 hxe (by rw [nexts_not_mem he]; rfl)
    (by rw [prevs_not_mem he]; rfl) (by
      rw [hfx]
      intro hz
      cases hb : B.head? with
      | none => rw [hb] at hz; exact absurd rfl hz
      | some z => exact (h.lt z (hB z hb)).1)
  refine ⟨g', r, h.insert he hc hn (h1.congr fun y _ => ?_) (h2.congr fun y _ => ?_), h3, h4⟩
  · rw [hfx, hA]
    by_cases hy : y = e
    · subst hy; rw [if_pos rfl, if_pos rfl, if_neg (fun h' => hxe h'.symm)]
    · rw [if_neg hy, if_neg hy]
      by_cases hyx : y = x
      · simp [hyx]
      · rw [if_neg hyx, if_neg (by simpa using fun h' : x = y => hyx h'.symm)]
  · rw [hfx, hA]
    by_cases hy : y = e
    · simp [hy]
    · rw [if_neg hy, if_neg hy]
      cases hb : B.head? with
      | none => simp
      | some z =>
        have := (h.lt z (hB z hb)).2
        by_cases hyz : y = z
        · subst hyz; simp [this]
        · have hzy : ¬ z = y := fun h' => hyz h'.symm
          simp [hyz, hzy]

/-- `add_entity_previous_to_order_by`. -/
theorem addPreviousTo (h : Linked cap g (P ++ l :: Q)) (dbg : Bool) (hc : e < cap) (hn : e ≠ NULL_ID)
    (he : e ∉ (P ++ l :: Q).flatten) (hx : x ∈ l) :
    ∃ g', g.addPreviousTo dbg e x = .ok g' ∧ Linked cap g' (P ++ insertBefore x e l :: Q) ∧ g'.tail = g.tail ∧
      g'.head = if g.head = x then e else g.head := by
  obtain ⟨A, B, rfl, hA, hI⟩ := insertBefore_split (y := e) hx
  rw [hI]
  have hxm := mem_mid (P := P) (Q := Q) hx
  have hxe : x ≠ e := fun h' => he (h' ▸ hxm)
  have hbx : prevs (P ++ (A ++ B) :: Q) x = A.getLast? := by
    rw [prevs_of_mem h.nodup hx, first_preceder h.mid_nodup hA]
  have hB : ∀ z, A.getLast? = some z → z ∈ (P ++ (A ++ B) :: Q).flatten := fun z hz =>
    mem_mid (List.mem_append_left _ (List.mem_of_getLast? hz))
  obtain ⟨g', r, h1, h2, h3, h4⟩ := addPreviousTo_links h.fwd h.bwd dbg hc (h.lt x hxm).1 hxe (by rw [nexts_not_mem he]; rfl)
    (by rw [prevs_not_mem he]; rfl) (by
      rw [hbx]
      intro hz
      cases hb : A.getLast? with
      | none => rw [hb] at hz; exact absurd rfl hz
      | some z => exact (h.lt z (hB z hb)).1)
  refine ⟨g', r, h.insert he hc hn (h1.congr fun y _ => ?_) (h2.congr fun y _ => ?_), h3, h4⟩
  · rw [hbx, hA]
    by_cases hy : y = e
    · simp [hy]
    · rw [if_neg hy, if_neg hy]
      cases hb : A.getLast? with
      | none => simp
      | some z =>
        have := (h.lt z (hB z hb)).2
        by_cases hyz : y = z
        · subst hyz; simp [this]
        · have hzy : ¬ z = y := fun h' => hyz h'.symm
          simp [hyz, hzy]
  · rw [hbx, hA]
    by_cases hy : y = e
    · subst hy; rw [if_pos rfl, if_pos rfl, if_neg (fun h' => hxe h'.symm)]
    · rw [if_neg hy, if_neg hy]
      by_cases hyx : y = x
      · simp [hyx]
      · rw [if_neg hyx, if_neg (by simpa using fun h' : x = y => hyx h'.symm)]

/-- `add_entity_order_by`, for a group that is not empty. -/
theorem add (h : Linked cap g (P ++ l :: Q)) (dbg : Bool) (hc : e < cap) (hn : e ≠ NULL_ID)
    (he : e ∉ (P ++ l :: Q).flatten) (hh : g.head ≠ NULL_ID) (ht : l.getLast? = some g.tail) :
    ∃ g', g.add dbg e = .ok g' ∧ Linked cap g' (P ++ (l ++ [e]) :: Q) ∧ g'.head = g.head ∧ g'.tail = e := by
  have htm := mem_mid (P := P) (Q := Q) (List.mem_of_getLast? ht)
  have hte : g.tail ≠ e := fun h' => he (h' ▸ htm)
  obtain ⟨g', r, h1, h2, h3, h4⟩ := add_links h.fwd h.bwd dbg hc hh (h.lt _ htm).1 (by rw [nexts_not_mem he]; rfl)
    (by rw [prevs_not_mem he]; rfl)
  have h0 : Linked cap g (P ++ (l ++ []) :: Q) := by simpa using h
  refine ⟨g', r, h0.insert (by simpa using he) hc hn (h1.congr fun y _ => ?_) (h2.congr fun y _ => ?_), h3, h4⟩
  · simp only [List.append_nil, List.head?_nil, Option.getD_none, ht]
    by_cases hy : y = e
    · subst hy
      rw [if_neg (fun h' => hte h'.symm), if_pos rfl, nexts_not_mem he]; rfl
    · rw [if_neg hy]
      by_cases hyt : y = g.tail
      · rw [if_pos hyt, if_pos (by rw [hyt])]
      · rw [if_neg hyt, if_neg (by simpa using fun h' : g.tail = y => hyt h'.symm)]
  · simp only [List.append_nil, List.head?_nil, ht]
    by_cases hy : y = e
    · simp [hy]
    · simp [hy]

/-- `remove_entity_order_by`, for an element of one of the lists. -/
theorem remove (h : Linked cap g (P ++ l :: Q)) (he : e ∈ l) :
    ∃ g', g.remove e = .ok g' ∧ Linked cap g' (P ++ l.erase e :: Q) ∧
      g'.head = (if g.head = e then (follower l e).getD NULL_ID else g.head) ∧
      g'.tail = if g.tail = e then (preceder l e).getD NULL_ID else g.tail := by
  have hem := mem_mid (P := P) (Q := Q) he
  have hf := h.read_next he
  have hb := prevs_of_mem (P := P) (Q := Q) h.nodup he
  have hnd := h.mid_nodup
  obtain ⟨A, B, rfl⟩ := List.append_of_mem he
  obtain ⟨hAB, hne⟩ := nodup_middle.1 hnd
  have hne' := hne
  rw [List.mem_append, not_or] at hne'
  have herase : (A ++ e :: B).erase e = A ++ B := by
    rw [List.erase_append_right _ hne'.1]; simp
  have hp := flatten_insert P Q A B e
  have hnd2 := List.nodup_cons.1 (hp.nodup_iff.1 h.nodup)
  have hfB : follower (A ++ e :: B) e = B.head? := by rw [follower_insert hAB hne, if_pos rfl]
  have hbA : preceder (A ++ e :: B) e = A.getLast? := by rw [preceder_insert hAB hne, if_pos rfl]
  have hAmem : ∀ z, A.getLast? = some z → z ∈ A := fun z hz => List.mem_of_getLast? hz
  have hBmem : ∀ z, B.head? = some z → z ∈ B := fun z hz => List.mem_of_mem_head? hz
  have hlt : ∀ z ∈ A ++ B, z < cap ∧ z ≠ NULL_ID := fun z hz =>
    h.lt z (mem_mid (List.perm_middle.mem_iff.2 (List.mem_cons_of_mem _ hz)))
  have hnx : (nexts (P ++ (A ++ e :: B) :: Q) e) = B.head? := by rw [hf, hfB]
  have hpx : (prevs (P ++ (A ++ e :: B) :: Q) e) = A.getLast? := by rw [hb, hbA]
  obtain ⟨g', r, h1, h2, h3, h4⟩ := remove_links h.fwd h.bwd (h.lt e hem).1
    (by
      rw [hnx]
      cases hB : B.head? with
      | none => exact fun hz => absurd rfl hz
      | some z => exact fun _ => ⟨(hlt z (List.mem_append_right _ (hBmem z hB))).1, fun hze => hne'.2 (hze ▸ hBmem z hB)⟩)
    (by
      rw [hpx]
      cases hB : A.getLast? with
      | none => exact fun hz => absurd rfl hz
      | some z => exact fun _ => ⟨(hlt z (List.mem_append_left _ (hAmem z hB))).1, fun hze => hne'.1 (hze ▸ hAmem z hB)⟩)
  rw [herase, hfB, hbA]
  refine ⟨g', r, ⟨hnd2.2, fun x hx => h.lt x (hp.mem_iff.2 (List.mem_cons_of_mem _ hx)), h1.congr fun y _ => ?_,
    h2.congr fun y _ => ?_⟩, by rw [h3, hnx], by rw [h4, hpx]⟩
  · rw [hnx, hpx]
    by_cases hy : y = e
    · subst hy; rw [if_pos rfl, nexts_not_mem hnd2.1]; rfl
    · rw [if_neg hy, nexts_insert hnd2.2 hnd2.1, if_neg hy]
      cases hA : A.getLast? with
      | none => simp
      | some z =>
        have hz := (hlt z (List.mem_append_left _ (hAmem z hA))).2
        by_cases hyz : y = z
        · subst hyz
          rw [if_pos ⟨hz, rfl⟩, nexts_of_mem hnd2.2 (List.mem_append_left _ (hAmem y hA)), last_follower hAB hA]
        · have hzy : ¬ z = y := fun h' => hyz h'.symm
          simp [hyz, hzy]
  · rw [hnx, hpx]
    by_cases hy : y = e
    · subst hy; rw [if_pos rfl, prevs_not_mem hnd2.1]; rfl
    · rw [if_neg hy, prevs_insert hnd2.2 hnd2.1, if_neg hy]
      cases hB : B.head? with
      | none => simp
      | some z =>
        have hz := (hlt z (List.mem_append_right _ (hBmem z hB))).2
        by_cases hyz : y = z
        · subst hyz
          rw [if_pos ⟨hz, rfl⟩, prevs_of_mem hnd2.2 (List.mem_append_right _ (hBmem y hB)), first_preceder hAB hB]
        · have hzy : ¬ z = y := fun h' => hyz h'.symm
          simp [hyz, hzy]

/-- `remove_entity_order_by` of an entity that has no place. -/
theorem remove_none (h : Linked cap g ls) (hc : e < cap) (he : e ∉ ls.flatten) (h1 : g.head ≠ e) (h2 : g.tail ≠ e) :
    ∃ g', g.remove e = .ok g' ∧ Linked cap g' ls ∧ g'.head = g.head ∧ g'.tail = g.tail := by
  have hf : (nexts ls e).getD NULL_ID = NULL_ID := by rw [nexts_not_mem he]; rfl
  have hb : (prevs ls e).getD NULL_ID = NULL_ID := by rw [prevs_not_mem he]; rfl
  obtain ⟨g', r, k1, k2, k3, k4⟩ := remove_links h.fwd h.bwd hc (fun hz => absurd hf hz) (fun hz => absurd hb hz)
  refine ⟨g', r, ⟨h.nodup, h.lt, k1.congr fun y _ => ?_, k2.congr fun y _ => ?_⟩, by rw [k3, if_neg h1],
    by rw [k4, if_neg h2]⟩
  · rw [hb]
    by_cases hy : y = e
    · subst hy; rw [if_pos rfl, hf]
    · simp [hy]
  · rw [hf]
    by_cases hy : y = e
    · subst hy; rw [if_pos rfl, hb]
    · simp [hy]

theorem grow (h : Linked cap g ls) {n : Nat} (hn : cap ≤ n) :
    ∃ g', g.grow cap n = .ok g' ∧ Linked n g' ls ∧ g'.head = g.head ∧ g'.tail = g.tail := by
  have hnl : ∀ x, cap ≤ x → x ∉ ls.flatten := fun x hx hm => by have := (h.lt x hm).1; omega
  obtain ⟨b, hb, hb'⟩ := h.bwd.grow hn (fun x hx => by simp [prevs_not_mem (hnl x hx)])
  obtain ⟨f, hf, hf'⟩ := h.fwd.grow hn (fun x hx => by simp [nexts_not_mem (hnl x hx)])
  refine ⟨{ g with fwd := f, bwd := b }, ?_, ⟨h.nodup, fun x hx => ⟨?_, (h.lt x hx).2⟩, hf', hb'⟩, rfl, rfl⟩
  · unfold Group.grow; simp [hb, hf]
  · have := (h.lt x hx).1; omega

end Linked
end Group
end Ecs
