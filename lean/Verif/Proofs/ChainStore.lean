import Verif.Proofs.Chains
import Verif.Proofs.Unchecked

/-! Groups with chains beside them along executions. -/

namespace Ecs
open Spec

/-! ### One group -/

namespace Spec.Chains

theorem insertAfter_not_mem {x e : Nat} {l : List Nat} (h : x ∉ l) : insertAfter x e l = l := by
  induction l with
  | nil => rfl
  | cons a l ih =>
    simp only [List.mem_cons, not_or] at h
    unfold insertAfter
    rw [if_neg (fun hh => h.1 hh.symm), ih h.2]

theorem insertBefore_not_mem {x e : Nat} {l : List Nat} (h : x ∉ l) : insertBefore x e l = l := by
  induction l with
  | nil => rfl
  | cons a l ih =>
    simp only [List.mem_cons, not_or] at h
    unfold insertBefore
    rw [if_neg (fun hh => h.1 hh.symm), ih h.2]

theorem flatten_cons (c : Chains) : (c.seq :: c.side).flatten = c.placed := rfl

/-- Applying to all lists what changes only the one in which `x` is. -/
theorem map_split {side P Q : List (List Nat)} {l : List Nat} {x : Nat} {F : List Nat → List Nat} (hs : side = P ++ l :: Q)
    (hx : x ∈ l) (hn : side.flatten.Nodup) (hF : ∀ m, x ∉ m → F m = m) : side.map F = P ++ F l :: Q := by
  subst hs
  rw [flatten_mid] at hn
  obtain ⟨_, h2, h3⟩ := List.nodup_append.1 hn
  obtain ⟨_, _, h4⟩ := List.nodup_append.1 h2
  have h5 : ∀ L : List (List Nat), x ∉ L.flatten → L.map F = L := by
    intro L hL
    conv_rhs => rw [← List.map_id L]
    apply List.map_congr_left
    intro m hm
    exact hF m fun hxm => hL (List.mem_flatten.2 ⟨m, hm, hxm⟩)
  rw [List.map_append, List.map_cons, h5 P (fun h => h3 x h x (List.mem_append_left _ hx) rfl), h5 Q (fun h => h4 x hx x h rfl)]

theorem split_of_mem {side : List (List Nat)} {x : Nat} (h : x ∈ side.flatten) :
    ∃ P l Q, side = P ++ l :: Q ∧ x ∈ l := by
  obtain ⟨l, hl, hx⟩ := List.mem_flatten.1 h
  obtain ⟨P, Q, h⟩ := List.append_of_mem hl
  exact ⟨P, l, Q, h, hx⟩

theorem mem_putAfter {x e i : Nat} {c : Chains} (h : i ∈ (c.putAfter x e).placed) : i = e ∨ i = x ∨ i ∈ c.placed := by
  unfold putAfter at h
  split at h
  · simp only [placed, List.mem_append] at h ⊢
    rcases h with h | h
    · rcases mem_insertAfter_iff h with h | h <;> tauto
    · tauto
  · split at h
    · simp only [placed, List.mem_append] at h ⊢
      rcases h with h | h
      · tauto
      · obtain ⟨l, hl, hi⟩ := List.mem_flatten.1 h
        obtain ⟨m, hm, rfl⟩ := List.mem_map.1 hl
        rcases mem_insertAfter_iff hi with h | h
        · tauto
        · exact .inr (.inr (.inr (List.mem_flatten.2 ⟨m, hm, h⟩)))
    · simp only [placed, List.mem_append, List.flatten_cons, List.mem_cons] at h ⊢
      simp only [List.not_mem_nil, or_false] at h
      tauto

theorem mem_putBefore {x e i : Nat} {c : Chains} (h : i ∈ (c.putBefore x e).placed) : i = e ∨ i = x ∨ i ∈ c.placed := by
  unfold putBefore at h
  split at h
  · simp only [placed, List.mem_append] at h ⊢
    rcases h with h | h
    · rcases mem_insertBefore_iff h with h | h <;> tauto
    · tauto
  · split at h
    · simp only [placed, List.mem_append] at h ⊢
      rcases h with h | h
      · tauto
      · obtain ⟨l, hl, hi⟩ := List.mem_flatten.1 h
        obtain ⟨m, hm, rfl⟩ := List.mem_map.1 hl
        rcases mem_insertBefore_iff hi with h | h
        · tauto
        · exact .inr (.inr (.inr (List.mem_flatten.2 ⟨m, hm, h⟩)))
    · simp only [placed, List.mem_append, List.flatten_cons, List.mem_cons] at h ⊢
      simp only [List.not_mem_nil, or_false] at h
      tauto

theorem mem_remove {e i : Nat} {c : Chains} (h : i ∈ (c.remove e).placed) : i ∈ c.placed := by
  unfold remove at h
  simp only [placed, List.mem_append] at h ⊢
  rcases h with h | h
  · exact .inl (List.mem_of_mem_erase h)
  · obtain ⟨l, hl, hi⟩ := List.mem_flatten.1 h
    obtain ⟨m, hm, rfl⟩ := List.mem_map.1 (List.mem_filter.1 hl).1
    exact .inr (List.mem_flatten.2 ⟨m, hm, List.mem_of_mem_erase hi⟩)

end Spec.Chains

theorem length_insertAfter {α : Type} [DecidableEq α] (x y : α) (l : List α) : l.length ≤ (insertAfter x y l).length := by
  induction l with
  | nil => simp
  | cons a l ih =>
    unfold insertAfter
    split <;> simp only [List.length_cons] <;> omega

theorem length_insertBefore {α : Type} [DecidableEq α] (x y : α) (l : List α) : l.length ≤ (insertBefore x y l).length := by
  induction l with
  | nil => simp
  | cons a l ih =>
    unfold insertBefore
    split <;> simp only [List.length_cons] <;> omega

namespace Group
variable {cap : Nat} {g : Group} {c : Chains} {e x : Nat}

/-- The group represents a sequence and the chains beside it. -/
structure Chain (cap : Nat) (g : Group) (c : Chains) : Prop where
  linked : Linked cap g (c.seq :: c.side)
  head : g.head = c.seq.head?.getD NULL_ID
  tail : g.tail = c.seq.getLast?.getD NULL_ID
  long : ∀ l ∈ c.side, 2 ≤ l.length

namespace Chain

theorem new (cap : Nat) : Chain cap (Group.new cap) ⟨[], []⟩ where
  linked := ⟨List.nodup_nil, fun x hx => (by cases hx), (Rep.new cap).fwd, (Rep.new cap).bwd⟩
  head := rfl
  tail := rfl
  long := fun l hl => (by cases hl)

theorem nodup (h : Chain cap g c) : c.placed.Nodup := h.linked.nodup

theorem side_nodup (h : Chain cap g c) : c.side.flatten.Nodup := (List.nodup_append.1 h.nodup).2.1

theorem lt (h : Chain cap g c) : ∀ x ∈ c.placed, x < cap ∧ x ≠ NULL_ID := h.linked.lt

theorem seq_nodup (h : Chain cap g c) : c.seq.Nodup := (List.nodup_append.1 h.nodup).1

theorem tail_ne (h : Chain cap g c) {y : Nat} (hy : y ∉ c.seq) (hn : y ≠ NULL_ID) : g.tail ≠ y := by
  rw [h.tail]
  cases ht : c.seq.getLast? with
  | none => exact fun hh => hn hh.symm
  | some z => exact fun hh => hy (hh ▸ List.mem_of_getLast? ht)

theorem head_ne (h : Chain cap g c) {y : Nat} (hy : y ∉ c.seq) (hn : y ≠ NULL_ID) : g.head ≠ y := by
  rw [h.head]
  cases ht : c.seq.head? with
  | none => exact fun hh => hn hh.symm
  | some z => exact fun hh => hy (hh ▸ List.mem_of_mem_head? ht)

theorem add (h : Chain cap g c) (dbg : Bool) (he : e < cap) (hn : e ≠ NULL_ID) (hl : e ∉ c.placed) :
    ∃ g', g.add dbg e = .ok g' ∧ Chain cap g' (c.append e) := by
  obtain ⟨seq, side⟩ := c
  cases seq with
  | nil =>
    have hh : g.head = NULL_ID := h.head
    refine ⟨{ g with head := e, tail := e }, by unfold Group.add; rw [if_pos hh]; rfl, ?_, rfl, rfl, h.long⟩
    have h1 : Linked cap g ([] ++ side) := h.linked.unshort (P := []) (by simp)
    have h2 := h1.short (l := [e]) (by simp) (fun y hy => by
      rw [List.mem_singleton.1 hy]; exact ⟨hl, he, hn⟩)
    exact ⟨h2.nodup, h2.lt, h2.fwd, h2.bwd⟩
  | cons a l =>
    have hh : g.head ≠ NULL_ID := by
      rw [h.head]; exact (h.lt a List.mem_cons_self).2
    have ht : (a :: l).getLast? = some g.tail := by
      rw [h.tail]
      cases hg : (a :: l).getLast? with
      | none => simp at hg
      | some z => rfl
    obtain ⟨g', r, h1, h2, h3⟩ := Linked.add (P := []) h.linked dbg he hn hl hh ht
    refine ⟨g', r, h1, ?_, ?_, h.long⟩
    · rw [h2, h.head]; rfl
    · rw [h3]
      have : (a :: l ++ [e]).getLast? = some e := List.getLast?_concat
      dsimp only [Chains.append]
      rw [this]; rfl

theorem last_insertAfter {l : List Nat} (hx : x ∈ l) (hn : l.Nodup) :
    (insertAfter x e l).getLast? = if l.getLast? = some x then some e else l.getLast? := by
  obtain ⟨A, B, rfl, hA, hI⟩ := insertAfter_split (y := e) hx
  rw [hI]
  cases B with
  | nil => simp [hA]
  | cons b B =>
    have : (A ++ b :: B).getLast? ≠ some x := by
      rw [List.getLast?_append_of_ne_nil _ (by simp)]
      intro hh
      exact (List.nodup_append.1 hn).2.2 x (List.mem_of_getLast? hA) x (List.mem_of_getLast? hh) rfl
    rw [if_neg this, List.getLast?_append_of_ne_nil _ (by simp), List.getLast?_append_of_ne_nil _ (by simp)]
    simp [List.getLast?_cons_cons]

theorem head_insertAfter {l : List Nat} (hx : x ∈ l) : (insertAfter x e l).head? = l.head? := by
  obtain ⟨A, B, rfl, hA, hI⟩ := insertAfter_split (y := e) hx
  rw [hI]
  cases A with
  | nil => cases hA
  | cons a A => rfl

theorem head_insertBefore {l : List Nat} (hx : x ∈ l) (hn : l.Nodup) :
    (insertBefore x e l).head? = if l.head? = some x then some e else l.head? := by
  obtain ⟨A, B, rfl, hA, hI⟩ := insertBefore_split (y := e) hx
  rw [hI]
  cases A with
  | nil => simp [hA]
  | cons a A =>
    have : a ≠ x := fun hh => (List.nodup_append.1 hn).2.2 a (by simp) x (List.mem_of_mem_head? hA) hh
    simp [this]

theorem last_insertBefore {l : List Nat} (hx : x ∈ l) : (insertBefore x e l).getLast? = l.getLast? := by
  obtain ⟨A, B, rfl, hA, hI⟩ := insertBefore_split (y := e) hx
  rw [hI]
  cases B with
  | nil => cases hA
  | cons b B =>
    rw [List.getLast?_append_of_ne_nil _ (by simp), List.getLast?_append_of_ne_nil _ (by simp)]
    simp [List.getLast?_cons_cons]

theorem getD_eq_iff (h : Chain cap g c) {o : Option Nat} (ho : ∀ y, o = some y → y ∈ c.seq) (hx : x ∈ c.placed) :
    o.getD NULL_ID = x ↔ o = some x := by
  cases o with
  | none => simp only [Option.getD_none, reduceCtorEq, iff_false]; exact fun hh => (h.lt x hx).2 hh.symm
  | some y => simp

theorem addNextTo (h : Chain cap g c) (dbg : Bool) (he : e < cap) (hn : e ≠ NULL_ID) (hl : e ∉ c.placed) (hx : x < cap)
    (hxn : x ≠ NULL_ID) (hxe : x ≠ e) : ∃ g', g.addNextTo dbg e x = .ok g' ∧ Chain cap g' (c.putAfter x e) := by
  unfold Chains.putAfter
  by_cases h1 : x ∈ c.seq
  · rw [if_pos h1]
    obtain ⟨g', r, k1, k2, k3⟩ := Linked.addNextTo (P := []) h.linked dbg he hn hl h1
    refine ⟨g', r, k1, ?_, ?_, h.long⟩
    · rw [k2, h.head]; dsimp only; rw [head_insertAfter h1]
    · rw [k3, h.tail]
      dsimp only
      rw [last_insertAfter h1 h.seq_nodup]
      by_cases hz : c.seq.getLast? = some x
      · rw [if_pos ((h.getD_eq_iff (fun y hy => List.mem_of_getLast? hy) (List.mem_append_left _ h1)).2 hz), if_pos hz]; rfl
      · rw [if_neg (fun hh => hz ((h.getD_eq_iff (fun y hy => List.mem_of_getLast? hy) (List.mem_append_left _ h1)).1 hh)),
          if_neg hz]
  · rw [if_neg h1]
    by_cases h2 : x ∈ c.side.flatten
    · rw [if_pos h2]
      obtain ⟨P, l, Q, hs, hxl⟩ := Chains.split_of_mem h2
      have hlk : Linked cap g ((c.seq :: P) ++ l :: Q) := by have := h.linked; rw [hs] at this; exact this
      obtain ⟨g', r, k1, k2, k3⟩ := Linked.addNextTo hlk dbg he hn (by
        intro hm; apply hl; unfold Chains.placed; rw [hs]; simpa using hm) hxl
      have hmap : c.side.map (insertAfter x e) = P ++ insertAfter x e l :: Q :=
        Chains.map_split hs hxl h.side_nodup fun m hm => Chains.insertAfter_not_mem hm
      refine ⟨g', r, by dsimp only; rw [hmap]; exact k1, by rw [k2, h.head], ?_, ?_⟩
      · rw [k3, if_neg (h.tail_ne h1 hxn), h.tail]
      · intro m hm
        obtain ⟨m', hm', rfl⟩ := List.mem_map.1 hm
        exact Nat.le_trans (h.long m' hm') (length_insertAfter x e m')
    · rw [if_neg h2]
      have hxp : x ∉ c.placed := fun hm => (List.mem_append.1 hm).elim h1 h2
      have hlk : Linked cap g ([c.seq] ++ [x] :: c.side) := Linked.short (P := [c.seq]) h.linked (by simp) (fun y hy => by
        rw [List.mem_singleton.1 hy]; exact ⟨hxp, hx, hxn⟩)
      obtain ⟨g', r, k1, k2, k3⟩ := Linked.addNextTo hlk dbg he hn (by
        intro hm
        apply hl
        have hm' : e ∈ c.seq ∨ e = x ∨ e ∈ c.side.flatten := by simpa using hm
        rcases hm' with k | k | k
        · exact List.mem_append_left _ k
        · exact absurd k.symm hxe
        · exact List.mem_append_right _ k) (List.mem_singleton.2 rfl)
      have : insertAfter x e [x] = [x, e] := by simp [insertAfter]
      rw [this] at k1
      refine ⟨g', r, k1, by rw [k2, h.head], ?_, ?_⟩
      · rw [k3, if_neg (h.tail_ne h1 hxn), h.tail]
      · intro m hm
        rcases List.mem_cons.1 hm with rfl | hm
        · simp
        · exact h.long m hm

theorem addPreviousTo (h : Chain cap g c) (dbg : Bool) (he : e < cap) (hn : e ≠ NULL_ID) (hl : e ∉ c.placed) (hx : x < cap)
    (hxn : x ≠ NULL_ID) (hxe : x ≠ e) : ∃ g', g.addPreviousTo dbg e x = .ok g' ∧ Chain cap g' (c.putBefore x e) := by
  unfold Chains.putBefore
  by_cases h1 : x ∈ c.seq
  · rw [if_pos h1]
    obtain ⟨g', r, k1, k2, k3⟩ := Linked.addPreviousTo (P := []) h.linked dbg he hn hl h1
    refine ⟨g', r, k1, ?_, ?_, h.long⟩
    · rw [k3, h.head]
      dsimp only
      rw [head_insertBefore h1 h.seq_nodup]
      by_cases hz : c.seq.head? = some x
      · rw [if_pos ((h.getD_eq_iff (fun y hy => List.mem_of_mem_head? hy) (List.mem_append_left _ h1)).2 hz), if_pos hz]; rfl
      · rw [if_neg (fun hh => hz ((h.getD_eq_iff (fun y hy => List.mem_of_mem_head? hy) (List.mem_append_left _ h1)).1 hh)),
          if_neg hz]
    · rw [k2, h.tail]; dsimp only; rw [last_insertBefore h1]
  · rw [if_neg h1]
    by_cases h2 : x ∈ c.side.flatten
    · rw [if_pos h2]
      obtain ⟨P, l, Q, hs, hxl⟩ := Chains.split_of_mem h2
      have hlk : Linked cap g ((c.seq :: P) ++ l :: Q) := by have := h.linked; rw [hs] at this; exact this
      obtain ⟨g', r, k1, k2, k3⟩ := Linked.addPreviousTo hlk dbg he hn (by
        intro hm; apply hl; unfold Chains.placed; rw [hs]; simpa using hm) hxl
      have hmap : c.side.map (insertBefore x e) = P ++ insertBefore x e l :: Q :=
        Chains.map_split hs hxl h.side_nodup fun m hm => Chains.insertBefore_not_mem hm
      refine ⟨g', r, by dsimp only; rw [hmap]; exact k1, ?_, by rw [k2, h.tail], ?_⟩
      · rw [k3, if_neg (h.head_ne h1 hxn), h.head]
      · intro m hm
        obtain ⟨m', hm', rfl⟩ := List.mem_map.1 hm
        exact Nat.le_trans (h.long m' hm') (length_insertBefore x e m')
    · rw [if_neg h2]
      have hxp : x ∉ c.placed := fun hm => (List.mem_append.1 hm).elim h1 h2
      have hlk : Linked cap g ([c.seq] ++ [x] :: c.side) := Linked.short (P := [c.seq]) h.linked (by simp) (fun y hy => by
        rw [List.mem_singleton.1 hy]; exact ⟨hxp, hx, hxn⟩)
      obtain ⟨g', r, k1, k2, k3⟩ := Linked.addPreviousTo hlk dbg he hn (by
        intro hm
        apply hl
        have hm' : e ∈ c.seq ∨ e = x ∨ e ∈ c.side.flatten := by simpa using hm
        rcases hm' with k | k | k
        · exact List.mem_append_left _ k
        · exact absurd k.symm hxe
        · exact List.mem_append_right _ k) (List.mem_singleton.2 rfl)
      have : insertBefore x e [x] = [e, x] := by simp [insertBefore]
      rw [this] at k1
      refine ⟨g', r, k1, ?_, by rw [k2, h.tail], ?_⟩
      · rw [k3, if_neg (h.head_ne h1 hxn), h.head]
      · intro m hm
        rcases List.mem_cons.1 hm with rfl | hm
        · simp
        · exact h.long m hm

theorem head_erase {l : List Nat} (hn : l.Nodup) (he : e ∈ l) :
    (l.erase e).head? = if l.head? = some e then follower l e else l.head? := by
  obtain ⟨A, B, rfl⟩ := List.append_of_mem he
  obtain ⟨hAB, hne⟩ := nodup_middle.1 hn
  have hne' := hne
  rw [List.mem_append, not_or] at hne'
  rw [List.erase_append_right _ hne'.1, follower_insert hAB hne, if_pos rfl]
  cases A with
  | nil => simp
  | cons a A =>
    have : a ≠ e := fun hh => hne'.1 (hh ▸ List.mem_cons_self)
    simp [this]

theorem last_erase {l : List Nat} (hn : l.Nodup) (he : e ∈ l) :
    (l.erase e).getLast? = if l.getLast? = some e then preceder l e else l.getLast? := by
  obtain ⟨A, B, rfl⟩ := List.append_of_mem he
  obtain ⟨hAB, hne⟩ := nodup_middle.1 hn
  have hne' := hne
  rw [List.mem_append, not_or] at hne'
  rw [List.erase_append_right _ hne'.1, preceder_insert hAB hne, if_pos rfl]
  cases B with
  | nil => simp
  | cons b B =>
    have h1 : (A ++ e :: b :: B).getLast? = (b :: B).getLast? := by
      rw [List.getLast?_append_of_ne_nil _ (by simp), List.getLast?_cons_cons]
    have h2 : (b :: B).getLast? ≠ some e := fun hh => hne'.2 (List.mem_of_getLast? hh)
    rw [h1, if_neg h2, List.erase_cons_head, List.getLast?_append_of_ne_nil _ (by simp)]

theorem remove (h : Chain cap g c) (he : e < cap) (hn : e ≠ NULL_ID) :
    ∃ g', g.remove e = .ok g' ∧ Chain cap g' (c.remove e) := by
  unfold Chains.remove
  have hfilter : ∀ L : List (List Nat), (∀ l ∈ L, 2 ≤ l.length) → (L.filter fun l => 2 ≤ l.length) = L := fun L hL =>
    List.filter_eq_self.2 fun l hl => by simpa using hL l hl
  have hside : e ∉ c.side.flatten → ((c.side.map (·.erase e)).filter fun l => 2 ≤ l.length) = c.side := by
    intro h2
    have : c.side.map (·.erase e) = c.side := by
      conv_rhs => rw [← List.map_id c.side]
      apply List.map_congr_left
      intro m hm
      exact List.erase_of_not_mem fun hh => h2 (List.mem_flatten.2 ⟨m, hm, hh⟩)
    rw [this, hfilter _ h.long]
  by_cases h1 : e ∈ c.seq
  · have h2 : e ∉ c.side.flatten := fun hh => (List.nodup_append.1 h.nodup).2.2 e h1 e hh rfl
    obtain ⟨g', r, k1, k2, k3⟩ := Linked.remove (P := []) h.linked h1
    rw [hside h2]
    refine ⟨g', r, k1, ?_, ?_, h.long⟩
    · rw [k2, h.head]
      dsimp only
      rw [head_erase h.seq_nodup h1]
      have hiff := h.getD_eq_iff (o := c.seq.head?) (fun y hy => List.mem_of_mem_head? hy) (List.mem_append_left _ h1)
      by_cases hz : c.seq.head? = some e
      · rw [if_pos (hiff.2 hz), if_pos hz]
      · rw [if_neg (fun hh => hz (hiff.1 hh)), if_neg hz]
    · rw [k3, h.tail]
      dsimp only
      rw [last_erase h.seq_nodup h1]
      have hiff := h.getD_eq_iff (o := c.seq.getLast?) (fun y hy => List.mem_of_getLast? hy) (List.mem_append_left _ h1)
      by_cases hz : c.seq.getLast? = some e
      · rw [if_pos (hiff.2 hz), if_pos hz]
      · rw [if_neg (fun hh => hz (hiff.1 hh)), if_neg hz]
  · rw [List.erase_of_not_mem h1]
    by_cases h2 : e ∈ c.side.flatten
    · obtain ⟨P, l, Q, hs, hel⟩ := Chains.split_of_mem h2
      have hlk : Linked cap g ((c.seq :: P) ++ l :: Q) := by have := h.linked; rw [hs] at this; exact this
      obtain ⟨g', r, k1, k2, k3⟩ := Linked.remove hlk hel
      rw [if_neg (h.head_ne h1 hn), h.head] at k2
      rw [if_neg (h.tail_ne h1 hn), h.tail] at k3
      have hmap : c.side.map (·.erase e) = P ++ l.erase e :: Q :=
        Chains.map_split (F := (·.erase e)) hs hel h.side_nodup fun m hm => List.erase_of_not_mem hm
      have hP : ∀ m ∈ P, 2 ≤ m.length := fun m hm => h.long m (by rw [hs]; simp [hm])
      have hQ : ∀ m ∈ Q, 2 ≤ m.length := fun m hm => h.long m (by rw [hs]; simp [hm])
      refine ⟨g', r, ?_, k2, k3, ?_⟩
      · dsimp only
        rw [hmap, List.filter_append, hfilter P hP, List.filter_cons, hfilter Q hQ]
        by_cases hl : 2 ≤ (l.erase e).length
        · rw [if_pos (by simpa using hl)]
          exact k1
        · rw [if_neg (by simpa using hl)]
          exact Linked.unshort (P := c.seq :: P) k1 (by omega)
      · intro m hm
        simpa using (List.mem_filter.1 hm).2
    · rw [hside h2]
      obtain ⟨g', r, k1, k2, k3⟩ := h.linked.remove_none he (fun hm => (List.mem_append.1 hm).elim h1 h2) (h.head_ne h1 hn)
        (h.tail_ne h1 hn)
      exact ⟨g', r, k1, by rw [k2, h.head], by rw [k3, h.tail], h.long⟩

/-- An element of a list of at least two has a neighbour. -/
theorem neighbour {l : List Nat} (hn : l.Nodup) (he : e ∈ l) (h2 : l ≠ [e]) : follower l e ≠ none ∨ preceder l e ≠ none := by
  by_contra hc
  simp only [not_or, Classical.not_not] at hc
  have hl := (follower_getLast hn he).1 hc.1
  have hh := (follower_getLast (List.nodup_reverse.2 hn) (by simpa using he)).1 hc.2
  rw [List.getLast?_reverse] at hh
  cases l with
  | nil => simp at he
  | cons a l =>
    simp only [List.head?_cons, Option.some.injEq] at hh
    subst hh
    cases l with
    | nil => exact h2 rfl
    | cons b l =>
      rw [List.getLast?_cons_cons] at hl
      exact (List.nodup_cons.1 hn).1 (List.mem_of_getLast? hl)

/-- The debug assertion for an entity with a place, unless it is the sole member. -/
theorem assert_placed (h : Chain cap g c) (he : e ∈ c.placed) (h2 : c.seq ≠ [e]) :
    assertEntityHasNoOrder true ((nexts (c.seq :: c.side) e).getD NULL_ID) ((prevs (c.seq :: c.side) e).getD NULL_ID) =
      .error (.panic .debugAssert) := by
  have key : nexts (c.seq :: c.side) e ≠ none ∨ prevs (c.seq :: c.side) e ≠ none := by
    rcases List.mem_append.1 he with hs | hs
    · have k1 : nexts (c.seq :: c.side) e = follower c.seq e := nexts_of_mem (P := []) h.linked.nodup hs
      have k2 : prevs (c.seq :: c.side) e = preceder c.seq e := prevs_of_mem (P := []) h.linked.nodup hs
      rw [k1, k2]
      exact neighbour h.seq_nodup hs h2
    · obtain ⟨P, l, Q, hsd, hl⟩ := Chains.split_of_mem hs
      have hlk : Linked cap g ((c.seq :: P) ++ l :: Q) := by have := h.linked; rw [hsd] at this; exact this
      have e1 : c.seq :: c.side = (c.seq :: P) ++ l :: Q := by rw [hsd]; rfl
      rw [e1, nexts_of_mem hlk.nodup hl, prevs_of_mem hlk.nodup hl]
      refine neighbour hlk.mid_nodup hl fun hh => ?_
      have := h.long l (by rw [hsd]; simp)
      rw [hh] at this
      simp at this
  have hkey : (nexts (c.seq :: c.side) e).getD NULL_ID ≠ NULL_ID ∨ (prevs (c.seq :: c.side) e).getD NULL_ID ≠ NULL_ID := by
    rcases key with k | k
    · exact .inl fun hh => k ((h.linked.null fun x hx => nexts_mem hx).1 hh)
    · exact .inr fun hh => k ((h.linked.null fun x hx => prevs_mem hx).1 hh)
  generalize (nexts (c.seq :: c.side) e).getD NULL_ID = a at hkey ⊢
  generalize (prevs (c.seq :: c.side) e).getD NULL_ID = b at hkey ⊢
  unfold assertEntityHasNoOrder dassert
  rcases hkey with k | k
  · simp [k]
  · by_cases k' : a = NULL_ID <;> simp [k, k']

theorem placed_panics (h : Chain cap g c) (he : e ∈ c.placed) (h2 : c.seq ≠ [e]) :
    (c.seq ≠ [] → g.add true e = .error (.panic .debugAssert)) ∧
    (∀ x, g.addNextTo true e x = .error (.panic .debugAssert)) ∧
    ∀ x, g.addPreviousTo true e x = .error (.panic .debugAssert) := by
  have hlt := (h.lt e he).1
  have ha := h.assert_placed he h2
  refine ⟨fun hne => ?_, fun x => ?_, fun x => ?_⟩
  · unfold Group.add
    have hh : g.head ≠ NULL_ID := by
      rw [h.head]
      cases hs : c.seq with
      | nil => exact absurd hs hne
      | cons a l => exact (h.lt a (List.mem_append_left _ (by rw [hs]; simp))).2
    rw [if_neg hh, h.linked.fwd.read hlt, h.linked.bwd.read hlt]
    simp only [ok_bind]
    rw [ha]; rfl
  · unfold Group.addNextTo
    rw [h.linked.fwd.read hlt, h.linked.bwd.read hlt]
    simp only [ok_bind]
    rw [ha]; rfl
  · unfold Group.addPreviousTo
    rw [h.linked.fwd.read hlt, h.linked.bwd.read hlt]
    simp only [ok_bind]
    rw [ha]; rfl

/-- An entity without a place put next to itself. -/
theorem addNextTo_self (h : Chain cap g c) (dbg : Bool) (he : e < cap) (hn : e ≠ NULL_ID) (hl : e ∉ c.placed) :
    ∃ f b, g.addNextTo dbg e e = .ok { g with fwd := f, bwd := b } ∧
      Links cap f (fun y => if y = e then e else (nexts (c.seq :: c.side) y).getD NULL_ID) ∧
      Links cap b (fun y => if y = e then e else (prevs (c.seq :: c.side) y).getD NULL_ID) := by
  have hl' : e ∉ (c.seq :: c.side).flatten := hl
  obtain ⟨f, hf1, hf2⟩ := h.linked.fwd.write he e
  obtain ⟨b, hb1, hb2⟩ := h.linked.bwd.write he e
  refine ⟨f, b, ?_, hf2, hb2⟩
  unfold Group.addNextTo
  rw [h.linked.fwd.read he, h.linked.bwd.read he, nexts_not_mem hl', prevs_not_mem hl']
  simp only [ok_bind, Option.getD_none, assertNoOrder_ok, ne_eq, not_true_eq_false, if_false, pure_ok, hf1, hb1,
    if_neg (h.tail_ne (fun hh => hl (List.mem_append_left _ hh)) hn)]

theorem addPreviousTo_self (h : Chain cap g c) (dbg : Bool) (he : e < cap) (hn : e ≠ NULL_ID) (hl : e ∉ c.placed) :
    ∃ f b, g.addPreviousTo dbg e e = .ok { g with fwd := f, bwd := b } ∧
      Links cap f (fun y => if y = e then e else (nexts (c.seq :: c.side) y).getD NULL_ID) ∧
      Links cap b (fun y => if y = e then e else (prevs (c.seq :: c.side) y).getD NULL_ID) := by
  have hl' : e ∉ (c.seq :: c.side).flatten := hl
  obtain ⟨f, hf1, hf2⟩ := h.linked.fwd.write he e
  obtain ⟨b, hb1, hb2⟩ := h.linked.bwd.write he e
  refine ⟨f, b, ?_, hf2, hb2⟩
  unfold Group.addPreviousTo
  rw [h.linked.fwd.read he, h.linked.bwd.read he, nexts_not_mem hl', prevs_not_mem hl']
  simp only [ok_bind, Option.getD_none, assertNoOrder_ok, ne_eq, not_true_eq_false, if_false, pure_ok, hf1, hb1,
    if_neg (h.head_ne (fun hh => hl (List.mem_append_left _ hh)) hn)]

theorem grow (h : Chain cap g c) {n : Nat} (hn : cap ≤ n) : ∃ g', g.grow cap n = .ok g' ∧ Chain n g' c := by
  obtain ⟨g', r, k1, k2, k3⟩ := h.linked.grow hn
  exact ⟨g', r, k1, by rw [k2, h.head], by rw [k3, h.tail], h.long⟩

end Chain
end Group

/-! ### All groups -/

namespace Orders

/-- The container represents `f group` for every group. -/
structure Chained (c : Orders) (f : Nat → Chains) : Prop where
  incr : Incr c.groupIds
  len : c.groups.length = c.groupIds.length
  reg : ∀ gid g, lookupK c.groupIds c.groups gid = some g → g.Chain c.entityCapacity (f gid)
  unreg : ∀ gid, lookupK c.groupIds c.groups gid = none → f gid = ⟨[], []⟩

namespace Chained
variable {c : Orders} {f : Nat → Chains}

theorem new (cap : Nat) : (Orders.new cap).Chained (fun _ => ⟨[], []⟩) :=
  ⟨List.Pairwise.nil, rfl, by intro gid g h; simp [lookupK, Orders.new, binarySearch] at h, fun _ _ => rfl⟩

theorem reserve (h : c.Chained f) (gid : Nat) :
    ∃ c' i g, c.reserveGroup gid = (c', i) ∧ c'.Chained f ∧ c'.entityCapacity = c.entityCapacity ∧
      c'.groupIds[i]? = some gid ∧ c'.groups[i]? = some g ∧ g.Chain c.entityCapacity (f gid) := by
  unfold reserveGroup
  cases hb : binarySearch c.groupIds gid with
  | found i =>
    have hi := binarySearch_found hb
    have hl : i < c.groups.length := by rw [h.len]; exact (List.getElem?_eq_some_iff.1 hi).1
    refine ⟨c, i, c.groups[i], rfl, h, rfl, hi, List.getElem?_eq_getElem hl, ?_⟩
    exact h.reg gid _ ((lookupK_iff h.incr).2 ⟨i, hi, List.getElem?_eq_getElem hl⟩)
  | notFound j =>
    obtain ⟨hj, _, _⟩ := binarySearch_notFound h.incr.le hb
    have hnone := h.unreg gid (lookupK_notFound hb)
    refine ⟨_, j, Group.new c.entityCapacity, rfl, ⟨h.incr.insertIdx hb, ?_, ?_, ?_⟩, rfl, ?_, ?_, ?_⟩
    · simp only
      rw [List.length_insertIdx_of_le_length hj, List.length_insertIdx_of_le_length (by rw [h.len]; exact hj), h.len]
    · intro k g
      simp only
      rw [lookupK_insert h.incr h.len _ hb]
      by_cases hk : k = gid
      · subst hk
        rw [if_pos rfl, hnone]
        rintro ⟨⟩
        exact Group.Chain.new _
      · rw [if_neg hk]; exact h.reg k g
    · intro k
      simp only
      rw [lookupK_insert h.incr h.len _ hb]
      by_cases hk : k = gid
      · simp [hk]
      · rw [if_neg hk]; exact h.unreg k
    · simp only
      rw [List.getElem?_insertIdx]; simp [hj]
    · simp only
      rw [List.getElem?_insertIdx]; simp [hj, h.len]
    · rw [hnone]; exact Group.Chain.new _

/-- One group changed. -/
def put (f : Nat → Chains) (gid : Nat) (l : Chains) : Nat → Chains := fun k => if k = gid then l else f k

theorem set (h : c.Chained f) {i gid : Nat} {g : Group} {l : Chains} (hi : c.groupIds[i]? = some gid)
    (hg : g.Chain c.entityCapacity l) :
    ({ c with groups := c.groups.set i g } : Orders).Chained (put f gid l) := by
  refine ⟨h.incr, by simp [h.len], ?_, ?_⟩
  · intro k g'
    simp only
    rw [lookupK_set h.incr h.len g hi]
    unfold put
    by_cases hk : k = gid
    · rw [if_pos hk, if_pos hk]; rintro ⟨⟩; exact hg
    · rw [if_neg hk, if_neg hk]; exact h.reg k g'
  · intro k
    simp only
    rw [lookupK_set h.incr h.len g hi]
    unfold put
    by_cases hk : k = gid
    · simp [hk]
    · rw [if_neg hk, if_neg hk]; exact h.unreg k

theorem get (h : c.Chained f) {gid i : Nat} (hb : binarySearch c.groupIds gid = .found i) :
    ∃ g, c.groups[i]? = some g ∧ c.groupIds[i]? = some gid ∧ g.Chain c.entityCapacity (f gid) := by
  have hi := binarySearch_found hb
  have hl : i < c.groups.length := by rw [h.len]; exact (List.getElem?_eq_some_iff.1 hi).1
  exact ⟨c.groups[i], List.getElem?_eq_getElem hl, hi,
    h.reg gid _ ((lookupK_iff h.incr).2 ⟨i, hi, List.getElem?_eq_getElem hl⟩)⟩

theorem add (h : c.Chained f) (dbg : Bool) (gid : Nat) {e : Nat} (he : e < c.entityCapacity)
    (hn : e ≠ NULL_ID) (hl : e ∉ (f gid).placed) :
    ∃ c', c.add dbg gid e = .ok c' ∧ c'.Chained (put f gid ((f gid).append e)) ∧
      c'.entityCapacity = c.entityCapacity := by
  obtain ⟨c1, i, g, h1, h2, h3, h4, h5, h6⟩ := h.reserve gid
  obtain ⟨g', h7, h8⟩ := h6.add dbg he hn hl
  refine ⟨{ c1 with groups := c1.groups.set i g' }, ?_, h2.set h4 (by rw [h3]; exact h8), h3⟩
  unfold Orders.add onGroup; rw [h1]; simp [idxUnchecked_of_some h5, h7]

theorem addNextTo (h : c.Chained f) (dbg : Bool) (gid : Nat) {e x : Nat} (he : e < c.entityCapacity)
    (hn : e ≠ NULL_ID) (hl : e ∉ (f gid).placed) (hx : x < c.entityCapacity) (hxn : x ≠ NULL_ID) (hxe : x ≠ e) :
    ∃ c', c.addNextTo dbg gid e x = .ok c' ∧ c'.Chained (put f gid ((f gid).putAfter x e)) ∧
      c'.entityCapacity = c.entityCapacity := by
  obtain ⟨c1, i, g, h1, h2, h3, h4, h5, h6⟩ := h.reserve gid
  obtain ⟨g', h7, h8⟩ := h6.addNextTo dbg he hn hl hx hxn hxe
  refine ⟨{ c1 with groups := c1.groups.set i g' }, ?_, h2.set h4 (by rw [h3]; exact h8), h3⟩
  unfold Orders.addNextTo onGroup; rw [h1]; simp [idxUnchecked_of_some h5, h7]

theorem addPreviousTo (h : c.Chained f) (dbg : Bool) (gid : Nat) {e x : Nat} (he : e < c.entityCapacity)
    (hn : e ≠ NULL_ID) (hl : e ∉ (f gid).placed) (hx : x < c.entityCapacity) (hxn : x ≠ NULL_ID) (hxe : x ≠ e) :
    ∃ c', c.addPreviousTo dbg gid e x = .ok c' ∧ c'.Chained (put f gid ((f gid).putBefore x e)) ∧
      c'.entityCapacity = c.entityCapacity := by
  obtain ⟨c1, i, g, h1, h2, h3, h4, h5, h6⟩ := h.reserve gid
  obtain ⟨g', h7, h8⟩ := h6.addPreviousTo dbg he hn hl hx hxn hxe
  refine ⟨{ c1 with groups := c1.groups.set i g' }, ?_, h2.set h4 (by rw [h3]; exact h8), h3⟩
  unfold Orders.addPreviousTo onGroup; rw [h1]; simp [idxUnchecked_of_some h5, h7]

theorem remove (h : c.Chained f) (gid : Nat) {e : Nat} (he : e < c.entityCapacity) (hn : e ≠ NULL_ID) :
    ∃ c', c.remove gid e = .ok c' ∧ c'.Chained (put f gid ((f gid).remove e)) ∧ c'.entityCapacity = c.entityCapacity := by
  unfold Orders.remove
  cases hb : binarySearch c.groupIds gid with
  | notFound j =>
    refine ⟨c, rfl, ?_, rfl⟩
    have : put f gid ((f gid).remove e) = f := by
      funext k; unfold put
      by_cases hk : k = gid
      · subst hk; rw [if_pos rfl, h.unreg k (lookupK_notFound hb)]; rfl
      · simp [hk]
    rw [this]; exact h
  | found i =>
    obtain ⟨g, h1, h2, h3⟩ := h.get hb
    obtain ⟨g', h7, h8⟩ := h3.remove he hn
    refine ⟨{ c with groups := c.groups.set i g' }, ?_, h.set h2 h8, rfl⟩
    simp [onGroup, idxUnchecked_of_some h1, h7]

theorem all (h : c.Chained f) : ∀ g ∈ c.groups, ∃ l, g.Chain c.entityCapacity l := by
  intro g hg
  obtain ⟨i, hi, rfl⟩ := List.getElem_of_mem hg
  have hi' : i < c.groupIds.length := by rw [← h.len]; exact hi
  have hk : c.groupIds[i]? = some c.groupIds[i] := List.getElem?_eq_getElem hi'
  exact ⟨_, h.reg c.groupIds[i] _ ((lookupK_iff h.incr).2 ⟨i, hk, List.getElem?_eq_getElem hi⟩)⟩

theorem mapAll (h : c.Chained f) (op : Group → Res Group) (F : Chains → Chains) (n : Nat) (hF : F ⟨[], []⟩ = ⟨[], []⟩)
    (hop : ∀ g l, g.Chain c.entityCapacity l → ∃ g', op g = .ok g' ∧ g'.Chain n (F l)) :
    ∃ gs, c.groups.mapM op = .ok gs ∧
      ({ c with groups := gs, entityCapacity := n } : Orders).Chained (fun gid => F (f gid)) := by
  obtain ⟨gs, h1, h2⟩ := mapM_groups (op := op) (P := fun w w' => op w = .ok w') c.groups (by
    intro g hg
    obtain ⟨l, hl⟩ := h.all g hg
    obtain ⟨g', hg', _⟩ := hop g l hl
    exact ⟨g', hg', hg'⟩)
  refine ⟨gs, h1, h.incr, by rw [← h.len]; exact h2.length_eq.symm, ?_, ?_⟩
  · intro gid g hg
    simp only at hg ⊢
    obtain ⟨i, hi, hgi⟩ := (lookupK_iff h.incr).1 hg
    have hi' : i < gs.length := (List.getElem?_eq_some_iff.1 hgi).1
    have hi0 : i < c.groups.length := by rw [h2.length_eq]; exact hi'
    have hr := h.reg gid _ ((lookupK_iff h.incr).2 ⟨i, hi, List.getElem?_eq_getElem hi0⟩)
    obtain ⟨g', hg', hr'⟩ := hop _ _ hr
    have := (List.forall₂_iff_get.1 h2).2 i hi0 hi'
    simp only [List.get_eq_getElem] at this
    rw [this] at hg'
    cases hg'
    have : g = gs[i] := by
      rw [List.getElem?_eq_getElem hi'] at hgi
      exact (Option.some.inj hgi).symm
    rw [this]; exact hr'
  · intro gid hg
    simp only at hg ⊢
    have : lookupK c.groupIds c.groups gid = none := by
      cases hl : lookupK c.groupIds c.groups gid with
      | none => rfl
      | some g0 =>
        obtain ⟨i, hi, hgi⟩ := (lookupK_iff h.incr).1 hl
        have hi0 : i < gs.length := by rw [← h2.length_eq]; exact (List.getElem?_eq_some_iff.1 hgi).1
        rw [(lookupK_iff (v := gs[i]) h.incr).2 ⟨i, hi, List.getElem?_eq_getElem hi0⟩] at hg
        cases hg
    rw [h.unreg gid this, hF]

theorem removeAll (h : c.Chained f) {e : Nat} (he : e < c.entityCapacity) (hn : e ≠ NULL_ID) :
    ∃ c', c.removeAll e = .ok c' ∧ c'.Chained (fun gid => (f gid).remove e) ∧ c'.entityCapacity = c.entityCapacity := by
  obtain ⟨gs, h1, h2⟩ := h.mapAll (fun g => g.remove e) (fun l => l.remove e) c.entityCapacity rfl
    (fun g l hg => hg.remove he hn)
  exact ⟨_, by unfold Orders.removeAll; rw [h1]; rfl, h2, rfl⟩

theorem grow (h : c.Chained f) (dbg : Bool) {n : Nat} (hn : c.entityCapacity ≤ n) :
    ∃ c', c.grow dbg n = .ok c' ∧ c'.Chained f ∧ c'.entityCapacity = n := by
  obtain ⟨gs, h1, h2⟩ := h.mapAll (fun g => g.grow c.entityCapacity n) (fun l => l) n rfl (fun g l hg => hg.grow hn)
  refine ⟨{ c with groups := gs, entityCapacity := n }, ?_, h2, rfl⟩
  unfold Orders.grow subUsize
  rw [if_pos hn, h1]; rfl

theorem nodup (h : c.Chained f) (gid : Nat) : (f gid).placed.Nodup := by
  cases hl : lookupK c.groupIds c.groups gid with
  | none => rw [h.unreg gid hl]; exact List.nodup_nil
  | some g => exact (h.reg gid g hl).nodup

theorem long (h : c.Chained f) (gid : Nat) : ∀ l ∈ (f gid).side, 2 ≤ l.length := by
  cases hl : lookupK c.groupIds c.groups gid with
  | none => rw [h.unreg gid hl]; intro l hl; cases hl
  | some g => exact (h.reg gid g hl).long

theorem next_around {c : Chains} (hn : c.placed.Nodup) (i : Nat) : nexts (c.seq :: c.side) i = follower (c.around i) i := by
  unfold Chains.around
  cases hf : (c.seq :: c.side).find? (fun l => i ∈ l) with
  | none =>
    rw [List.find?_eq_none] at hf
    rw [nexts_not_mem fun hm => by
      obtain ⟨l, hl, hi⟩ := List.mem_flatten.1 hm
      exact hf l hl (by simpa using hi)]
    rfl
  | some l =>
    have hi : i ∈ l := by simpa using List.find?_some hf
    obtain ⟨P, Q, hs⟩ := List.append_of_mem (List.mem_of_find?_eq_some hf)
    rw [hs]
    exact nexts_of_mem (by rw [← hs]; exact hn) hi

theorem prev_around {c : Chains} (hn : c.placed.Nodup) (i : Nat) : prevs (c.seq :: c.side) i = preceder (c.around i) i := by
  unfold Chains.around
  cases hf : (c.seq :: c.side).find? (fun l => i ∈ l) with
  | none =>
    rw [List.find?_eq_none] at hf
    rw [prevs_not_mem fun hm => by
      obtain ⟨l, hl, hi⟩ := List.mem_flatten.1 hm
      exact hf l hl (by simpa using hi)]
    rfl
  | some l =>
    have hi : i ∈ l := by simpa using List.find?_some hf
    obtain ⟨P, Q, hs⟩ := List.append_of_mem (List.mem_of_find?_eq_some hf)
    rw [hs]
    exact prevs_of_mem (by rw [← hs]; exact hn) hi

theorem getNext (h : c.Chained f) (gid : Nat) {e : Nat} (he : e < c.entityCapacity) :
    c.getNext gid e = .ok (follower ((f gid).around e) e) := by
  rw [← next_around (h.nodup gid)]
  unfold Orders.getNext
  cases hb : binarySearch c.groupIds gid with
  | notFound j => rw [h.unreg gid (lookupK_notFound hb)]; rfl
  | found i =>
    obtain ⟨g, h1, h2, h3⟩ := h.get hb
    simp only [idxUnchecked_of_some h1, ok_bind, h3.linked.fwd.read he, pure_ok]
    rw [nullToNone_getD (fun x hx => (h3.lt x (nexts_mem (ls := (f gid).seq :: (f gid).side) hx)).2)]

theorem getPrevious (h : c.Chained f) (gid : Nat) {e : Nat} (he : e < c.entityCapacity) :
    c.getPrevious gid e = .ok (preceder ((f gid).around e) e) := by
  rw [← prev_around (h.nodup gid)]
  unfold Orders.getPrevious
  cases hb : binarySearch c.groupIds gid with
  | notFound j => rw [h.unreg gid (lookupK_notFound hb)]; rfl
  | found i =>
    obtain ⟨g, h1, h2, h3⟩ := h.get hb
    simp only [idxUnchecked_of_some h1, ok_bind, h3.linked.bwd.read he, pure_ok]
    rw [nullToNone_getD (fun x hx => (h3.lt x (prevs_mem (ls := (f gid).seq :: (f gid).side) hx)).2)]

theorem getHead (h : c.Chained f) (gid : Nat) : c.getHead gid = .ok (f gid).seq.head? := by
  unfold Orders.getHead getGroupIndex
  cases hb : binarySearch c.groupIds gid with
  | notFound j => rw [h.unreg gid (lookupK_notFound hb)]; rfl
  | found i =>
    obtain ⟨g, h1, h2, h3⟩ := h.get hb
    simp only [idxUnchecked_of_some h1, ok_bind, pure_ok]
    rw [h3.head, nullToNone_getD (fun x hx => (h3.lt x (List.mem_append_left _ (List.mem_of_mem_head? hx))).2)]

theorem getTail (h : c.Chained f) (gid : Nat) : c.getTail gid = .ok (f gid).seq.getLast? := by
  unfold Orders.getTail getGroupIndex
  cases hb : binarySearch c.groupIds gid with
  | notFound j => rw [h.unreg gid (lookupK_notFound hb)]; rfl
  | found i =>
    obtain ⟨g, h1, h2, h3⟩ := h.get hb
    simp only [idxUnchecked_of_some h1, ok_bind, pure_ok]
    rw [h3.tail, nullToNone_getD (fun x hx => (h3.lt x (List.mem_append_left _ (List.mem_of_getLast? hx))).2)]

theorem placed_panics (h : c.Chained f) {gid e : Nat} (he : e ∈ (f gid).placed) (h2 : (f gid).seq ≠ [e]) :
    ((f gid).seq ≠ [] → c.add true gid e = .error (.panic .debugAssert)) ∧
    (∀ x, c.addNextTo true gid e x = .error (.panic .debugAssert)) ∧
    ∀ x, c.addPreviousTo true gid e x = .error (.panic .debugAssert) := by
  obtain ⟨c1, i, g, h1, _, _, _, h5, h6⟩ := h.reserve gid
  obtain ⟨k1, k2, k3⟩ := h6.placed_panics he h2
  refine ⟨fun hne => ?_, fun x => ?_, fun x => ?_⟩
  · unfold Orders.add onGroup; rw [h1]; simp [idxUnchecked_of_some h5, k1 hne]
  · unfold Orders.addNextTo onGroup; rw [h1]; simp [idxUnchecked_of_some h5, k2 x]
  · unfold Orders.addPreviousTo onGroup; rw [h1]; simp [idxUnchecked_of_some h5, k3 x]

/-- What remains to be read in a group after an entity without a place was put next to itself. -/
theorem read_self (h : c.Chained f) {i gid e : Nat} {g : Group} {fw bw : Raw Nat} (hi : c.groupIds[i]? = some gid)
    (hg : c.groups[i]? = some g) (hr : g.Chain c.entityCapacity (f gid)) (he : e ≠ NULL_ID)
    (h1 : Links c.entityCapacity fw (fun y => if y = e then e else (nexts ((f gid).seq :: (f gid).side) y).getD NULL_ID))
    (h2 : Links c.entityCapacity bw (fun y => if y = e then e else (prevs ((f gid).seq :: (f gid).side) y).getD NULL_ID))
    {o : Orders} (ho : o = { c with groups := c.groups.set i { g with fwd := fw, bwd := bw } }) :
    o.getHead gid = .ok (f gid).seq.head? ∧ o.getTail gid = .ok (f gid).seq.getLast? ∧
    ∀ y < c.entityCapacity,
      o.getNext gid y = .ok (if y = e then some e else follower ((f gid).around y) y) ∧
      o.getPrevious gid y = .ok (if y = e then some e else preceder ((f gid).around y) y) := by
  subst ho
  obtain ⟨j, hb, hj⟩ := binarySearch_of_mem h.incr.le (List.mem_of_getElem? hi)
  have : j = i := h.incr.getElem?_inj hj hi
  subst this
  have hs : (c.groups.set j { g with fwd := fw, bwd := bw })[j]? = some { g with fwd := fw, bwd := bw } :=
    List.getElem?_set_self (List.getElem?_eq_some_iff.1 hg).1
  refine ⟨?_, ?_, fun y hy => ⟨?_, ?_⟩⟩
  · unfold Orders.getHead getGroupIndex
    simp only [hb, idxUnchecked_of_some hs, ok_bind, pure_ok]
    rw [hr.head, nullToNone_getD (fun x hx => (hr.lt x (List.mem_append_left _ (List.mem_of_mem_head? hx))).2)]
  · unfold Orders.getTail getGroupIndex
    simp only [hb, idxUnchecked_of_some hs, ok_bind, pure_ok]
    rw [hr.tail, nullToNone_getD (fun x hx => (hr.lt x (List.mem_append_left _ (List.mem_of_getLast? hx))).2)]
  · rw [← next_around (h.nodup gid)]
    unfold Orders.getNext
    simp only [hb, idxUnchecked_of_some hs, ok_bind, h1.read hy, pure_ok]
    split
    · simp [nullToNone, he]
    · rw [nullToNone_getD (fun x hx => (hr.lt x (nexts_mem (ls := (f gid).seq :: (f gid).side) hx)).2)]
  · rw [← prev_around (h.nodup gid)]
    unfold Orders.getPrevious
    simp only [hb, idxUnchecked_of_some hs, ok_bind, h2.read hy, pure_ok]
    split
    · simp [nullToNone, he]
    · rw [nullToNone_getD (fun x hx => (hr.lt x (prevs_mem (ls := (f gid).seq :: (f gid).side) hx)).2)]

theorem self (h : c.Chained f) (dbg : Bool) (gid : Nat) {e : Nat} (he : e < c.entityCapacity) (hn : e ≠ NULL_ID)
    (hl : e ∉ (f gid).placed) {r : Res Orders} (hr : r = c.addNextTo dbg gid e e ∨ r = c.addPreviousTo dbg gid e e) :
    ∃ o, r = .ok o ∧ o.getHead gid = .ok (f gid).seq.head? ∧ o.getTail gid = .ok (f gid).seq.getLast? ∧
      ∀ y < c.entityCapacity,
        o.getNext gid y = .ok (if y = e then some e else follower ((f gid).around y) y) ∧
        o.getPrevious gid y = .ok (if y = e then some e else preceder ((f gid).around y) y) := by
  obtain ⟨c1, i, g, h1, h2, h3, h4, h5, h6⟩ := h.reserve gid
  rw [← h3] at he ⊢
  rcases hr with rfl | rfl
  · obtain ⟨fw, bw, k1, k2, k3⟩ := h6.addNextTo_self dbg (by rw [← h3]; exact he) hn hl
    refine ⟨{ c1 with groups := c1.groups.set i { g with fwd := fw, bwd := bw } }, ?_,
      h2.read_self h4 h5 (by rw [h3]; exact h6) hn (by rw [h3]; exact k2) (by rw [h3]; exact k3) rfl⟩
    unfold Orders.addNextTo onGroup; rw [h1]; simp [idxUnchecked_of_some h5, k1]
  · obtain ⟨fw, bw, k1, k2, k3⟩ := h6.addPreviousTo_self dbg (by rw [← h3]; exact he) hn hl
    refine ⟨{ c1 with groups := c1.groups.set i { g with fwd := fw, bwd := bw } }, ?_,
      h2.read_self h4 h5 (by rw [h3]; exact h6) hn (by rw [h3]; exact k2) (by rw [h3]; exact k3) rfl⟩
    unfold Orders.addPreviousTo onGroup; rw [h1]; simp [idxUnchecked_of_some h5, k1]

theorem drop (h : c.Chained f) : c.drop = .ok () := by
  have hrep := h.all
  unfold Orders.drop
  generalize c.groups = gs at hrep
  induction gs with
  | nil => rfl
  | cons g gs ih =>
    obtain ⟨l, hl⟩ := hrep g (by simp)
    unfold dropLoop Raw.dealloc
    rw [if_pos hl.linked.bwd.1, if_pos hl.linked.fwd.1]
    exact ih (fun w hw => hrep w (by simp [hw]))

end Chained
end Orders

/-! ### Executions -/

/-- The store agrees with the history as far as ids and groups are concerned. -/
structure Laxes (s : Store) (h : List Event) : Prop where
  ents : EntInv s.ents (handles h) (alive h)
  orders : s.orders.Chained (fun g => chains g h)
  ocap : s.orders.entityCapacity = s.ents.capacity
  cur : ∀ i e, newest i h = some e → s.ents.versions[i]? = some (some e.version)
  null : ∀ e ∈ handles h, e.id ≠ NULL_ID
  mem : ∀ g, ∀ i ∈ (chains g h).placed, ∃ e ∈ handles h, e.id = i

namespace Laxes
variable {U : Universe} {dbg : Bool} {s s' : Store} {h : List Event}

theorem init {cap : Nat} (hs : Store.withCapacity dbg cap = .ok s) : Laxes s [] := by
  have hc := Strays.init hs
  refine ⟨hc.core.ents, ?_, hc.core.ocap, hc.cur, hc.null, fun g i hi => (by cases hi)⟩
  have ho := hc.core.orders
  have hg : s.orders.groupIds = [] ∧ s.orders.groups = [] := by
    unfold Store.withCapacity at hs
    obtain ⟨_, _, hs⟩ := bind_eq_ok.1 hs
    cases hs
    exact ⟨rfl, rfl⟩
  refine ⟨ho.incr, ho.len, fun gid g hl => ?_, fun _ _ => rfl⟩
  rw [hg.1, hg.2] at hl
  simp [lookupK, binarySearch] at hl

theorem same (hc : Laxes s h) (hs : SameCore s s') {ev : Event} (h1 : handles (ev :: h) = handles h)
    (h2 : alive (ev :: h) = alive h) (h3 : ∀ g, chains g (ev :: h) = chains g h) : Laxes s' (ev :: h) := by
  refine ⟨?_, ?_, ?_, ?_, ?_, ?_⟩
  · rw [h1, h2, hs.ents]; exact hc.ents
  · rw [funext h3, hs.orders]; exact hc.orders
  · rw [hs.orders, hs.ents]; exact hc.ocap
  · intro i e; unfold newest; rw [h1, hs.ents]; exact hc.cur i e
  · rw [h1]; exact hc.null
  · intro g; rw [h1, h3]; exact hc.mem g

/-- Tag calls. -/
theorem retag (hc : Laxes s h) (he : s'.ents = s.ents) (ho : s'.orders = s.orders) {ev : Event}
    (h1 : handles (ev :: h) = handles h) (h2 : alive (ev :: h) = alive h) (h3 : ∀ g, chains g (ev :: h) = chains g h) :
    Laxes s' (ev :: h) := by
  refine ⟨?_, ?_, ?_, ?_, ?_, ?_⟩
  · rw [h1, h2, he]; exact hc.ents
  · rw [funext h3, ho]; exact hc.orders
  · rw [ho, he]; exact hc.ocap
  · intro i e; unfold newest; rw [h1, he]; exact hc.cur i e
  · rw [h1]; exact hc.null
  · intro g; rw [h1, h3]; exact hc.mem g

theorem registered (hc : Laxes s h) (hb : (handles h).length + 1 < u32Size) {e : Entity}
    (hr : s.registerNewEntity dbg = .ok (s', e)) :
    EntInv s'.ents (e :: handles h) (e :: alive h) ∧ s'.orders.Chained (fun g => chains g h) ∧
      s'.orders.entityCapacity = s'.ents.capacity ∧
      (∀ i, i < s.ents.capacity → i ≠ e.id → s'.ents.versions[i]? = s.ents.versions[i]?) := by
  unfold Store.registerNewEntity at hr
  obtain ⟨⟨en, cr⟩, h1, hr⟩ := bind_eq_ok.1 hr
  obtain ⟨k1, k2, k3, k4, k5, k6, k7, k8⟩ := hc.ents.create_spec h1 (.inr hb)
  dsimp only at hr
  split at hr
  · obtain ⟨s1, h2, hr⟩ := bind_eq_ok.1 hr
    cases hr
    obtain ⟨od, o1, o2, o3⟩ := hc.orders.grow dbg (n := en.capacity) (by rw [hc.ocap]; exact k5)
    unfold Store.growEntitiesInternal at h2
    obtain ⟨_, _, h2⟩ := bind_eq_ok.1 h2
    obtain ⟨_, _, h2⟩ := bind_eq_ok.1 h2
    obtain ⟨_, _, h2⟩ := bind_eq_ok.1 h2
    obtain ⟨_, _, h2⟩ := bind_eq_ok.1 h2
    obtain ⟨od', o1', h2⟩ := bind_eq_ok.1 h2
    cases h2
    dsimp only [Store.entitiesCapacity] at o1'
    rw [o1] at o1'
    cases o1'
    exact ⟨k1, o2, o3, k8⟩
  · next hg =>
    cases hr
    have : s.ents.capacity = en.capacity := by
      simp only [EntityCreation.wasGrow, k3, k4] at hg
      simpa using (Eq.symm (by simpa using hg) : s.ents.capacity = en.capacity)
    exact ⟨k1, hc.orders, by rw [hc.ocap, this], k8⟩

theorem born (hc : Laxes s h) (hb : (handles h).length + 1 < u32Size) {ev : Event} {e : Entity} {s1 : Store}
    (hr : s.registerNewEntity dbg = .ok (s1, e)) (hs : SameCore s1 s') (h1 : handles (ev :: h) = e :: handles h)
    (h2 : alive (ev :: h) = e :: alive h) (h3 : ∀ g, chains g (ev :: h) = chains g h) : Laxes s' (ev :: h) := by
  obtain ⟨k1, k2, k3, k4⟩ := hc.registered hb hr
  refine ⟨?_, ?_, ?_, ?_, ?_, ?_⟩
  · rw [h1, h2, hs.ents]; exact k1
  · rw [funext h3, hs.orders]; exact k2
  · rw [hs.orders, hs.ents]; exact k3
  · intro i x hx
    unfold newest at hx
    rw [h1, List.find?_cons] at hx
    rw [hs.ents]
    split at hx
    · rename_i hi
      cases hx
      have := k1.lver e List.mem_cons_self
      simp only [decide_eq_true_eq] at hi
      rw [← hi]; exact this
    · rename_i hi
      have hm := List.mem_of_find?_eq_some hx
      have hxi := List.find?_some hx
      simp only [decide_eq_true_eq] at hxi
      rw [k4 i (by rw [← hxi]; exact hc.ents.issued_id_lt hm) (by intro hh; simp [hh] at hi)]
      exact hc.cur i x hx
  · rw [h1]
    intro x hx
    rcases List.mem_cons.1 hx with rfl | hx
    · have j1 := (k1.ids x.id).1 (Or.inl (by simp))
      have j2 := k1.next_lt
      omega
    · exact hc.null x hx
  · intro g; rw [h1, h3]
    intro i hi
    obtain ⟨x, hx, hxi⟩ := hc.mem g i hi
    exact ⟨x, List.mem_cons_of_mem _ hx, hxi⟩

theorem destroyed (hc : Laxes s h) {e : Entity} (he : e ∈ alive h) (hr : s.destroyEntity dbg e = .ok s') :
    Laxes s' (.destroyed e :: h) := by
  unfold Store.destroyEntity at hr
  obtain ⟨s1, r1, hr⟩ := bind_eq_ok.1 hr
  have hsame := SameCore.destroyRow r1
  have hents : EntInv s1.ents (handles h) (alive h) := by rw [hsame.ents]; exact hc.ents
  have hord : s1.orders.Chained (fun g => chains g h) := by rw [hsame.orders]; exact hc.orders
  have hcap : s1.orders.entityCapacity = s1.ents.capacity := by rw [hsame.orders, hsame.ents]; exact hc.ocap
  have hlt := hents.id_lt he
  have hn := hc.null e (hc.ents.sub e he)
  obtain ⟨ents, e1, e2, e3, e4⟩ := hents.destroy_live (dbg := dbg) he
  obtain ⟨od, o1, o2, o3⟩ := hord.removeAll (e := e.id) (by rw [hcap]; exact hlt) hn
  simp only [e1, o1, ok_bind] at hr
  obtain ⟨tg, _, hr⟩ := bind_eq_ok.1 hr
  cases hr
  refine ⟨e2, o2, ?_, ?_, hc.null, fun g i hi => hc.mem g i (Chains.mem_remove hi)⟩
  · simp only [o3, e3, hcap]
  · intro i x hx
    dsimp only
    rw [e4, hsame.ents]
    exact hc.cur i x hx

theorem reorder (hc : Laxes s h) {c' : Orders} {g : Nat} {l : Chains} {ev : Event}
    (hr : c'.Chained (Orders.Chained.put (fun g => chains g h) g l)) (hcap : c'.entityCapacity = s.orders.entityCapacity)
    (h1 : handles (ev :: h) = handles h) (h2 : alive (ev :: h) = alive h)
    (h3 : ∀ g', chains g' (ev :: h) = if g = g' then l else chains g' h)
    (h5 : ∀ i ∈ l.placed, ∃ e ∈ handles h, e.id = i) :
    Laxes { s with orders := c' } (ev :: h) := by
  refine ⟨?_, ?_, by simp only [hcap]; exact hc.ocap, ?_, ?_, ?_⟩
  · rw [h1, h2]; exact hc.ents
  · have : (fun g => chains g (ev :: h)) = Orders.Chained.put (fun g => chains g h) g l := by
      funext g'
      rw [h3]
      unfold Orders.Chained.put
      by_cases hg : g = g'
      · rw [if_pos hg, if_pos hg.symm]
      · rw [if_neg hg, if_neg (fun hh => hg hh.symm)]
    rw [this]
    exact hr
  · intro i e; unfold newest; rw [h1]; exact hc.cur i e
  · rw [h1]; exact hc.null
  · intro g'; rw [h1, h3]
    split
    · exact h5
    · exact hc.mem g'

theorem lt (hc : Laxes s h) {e : Entity} (he : e ∈ handles h) : e.id < s.orders.entityCapacity := by
  rw [hc.ocap]; exact hc.ents.issued_id_lt he

theorem orderedLast (hc : Laxes s h) {e : Entity} {g : Nat} (he : e ∈ handles h) (hn : e.id ∉ (chains g h).placed) :
    ∃ s', s.addOrder dbg g e = .ok s' ∧ Laxes s' (.orderedLast g e :: h) := by
  obtain ⟨c', o1, o2, o3⟩ := hc.orders.add dbg g (hc.lt he) (hc.null e he) hn
  refine ⟨{ s with orders := c' }, ?_, hc.reorder o2 o3 rfl rfl (fun g' => ?_) fun i hi => ?_⟩
  · unfold Store.addOrder; simp only [o1, ok_bind, pure_ok]
  · simp only [chains]
    by_cases hg : g = g'
    · subst hg; simp
    · simp [hg]
  · simp only [Chains.append, Chains.placed, List.mem_append, List.mem_singleton] at hi
    rcases hi with (hi | hi) | hi
    · exact hc.mem g i (List.mem_append_left _ hi)
    · exact ⟨e, he, hi.symm⟩
    · exact hc.mem g i (List.mem_append_right _ hi)

theorem orderedAfter (hc : Laxes s h) {e x : Entity} {g : Nat} (he : e ∈ handles h) (hx : x.id ∈ (handles h).map (·.id))
    (hxe : x.id ≠ e.id) (hn : e.id ∉ (chains g h).placed) :
    ∃ s', s.addOrderNextTo dbg g e x = .ok s' ∧ Laxes s' (.orderedAfter g e x :: h) := by
  obtain ⟨z, hz, hzx⟩ := List.mem_map.1 hx
  obtain ⟨c', o1, o2, o3⟩ := hc.orders.addNextTo dbg g (hc.lt he) (hc.null e he) hn (hzx ▸ hc.lt hz) (hzx ▸ hc.null z hz) hxe
  refine ⟨{ s with orders := c' }, ?_, hc.reorder o2 o3 rfl rfl (fun g' => ?_) fun i hi => ?_⟩
  · unfold Store.addOrderNextTo; simp only [o1, ok_bind, pure_ok]
  · simp only [chains]
    by_cases hg : g = g'
    · subst hg; simp
    · simp [hg]
  · rcases Chains.mem_putAfter hi with rfl | rfl | hi
    · exact ⟨e, he, rfl⟩
    · exact ⟨z, hz, hzx⟩
    · exact hc.mem g i hi

theorem orderedBefore (hc : Laxes s h) {e x : Entity} {g : Nat} (he : e ∈ handles h) (hx : x.id ∈ (handles h).map (·.id))
    (hxe : x.id ≠ e.id) (hn : e.id ∉ (chains g h).placed) :
    ∃ s', s.addOrderPreviousTo dbg g e x = .ok s' ∧ Laxes s' (.orderedBefore g e x :: h) := by
  obtain ⟨z, hz, hzx⟩ := List.mem_map.1 hx
  obtain ⟨c', o1, o2, o3⟩ := hc.orders.addPreviousTo dbg g (hc.lt he) (hc.null e he) hn (hzx ▸ hc.lt hz) (hzx ▸ hc.null z hz) hxe
  refine ⟨{ s with orders := c' }, ?_, hc.reorder o2 o3 rfl rfl (fun g' => ?_) fun i hi => ?_⟩
  · unfold Store.addOrderPreviousTo; simp only [o1, ok_bind, pure_ok]
  · simp only [chains]
    by_cases hg : g = g'
    · subst hg; simp
    · simp [hg]
  · rcases Chains.mem_putBefore hi with rfl | rfl | hi
    · exact ⟨e, he, rfl⟩
    · exact ⟨z, hz, hzx⟩
    · exact hc.mem g i hi

theorem unordered (hc : Laxes s h) {e : Entity} {g : Nat} (he : e ∈ handles h) :
    ∃ s', s.removeOrder g e = .ok s' ∧ Laxes s' (.unordered g e :: h) := by
  obtain ⟨c', o1, o2, o3⟩ := hc.orders.remove g (hc.lt he) (hc.null e he)
  refine ⟨{ s with orders := c' }, ?_, hc.reorder o2 o3 rfl rfl (fun g' => ?_) fun i hi => ?_⟩
  · unfold Store.removeOrder; simp only [o1, ok_bind, pure_ok]
  · simp only [chains]
    by_cases hg : g = g'
    · subst hg; simp
    · simp [hg]
  · exact hc.mem g i (Chains.mem_remove hi)

theorem step (hc : Laxes s h) {ev : Event} (hl : Lax h ev) (hr : Returns U dbg s ev s') : Laxes s' (ev :: h) := by
  cases ev with
  | created e =>
    simp only [Returns, Store.createEntity] at hr
    obtain ⟨⟨s1, e1⟩, h1, hr⟩ := bind_eq_ok.1 hr
    obtain ⟨b, h2, hr⟩ := bind_eq_ok.1 hr
    cases hr
    refine hc.born hl h1 ⟨rfl, rfl, rfl, rfl, rfl, ?_⟩ rfl rfl (fun _ => rfl)
    dsimp only at h2 ⊢
    unfold Words.setOff at h2
    split at h2
    · cases h2; exact List.length_set
    · cases h2
  | createdWith e ts init =>
    obtain ⟨a, _, _, hr⟩ := hr
    unfold Store.createEntityWithArchetype at hr
    obtain ⟨⟨s1, e1⟩, h1, hr⟩ := bind_eq_ok.1 hr
    obtain ⟨⟨c, q⟩, _, hr⟩ := bind_eq_ok.1 hr
    dsimp only at hr
    obtain ⟨s2, h2, hr⟩ := bind_eq_ok.1 hr
    cases hr
    exact hc.born hl h1
      (SameCore.trans (s' := { s1 with archs := c }) ⟨rfl, rfl, rfl, rfl, rfl, rfl⟩ (SameCore.recordRow h2)) rfl rfl
      (fun _ => rfl)
  | destroyed e => exact hc.destroyed hl hr
  | added e vals => exact hc.same (SameCore.added hr) rfl rfl (fun _ => rfl)
  | removed e ts => exact hc.same (SameCore.removed hr) rfl rfl (fun _ => rfl)
  | assigned e vals =>
    obtain ⟨b, hr⟩ := hr
    exact hc.same (SameCore.assigned hr) rfl rfl (fun _ => rfl)
  | tagged tag e =>
    simp only [Returns, Store.addTag] at hr
    obtain ⟨_, _, hr⟩ := bind_eq_ok.1 hr
    cases hr
    refine hc.retag (ev := .tagged tag e) ?_ ?_ rfl rfl (fun _ => rfl) <;> rfl
  | untagged tag e =>
    simp only [Returns, Store.removeTag] at hr
    obtain ⟨_, _, hr⟩ := bind_eq_ok.1 hr
    cases hr
    refine hc.retag (ev := .untagged tag e) ?_ ?_ rfl rfl (fun _ => rfl) <;> rfl
  | orderedLast g e =>
    obtain ⟨s1, h1, h2⟩ := hc.orderedLast (dbg := dbg) hl.1 hl.2
    simp only [Returns] at hr
    rw [h1] at hr; cases hr; exact h2
  | orderedAfter g e x =>
    obtain ⟨s1, h1, h2⟩ := hc.orderedAfter (dbg := dbg) hl.1 hl.2.1 hl.2.2.1 hl.2.2.2
    simp only [Returns] at hr
    rw [h1] at hr; cases hr; exact h2
  | orderedBefore g e x =>
    obtain ⟨s1, h1, h2⟩ := hc.orderedBefore (dbg := dbg) hl.1 hl.2.1 hl.2.2.1 hl.2.2.2
    simp only [Returns] at hr
    rw [h1] at hr; cases hr; exact h2
  | unordered g e =>
    obtain ⟨s1, h1, h2⟩ := hc.unordered (g := g) hl
    simp only [Returns] at hr
    rw [h1] at hr; cases hr; exact h2

theorem mapEntity (hc : Laxes s h) {g : Nat} {o : Option Nat} (ho : ∀ i, o = some i → i ∈ (chains g h).placed) :
    s.mapEntity o = .ok (o.bind (newest · h)) := by
  cases o with
  | none => rfl
  | some i =>
    obtain ⟨x, h1, _, h3⟩ := Strays.newest_some (hc.mem g i (ho i rfl))
    simp only [Store.mapEntity, Store.getEntityById, Raw.read_of_some (hc.cur i x h1), ok_bind, pure_ok, Option.bind_some, h1]
    rw [← h3]

end Laxes

theorem lax_core {U : Universe} {dbg : Bool} {cap : Nat} {h : List Event} {s : Store} (hx : LaxExec U dbg cap h s) :
    Laxes s h := by
  induction hx with
  | init hs => exact Laxes.init hs
  | step ev _ hl hr ih => exact ih.step hl hr

theorem Spec.Chains.around_sub {c : Chains} {i j : Nat} (h : j ∈ c.around i) : j ∈ c.placed := by
  unfold Chains.around at h
  cases hf : (c.seq :: c.side).find? (fun l => i ∈ l) with
  | none => rw [hf] at h; cases h
  | some l =>
    rw [hf] at h
    exact List.mem_flatten.2 ⟨l, List.mem_of_find?_eq_some hf, h⟩

/-- Executions in which entities are only put next to members: no chains beside the groups. -/
theorem stray_chains {U : Universe} {dbg : Bool} {cap : Nat} {h : List Event} {s : Store} (hx : StrayExec U dbg cap h s)
    (g : Nat) : chains g h = ⟨idSequence g h, []⟩ := by
  induction hx with
  | init hs => rfl
  | @step h s s' ev hx hl hr ih =>
    cases ev with
    | orderedLast g' e => simp only [chains, idSequence, ih]; split <;> rfl
    | orderedAfter g' e x =>
      simp only [chains, idSequence, ih]
      split
      · next hg => subst hg; unfold Chains.putAfter; rw [if_pos hl.2.2]
      · rfl
    | orderedBefore g' e x =>
      simp only [chains, idSequence, ih]
      split
      · next hg => subst hg; unfold Chains.putBefore; rw [if_pos hl.2.2]
      · rfl
    | unordered g' e => simp only [chains, idSequence, ih]; split <;> rfl
    | destroyed e => simp only [chains, idSequence, ih]; rfl
    | _ => simp only [chains, idSequence, ih]

theorem Spec.StrayExec.lax {U : Universe} {dbg : Bool} {cap : Nat} {h : List Event} {s : Store}
    (hx : StrayExec U dbg cap h s) : LaxExec U dbg cap h s := by
  induction hx with
  | init hs => exact .init hs
  | @step h s s' ev hx hl hr ih =>
    refine .step ev ih ?_ hr
    have hp : ∀ g, (chains g h).placed = idSequence g h := fun g => by
      rw [stray_chains hx]; simp [Chains.placed]
    have hc := stray_core hx
    cases ev with
    | orderedLast g e => exact ⟨hl.1, by rw [hp]; exact hl.2⟩
    | orderedAfter g e x =>
      obtain ⟨z, hz, hzx⟩ := hc.mem g x.id hl.2.2
      exact ⟨hl.1, List.mem_map.2 ⟨z, hz, hzx⟩, fun hh => hl.2.1 (hh ▸ hl.2.2), by rw [hp]; exact hl.2.1⟩
    | orderedBefore g e x =>
      obtain ⟨z, hz, hzx⟩ := hc.mem g x.id hl.2.2
      exact ⟨hl.1, List.mem_map.2 ⟨z, hz, hzx⟩, fun hh => hl.2.1 (hh ▸ hl.2.2), by rw [hp]; exact hl.2.1⟩
    | _ => exact hl

end Ecs
