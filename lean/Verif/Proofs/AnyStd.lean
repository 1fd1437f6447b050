import Verif.Spec.AnyStd
import Verif.Proofs.Archetype
import Verif.Proofs.BuilderMemory

namespace Ecs

open Spec

/-- On an increasing list the documentation determines the result. -/
theorem search_unique {bs : List Nat → Nat → Search} (hb : SearchContract bs) {l : List Nat} (hl : Incr l) (x : Nat) :
    bs l x = binarySearch l x := by
  have h1 := hb l x hl.le
  cases h2 : binarySearch l x with
  | found i =>
    have h3 := binarySearch_found h2
    cases h4 : bs l x with
    | found j => rw [h4] at h1; rw [hl.getElem?_inj h1 h3]
    | notFound j =>
      rw [h4] at h1
      obtain ⟨_, h5, h6⟩ := h1
      have hm := List.mem_of_getElem? h3
      rw [← List.take_append_drop j l, List.mem_append] at hm
      rcases hm with hm | hm
      · exact absurd (h5 x hm) (by omega)
      · exact absurd (h6 x hm) (by omega)
  | notFound i =>
    obtain ⟨g1, g2, g3⟩ := binarySearch_notFound hl.le h2
    cases h4 : bs l x with
    | found j =>
      rw [h4] at h1
      exact absurd (List.mem_of_getElem? h1) (binarySearch_notFound_not_mem hl.le h2)
    | notFound j =>
      rw [h4] at h1
      obtain ⟨h5, h6, h7⟩ := h1
      have : j = i := by
        rcases Nat.lt_trichotomy i j with h | h | h
        · have ha := h6 l[i] (List.mem_take_iff_getElem.2 ⟨i, by omega, rfl⟩)
          have hb := g3 i (by omega) (Nat.le_refl _)
          omega
        · exact h.symm
        · have ha := h7 l[j] (List.mem_drop_iff_getElem.2 ⟨0, by omega, by simp⟩)
          have hb := g2 j (by omega) h
          omega
      rw [this]

theorem binarySearch_contract : SearchContract binarySearch := by
  intro l x hl
  cases h : binarySearch l x with
  | found i => exact binarySearch_found h
  | notFound i =>
    obtain ⟨h1, h2, h3⟩ := binarySearch_notFound hl h
    refine ⟨h1, fun y hy => ?_, fun y hy => ?_⟩
    · obtain ⟨k, hk, rfl⟩ := List.mem_take_iff_getElem.1 hy
      exact h2 k (by omega) (by omega)
    · obtain ⟨k, hk, rfl⟩ := List.mem_drop_iff_getElem.1 hy
      exact h3 _ (by omega) (by omega)

theorem bsLoop181_spec {l : List Nat} {x : Nat} (hl : l.Pairwise (· ≤ ·)) : ∀ fuel left right, right - left < fuel →
    left ≤ right → right ≤ l.length → (∀ i (hi : i < l.length), i < left → l[i] < x) → (∀ i (hi : i < l.length), right ≤ i → x < l[i]) →
    match bsLoop181 l x fuel left right with
    | .found i => l[i]? = some x
    | .notFound j => j ≤ l.length ∧ (∀ i (hi : i < l.length), i < j → l[i] < x) ∧ ∀ i (hi : i < l.length), j ≤ i → x < l[i] := by
  intro fuel
  induction fuel with
  | zero => intro left right h; omega
  | succ fuel ih =>
    intro left right h1 h2 h3 h4 h5
    unfold bsLoop181
    by_cases hlt : left < right
    · rw [if_pos hlt]
      have hm : left + (right - left) / 2 < right := by omega
      have hm' : left ≤ left + (right - left) / 2 := by omega
      generalize left + (right - left) / 2 = mid at hm hm'
      have hg : l.getD mid 0 = l[mid] := by simp [List.getD, show mid < l.length by omega]
      dsimp only
      rw [hg]
      by_cases he : l[mid] = x
      · rw [if_pos he]
        show l[mid]? = some x
        rw [List.getElem?_eq_getElem (by omega), he]
      · rw [if_neg he]
        have hp := List.pairwise_iff_getElem.1 hl
        by_cases hv : l[mid] < x
        · rw [if_pos hv]
          refine ih _ _ (by omega) (by omega) h3 (fun i hi hlt => ?_) h5
          rcases Nat.lt_or_ge i mid with h | h
          · have := hp i mid hi (by omega) h; omega
          · have : i = mid := by omega
            subst this; exact hv
        · rw [if_neg hv]
          refine ih _ _ (by omega) (by omega) (by omega) h4 (fun i hi hle => ?_)
          rcases Nat.lt_or_ge mid i with h | h
          · have := hp mid i (by omega) hi h; omega
          · have : i = mid := by omega
            subst this; omega
    · rw [if_neg hlt]
      have : left = right := by omega
      subst this
      exact ⟨h3, h4, h5⟩

theorem binarySearch181_contract : SearchContract binarySearch181 := by
  intro l x hl
  have h := bsLoop181_spec (x := x) hl (l.length + 1) 0 l.length (by omega) (by omega) (by omega) (fun i _ h => by omega)
    (fun i _ h => by omega)
  rw [show binarySearch181 l x = bsLoop181 l x (l.length + 1) 0 l.length from rfl]
  cases h1 : bsLoop181 l x (l.length + 1) 0 l.length with
  | found i => rw [h1] at h; exact h
  | notFound j =>
    rw [h1] at h
    obtain ⟨h1, h2, h3⟩ := h
    refine ⟨h1, fun y hy => ?_, fun y hy => ?_⟩
    · obtain ⟨k, hk, rfl⟩ := List.mem_take_iff_getElem.1 hy
      exact h2 k (by omega) (by omega)
    · obtain ⟨k, hk, rfl⟩ := List.mem_drop_iff_getElem.1 hy
      exact h3 _ (by omega) (by omega)

section
variable {bs : List Nat → Nat → Search} (hb : SearchContract bs)
include hb

namespace Archetype

theorem allFoundBy_eq {l : List TypeId} (hl : Incr l) (ids : List TypeId) : allFoundBy bs l ids = allFound l ids := by
  induction ids with
  | nil => rfl
  | cons t ids ih =>
    unfold allFoundBy allFound
    rw [search_unique hb hl]
    split <;> simp [*]

theorem excludeLoopBy_eq {l : List TypeId} (hl : Incr l) (ids : List TypeId) (left : Nat) :
    excludeLoopBy bs l left ids = excludeLoop l left ids := by
  induction ids generalizing left with
  | nil => rfl
  | cons t ids ih =>
    unfold excludeLoopBy excludeLoop
    rw [search_unique hb (hl.drop)]
    split
    · split
      · simp [*]
      · rename_i h; simp only [h, ih]
    · rfl

end Archetype

namespace Tags
variable {c : Tags} (hc : Incr c.tagIds)
include hc

theorem reserveTagBy_eq (t : Nat) : c.reserveTagBy bs t = c.reserveTag t := by
  unfold reserveTagBy reserveTag; rw [search_unique hb hc]; rfl

theorem addTagBy_eq (t id : Nat) : c.addTagBy bs t id = c.addTag t id := by
  unfold addTagBy addTag; rw [reserveTagBy_eq hb hc]

theorem removeTagBy_eq (t id : Nat) : c.removeTagBy bs t id = c.removeTag t id := by
  unfold removeTagBy removeTag; rw [search_unique hb hc]; rfl

theorem hasTagBy_eq (t id : Nat) : c.hasTagBy bs t id = c.hasTag t id := by
  unfold hasTagBy hasTag; rw [search_unique hb hc]; rfl

theorem hasTagBitvecBy_eq (t : Nat) : c.hasTagBitvecBy bs t = c.hasTagBitvec t := by
  unfold hasTagBitvecBy hasTagBitvec; rw [search_unique hb hc]; rfl

theorem runBy_eq (op : TagOp) : op.runBy bs c = op.run c := by
  cases op with
  | add t id => exact addTagBy_eq hb hc t id
  | remove t id => exact removeTagBy_eq hb hc t id
  | removeAll id => rfl
  | grow cap => rfl

end Tags

namespace Orders
variable {c : Orders} (hc : Incr c.groupIds)
include hc

theorem reserveGroupBy_eq (g : Nat) : c.reserveGroupBy bs g = c.reserveGroup g := by
  unfold reserveGroupBy reserveGroup; rw [search_unique hb hc]; rfl

theorem removeBy_eq (g id : Nat) : c.removeBy bs g id = c.remove g id := by
  unfold removeBy remove; rw [search_unique hb hc]; rfl

theorem getGroupIndexBy_eq (g : Nat) : c.getGroupIndexBy bs g = c.getGroupIndex g := by
  unfold getGroupIndexBy getGroupIndex; rw [search_unique hb hc]; rfl

theorem getNextBy_eq (g id : Nat) : c.getNextBy bs g id = c.getNext g id := by
  unfold getNextBy getNext; rw [search_unique hb hc]; rfl

theorem getPreviousBy_eq (g id : Nat) : c.getPreviousBy bs g id = c.getPrevious g id := by
  unfold getPreviousBy getPrevious; rw [search_unique hb hc]; rfl

theorem getHeadBy_eq (g : Nat) : c.getHeadBy bs g = c.getHead g := by
  unfold getHeadBy getHead; rw [getGroupIndexBy_eq hb hc]; rfl

theorem getTailBy_eq (g : Nat) : c.getTailBy bs g = c.getTail g := by
  unfold getTailBy getTail; rw [getGroupIndexBy_eq hb hc]; rfl

theorem runBy_eq (dbg : Bool) (op : OrderOp) : op.runBy bs dbg c = op.run dbg c := by
  cases op with
  | add g id => show c.addBy bs dbg g id = _; unfold addBy; rw [reserveGroupBy_eq hb hc]; rfl
  | addNextTo g id x => show c.addNextToBy bs dbg g id x = _; unfold addNextToBy; rw [reserveGroupBy_eq hb hc]; rfl
  | addPreviousTo g id x => show c.addPreviousToBy bs dbg g id x = _; unfold addPreviousToBy; rw [reserveGroupBy_eq hb hc]; rfl
  | remove g id => exact removeBy_eq hb hc g id
  | removeAll id => rfl
  | grow cap => rfl

end Orders

end

/-! ### The lists stay increasing -/

theorem Tags.reserveTag_incr {c : Tags} (hc : Incr c.tagIds) (t : Nat) : Incr (c.reserveTag t).1.tagIds := by
  unfold Tags.reserveTag
  split
  · exact hc
  · rename_i h; exact hc.insertIdx h

theorem Tags.run_incr {c c' : Tags} (hc : Incr c.tagIds) (op : TagOp) (h : op.run c = .ok c') : Incr c'.tagIds := by
  cases op with
  | add t id =>
    have h1 := Tags.reserveTag_incr hc t
    have h : c.addTag t id = .ok c' := h
    unfold Tags.addTag at h
    obtain ⟨bv, _, h⟩ := bind_eq_ok.1 h
    obtain ⟨bv', _, h⟩ := bind_eq_ok.1 h
    cases h; exact h1
  | remove t id =>
    have h : c.removeTag t id = .ok c' := h
    unfold Tags.removeTag at h
    split at h
    · obtain ⟨bv, _, h⟩ := bind_eq_ok.1 h
      obtain ⟨bv', _, h⟩ := bind_eq_ok.1 h
      cases h; exact hc
    · cases h; exact hc
  | removeAll id =>
    have h : c.removeAllTagsForEntity id = .ok c' := h
    obtain ⟨bv, _, h⟩ := bind_eq_ok.1 h
    cases h; exact hc
  | grow cap =>
    have h : c.grow cap = .ok c' := h
    obtain ⟨bv, _, h⟩ := bind_eq_ok.1 h
    cases h; exact hc

theorem Orders.reserveGroup_incr {c : Orders} (hc : Incr c.groupIds) (t : Nat) : Incr (c.reserveGroup t).1.groupIds := by
  unfold Orders.reserveGroup
  split
  · exact hc
  · rename_i h; exact hc.insertIdx h

theorem Orders.onGroup_ids {c c' : Orders} {i : Nat} {f : Group → Res Group} (h : c.onGroup i f = .ok c') :
    c'.groupIds = c.groupIds := by
  unfold Orders.onGroup at h
  obtain ⟨g, _, h⟩ := bind_eq_ok.1 h
  obtain ⟨g', _, h⟩ := bind_eq_ok.1 h
  cases h; rfl

theorem Orders.run_incr {dbg : Bool} {c c' : Orders} (hc : Incr c.groupIds) (op : OrderOp) (h : op.run dbg c = .ok c') :
    Incr c'.groupIds := by
  cases op with
  | add g id => have := Orders.onGroup_ids h; rw [this]; exact Orders.reserveGroup_incr hc g
  | addNextTo g id x => have := Orders.onGroup_ids h; rw [this]; exact Orders.reserveGroup_incr hc g
  | addPreviousTo g id x => have := Orders.onGroup_ids h; rw [this]; exact Orders.reserveGroup_incr hc g
  | remove g id =>
    have h : c.remove g id = .ok c' := h
    unfold Orders.remove at h
    split at h
    · cases h; exact hc
    · rw [Orders.onGroup_ids h]; exact hc
  | removeAll id =>
    have h : c.removeAll id = .ok c' := h
    obtain ⟨g, _, h⟩ := bind_eq_ok.1 h
    cases h; exact hc
  | grow cap =>
    have h : c.grow dbg cap = .ok c' := h
    unfold Orders.grow at h
    obtain ⟨_, _, h⟩ := bind_eq_ok.1 h
    obtain ⟨g, _, h⟩ := bind_eq_ok.1 h
    cases h; exact hc

/-! ### Runs of calls -/

theorem foldlM_congr {α β ε : Type} {f g : β → α → Except ε β} (P : β → Prop) (hfg : ∀ b, P b → ∀ a, f b a = g b a)
    (hP : ∀ b, P b → ∀ a b', g b a = .ok b' → P b') (l : List α) {b : β} (hb : P b) :
    l.foldlM f b = l.foldlM g b ∧ ∀ b', l.foldlM g b = .ok b' → P b' := by
  induction l generalizing b with
  | nil => exact ⟨rfl, fun b' h => by cases h; exact hb⟩
  | cons a l ih =>
    rw [List.foldlM_cons, List.foldlM_cons, hfg b hb a]
    cases h : g b a with
    | error e => exact ⟨rfl, fun b' h => by cases h⟩
    | ok b1 => exact ih (hP b hb a b1 h)

/-! ### Sorting -/

theorem sort_unique {sort : List ComponentType → List ComponentType} (hs : SortContract sort) {U : Universe} {l : List ComponentType}
    (hl : ∀ c ∈ l, c = .of U c.id) : sort l = sortByKey (·.id) l := by
  obtain ⟨h1, h2⟩ := hs l
  refine (h1.trans (sortByKey_perm _ l).symm).eq_of_pairwise (fun a b ha hb hab hba => ?_) h2 (sortByKey_sorted _ l)
  have e1 := hl a (h1.subset ha)
  have e2 := hl b ((sortByKey_perm _ l).subset hb)
  rw [e1, e2, Nat.le_antisymm hab hba]

/-! ### Pages -/

theorem fillPage_ids (policy : Nat → Nat → Nat) (ids : List Nat) {p : Page} (hp : p.entityCount ≤ p.entityCapacity) :
    (∃ p', ids.foldlM (fun p id => do let (p', _) ← p.addEntityIdBy policy true id; return p') p = (.ok p' : Res Page)) ↔
      p.entityCount + ids.length ≤ p.entityCapacity := by
  induction ids generalizing p with
  | nil => exact ⟨fun _ => by simpa using hp, fun _ => ⟨p, rfl⟩⟩
  | cons id ids ih =>
    rw [List.foldlM_cons]
    by_cases hf : p.entityCount < p.entityCapacity
    · have h1 : p.addEntityIdBy policy true id =
          .ok ({ p with ids := { p.ids with items := p.ids.items ++ [id] } }, p.ids.items.length) := by
        have hne : ¬ p.ids.items.length = p.ids.cap := by unfold Page.entityCount Page.entityCapacity at hf; omega
        unfold Page.addEntityIdBy
        rw [show p.hasFreeSpace = true from decide_eq_true hf]
        simp only [dassert, Bool.not_true, Bool.and_false, Bool.false_eq_true, if_false, CapVec.pushBy, if_neg hne]
        show Except.ok _ = _
        simp
      rw [h1]
      have := ih (p := { p with ids := { p.ids with items := p.ids.items ++ [id] } })
        (by simp [Page.entityCount, Page.entityCapacity] at *; omega)
      refine Iff.trans this ?_
      simp [Page.entityCount, Page.entityCapacity]
      omega
    · have h1 : p.addEntityIdBy policy true id = .error (.panic .debugAssert) := by
        unfold Page.addEntityIdBy
        rw [show p.hasFreeSpace = false from decide_eq_false hf]
        rfl
      rw [h1]
      refine ⟨fun ⟨p', h⟩ => (by cases h), fun h => ?_⟩
      simp at h
      omega

end Ecs
