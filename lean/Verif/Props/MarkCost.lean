import Verif.Spec.MarkCost
import Verif.Spec.Observe
import Verif.Proofs.MarkCost
import Verif.Proofs.HeapAsks
import Verif.Props.Components
import Verif.Props.Cost

/-! C113: how many tags and order groups the calls examine. -/

namespace Ecs.Props
open Spec Meter

section
variable {U : Universe} {dbg : Bool} {cap : Nat} {h : List Event} {s s' : Store} {ev : Event} {w : Work}

private theorem holds {α : Type} {m : Meter α} {r : Res α} {P : α → Work → Prop} (hm : Measured m r P) {a : α} {w : Work}
    (h : m {} = .ok (a, w)) : P a w := by
  have := hm {}
  cases r with
  | ok b =>
    obtain ⟨v, h1, h2⟩ := this
    rw [Work.zero_add] at h1
    rw [h1] at h
    cases h
    exact h2
  | error f =>
    dsimp only at this
    rw [this] at h
    cases h

theorem count_tags (hx : LooseExec U dbg cap h s) : Count (tagNamed h) s.tags.bitvecs.length := by
  have hc := (loose_core hx).tags
  exact ⟨s.tags.tagIds, hc.incr.imp fun h => Nat.ne_of_lt h, hc.len.symm, fun t => registered_iff hx t⟩

theorem count_groups (hx : LooseExec U dbg cap h s) : Count (groupNamed h) s.orders.groups.length := by
  have hc := (loose_core hx).orders
  exact ⟨s.orders.groupIds, hc.incr.imp fun h => Nat.ne_of_lt h, hc.len.symm, fun g => group_registered hx g⟩

theorem count_unique {P : Nat → Prop} {n m : Nat} (h1 : Count P n) (h2 : Count P m) : n = m := by
  obtain ⟨l, k1, rfl, k3⟩ := h1
  obtain ⟨l', k1', rfl, k3'⟩ := h2
  exact ((List.perm_ext_iff_of_nodup k1 k1').2 fun x => (k3 x).trans (k3' x).symm).length_eq

theorem count_le {P Q : Nat → Prop} {n m : Nat} (h1 : Count P n) (h2 : Count Q m) (h : ∀ x, P x → Q x) : n ≤ m := by
  obtain ⟨l, k1, rfl, k3⟩ := h1
  obtain ⟨l', k1', rfl, k3'⟩ := h2
  exact k1.length_le_of_subset fun x hx => (k3' x).2 (h x ((k3 x).1 hx))

/-- **C113** In every state reached by calls that returned, destroying an entity examines every tag and every order group that was ever
used, once each: also if the entity has none of them, and also those that no entity has any more. -/
theorem C113_destroy (hx : LooseExec U dbg cap h s) {e : Entity} (ht : Spec.Takes U dbg s (.destroyed e) s' w) :
    Count (tagNamed h) w.tags ∧ Count (groupNamed h) w.groups ∧ w.archetypes = 0 ∧ w.entities = 0 := by
  obtain ⟨h1, _, h3, h4⟩ := holds (Store.measured_destroy e (Archs.thin_sum s.archs)) ht
  rw [h3, h4]
  exact ⟨count_tags hx, count_groups hx, h1, (holds (Store.measured_destroy_pages e) ht).1⟩

/-- **C113** Destroying a live entity examines no page if it was never given components, or if its page holds another entity, or belongs to
the archetype registered first; otherwise it goes through the pages of its archetype to its page. -/
theorem C113_destroy_pages (hx : LooseExec U dbg cap h s) {e : Entity} (ha : e ∈ alive h)
    (ht : Spec.Takes U dbg s (.destroyed e) s' w) :
    (e ∉ given h → w.pages = 0) ∧
    ∀ p pg i ps, s.archs.pages[p]? = some pg → e.id ∈ pg.ids.items → s.archs.pageToArch[p]? = some i → s.archs.archPages[i]? = some ps →
      w.pages = if pg.ids.items = [e.id] ∧ i ≠ 0 then searched (fun q => decide (q = p)) ps else 0 := by
  have hb := (given_bit hx).2 e ha
  obtain ⟨_, h1⟩ := holds (Store.measured_destroy_pages e) ht
  refine ⟨fun hg => ?_, fun p pg i ps hp hm hi hps => ?_⟩
  · rcases h1 with ⟨h1, _⟩ | ⟨q, h1, _, _⟩
    · exact h1
    · exact absurd (hb.1 (Words.isOn_ok.1 h1).2.symm) hg
  · obtain ⟨k, hk⟩ := List.getElem?_of_mem hm
    have hrow : s.archs.row ⟨p, k⟩ = some e.id := by simp [Archs.row, hp, hk]
    rcases (loose_rows hx).rows _ _ hrow with h0 | ⟨⟨y, y1, y2, y3⟩, hpos⟩
    · cases h0
    have : y = e := (loose_core hx).inj y (by rwa [← alive_eq]) e (by rwa [← alive_eq]) y3
    subst this
    rcases h1 with ⟨_, h1⟩ | ⟨q, _, h2, h3⟩
    · exact absurd (Words.isOn_ok.1 h1).2.symm (by simp [hb.2 y2])
    · have hq : s.getLocUnchecked y.id = .ok ⟨p, k⟩ := by
        have h1 := hpos.page
        have h2 := hpos.index
        unfold Store.getLocUnchecked; simp only [Raw.read, h1, h2]; rfl
      rw [hq] at h2
      cases h2
      rw [h3]
      unfold Archs.freed
      simp only [hp, hi, hps, Option.getD_some]
      have : pg.ids.items.length = 1 ↔ pg.ids.items = [y.id] := by
        constructor
        · intro hl
          obtain ⟨a, ha⟩ := List.length_eq_one_iff.1 hl
          rw [ha] at hm ⊢
          rw [List.mem_singleton.1 hm]
        · intro hl; rw [hl]; rfl
      simp only [this]

/-- **C113** Creating an entity examines no tags and groups as long as the capacity stays the same; when it changes, it doubles, and every
tag and every group ever used is examined once. -/
theorem C113_create (hx : LooseExec U dbg cap h s) (hc : isCreation ev = true) (ht : Spec.Takes U dbg s ev s' w) :
    (s'.entitiesCapacity = s.entitiesCapacity ∧ w.tags = 0 ∧ w.groups = 0) ∨
    (s'.entitiesCapacity ≠ s.entitiesCapacity ∧ s'.entitiesCapacity = max s.entitiesCapacity 1 * 2 ∧
      Count (tagNamed h) w.tags ∧ Count (groupNamed h) w.groups) := by
  have key : ((w.tags = (s.growthWork s'.ents.capacity).tags ∧ w.groups = (s.growthWork s'.ents.capacity).groups) ∧ s.Doubles s') := by
    cases ev with
    | created e =>
      obtain ⟨rfl, h2⟩ := holds Store.measured_create_exact ht
      exact ⟨⟨rfl, rfl⟩, h2⟩
    | createdWith e ts init =>
      obtain ⟨a, _, _, ht⟩ := ht
      exact holds (Store.measured_createWith_marks a) ht
    | _ => cases hc
  obtain ⟨⟨h1, h2⟩, h3⟩ := key
  unfold Store.growthWork at h1 h2
  unfold Store.entitiesCapacity
  by_cases he : s'.ents.capacity = s.ents.capacity
  · rw [if_pos he] at h1 h2
    exact .inl ⟨he, h1, h2⟩
  · rw [if_neg he] at h1 h2
    rw [h1, h2]
    exact .inr ⟨he, h3.resolve_left he, count_tags hx, count_groups hx⟩

/-- **C113** The other calls go through no tags and no groups (they find the one they need by binary search). -/
theorem C113_others (hc : isCreation ev = false) (hd : ∀ e, ev ≠ .destroyed e) (ht : Spec.Takes U dbg s ev s' w) : w.tags = 0 ∧ w.groups = 0 := by
  cases ev with
  | created e => cases hc
  | createdWith e ts init => cases hc
  | destroyed e => exact absurd rfl (hd e)
  | added e vals => have := holds (Store.measured_add e vals (Archs.thin_sum s.archs)) ht; omega
  | removed e ts => have := holds (Store.measured_remove e ts (Archs.thin_sum s.archs)) ht; omega
  | _ => obtain ⟨_, rfl⟩ := ht; exact ⟨rfl, rfl⟩

/-- Counted executions are executions, and all of these can be counted. -/
theorem C113_counted : LooseExec U dbg cap h s ↔ ∃ w, LooseCounted U dbg cap h s w := by
  constructor
  · intro hx
    induction hx with
    | init h1 => exact ⟨_, .init h1⟩
    | step ev _ ha hr ih =>
      obtain ⟨w, hw⟩ := ih
      obtain ⟨v, hv⟩ := C105_counts.1 hr
      exact ⟨_, .step ev hw ha hv⟩
  · rintro ⟨w, hw⟩
    induction hw with
    | init h1 => exact .init h1
    | step ev _ ha ht ih => exact .step ev ih ha (C105_counts.2 ⟨_, ht⟩)

/-- **C113**, whole programs: a program that has used `T` tags and `G` groups, and whose store has doubled its capacity `n` times, has
examined at most `T * (d + n)` tags and `G * (d + n)` groups in all, where `d` is the number of destructions; and `n` is at most the
logarithm of the capacity. -/
theorem C113_total (hx : LooseCounted U dbg cap h s w) {T G : Nat} (hT : Count (tagNamed h) T) (hG : Count (groupNamed h) G) :
    ∃ n, w.tags ≤ T * (destructions h + n) ∧ w.groups ≤ G * (destructions h + n) ∧ (n = 0 ∨ max cap 1 * 2 ^ n ≤ s.entitiesCapacity) ∧
      max cap 1 ≤ max s.entitiesCapacity 1 := by
  induction hx generalizing T G with
  | @init s hs =>
    refine ⟨0, Nat.zero_le _, Nat.zero_le _, .inl rfl, ?_⟩
    unfold Store.withCapacity at hs
    obtain ⟨_, _, hs⟩ := bind_eq_ok.1 hs
    cases hs
    exact Nat.le_refl _
  | @step h s s' w v ev hx hl ht ih =>
    have hx0 := C113_counted.2 ⟨_, hx⟩
    have hT0 := count_tags hx0
    have hG0 := count_groups hx0
    obtain ⟨n, i1, i2, i3, i4⟩ := ih hT0 hG0
    have t1 : s.tags.bitvecs.length ≤ T := count_le hT0 hT fun t ⟨e, he⟩ => ⟨e, List.mem_cons_of_mem _ he⟩
    have g1 : s.orders.groups.length ≤ G := count_le hG0 hG fun g ⟨e, he⟩ => ⟨e, he.imp (List.mem_cons_of_mem _)
      fun ⟨x, hx⟩ => ⟨x, hx.imp (List.mem_cons_of_mem _) (List.mem_cons_of_mem _)⟩⟩
    have a1 : w.tags ≤ T * (destructions h + n) := Nat.le_trans i1 (Nat.mul_le_mul_right _ t1)
    have a2 : w.groups ≤ G * (destructions h + n) := Nat.le_trans i2 (Nat.mul_le_mul_right _ g1)
    have add1 : ∀ A k, A * (k + 1) = A * k + A := fun A k => Nat.mul_succ A k
    by_cases hc : isCreation ev = true
    · have hd : destructions (ev :: h) = destructions h := by cases ev <;> first | rfl | cases hc
      rw [hd]
      rcases C113_create hx0 hc ht with ⟨k1, k2, k3⟩ | ⟨k1, k2, k3, k4⟩
      · refine ⟨n, ?_, ?_, by rw [k1]; exact i3, by rw [k1]; exact i4⟩
        · show w.tags + v.tags ≤ _
          omega
        · show w.groups + v.groups ≤ _
          omega
      · have e1 := count_unique k3 hT0
        have e2 := count_unique k4 hG0
        refine ⟨n + 1, ?_, ?_, .inr ?_, ?_⟩
        · show w.tags + v.tags ≤ _
          rw [← Nat.add_assoc, add1]
          omega
        · show w.groups + v.groups ≤ _
          rw [← Nat.add_assoc, add1]
          omega
        · rw [k2, Nat.pow_succ, ← Nat.mul_assoc]
          refine Nat.mul_le_mul_right _ ?_
          rcases i3 with rfl | i3
          · simpa using i4
          · omega
        · rw [k2]; omega
    · have hc : isCreation ev = false := by simpa using hc
      have hcap : s'.entitiesCapacity = s.entitiesCapacity := capacity_kept hc (C105_counts.2 ⟨_, ht⟩)
      rw [hcap]
      refine ⟨n, ?_, ?_, i3, i4⟩
      · show w.tags + v.tags ≤ _
        by_cases hd : ∃ e, ev = .destroyed e
        · obtain ⟨e, rfl⟩ := hd
          have := count_unique (C113_destroy hx0 ht).1 hT0
          show _ ≤ T * (destructions h + 1 + n)
          rw [Nat.add_right_comm, add1]
          omega
        · have hd0 : destructions (ev :: h) = destructions h := by
            cases ev <;> first | rfl | exact absurd ⟨_, rfl⟩ hd
          rw [hd0, (C113_others hc (fun e he => hd ⟨e, he⟩) ht).1]
          exact a1
      · show w.groups + v.groups ≤ _
        by_cases hd : ∃ e, ev = .destroyed e
        · obtain ⟨e, rfl⟩ := hd
          have := count_unique (C113_destroy hx0 ht).2.1 hG0
          show _ ≤ G * (destructions h + 1 + n)
          rw [Nat.add_right_comm, add1]
          omega
        · have hd0 : destructions (ev :: h) = destructions h := by
            cases ev <;> first | rfl | exact absurd ⟨_, rfl⟩ hd
          rw [hd0, (C113_others hc (fun e he => hd ⟨e, he⟩) ht).2]
          exact a2

theorem named_more {T G : Nat} (hT : Count (tagNamed h) T) (hG : Count (groupNamed h) G) {t g : Nat} {e x : Entity}
    (ht : ¬ tagNamed h t) (hg : ¬ groupNamed h g) :
    Count (tagNamed (.orderedLast g x :: .tagged t e :: h)) (T + 1) ∧ Count (groupNamed (.orderedLast g x :: .tagged t e :: h)) (G + 1) := by
  obtain ⟨l, k1, rfl, k3⟩ := hT
  obtain ⟨m, j1, rfl, j3⟩ := hG
  refine ⟨⟨t :: l, List.nodup_cons.2 ⟨fun hm => ht ((k3 t).1 hm), k1⟩, rfl, fun y => ?_⟩,
    ⟨g :: m, List.nodup_cons.2 ⟨fun hm => hg ((j3 g).1 hm), j1⟩, rfl, fun y => ?_⟩⟩
  · rw [List.mem_cons, k3 y]
    unfold tagNamed
    simp [exists_or]
  · rw [List.mem_cons, j3 y]
    unfold groupNamed
    constructor
    · rintro (rfl | ⟨z, hz⟩)
      · exact ⟨x, .inl List.mem_cons_self⟩
      · exact ⟨z, by simpa using hz.elim (fun h => .inl (.inr h)) .inr⟩
    · rintro ⟨z, hz⟩
      simp only [List.mem_cons, reduceCtorEq, false_or, Event.orderedLast.injEq] at hz
      rcases hz with (⟨rfl, _⟩ | hz) | hz
      · exact .inl rfl
      · exact .inr ⟨z, .inl hz⟩
      · exact .inr ⟨z, .inr hz⟩

/-- **C113**, no fixed bound: for every `k` there is an execution after which destroying an entity that never had a component, a tag or a
place in a group examines `k` tags and `k` groups. -/
theorem C113_bare (U : Universe) (dbg : Bool) (k : Nat) :
    ∃ h s e s' w, SafeExec U dbg 2 h s ∧ e ∈ alive h ∧ e ∉ given h ∧ (∀ t, .tagged t e ∉ h) ∧ (∀ g, e ∉ sequence g h) ∧
      Spec.Takes U dbg s (.destroyed e) s' w ∧ w.tags = k ∧ w.groups = k ∧ w.pages = 0 := by
  have key : ∀ k, ∃ h s x e, SafeExec U dbg 2 h s ∧ x ∈ alive h ∧ e ∈ alive h ∧ x ≠ e ∧ e ∉ given h ∧ (∀ t, .tagged t e ∉ h) ∧
      (∀ g, e ∉ sequence g h) ∧ Count (tagNamed h) k ∧ Count (groupNamed h) k ∧ (∀ t, tagNamed h t → t < k) ∧
      (∀ g, groupNamed h g → g < k) ∧ (∀ g, g ≥ k → x ∉ sequence g h) := by
    intro k
    induction k with
    | zero =>
      have : ∃ s, Store.withCapacity dbg 2 = .ok s := by cases dbg <;> exact ⟨_, rfl⟩
      obtain ⟨s, hs⟩ := this
      obtain ⟨s1, x, _, _, h1⟩ := ((C46_safe_calls_return_partial (U := U) (.init hs)).2 (by decide)).1
      obtain ⟨s2, e, h0, _, h2⟩ := ((C46_safe_calls_return_partial h1).2 (by simp [handles])).1
      have hne : x ≠ e := fun h => h0 (by rw [← h]; exact List.mem_cons_self)
      refine ⟨_, s2, x, e, h2, by simp [alive], by simp [alive], hne, by simp [given], by simp, by simp [sequence],
        ⟨[], List.nodup_nil, rfl, by simp [tagNamed]⟩, ⟨[], List.nodup_nil, rfl, by simp [groupNamed]⟩, by simp [tagNamed],
        by simp [groupNamed], by simp [sequence]⟩
    | succ k ih =>
      obtain ⟨h, s, x, e, h1, h2, h3, h4, h5, h6, h7, h8, h9, h10, h11, h12⟩ := ih
      have hx' : x ∈ (world h).live := by rw [← alive_eq]; exact h2
      obtain ⟨s1, _, k1⟩ := (C46_safe_calls_return_partial h1).1 (.tagged k x) rfl hx' (by simp [needs])
      obtain ⟨s2, _, k2⟩ := (C46_safe_calls_return_partial k1).1 (.orderedLast k x) rfl ⟨hx', by
        have := h12 k (Nat.le_refl _)
        rw [sequence_eq] at this
        exact this⟩ (by simp [needs])
      obtain ⟨c1, c2⟩ := named_more (e := x) (x := x) h8 h9 (t := k) (g := k) (fun h => Nat.lt_irrefl _ (h10 k h))
        (fun h => Nat.lt_irrefl _ (h11 k h))
      refine ⟨_, s2, x, e, k2, h2, h3, h4, h5, ?_, ?_, c1, c2, ?_, ?_, ?_⟩
      · intro t ht
        simp only [List.mem_cons, reduceCtorEq, false_or, Event.tagged.injEq] at ht
        rcases ht with ⟨_, rfl⟩ | ht
        · exact h4 rfl
        · exact h6 t ht
      · intro g hg
        have : e ∈ (if k = g then sequence g h ++ [x] else sequence g h) := hg
        split at this
        · rcases List.mem_append.1 this with h0 | h0
          · exact h7 g h0
          · exact h4 (List.mem_singleton.1 h0).symm
        · exact h7 g this
      · rintro t ⟨y, hy⟩
        simp only [List.mem_cons, reduceCtorEq, false_or, Event.tagged.injEq] at hy
        rcases hy with ⟨rfl, _⟩ | hy
        · omega
        · have := h10 t ⟨y, hy⟩; omega
      · rintro g ⟨y, hy⟩
        simp only [List.mem_cons, reduceCtorEq, false_or, Event.orderedLast.injEq] at hy
        rcases hy with (⟨rfl, _⟩ | hy) | hy
        · omega
        · have := h11 g ⟨y, .inl hy⟩; omega
        · have := h11 g ⟨y, .inr hy⟩; omega
      · intro g hg hm
        have : x ∈ (if k = g then sequence g h ++ [x] else sequence g h) := hm
        rw [if_neg (by omega)] at this
        exact h12 g (by omega) this
  obtain ⟨h, s, x, e, h1, h2, h3, h4, h5, h6, h7, h8, h9, _⟩ := key k
  have he' : e ∈ (world h).live := by rw [← alive_eq]; exact h3
  obtain ⟨s', hd, _⟩ := (C46_safe_calls_return_partial h1).1 (.destroyed e) rfl he' (by simp [needs])
  obtain ⟨w, hw⟩ := C105_counts.1 hd.1
  have hx := h1.exec.loose
  obtain ⟨m1, m2, _⟩ := C113_destroy hx hw
  exact ⟨h, s, e, s', w, h1, h3, h5, h6, h7, hw, count_unique m1 h8, count_unique m2 h9, (C113_destroy_pages hx h3 hw).1 h5⟩

end

/-! ### Examples -/

/-- Tags 7 and 9 and group 4 are used for entity 0, which is destroyed; entity 1 has nothing, entity 2 a component. -/
def marked : List Event :=
  [.destroyed ⟨0, 1⟩, .added ⟨2, 1⟩ [(4, [30])], .orderedLast 4 ⟨0, 1⟩, .untagged 7 ⟨0, 1⟩, .tagged 9 ⟨0, 1⟩, .tagged 7 ⟨0, 1⟩,
   .created ⟨2, 1⟩, .created ⟨1, 1⟩, .created ⟨0, 1⟩]

/-- Destroying entity 1 examines the two tags and the group. Destroying entity 2 examines no page: its archetype was the first one. -/
example : ((runLoose demo true 4 marked).any fun s =>
    okAnd (s.destroyEntityM true ⟨1, 1⟩ {}) fun r => okAnd (s.destroyEntityM true ⟨2, 1⟩ {}) fun r' =>
      decide (r.2 = { tags := 2, groups := 1 }) && decide (r'.2 = { tags := 2, groups := 1 })) = true := by decide

/-- With a second archetype, whose only entity is destroyed, its page is looked for. -/
example : ((runLoose demo true 4 (.added ⟨1, 1⟩ [(5, [1])] :: marked)).any fun s =>
    okAnd (s.destroyEntityM true ⟨1, 1⟩ {}) fun r => decide (r.2 = { tags := 2, groups := 1, pages := 1 })) = true := by decide

/-- A creation that makes the store grow, and one that does not. -/
example : ((runLoose demo true 2 marked).any fun s => (runLoose demo true 1 [.tagged 3 ⟨0, 1⟩, .created ⟨0, 1⟩]).any fun s1 =>
    okAnd (s.createEntityM true {}) fun r => okAnd (s1.createEntityM true {}) fun r1 =>
      decide (r.2 = {}) && decide (r1.2 = { tags := 1 })) = true := by decide

example : Count (tagNamed marked) 2 ∧ Count (groupNamed marked) 1 ∧ destructions marked = 1 :=
  ⟨⟨[7, 9], by decide, rfl, fun x => by simp [tagNamed, marked, exists_or, or_comm]⟩,
   ⟨[4], by decide, rfl, fun x => by simp [groupNamed, marked]⟩, rfl⟩

end Ecs.Props
