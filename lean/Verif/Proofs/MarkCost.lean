import Verif.Proofs.Cost
import Verif.Proofs.EntsOf
import Verif.Proofs.Rows

/-! What growing and destroying examine, exactly. -/

namespace Ecs
open Spec Meter

theorem Ents.grow_capacity {c c' : Ents} {n : Nat} (h : c.grow n = .ok c') : c'.capacity = c.capacity ∨ c'.capacity = n := by
  unfold Ents.grow at h
  split at h
  · cases h; exact .inl rfl
  · obtain ⟨_, _, h⟩ := bind_eq_ok.1 h
    obtain ⟨_, _, h⟩ := bind_eq_ok.1 h
    cases h
    exact .inr rfl

theorem Ents.create_capacity {dbg : Bool} {c c' : Ents} {cr : EntityCreation} (h : c.create dbg = .ok (c', cr)) :
    cr.capacityBefore = c.capacity ∧ cr.capacityAfter = c'.capacity ∧
      (c'.capacity = c.capacity ∨ c'.capacity = max c.capacity 1 * 2) := by
  unfold Ents.create at h
  obtain ⟨⟨id, c1⟩, ht, h⟩ := bind_eq_ok.1 h
  obtain ⟨_, _, h⟩ := bind_eq_ok.1 h
  obtain ⟨_, _, h⟩ := bind_eq_ok.1 h
  obtain ⟨_, _, h⟩ := bind_eq_ok.1 h
  obtain ⟨_, _, h⟩ := bind_eq_ok.1 h
  cases h
  refine ⟨rfl, rfl, ?_⟩
  unfold Ents.takeId at ht
  split at ht
  · cases ht; exact .inl rfl
  · obtain ⟨_, _, ht⟩ := bind_eq_ok.1 ht
    dsimp only at ht
    split at ht
    · obtain ⟨c2, h2, ht⟩ := bind_eq_ok.1 ht
      cases ht
      have := Ents.grow_capacity h2
      exact this
    · cases ht; exact .inl rfl

namespace Archs
variable {dbg : Bool} {c : Archs}

/-- The pages examined when row `q` is removed. -/
def freed (c : Archs) (p : Nat) : Nat :=
  match c.pages[p]?, c.pageToArch[p]? with
  | some pg, some i => if pg.ids.items.length = 1 ∧ i ≠ 0 then searched (fun q => decide (q = p)) ((c.archPages[i]?).getD []) else 0
  | _, _ => 0

theorem measured_swapRemove_exact (q : Loc) : Measured (c.swapRemoveEntityM q) (c.swapRemoveEntity q)
    (fun _ w => w = { pages := c.freed q.page }) := by
  unfold swapRemoveEntityM swapRemoveEntity
  refine Measured.step fun i hi => Measured.step fun pg hp => Measured.step fun a _ => Measured.step fun l _ =>
    Measured.step fun r _ => ?_
  have hi := idx_ok.1 hi
  have hp := idx_ok.1 hp
  dsimp only
  by_cases hc : pg.entityCount == 1
  · rw [if_pos hc, if_pos hc]
    refine Measured.bind (P := fun _ w => w = { pages := c.freed q.page }) (Q := fun _ _ w => w = {}) ?_ (fun _ _ => Measured.pure0 _) ?_
    · unfold freePageM freePage
      refine Measured.step fun j hj => ?_
      have hj : c.pageToArch[q.page]? = some j := idx_ok.1 hj
      rw [hi] at hj
      cases hj
      have hlen : pg.ids.items.length = 1 := by simpa [Page.entityCount] using hc
      refine Measured.ite (fun h0 => Measured.pure _ ?_) fun h0 => ?_
      · simp [freed, hp, hi, h0]
      · refine Measured.step fun ps hps => ?_
        have hps : c.archPages[i]? = some ps := idx_ok.1 hps
        refine Measured.bindOk (measured_findPage q.page ps) (Measured.pure0 _) ?_
        rintro _ _ _ _ rfl rfl
        simp [freed, hp, hi, hps, hlen, h0, Work.add_def]
    · rintro _ _ _ _ _ _ rfl rfl
      rfl
  · rw [if_neg hc, if_neg hc]
    refine Measured.pure _ ?_
    have hlen : pg.ids.items.length ≠ 1 := by simpa [Page.entityCount] using hc
    simp [freed, hp, hi, hlen]

end Archs

namespace Store
variable {dbg : Bool} {s : Store}

theorem measured_growEntities_ents (n : Nat) : Measured (s.growEntitiesInternalM dbg n) (s.growEntitiesInternal dbg n)
    (fun s' w => w = { tags := s.tags.bitvecs.length, groups := s.orders.groups.length } ∧ s'.ents = s.ents) := by
  unfold growEntitiesInternalM growEntitiesInternal
  refine Measured.step fun _ _ => Measured.step fun _ _ => Measured.step fun _ _ => ?_
  refine Measured.bind (Tags.measured_grow _ _) (Q := fun _ s' w => w = { groups := s.orders.groups.length } ∧ s'.ents = s.ents)
    (fun _ _ => ?_) ?_
  · refine Measured.bind (Orders.measured_grow _ _ _) (Q := fun _ s' w => w = {} ∧ s'.ents = s.ents)
      (fun _ _ => Measured.pure _ ⟨rfl, rfl⟩) ?_
    rintro _ _ _ _ _ _ rfl ⟨rfl, h⟩
    exact ⟨rfl, h⟩
  · rintro _ _ _ _ _ _ rfl ⟨rfl, h⟩
    exact ⟨by simp [Work.add_def], h⟩

/-- What growing the store from its capacity to `n` examines. -/
def growthWork (s : Store) (n : Nat) : Work :=
  if n = s.ents.capacity then {} else { tags := s.tags.bitvecs.length, groups := s.orders.groups.length }

/-- The capacity stays or doubles. -/
def Doubles (s s' : Store) : Prop := s'.ents.capacity = s.ents.capacity ∨ s'.ents.capacity = max s.ents.capacity 1 * 2

theorem measured_register_exact : Measured (s.registerNewEntityM dbg) (s.registerNewEntity dbg)
    (fun r w => w = s.growthWork r.1.ents.capacity ∧ s.Doubles r.1) := by
  unfold registerNewEntityM registerNewEntity
  refine Measured.step fun r hr => ?_
  obtain ⟨k1, k2, k3⟩ := Ents.create_capacity (c' := r.1) (cr := r.2) hr
  dsimp only
  cases hg : r.2.wasGrow with
  | true =>
    unfold EntityCreation.wasGrow at hg
    rw [k1, k2] at hg
    refine Measured.bind (measured_growEntities_ents _) (Q := fun a b w => w = {} ∧ b.1 = a) (fun _ _ => Measured.pure _ ⟨rfl, rfl⟩) ?_
    rintro _ ⟨_, _⟩ _ _ _ _ ⟨rfl, h⟩ ⟨rfl, rfl⟩
    dsimp only
    rw [h]
    refine ⟨?_, ?_⟩
    · unfold growthWork
      rw [if_neg (by simpa using hg)]
      rfl
    · unfold Doubles
      rw [h]
      exact k3
  | false =>
    unfold EntityCreation.wasGrow at hg
    rw [k1, k2] at hg
    refine Measured.pure _ ⟨?_, k3⟩
    unfold growthWork
    rw [if_pos (by simpa using hg)]

theorem measured_create_exact : Measured (s.createEntityM dbg) (s.createEntity dbg)
    (fun r w => w = s.growthWork r.1.ents.capacity ∧ s.Doubles r.1) := by
  unfold createEntityM createEntity
  refine Measured.bind measured_register_exact (Q := fun a b w => w = {} ∧ b.1.ents = a.1.ents)
    (fun _ _ => Measured.step fun _ _ => Measured.pure _ ⟨rfl, rfl⟩) ?_
  rintro _ _ _ _ _ _ ⟨rfl, h1⟩ ⟨rfl, h2⟩
  rw [h2]
  refine ⟨rfl, ?_⟩
  unfold Doubles
  rw [h2]
  exact h1

theorem measured_createWith_marks (a : Archetype) :
    Measured (s.createEntityWithArchetypeM dbg a) (s.createEntityWithArchetype dbg a)
    (fun r w => (w.tags = (s.growthWork r.1.ents.capacity).tags ∧ w.groups = (s.growthWork r.1.ents.capacity).groups) ∧
      s.Doubles r.1) := by
  unfold createEntityWithArchetypeM createEntityWithArchetype
  refine Measured.bind measured_register_exact (Q := fun a b w => w.tags = 0 ∧ w.groups = 0 ∧ b.1.ents = a.1.ents)
    (fun x _ => ?_) ?_
  · refine Measured.bind (Archs.measured_addEntity x.2.id a (Archs.thin_sum _))
      (Q := fun _ b w => w = {} ∧ b.1.ents = x.1.ents)
      (fun _ _ => Measured.step fun _ h => Measured.pure _ ⟨rfl, (SameCore.recordRow h).ents⟩) ?_
    rintro _ _ _ _ _ _ ⟨_, h1, h2, _⟩ ⟨rfl, h3⟩
    exact ⟨h1, h2, h3⟩
  · rintro x y v w _ _ ⟨rfl, h1⟩ ⟨h2, h3, h4⟩
    rw [h4]
    refine ⟨⟨?_, ?_⟩, ?_⟩
    · simp only [Work.add_def, h2, Nat.add_zero]
    · simp only [Work.add_def, h3, Nat.add_zero]
    · unfold Doubles
      rw [h4]
      exact h1

theorem measured_destroyRow_exact (e : Entity) : Measured (s.destroyRowM e) (s.destroyRow e)
    (fun _ w => w = {} ∧ s.hasArch.isOn e.id = .ok false ∨
      ∃ q, s.hasArch.isOn e.id = .ok true ∧ s.getLocUnchecked e.id = .ok q ∧ w = { pages := s.archs.freed q.page }) := by
  unfold destroyRowM destroyRow
  refine Measured.step fun b hb => ?_
  cases b with
  | true =>
    refine Measured.step fun q hq => ?_
    refine Measured.mono (P := fun _ w => w = { pages := s.archs.freed q.page }) ?_ fun _ w _ h => .inr ⟨q, hb, hq, h⟩
    unfold swapRemoveInternalM swapRemoveInternal
    refine Measured.bind (Archs.measured_swapRemove_exact q) (Q := fun _ _ w => w = {}) (fun x _ => ?_) ?_
    · obtain ⟨c1, o⟩ := x
      cases o with
      | some i => exact Measured.step fun _ _ => Measured.pure0 _
      | none => exact Measured.pure0 _
    · rintro _ _ _ _ _ _ rfl rfl
      rfl
  | false => exact Measured.pure _ (.inl ⟨rfl, hb⟩)

theorem measured_destroy_pages (e : Entity) : Measured (s.destroyEntityM dbg e) (s.destroyEntity dbg e)
    (fun _ w => w.entities = 0 ∧ (w.pages = 0 ∧ s.hasArch.isOn e.id = .ok false ∨
      ∃ q, s.hasArch.isOn e.id = .ok true ∧ s.getLocUnchecked e.id = .ok q ∧ w.pages = s.archs.freed q.page)) := by
  unfold destroyEntityM destroyEntity
  refine Measured.bind (measured_destroyRow_exact e) (Q := fun _ _ w => w.pages = 0 ∧ w.entities = 0) (fun s1 _ => ?_) ?_
  · refine Measured.step fun _ _ => Measured.bind (Tags.measured_removeAll _ _)
      (Q := fun _ _ w => w.pages = 0 ∧ w.entities = 0) (fun _ _ => ?_) ?_
    · refine Measured.bind (Orders.measured_removeAll _ _) (fun _ _ => Measured.pure0 _) ?_
      rintro _ _ _ _ _ _ rfl rfl
      exact ⟨rfl, rfl⟩
    · rintro _ _ _ _ _ _ rfl ⟨h1, h2⟩
      simp [Work.add_def, h1, h2]
  · rintro s1 _ v w _ _ h ⟨h1, h2⟩
    rcases h with ⟨rfl, h⟩ | ⟨q, h3, h4, rfl⟩
    · simp [Work.add_def, h1, h2, h]
    · refine ⟨by simp [Work.add_def, h2], .inr ⟨q, h3, h4, by simp [Work.add_def, h1]⟩⟩

end Store

theorem destroy_capacity {c c' : Ents} {dbg : Bool} {e : Entity} (h : c.destroy dbg e = .ok c') : c'.capacity = c.capacity := by
  unfold Ents.destroy at h
  obtain ⟨_, _, h⟩ := bind_eq_ok.1 h
  split at h
  all_goals
    simp only [bind_assoc] at h
    repeat (first | (obtain ⟨_, _, h⟩ := bind_eq_ok.1 h) | split at h)
    all_goals (cases h; rfl)

/-- Only creations change the capacity. -/
theorem capacity_kept {U : Universe} {dbg : Bool} {s s' : Store} {ev : Event} (hc : isCreation ev = false) (hr : Returns U dbg s ev s') :
    s'.ents.capacity = s.ents.capacity := by
  cases ev with
  | created e => cases hc
  | createdWith e ts init => cases hc
  | destroyed e => exact destroy_capacity (destroyEntity_ents hr)
  | added e vals => rw [(SameCore.added hr).ents]
  | removed e ts => rw [(SameCore.removed hr).ents]
  | assigned e vals => obtain ⟨b, hr⟩ := hr; rw [(SameCore.assigned hr).ents]
  | tagged tag e => obtain ⟨_, _, hr⟩ := bind_eq_ok.1 hr; cases hr; rfl
  | untagged tag e => obtain ⟨_, _, hr⟩ := bind_eq_ok.1 hr; cases hr; rfl
  | orderedLast g e => obtain ⟨_, _, hr⟩ := bind_eq_ok.1 hr; cases hr; rfl
  | orderedAfter g e x => obtain ⟨_, _, hr⟩ := bind_eq_ok.1 hr; cases hr; rfl
  | orderedBefore g e x => obtain ⟨_, _, hr⟩ := bind_eq_ok.1 hr; cases hr; rfl
  | unordered g e => obtain ⟨_, _, hr⟩ := bind_eq_ok.1 hr; cases hr; rfl

end Ecs
