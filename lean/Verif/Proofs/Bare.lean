import Verif.Spec.Bare
import Verif.Proofs.Alone

/-! Stores in which no entity ever had components (C115). -/

namespace Ecs
open Spec

/-- A bit vector with no bit on. -/
def Words.Zero (w : Words) : Prop := ∀ v ∈ w, v = 0#32

theorem zero_setOff {w w' : Words} {i : Nat} (hl : w'.length = w.length) (hz : w'.Zero) :
    Both (fun a b => b.length = a.length ∧ b.Zero) (w.setOff i) (w'.setOff i) := by
  unfold Words.setOff
  by_cases hi : i / 32 < w.length
  · rw [List.getElem?_eq_getElem hi, List.getElem?_eq_getElem (hl ▸ hi)]
    refine ⟨by rw [List.length_set, List.length_set]; exact hl, fun v hv => ?_⟩
    rcases List.mem_or_eq_of_mem_set hv with hv | rfl
    · exact hz v hv
    · rw [hz _ (List.getElem_mem (hl ▸ hi))]
      simp
  · rw [List.getElem?_eq_none (Nat.le_of_not_lt hi), List.getElem?_eq_none (hl ▸ Nat.le_of_not_lt hi)]
    exact rfl

theorem zero_isOn {w w' : Words} {i : Nat} (hl : w'.length = w.length) (hz : w'.Zero) {b : Bool} (h : w.isOn i = .ok b) :
    w'.isOn i = .ok false := by
  unfold Words.isOn at h ⊢
  by_cases hi : i / 32 < w.length
  · rw [List.getElem?_eq_getElem (hl ▸ hi), hz _ (List.getElem_mem (hl ▸ hi))]
    show Except.ok _ = _
    congr 1
    have : Words.mask i ≠ 0#32 := by
      have hm : i % 32 < 32 := Nat.mod_lt _ (by decide)
      unfold Words.mask
      intro h0
      have := congrArg (fun v : BitVec 32 => v.getLsbD (i % 32)) h0
      simp [hm] at this
    simpa using this.symm
  · rw [List.getElem?_eq_none (Nat.le_of_not_lt hi)] at h
    cases h

theorem zero_realloc {w w' : Words} {m n : Nat} (hl : w'.length = w.length) (hz : w'.Zero) :
    Both (fun a b => b.length = a.length ∧ b.Zero) (w.realloc m n) (w'.realloc m n) := by
  unfold Words.realloc
  dsimp only
  split
  · exact ⟨hl, hz⟩
  · rw [hl]
    split
    · exact rfl
    · unfold Words.dealloc
      rw [hl]
      split
      · refine ⟨?_, fun v hv => ?_⟩
        · simp only [List.length_append, List.length_take, List.length_replicate, hl]
        · rcases List.mem_append.1 hv with hv | hv
          · exact hz v (List.mem_of_mem_take hv)
          · exact List.eq_of_mem_replicate hv
      · exact rfl

theorem raw_realloc {a a' : Raw Nat} {m n : Nat} (hl : a'.length = a.length) :
    Both (fun b b' => b'.length = b.length) (Raw.realloc a m n) (Raw.realloc a' m n) := by
  unfold Raw.realloc
  split
  · exact hl
  · rw [hl]
    split
    · exact rfl
    · unfold Raw.dealloc
      rw [hl]
      split
      · show (_ : List _).length = (_ : List _).length
        simp only [List.length_append, List.length_take, List.length_replicate, hl]
      · exact rfl

/-- The second store has the same entities, tags and groups, and no entity has components. -/
structure Store.Bared (s s' : Store) : Prop where
  ents : s'.ents = s.ents
  tags : s'.tags = s.tags
  orders : s'.orders = s.orders
  plen : s'.toPage.length = s.toPage.length
  ilen : s'.toIndex.length = s.toIndex.length
  blen : s'.hasArch.length = s.hasArch.length
  zero : s'.hasArch.Zero

namespace Store.Bared
variable {s s' s1 : Store} {U : Universe} {dbg : Bool} {cap : Nat}

/-- Calls that leave entities, tags and groups alone may be left out. -/
theorem after (h : Bared s s') (hs : SameCore s s1) : Bared s1 s' :=
  ⟨h.ents.trans hs.ents.symm, h.tags.trans hs.tags.symm, h.orders.trans hs.orders.symm, h.plen.trans hs.plen.symm,
    h.ilen.trans hs.ilen.symm, h.blen.trans hs.blen.symm, h.zero⟩

theorem register (h : Bared s s') :
    Both (fun x y => Bared x.1 y.1 ∧ x.2 = y.2) (s.registerNewEntity dbg) (s'.registerNewEntity dbg) := by
  unfold registerNewEntity
  rw [h.ents]
  refine Both.same fun x => ?_
  obtain ⟨ents, cr⟩ := x
  dsimp only
  by_cases hg : cr.wasGrow = true
  · rw [if_pos hg, if_pos hg]
    unfold growEntitiesInternal
    refine Both.bind (R := Bared) ?_ fun a b hab => ⟨hab, rfl⟩
    refine (raw_realloc h.plen).bind fun p p' hp => (raw_realloc h.ilen).bind fun i i' hi => ?_
    refine (zero_realloc h.blen h.zero).bind fun w w' hw => ?_
    show Both _ (s.tags.grow _ >>= _) (s'.tags.grow _ >>= _)
    rw [h.tags]
    refine Both.same fun t => ?_
    show Both _ (s.orders.grow dbg _ >>= _) (s'.orders.grow dbg _ >>= _)
    rw [h.orders]
    exact Both.same fun o => ⟨rfl, rfl, rfl, hp, hi, hw.1, hw.2⟩
  · rw [if_neg hg, if_neg hg]
    exact ⟨⟨rfl, h.tags, h.orders, h.plen, h.ilen, h.blen, h.zero⟩, rfl⟩

theorem create (h : Bared s s') :
    Both (fun x y => Bared x.1 y.1 ∧ x.2 = y.2) (s.createEntity dbg) (s'.createEntity dbg) := by
  unfold createEntity
  refine h.register.bind fun x y hxy => ?_
  obtain ⟨s1, e⟩ := x
  obtain ⟨s2, e'⟩ := y
  obtain ⟨hb, he⟩ := hxy
  dsimp only at hb he ⊢
  subst he
  exact (zero_setOff hb.blen hb.zero).bind fun w w' hw => ⟨⟨hb.ents, hb.tags, hb.orders, hb.plen, hb.ilen, hw.1, hw.2⟩, rfl⟩

theorem createWith (h : Bared s s') {a : Archetype} {e : Entity} (hr : s.createEntityWithArchetype dbg a = .ok (s1, e)) :
    ∃ s2, s'.createEntity dbg = .ok (s2, e) ∧ Bared s1 s2 := by
  unfold createEntityWithArchetype at hr
  obtain ⟨⟨s3, e3⟩, h1, hr⟩ := bind_eq_ok.1 hr
  obtain ⟨⟨archs, loc⟩, _, hr⟩ := bind_eq_ok.1 hr
  obtain ⟨s4, h4, hr⟩ := bind_eq_ok.1 hr
  cases hr
  obtain ⟨⟨s5, e5⟩, h5, hb, he⟩ := (h.register (dbg := dbg)).ok h1
  dsimp only at hb he
  subst he
  have hc := SameCore.recordRow h4
  have hon : ∃ w, s3.hasArch.setOn e.id = .ok w := by
    unfold recordRow at h4
    obtain ⟨_, _, h4⟩ := bind_eq_ok.1 h4
    obtain ⟨_, _, h4⟩ := bind_eq_ok.1 h4
    obtain ⟨w, h6, _⟩ := bind_eq_ok.1 h4
    exact ⟨w, h6⟩
  obtain ⟨w, hw⟩ := hon
  have hoff : ∃ w, s3.hasArch.setOff e.id = .ok w := by
    unfold Words.setOn at hw
    unfold Words.setOff
    split at hw
    · exact ⟨_, rfl⟩
    · cases hw
  obtain ⟨w2, hw2⟩ := hoff
  obtain ⟨w', h6, h7, h8⟩ := (zero_setOff hb.blen hb.zero).ok hw2
  have hlen : w2.length = s3.hasArch.length := by
    unfold Words.setOff at hw2
    split at hw2
    · cases hw2; exact List.length_set
    · cases hw2
  refine ⟨{ s5 with hasArch := w' }, ?_, ?_⟩
  · unfold createEntity
    rw [h5]
    show (s5.hasArch.setOff e.id >>= _) = _
    rw [h6]
    rfl
  · have : Bared s3 { s5 with hasArch := w' } := ⟨hb.ents, hb.tags, hb.orders, hb.plen, hb.ilen, h7.trans hlen, h8⟩
    exact this.after ⟨hc.ents, hc.tags, hc.orders, hc.plen, hc.ilen, hc.blen⟩

theorem destroyed (h : Bared s s') {e : Entity} (hr : s.destroyEntity dbg e = .ok s1) :
    ∃ s2, s'.destroyEntity dbg e = .ok s2 ∧ Bared s1 s2 := by
  unfold destroyEntity at hr
  obtain ⟨s3, h1, hr⟩ := bind_eq_ok.1 hr
  obtain ⟨ents, h2, hr⟩ := bind_eq_ok.1 hr
  obtain ⟨tags, h3, hr⟩ := bind_eq_ok.1 hr
  obtain ⟨orders, h4, hr⟩ := bind_eq_ok.1 hr
  cases hr
  have hb := h.after (SameCore.destroyRow h1)
  have h0 : s'.destroyRow e = .ok s' := by
    unfold destroyRow at h1 ⊢
    obtain ⟨b, h5, _⟩ := bind_eq_ok.1 h1
    rw [zero_isOn h.blen h.zero h5]
    rfl
  refine ⟨{ s' with ents := ents, tags := tags, orders := orders }, ?_, ⟨rfl, rfl, rfl, hb.plen, hb.ilen, hb.blen, hb.zero⟩⟩
  unfold destroyEntity
  rw [h0]
  show (s'.ents.destroy dbg e >>= _) = _
  rw [hb.ents, h2]
  show (s'.tags.removeAllTagsForEntity e.id >>= _) = _
  rw [hb.tags, h3]
  show (s'.orders.removeAll e.id >>= _) = _
  rw [hb.orders, h4]
  rfl

theorem onTags (h : Bared s s') (f : Tags → Res Tags) : Both Bared (f s.tags >>= fun t => pure { s with tags := t })
    (f s'.tags >>= fun t => pure { s' with tags := t }) := by
  rw [h.tags]
  exact Both.same fun t => ⟨h.ents, rfl, h.orders, h.plen, h.ilen, h.blen, h.zero⟩

theorem onOrders (h : Bared s s') (f : Orders → Res Orders) : Both Bared (f s.orders >>= fun t => pure { s with orders := t })
    (f s'.orders >>= fun t => pure { s' with orders := t }) := by
  rw [h.orders]
  exact Both.same fun t => ⟨h.ents, h.tags, rfl, h.plen, h.ilen, h.blen, h.zero⟩

theorem returns (h : Bared s s') {ev : Event} (hr : Returns U dbg s ev s1) :
    match bareCall ev with
    | some ev' => ∃ s2, Returns U dbg s' ev' s2 ∧ Bared s1 s2
    | none => Bared s1 s' := by
  cases ev with
  | created e =>
    obtain ⟨⟨s2, e'⟩, h1, h2, h3⟩ := (h.create (dbg := dbg)).ok hr
    cases h3
    exact ⟨s2, h1, h2⟩
  | createdWith e ts init =>
    obtain ⟨a, _, _, hr⟩ := hr
    exact h.createWith hr
  | destroyed e => exact h.destroyed hr
  | added e v => exact h.after (SameCore.added hr)
  | removed e ts => exact h.after (SameCore.removed hr)
  | assigned e v =>
    obtain ⟨b, hr⟩ := hr
    exact h.after (SameCore.assigned hr)
  | tagged k e => exact (h.onTags fun t => t.addTag k e.id).ok hr
  | untagged k e => exact (h.onTags fun t => t.removeTag k e.id).ok hr
  | orderedLast g e => exact (h.onOrders fun t => t.add dbg g e.id).ok hr
  | orderedAfter g e x => exact (h.onOrders fun t => t.addNextTo dbg g e.id x.id).ok hr
  | orderedBefore g e x => exact (h.onOrders fun t => t.addPreviousTo dbg g e.id x.id).ok hr
  | unordered g e => exact (h.onOrders fun t => t.remove g e.id).ok hr

theorem init (hs : Store.withCapacity dbg cap = .ok s) : Bared s s := by
  unfold Store.withCapacity at hs
  obtain ⟨_, _, hs⟩ := bind_eq_ok.1 hs
  cases hs
  exact ⟨rfl, rfl, rfl, rfl, rfl, rfl, fun v hv => List.eq_of_mem_replicate hv⟩

theorem runs {h : List Event} (hx : Runs U dbg cap h s) : ∃ s', Runs U dbg cap (componentless h) s' ∧ Bared s s' := by
  induction hx with
  | init hs => exact ⟨_, .init hs, .init hs⟩
  | step ev _ hr ih =>
    obtain ⟨s', h1, h2⟩ := ih
    have := h2.returns hr
    unfold componentless at h1 ⊢
    cases hb : bareCall ev with
    | none =>
      rw [hb] at this
      rw [List.filterMap_cons_none hb]
      exact ⟨s', h1, this⟩
    | some ev' =>
      rw [hb] at this
      rw [List.filterMap_cons_some hb]
      obtain ⟨s2, h3, h4⟩ := this
      exact ⟨s2, .step _ h1 h3, h4⟩

theorem sees (h : Bared s s') : SameWithoutComponents dbg s s' := by
  have hm : s'.mapEntity = s.mapEntity := by
    funext x
    cases x with
    | none => rfl
    | some id =>
      unfold mapEntity getEntityById
      rw [h.ents]
  refine ⟨?_, fun e => ?_, fun tag e => ?_, fun g e => ?_, fun g e => ?_, fun g => ?_, fun g => ?_⟩
  · unfold entitiesCapacity; rw [h.ents]
  · unfold Store.isAlive; rw [h.ents]
  · unfold Store.hasTag; rw [h.tags]
  · unfold getNextOrdered; rw [h.orders, hm]
  · unfold getPreviousOrdered; rw [h.orders, hm]
  · unfold getFirstOrdered; rw [h.orders, hm]
  · unfold getLastOrdered; rw [h.orders, hm]

theorem outcome (h : Bared s s') (c : Call) (hc : needsNoComponents c = true) :
    Spec.outcome U dbg s' c = Spec.outcome U dbg s c := by
  have key : ∀ {α β : Type} {R : α → β → Prop} {r : Res α} {r' : Res β}, Both R r r' →
      (r'.map fun _ => ()) = r.map fun _ => () := by
    intro α β R r r' hb
    cases r with
    | error x =>
      cases r' with
      | error y => rw [show x = y from hb]; rfl
      | ok b => exact hb.elim
    | ok a =>
      cases r' with
      | error y => exact hb.elim
      | ok b => rfl
  cases c with
  | create => exact key h.create
  | createWith a => cases hc
  | destroy e => cases hc
  | add e v => cases hc
  | remove e ts => cases hc
  | assign e v => cases hc
  | tag k e => exact key (h.onTags fun t => t.addTag k e.id)
  | untag k e => exact key (h.onTags fun t => t.removeTag k e.id)
  | orderLast g e => exact key (h.onOrders fun t => t.add dbg g e.id)
  | orderAfter g e x => exact key (h.onOrders fun t => t.addNextTo dbg g e.id x.id)
  | orderBefore g e x => exact key (h.onOrders fun t => t.addPreviousTo dbg g e.id x.id)
  | unorder g e => exact key (h.onOrders fun t => t.remove g e.id)

/-- Programs without components do not depend on the types. -/
theorem other_types {U' : Universe} {h : List Event} (hx : Runs U' dbg cap (componentless h) s) : Runs U dbg cap (componentless h) s := by
  generalize hh : componentless h = h0 at hx
  induction hx generalizing h with
  | init hs => exact .init hs
  | @step h1 s1 s2 ev hx hr ih =>
    have hm : ∀ x ∈ ev :: h1, ∃ y, bareCall y = some x := by
      intro x hx
      rw [← hh] at hx
      obtain ⟨y, _, hy⟩ := List.mem_filterMap.1 hx
      exact ⟨y, hy⟩
    have fix : ∀ x y, bareCall y = some x → bareCall x = some x := by
      intro x y hy
      cases y <;> cases hy <;> rfl
    have hself : ∀ l : List Event, (∀ x ∈ l, bareCall x = some x) → componentless l = l := by
      intro l hl
      induction l with
      | nil => rfl
      | cons a l ih =>
        show List.filterMap _ _ = _
        rw [List.filterMap_cons_some (hl a List.mem_cons_self)]
        exact congrArg _ (ih fun x hx => hl x (List.mem_cons_of_mem _ hx))
    have hall : ∀ x ∈ ev :: h1, bareCall x = some x := fun x hx => by
      obtain ⟨y, hy⟩ := hm x hx
      exact fix x y hy
    have h1' := ih (hself h1 fun x hx => hall x (List.mem_cons_of_mem _ hx))
    refine .step ev h1' ?_
    have := hall ev List.mem_cons_self
    cases ev <;> first | exact hr | cases this

theorem outcome_types {U' : Universe} (c : Call) (hc : needsNoComponents c = true) :
    Spec.outcome U dbg s c = Spec.outcome U' dbg s c := by
  cases c <;> first | rfl | cases hc

end Store.Bared

theorem handles_bare (h : List Event) : handles (componentless h) = handles h := by
  induction h with
  | nil => rfl
  | cons ev h ih =>
    unfold componentless at ih ⊢
    cases ev <;> first | exact ih | exact congrArg (_ :: ·) ih

end Ecs
