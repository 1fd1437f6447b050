import Verif.Proofs.Shape

/-! Which ids have a recorded page, exactly. -/

namespace Ecs
open Spec

/-- From `s` to `s'` a page is recorded for `id` at most. -/
def NewPage (s s' : Store) (id : Nat) : Prop := ∀ i, Inited s'.toPage i → Inited s.toPage i ∨ i = id

namespace NewPage
variable {U : Universe} {dbg : Bool} {s s' s'' : Store} {id : Nat}

theorem same (h : s'.toPage = s.toPage) : NewPage s s' id := fun i hi => .inl (h ▸ hi)

theorem write {a b : Raw Nat} {j v : Nat} (h : Raw.write a j v = .ok b) : ∀ i, Inited b i → Inited a i ∨ i = j := by
  rintro i ⟨x, hx⟩
  obtain ⟨_, rfl⟩ := Raw.write_ok.1 h
  by_cases hij : j = i
  · exact .inr hij.symm
  · rw [List.getElem?_set_ne hij] at hx
    exact .inl ⟨x, hx⟩

theorem recordRow {q : Loc} (h : s.recordRow id q = .ok s') : NewPage s s' id := by
  unfold Store.recordRow at h
  obtain ⟨a, h1, h⟩ := bind_eq_ok.1 h
  obtain ⟨b, h2, h⟩ := bind_eq_ok.1 h
  obtain ⟨c, h3, h⟩ := bind_eq_ok.1 h
  cases h
  exact write h1

theorem toPage_swapRemove {q : Loc} (h : s.swapRemoveInternal q = .ok s') : s'.toPage = s.toPage := by
  unfold Store.swapRemoveInternal at h
  obtain ⟨⟨c, info⟩, h1, h⟩ := bind_eq_ok.1 h
  dsimp only at h
  split at h
  · obtain ⟨b, h2, h⟩ := bind_eq_ok.1 h
    cases h; rfl
  · cases h; rfl

theorem toPage_destroyRow {e : Entity} (h : s.destroyRow e = .ok s') : s'.toPage = s.toPage := by
  unfold Store.destroyRow at h
  obtain ⟨b, h1, h⟩ := bind_eq_ok.1 h
  split at h
  · obtain ⟨q, h2, h⟩ := bind_eq_ok.1 h
    exact toPage_swapRemove h
  · cases h; rfl

theorem move {e : Entity} {a : Archetype} {q : Loc} (h : s.moveEntityToOtherArchetype dbg e a = .ok (s', q)) :
    NewPage s s' e.id := by
  unfold Store.moveEntityToOtherArchetype at h
  obtain ⟨p, h1, h⟩ := bind_eq_ok.1 h
  obtain ⟨ai, h2, h⟩ := bind_eq_ok.1 h
  obtain ⟨⟨c, q'⟩, h3, h⟩ := bind_eq_ok.1 h
  dsimp only at h
  obtain ⟨x, h4, h⟩ := bind_eq_ok.1 h
  obtain ⟨y, h5, h⟩ := bind_eq_ok.1 h
  obtain ⟨s1, h6, h⟩ := bind_eq_ok.1 h
  cases h
  have := toPage_swapRemove h6
  intro i hi
  rw [this] at hi
  exact write h4 i hi

theorem ensure {e : Entity} {ts : List TypeId} {q : Loc} (h : s.ensureComponents U dbg e ts = .ok (s', q)) :
    NewPage s s' e.id := by
  unfold Store.ensureComponents at h
  obtain ⟨b, h1, h⟩ := bind_eq_ok.1 h
  split at h
  · obtain ⟨p, h2, h⟩ := bind_eq_ok.1 h
    obtain ⟨ai, h3, h⟩ := bind_eq_ok.1 h
    obtain ⟨a, h4, h⟩ := bind_eq_ok.1 h
    split at h
    · cases h; exact same rfl
    · obtain ⟨⟨na, bb⟩, h5, h⟩ := bind_eq_ok.1 h
      exact move h
  · obtain ⟨a, h2, h⟩ := bind_eq_ok.1 h
    obtain ⟨⟨c, q'⟩, h3, h⟩ := bind_eq_ok.1 h
    dsimp only at h
    obtain ⟨s1, h4, h⟩ := bind_eq_ok.1 h
    cases h
    have := recordRow h4
    exact this

theorem register (h : s.registerNewEntity dbg = .ok (s', e)) : NewPage s s' id := by
  unfold Store.registerNewEntity at h
  obtain ⟨⟨en, cr⟩, h2, h1⟩ := bind_eq_ok.1 h
  dsimp only at h1
  split at h1
  · obtain ⟨s2, h3, h1⟩ := bind_eq_ok.1 h1
    cases h1
    unfold Store.growEntitiesInternal at h3
    obtain ⟨tp, h4, h3⟩ := bind_eq_ok.1 h3
    obtain ⟨_, _, h3⟩ := bind_eq_ok.1 h3
    obtain ⟨_, _, h3⟩ := bind_eq_ok.1 h3
    obtain ⟨_, _, h3⟩ := bind_eq_ok.1 h3
    obtain ⟨_, _, h3⟩ := bind_eq_ok.1 h3
    cases h3
    rintro i ⟨v, hv⟩
    exact .inl ⟨v, Raw.realloc_some h4 hv⟩
  · cases h1
    exact same rfl

end NewPage

/-- A page is recorded for the ids of the initial capacity and for the ids that were given a row, and for no others. -/
theorem page_inited {U : Universe} {dbg : Bool} {cap : Nat} {h : List Event} {s : Store} (hx : LooseExec U dbg cap h s)
    (i : Nat) : Inited s.toPage i ↔ i < cap ∨ i ∈ stored h := by
  refine ⟨?_, fun hi => ((hasRow hx).1 i hi).1⟩
  induction hx generalizing i with
  | init hs =>
    unfold Store.withCapacity at hs
    obtain ⟨_, _, hs⟩ := bind_eq_ok.1 hs
    cases hs
    rintro ⟨v, hv⟩
    simp only [Raw.allocZeroed, List.getElem?_replicate] at hv
    split at hv
    · next hlt => exact .inl hlt
    · cases hv
  | @step h s s' ev hx hl hr ih =>
    intro hi
    have hc := loose_core hx
    cases ev with
    | created e =>
      simp only [Returns, Store.createEntity] at hr
      obtain ⟨⟨s1, e1⟩, h1, hr⟩ := bind_eq_ok.1 hr
      obtain ⟨b, h2, hr⟩ := bind_eq_ok.1 hr
      cases hr
      have := NewPage.register (id := cap) h1 i hi
      rcases this with h3 | rfl
      · exact ih i h3
      · rcases NewPage.register (id := i + 1) h1 i hi with h3 | h3
        · exact ih i h3
        · omega
    | createdWith e ts init =>
      obtain ⟨a, _, _, hr⟩ := hr
      unfold Store.createEntityWithArchetype at hr
      obtain ⟨⟨s1, e1⟩, h1, hr⟩ := bind_eq_ok.1 hr
      obtain ⟨⟨c, q⟩, _, hr⟩ := bind_eq_ok.1 hr
      dsimp only at hr
      obtain ⟨s2, h2, hr⟩ := bind_eq_ok.1 hr
      cases hr
      have h3 := NewPage.recordRow h2 i hi
      simp only [stored, List.mem_cons]
      rcases h3 with h3 | h3
      · rcases NewPage.register (id := e.id) h1 i h3 with h4 | h4
        · exact (ih i h4).imp id .inr
        · exact .inr (.inl h4)
      · exact .inr (.inl h3)
    | destroyed e =>
      simp only [Returns, Store.destroyEntity] at hr
      obtain ⟨s1, h1, hr⟩ := bind_eq_ok.1 hr
      obtain ⟨_, _, hr⟩ := bind_eq_ok.1 hr
      obtain ⟨tg, h2, hr⟩ := bind_eq_ok.1 hr
      obtain ⟨_, _, hr⟩ := bind_eq_ok.1 hr
      cases hr
      have := NewPage.toPage_destroyRow h1
      exact ih i (this ▸ hi)
    | added e vals =>
      simp only [Returns, Store.addComponents] at hr
      obtain ⟨b, h1, hr⟩ := bind_eq_ok.1 hr
      split at hr
      · cases hr
        have := ih i hi
        simp only [stored]
        split
        · exact this.imp id (List.mem_cons_of_mem _)
        · exact this
      · next hb =>
        obtain ⟨⟨s1, q⟩, h2, hr⟩ := bind_eq_ok.1 hr
        dsimp only at hr
        obtain ⟨v, h3, hr⟩ := bind_eq_ok.1 hr
        obtain ⟨o, h4, hr⟩ := bind_eq_ok.1 hr
        obtain ⟨pg, h5, hr⟩ := bind_eq_ok.1 hr
        cases hr
        have hlive : e ∈ alive h := by
          have hlt := hc.isAlive_lt h1
          rw [hc.isAlive hlt] at h1
          cases h1
          rw [alive_eq]
          simpa using hb
        simp only [stored, if_pos hlive, List.mem_cons]
        rcases NewPage.ensure h2 i hi with h6 | h6
        · exact (ih i h6).imp id .inr
        · exact .inr (.inl h6)
    | removed e ts =>
      simp only [Returns, Store.removeComponents] at hr
      obtain ⟨b, h1, hr⟩ := bind_eq_ok.1 hr
      split at hr
      · cases hr; exact ih i hi
      · obtain ⟨p, h2, hr⟩ := bind_eq_ok.1 hr
        obtain ⟨ai, h3, hr⟩ := bind_eq_ok.1 hr
        obtain ⟨a, h4, hr⟩ := bind_eq_ok.1 hr
        obtain ⟨⟨na, bb⟩, h5, hr⟩ := bind_eq_ok.1 hr
        obtain ⟨⟨s1, q⟩, h6, hr⟩ := bind_eq_ok.1 hr
        cases hr
        rcases NewPage.move h6 i hi with h7 | rfl
        · exact ih i h7
        · refine ih _ ?_
          unfold Store.getLocUnchecked at h2
          obtain ⟨pp, h8, _⟩ := bind_eq_ok.1 h2
          exact ⟨pp, Raw.read_ok.1 h8⟩
    | assigned e vals =>
      obtain ⟨b, hr⟩ := hr
      unfold Store.setComponents at hr
      obtain ⟨o, h1, hr⟩ := bind_eq_ok.1 hr
      split at hr
      · cases hr; exact ih i hi
      · obtain ⟨pg, h2, hr⟩ := bind_eq_ok.1 hr
        cases hr
        exact ih i hi
    | tagged t e => obtain ⟨_, _, hr⟩ := bind_eq_ok.1 hr; cases hr; exact ih i hi
    | untagged t e => obtain ⟨_, _, hr⟩ := bind_eq_ok.1 hr; cases hr; exact ih i hi
    | orderedLast g e => obtain ⟨_, _, hr⟩ := bind_eq_ok.1 hr; cases hr; exact ih i hi
    | orderedAfter g e x => obtain ⟨_, _, hr⟩ := bind_eq_ok.1 hr; cases hr; exact ih i hi
    | orderedBefore g e x => obtain ⟨_, _, hr⟩ := bind_eq_ok.1 hr; cases hr; exact ih i hi
    | unordered g e => obtain ⟨_, _, hr⟩ := bind_eq_ok.1 hr; cases hr; exact ih i hi

end Ecs
