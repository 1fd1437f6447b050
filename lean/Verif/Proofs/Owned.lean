import Verif.Proofs.Shape

/-! The ids listed in pages were issued, whatever calls were made as long as they returned. -/

namespace Ecs
open Spec

/-- Every id listed in a page satisfies `P`. -/
def Owned (P : Nat → Prop) (ps : List Page) : Prop := ∀ pg ∈ ps, ∀ i ∈ pg.ids.items, P i

namespace Owned
variable {P Q : Nat → Prop} {ps ps' : List Page} {dbg : Bool} {c c' : Archs}

theorem mono (h : Owned P ps) (hPQ : ∀ i, P i → Q i) : Owned Q ps := fun pg hpg i hi => hPQ i (h pg hpg i hi)

theorem set (h : Owned P ps) {k : Nat} {pg : Page} (hp : ∀ i ∈ pg.ids.items, P i) : Owned P (ps.set k pg) := by
  intro pg' hpg'
  rcases List.mem_or_eq_of_mem_set hpg' with hm | rfl
  · exact h pg' hm
  · exact hp

theorem addEntityId {pg pg' : Page} {id ix : Nat} (h : ∀ i ∈ pg.ids.items, P i) (hid : P id)
    (hr : pg.addEntityId dbg id = .ok (pg', ix)) : ∀ i ∈ pg'.ids.items, P i := by
  unfold Page.addEntityId at hr
  obtain ⟨_, _, hr⟩ := bind_eq_ok.1 hr
  cases hr
  intro i hi
  simp only [CapVec.push, List.mem_append, List.mem_singleton] at hi
  rcases hi with hi | rfl
  · exact h i hi
  · exact hid

theorem setLayout {pg : Page} (h : ∀ i ∈ pg.ids.items, P i) (l : Layout) : ∀ i ∈ (pg.setLayout l).ids.items, P i := by
  unfold Page.setLayout CapVec.reserve
  dsimp only
  split <;> exact h

theorem reserveArchetype {a : Archetype} {i : Nat} (hr : c.reserveArchetype dbg a = .ok (c', i)) : c'.pages = c.pages := by
  unfold Archs.reserveArchetype at hr
  split at hr
  · split at hr <;> cases hr <;> rfl
  · obtain ⟨layout, hl, hr⟩ := bind_eq_ok.1 hr
    split at hr
    · obtain ⟨as, h1, hr⟩ := bind_eq_ok.1 hr
      obtain ⟨ls, h2, hr⟩ := bind_eq_ok.1 hr
      cases hr; rfl
    · cases hr; rfl

theorem reservePage {id i : Nat} {q : Loc} (h : Owned P c.pages) (hid : P id) (hr : c.reservePage dbg id i = .ok (c', q)) :
    Owned P c'.pages := by
  unfold Archs.reservePage at hr
  obtain ⟨pl, h1, hr⟩ := bind_eq_ok.1 hr
  obtain ⟨o, h2, hr⟩ := bind_eq_ok.1 hr
  split at hr
  · next p =>
    obtain ⟨page, h3, hr⟩ := bind_eq_ok.1 hr
    obtain ⟨⟨page', ix⟩, h4, hr⟩ := bind_eq_ok.1 hr
    cases hr
    exact h.set (addEntityId (h page (List.mem_of_getElem? (idx_ok.1 h3))) hid h4)
  · obtain ⟨⟨c1, p⟩, h3, hr⟩ := bind_eq_ok.1 hr
    have hc1 : Owned P c1.pages := by
      split at h3
      · cases h3; exact h
      · obtain ⟨ps, h4, h3⟩ := bind_eq_ok.1 h3
        obtain ⟨pa, h5, h3⟩ := bind_eq_ok.1 h3
        cases h3
        unfold vecInsert at h4
        split at h4 <;> cases h4
        intro pg hpg
        rcases List.eq_or_mem_of_mem_insertIdx hpg with rfl | hm
        · intro i hi; cases hi
        · exact h pg hm
    obtain ⟨layout, h4, hr⟩ := bind_eq_ok.1 hr
    obtain ⟨page, h5, hr⟩ := bind_eq_ok.1 hr
    obtain ⟨pl', h6, hr⟩ := bind_eq_ok.1 hr
    obtain ⟨pa, h7, hr⟩ := bind_eq_ok.1 hr
    obtain ⟨⟨page', ix⟩, h8, hr⟩ := bind_eq_ok.1 hr
    cases hr
    exact hc1.set (addEntityId (setLayout (hc1 page (List.mem_of_getElem? (idx_ok.1 h5))) layout) hid h8)

theorem addEntity {id : Nat} {a : Archetype} {q : Loc} (h : Owned P c.pages) (hid : P id)
    (hr : c.addEntity dbg id a = .ok (c', q)) : Owned P c'.pages := by
  unfold Archs.addEntity at hr
  obtain ⟨⟨c1, i⟩, h1, hr⟩ := bind_eq_ok.1 hr
  exact reservePage (by rw [reserveArchetype h1]; exact h) hid hr

theorem freePage {p : Nat} (hr : c.freePage p = .ok c') : c'.pages = c.pages := by
  unfold Archs.freePage at hr
  obtain ⟨ai, h1, hr⟩ := bind_eq_ok.1 hr
  split at hr
  · cases hr; rfl
  · obtain ⟨pl, h2, hr⟩ := bind_eq_ok.1 hr
    cases hr
    dsimp only
    split <;> rfl

theorem swapRemoveIndex {pg pg' : Page} {index : Nat} {a : Archetype} {l : Layout} {o : Option Nat}
    (h : ∀ i ∈ pg.ids.items, P i) (hr : pg.swapRemoveEntityAtIndex index a l = .ok (pg', o)) : ∀ i ∈ pg'.ids.items, P i := by
  unfold Page.swapRemoveEntityAtIndex at hr
  obtain ⟨ids, h1, hr⟩ := bind_eq_ok.1 hr
  have hids : ∀ i ∈ ids.items, P i := by
    unfold CapVec.swapRemove at h1
    split at h1
    · cases h1
    · next last hlast =>
      split at h1 <;> cases h1
      intro i hi
      rcases List.mem_or_eq_of_mem_set (List.dropLast_subset _ hi) with hm | rfl
      · exact h i hm
      · exact h _ (List.mem_of_getLast? hlast)
  dsimp only at hr
  split at hr
  · obtain ⟨p1, h2, hr⟩ := bind_eq_ok.1 hr
    obtain ⟨r, h3, hr⟩ := bind_eq_ok.1 hr
    cases hr
    unfold Page.moveComponentData at h2
    obtain ⟨d, h4, h2⟩ := bind_eq_ok.1 h2
    cases h2
    exact hids
  · cases hr; exact hids

theorem swapRemoveEntity {q : Loc} {o : Option Nat} (h : Owned P c.pages) (hr : c.swapRemoveEntity q = .ok (c', o)) :
    Owned P c'.pages := by
  unfold Archs.swapRemoveEntity at hr
  obtain ⟨ai, h1, hr⟩ := bind_eq_ok.1 hr
  obtain ⟨pg, h2, hr⟩ := bind_eq_ok.1 hr
  obtain ⟨a, h3, hr⟩ := bind_eq_ok.1 hr
  obtain ⟨l, h4, hr⟩ := bind_eq_ok.1 hr
  obtain ⟨⟨pg', o'⟩, h5, hr⟩ := bind_eq_ok.1 hr
  have h0 : Owned P (c.pages.set q.page pg') :=
    h.set (swapRemoveIndex (h pg (List.mem_of_getElem? (idx_ok.1 h2))) h5)
  dsimp only at hr
  split at hr
  · obtain ⟨c1, h6, hr⟩ := bind_eq_ok.1 hr
    cases hr
    rw [freePage h6]
    exact h0
  · cases hr
    exact h0

theorem copyBetween {sp so dp d n : Nat} (h : Owned P ps) (hr : Archs.copyBetween ps sp so dp d n = .ok ps') : Owned P ps' := by
  unfold Archs.copyBetween at hr
  obtain ⟨_, _, hr⟩ := bind_eq_ok.1 hr
  obtain ⟨_, _, hr⟩ := bind_eq_ok.1 hr
  split at hr
  · cases hr
  · obtain ⟨pg, h1, hr⟩ := bind_eq_ok.1 hr
    obtain ⟨_, _, hr⟩ := bind_eq_ok.1 hr
    cases hr
    exact h.set (h pg (List.mem_of_getElem? (idx_ok.1 h1)))

theorem copyLoop {src dst : Loc} {sa da : Archetype} {sl dl : Layout} (l : List (Nat × Nat)) {ps ps' : List Page}
    (h : Owned P ps) (hr : Archs.copyLoop src dst sa da sl dl l ps = .ok ps') : Owned P ps' := by
  induction l generalizing ps with
  | nil => cases hr; exact h
  | cons p l ih =>
    unfold Archs.copyLoop at hr
    obtain ⟨_, _, hr⟩ := bind_eq_ok.1 hr
    obtain ⟨_, _, hr⟩ := bind_eq_ok.1 hr
    obtain ⟨_, _, hr⟩ := bind_eq_ok.1 hr
    obtain ⟨_, _, hr⟩ := bind_eq_ok.1 hr
    obtain ⟨_, h1, hr⟩ := bind_eq_ok.1 hr
    exact ih (h.copyBetween h1) hr

theorem move {id pi : Nat} {prev q : Loc} {a : Archetype} (h : Owned P c.pages) (hid : P id)
    (hr : c.moveEntityToOtherArchetype dbg id prev pi a = .ok (c', q)) : Owned P c'.pages := by
  unfold Archs.moveEntityToOtherArchetype at hr
  obtain ⟨⟨c1, i⟩, h1, hr⟩ := bind_eq_ok.1 hr
  dsimp only at hr
  obtain ⟨⟨c2, q'⟩, h2, hr⟩ := bind_eq_ok.1 hr
  dsimp only at hr
  obtain ⟨_, _, hr⟩ := bind_eq_ok.1 hr
  obtain ⟨_, _, hr⟩ := bind_eq_ok.1 hr
  obtain ⟨_, _, hr⟩ := bind_eq_ok.1 hr
  obtain ⟨_, _, hr⟩ := bind_eq_ok.1 hr
  obtain ⟨_, _, hr⟩ := bind_eq_ok.1 hr
  obtain ⟨ps, h3, hr⟩ := bind_eq_ok.1 hr
  cases hr
  exact copyLoop _ (reservePage (by rw [reserveArchetype h1]; exact h) hid h2) h3

theorem assign (rs : List Ref) {vs : List (List UInt8)} {ps ps' : List Page} (h : Owned P ps)
    (hr : assignToRefs rs vs ps = .ok ps') : Owned P ps' := by
  induction rs generalizing vs ps with
  | nil => cases hr; exact h
  | cons r rs ih =>
    cases vs with
    | nil => cases hr; exact h
    | cons v vs =>
      unfold assignToRefs at hr
      obtain ⟨p1, h1, hr⟩ := bind_eq_ok.1 hr
      refine ih ?_ hr
      unfold writeRef at h1
      obtain ⟨pg, h2, h1⟩ := bind_eq_ok.1 h1
      obtain ⟨_, _, h1⟩ := bind_eq_ok.1 h1
      cases h1
      exact h.set (h pg (List.mem_of_getElem? (idxUnchecked_ok.1 h2)))

end Owned

namespace Store.Owned
variable {P : Nat → Prop} {U : Universe} {dbg : Bool} {s s' : Store}

theorem recordRow {id : Nat} {q : Loc} (hr : s.recordRow id q = .ok s') : s'.archs = s.archs := by
  unfold Store.recordRow at hr
  obtain ⟨_, _, hr⟩ := bind_eq_ok.1 hr
  obtain ⟨_, _, hr⟩ := bind_eq_ok.1 hr
  obtain ⟨_, _, hr⟩ := bind_eq_ok.1 hr
  cases hr; rfl

theorem swapRemove {q : Loc} (h : Ecs.Owned P s.archs.pages) (hr : s.swapRemoveInternal q = .ok s') : Ecs.Owned P s'.archs.pages := by
  unfold Store.swapRemoveInternal at hr
  obtain ⟨⟨c, info⟩, h1, hr⟩ := bind_eq_ok.1 hr
  have h0 := h.swapRemoveEntity h1
  dsimp only at hr
  split at hr
  · obtain ⟨_, _, hr⟩ := bind_eq_ok.1 hr
    cases hr
    exact h0
  · cases hr; exact h0

theorem destroyRow {e : Entity} (h : Ecs.Owned P s.archs.pages) (hr : s.destroyRow e = .ok s') : Ecs.Owned P s'.archs.pages := by
  unfold Store.destroyRow at hr
  obtain ⟨b, _, hr⟩ := bind_eq_ok.1 hr
  split at hr
  · obtain ⟨q, _, hr⟩ := bind_eq_ok.1 hr
    exact swapRemove h hr
  · cases hr; exact h

theorem move {e : Entity} {a : Archetype} {q : Loc} (h : Ecs.Owned P s.archs.pages) (he : P e.id)
    (hr : s.moveEntityToOtherArchetype dbg e a = .ok (s', q)) : Ecs.Owned P s'.archs.pages := by
  unfold Store.moveEntityToOtherArchetype at hr
  obtain ⟨p, h1, hr⟩ := bind_eq_ok.1 hr
  obtain ⟨ai, h2, hr⟩ := bind_eq_ok.1 hr
  obtain ⟨⟨c, q'⟩, h3, hr⟩ := bind_eq_ok.1 hr
  dsimp only at hr
  obtain ⟨x, h4, hr⟩ := bind_eq_ok.1 hr
  obtain ⟨y, h5, hr⟩ := bind_eq_ok.1 hr
  obtain ⟨s1, h6, hr⟩ := bind_eq_ok.1 hr
  cases hr
  exact swapRemove (h.move he h3) h6

theorem ensure {e : Entity} {ts : List TypeId} {q : Loc} (h : Ecs.Owned P s.archs.pages) (he : P e.id)
    (hr : s.ensureComponents U dbg e ts = .ok (s', q)) : Ecs.Owned P s'.archs.pages := by
  unfold Store.ensureComponents at hr
  obtain ⟨b, h1, hr⟩ := bind_eq_ok.1 hr
  split at hr
  · obtain ⟨p, h2, hr⟩ := bind_eq_ok.1 hr
    obtain ⟨ai, h3, hr⟩ := bind_eq_ok.1 hr
    obtain ⟨a, h4, hr⟩ := bind_eq_ok.1 hr
    split at hr
    · cases hr; exact h
    · obtain ⟨⟨na, bb⟩, h5, hr⟩ := bind_eq_ok.1 hr
      exact move h he hr
  · obtain ⟨a, h2, hr⟩ := bind_eq_ok.1 hr
    obtain ⟨⟨c, q'⟩, h3, hr⟩ := bind_eq_ok.1 hr
    dsimp only at hr
    obtain ⟨s1, h4, hr⟩ := bind_eq_ok.1 hr
    cases hr
    rw [recordRow h4]
    exact h.addEntity he h3

theorem added {e : Entity} {vals : TupleVal} (h : Ecs.Owned P s.archs.pages) (he : s.isAlive dbg e = .ok true → P e.id)
    (hr : s.addComponents U dbg e vals = .ok s') : Ecs.Owned P s'.archs.pages := by
  unfold Store.addComponents at hr
  obtain ⟨b, h1, hr⟩ := bind_eq_ok.1 hr
  cases b with
  | false => cases hr; exact h
  | true =>
    obtain ⟨⟨s1, q⟩, h2, hr⟩ := bind_eq_ok.1 hr
    dsimp only at hr
    obtain ⟨v, h3, hr⟩ := bind_eq_ok.1 hr
    obtain ⟨o, h4, hr⟩ := bind_eq_ok.1 hr
    obtain ⟨pg, h5, hr⟩ := bind_eq_ok.1 hr
    cases hr
    exact (ensure h (he h1) h2).assign _ h5

theorem removed {e : Entity} {ts : List TypeId} (h : Ecs.Owned P s.archs.pages) (he : s.isAlive dbg e = .ok true → P e.id)
    (hr : s.removeComponents U dbg e ts = .ok s') : Ecs.Owned P s'.archs.pages := by
  unfold Store.removeComponents at hr
  obtain ⟨b, h1, hr⟩ := bind_eq_ok.1 hr
  cases b with
  | false => cases hr; exact h
  | true =>
    have ha : s.isAlive dbg e = .ok true := by
      unfold Store.isValidEntityWithArchetype at h1
      obtain ⟨b, h2, h1⟩ := bind_eq_ok.1 h1
      cases b with
      | false => simp at h1
      | true => exact h2
    obtain ⟨p, h2, hr⟩ := bind_eq_ok.1 hr
    obtain ⟨ai, h3, hr⟩ := bind_eq_ok.1 hr
    obtain ⟨a, h4, hr⟩ := bind_eq_ok.1 hr
    obtain ⟨⟨na, bb⟩, h5, hr⟩ := bind_eq_ok.1 hr
    obtain ⟨⟨s1, q⟩, h6, hr⟩ := bind_eq_ok.1 hr
    cases hr
    exact move h (he ha) h6

theorem assigned {e : Entity} {vals : TupleVal} {b : Bool} (h : Ecs.Owned P s.archs.pages)
    (hr : s.setComponents U dbg e vals = .ok (s', b)) : Ecs.Owned P s'.archs.pages := by
  unfold Store.setComponents at hr
  obtain ⟨o, h1, hr⟩ := bind_eq_ok.1 hr
  split at hr
  · cases hr; exact h
  · obtain ⟨pg, h2, hr⟩ := bind_eq_ok.1 hr
    cases hr
    exact h.assign _ h2

/-- The id was issued. -/
def Issued (w : World) (i : Nat) : Prop := ∃ e ∈ w.issued, e.id = i

/-- Every returning call keeps the invariant. -/
theorem step {w : World} (hc : Core s w) (hs : s.Shape) (h : Ecs.Owned (Issued w) s.archs.pages) {ev : Event} (hl : Loose w ev)
    (hr : Returns U dbg s ev s') : Ecs.Owned (Issued (w.apply ev)) s'.archs.pages := by
  have hal : ∀ e, s.isAlive dbg e = .ok true → Issued w e.id := by
    intro e he
    have hlt := hc.isAlive_lt he
    rw [hc.isAlive hlt] at he
    exact ⟨e, hc.ents.sub e (by simpa using he), rfl⟩
  have hiss : ∀ i, Issued w i → Issued (w.apply ev) i := by
    rintro i ⟨e, he, rfl⟩
    refine ⟨e, ?_, rfl⟩
    cases ev <;> simp only [World.apply, World.birth, World.setTypes] <;> (repeat' split) <;>
      first | exact he | exact List.mem_cons_of_mem _ he
  cases ev with
  | created e =>
    simp only [Returns, Store.createEntity] at hr
    obtain ⟨⟨s1, e1⟩, h1, hr⟩ := bind_eq_ok.1 hr
    obtain ⟨b, h2, hr⟩ := bind_eq_ok.1 hr
    cases hr
    obtain ⟨_, k⟩ := Store.Shape.register hc hs hl h1
    dsimp only
    rw [k]
    exact h.mono hiss
  | createdWith e ts init =>
    obtain ⟨a, ha, _, hr⟩ := hr
    unfold Store.createEntityWithArchetype at hr
    obtain ⟨⟨s1, e1⟩, h1, hr⟩ := bind_eq_ok.1 hr
    obtain ⟨⟨c, q⟩, h3, hr⟩ := bind_eq_ok.1 hr
    dsimp only at hr h3
    obtain ⟨s2, h2, hr⟩ := bind_eq_ok.1 hr
    cases hr
    obtain ⟨_, k⟩ := Store.Shape.register hc hs hl h1
    rw [recordRow h2]
    rw [← k] at h
    exact (h.mono hiss).addEntity ⟨e, List.mem_cons_self, rfl⟩ h3
  | destroyed e =>
    simp only [Returns, Store.destroyEntity] at hr
    obtain ⟨s1, h1, hr⟩ := bind_eq_ok.1 hr
    obtain ⟨_, _, hr⟩ := bind_eq_ok.1 hr
    obtain ⟨tg, h2, hr⟩ := bind_eq_ok.1 hr
    obtain ⟨_, _, hr⟩ := bind_eq_ok.1 hr
    cases hr
    exact (destroyRow h h1).mono hiss
  | added e vals => exact (added h (hal e) hr).mono hiss
  | removed e ts => exact (removed h (hal e) hr).mono hiss
  | assigned e vals =>
    obtain ⟨b, hr⟩ := hr
    exact (assigned h hr).mono hiss
  | tagged t e => obtain ⟨_, _, hr⟩ := bind_eq_ok.1 hr; cases hr; exact h.mono hiss
  | untagged t e => obtain ⟨_, _, hr⟩ := bind_eq_ok.1 hr; cases hr; exact h.mono hiss
  | orderedLast g e => obtain ⟨_, _, hr⟩ := bind_eq_ok.1 hr; cases hr; exact h.mono hiss
  | orderedAfter g e x => obtain ⟨_, _, hr⟩ := bind_eq_ok.1 hr; cases hr; exact h.mono hiss
  | orderedBefore g e x => obtain ⟨_, _, hr⟩ := bind_eq_ok.1 hr; cases hr; exact h.mono hiss
  | unordered g e => obtain ⟨_, _, hr⟩ := bind_eq_ok.1 hr; cases hr; exact h.mono hiss

end Store.Owned

/-- In every state reached by calls that returned, the ids listed in pages were issued. -/
theorem loose_owned {U : Universe} {dbg : Bool} {cap : Nat} {h : List Event} {s : Store}
    (hx : LooseExec U dbg cap h s) : Owned (Store.Owned.Issued (world h)) s.archs.pages := by
  induction hx with
  | init hs =>
    unfold Store.withCapacity at hs
    obtain ⟨_, _, hs⟩ := bind_eq_ok.1 hs
    cases hs
    intro pg hpg i hi
    simp only [Archs.new, List.mem_replicate] at hpg
    rw [hpg.2] at hi
    cases hi
  | step ev hx hl hr ih => exact Store.Owned.step (loose_core hx) (loose_shape hx) ih hl hr

end Ecs
