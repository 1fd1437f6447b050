import Verif.Spec.Hint
import Verif.Proofs.Owned
import Verif.Proofs.Records
import Verif.Proofs.EntsOf
import Verif.Proofs.Stray

/-! Two stores that differ in their capacities only. -/

namespace Ecs
open Spec

/-- What was written at an index, 0 if nothing was. -/
def Raw.val (a : Raw Nat) (i : Nat) : Nat := (a[i]?.join).getD 0

namespace Raw

theorem read_val {a : Raw Nat} {i : Nat} (h : ∃ v, a[i]? = some (some v)) : Raw.read a i = .ok (a.val i) := by
  obtain ⟨v, h⟩ := h
  rw [read_of_some h, val, h]
  rfl

theorem val_set {a : Raw Nat} {i : Nat} (h : i < a.length) (v j : Nat) : Raw.val (a.set i (some v)) j = if j = i then v else a.val j := by
  unfold val
  rw [List.getElem?_set]
  by_cases hj : i = j
  · subst hj
    simp [h]
  · rw [if_neg hj, if_neg (fun e => hj e.symm)]

end Raw

/-- The same rows, ids recorded at the same places; what the arrays contain beyond that may differ. -/
structure Alike (s s' : Store) : Prop where
  archs : s'.archs = s.archs
  bits : ∀ i, s'.hasArch.bit i = s.hasArch.bit i
  page : ∀ i, s'.toPage.val i = s.toPage.val i
  index : ∀ i, s'.toIndex.val i = s.toIndex.val i

/-- The arrays have a place for id `i`. -/
def Store.Room (s : Store) (i : Nat) : Prop := i < s.toPage.length ∧ i < s.toIndex.length ∧ i / 32 < s.hasArch.length

theorem SameCore.room {s s' : Store} (h : SameCore s s') {i : Nat} (hr : s.Room i) : s'.Room i := by
  unfold Store.Room
  rw [h.plen, h.ilen, h.blen]
  exact hr

namespace Owned
variable {P : Nat → Prop} {c c' : Archs}

theorem swapRemoveIndex_id {pg pg' : Page} {index : Nat} {a : Archetype} {l : Layout} {i : Nat}
    (h : ∀ i ∈ pg.ids.items, P i) (hr : pg.swapRemoveEntityAtIndex index a l = .ok (pg', some i)) : P i := by
  unfold Page.swapRemoveEntityAtIndex at hr
  obtain ⟨ids, h1, hr⟩ := bind_eq_ok.1 hr
  have hids : ∀ i ∈ ids.items, P i := by
    unfold CapVec.swapRemove at h1
    split at h1
    · cases h1
    · next last hlast =>
      split at h1 <;> cases h1
      intro i hi
      rcases List.mem_or_eq_of_mem_set (List.dropLast_subset _ hi) with hm | rfl
      · exact h i hm
      · exact h _ (List.mem_of_getLast? hlast)
  dsimp only at hr
  split at hr
  · obtain ⟨p1, h2, hr⟩ := bind_eq_ok.1 hr
    obtain ⟨r, h3, hr⟩ := bind_eq_ok.1 hr
    cases hr
    unfold Page.moveComponentData at h2
    obtain ⟨d, h4, h2⟩ := bind_eq_ok.1 h2
    cases h2
    exact hids _ (List.mem_of_getElem? (idx_ok.1 h3))
  · cases hr

theorem swapRemoveEntity_id {q : Loc} {i : Nat} (h : Owned P c.pages) (hr : c.swapRemoveEntity q = .ok (c', some i)) : P i := by
  unfold Archs.swapRemoveEntity at hr
  obtain ⟨ai, h1, hr⟩ := bind_eq_ok.1 hr
  obtain ⟨pg, h2, hr⟩ := bind_eq_ok.1 hr
  obtain ⟨a, h3, hr⟩ := bind_eq_ok.1 hr
  obtain ⟨l, h4, hr⟩ := bind_eq_ok.1 hr
  obtain ⟨⟨pg', o'⟩, h5, hr⟩ := bind_eq_ok.1 hr
  have h0 := h pg (List.mem_of_getElem? (idx_ok.1 h2))
  dsimp only at hr
  split at hr
  · obtain ⟨c1, h6, hr⟩ := bind_eq_ok.1 hr
    cases hr
    exact swapRemoveIndex_id h0 h5
  · cases hr
    exact swapRemoveIndex_id h0 h5

end Owned

namespace Alike
variable {U : Universe} {dbg : Bool} {s s' t : Store}

theorem write {a b a1 : Raw Nat} (h : ∀ i, b.val i = a.val i) {i v : Nat} (hr : Raw.write a i v = .ok a1) (hi : i < b.length) :
    ∃ b1, Raw.write b i v = .ok b1 ∧ ∀ i, b1.val i = a1.val i := by
  obtain ⟨h1, rfl⟩ := Raw.write_ok.1 hr
  refine ⟨_, Raw.write_of_lt v hi, fun j => ?_⟩
  rw [Raw.val_set h1, Raw.val_set hi, h j]

theorem setOn {a b a1 : Words} (h : ∀ i, b.bit i = a.bit i) {i : Nat} (hr : a.setOn i = .ok a1) (hi : i / 32 < b.length) :
    ∃ b1, b.setOn i = .ok b1 ∧ ∀ i, b1.bit i = a1.bit i := by
  obtain ⟨b1, h1, _, h2⟩ := Words.setOn_of_lt hi
  have hl : i / 32 < a.length := by
    unfold Words.setOn at hr
    split at hr
    · rename_i hv
      exact (List.getElem?_eq_some_iff.1 hv).1
    · cases hr
  obtain ⟨a2, h3, _, h4⟩ := Words.setOn_of_lt hl
  rw [h3] at hr
  cases hr
  exact ⟨b1, h1, fun j => by rw [h2, h4, h]⟩

theorem setOff {a b a1 : Words} (h : ∀ i, b.bit i = a.bit i) {i : Nat} (hr : a.setOff i = .ok a1) (hi : i / 32 < b.length) :
    ∃ b1, b.setOff i = .ok b1 ∧ ∀ i, b1.bit i = a1.bit i := by
  obtain ⟨b1, h1, _, h2⟩ := Words.setOff_of_lt hi
  have hl : i / 32 < a.length := by
    unfold Words.setOff at hr
    split at hr
    · rename_i hv
      exact (List.getElem?_eq_some_iff.1 hv).1
    · cases hr
  obtain ⟨a2, h3, _, h4⟩ := Words.setOff_of_lt hl
  rw [h3] at hr
  cases hr
  exact ⟨b1, h1, fun j => by rw [h2, h4, h]⟩

theorem isOn {a b : Words} (h : ∀ i, b.bit i = a.bit i) {i : Nat} {v : Bool} (hr : a.isOn i = .ok v) (hi : i / 32 < b.length) :
    b.isOn i = .ok v ∧ a.bit i = v := by
  have := (Words.isOn_ok.1 hr).2
  rw [Words.isOn_of_lt hi, h]
  have h2 : a.bit i = v := by
    have hl := (Words.isOn_ok.1 hr).1
    rw [Words.isOn_of_lt hl] at hr
    exact Except.ok.inj hr
  exact ⟨by rw [h2], h2⟩

theorem loc (h : Alike s s') {i : Nat} {q : Loc} (hr : s.getLocUnchecked i = .ok q) (hb : s'.HasRow i) :
    s'.getLocUnchecked i = .ok q := by
  unfold Store.getLocUnchecked at hr ⊢
  obtain ⟨p, h1, hr⟩ := bind_eq_ok.1 hr
  obtain ⟨x, h2, hr⟩ := bind_eq_ok.1 hr
  cases hr
  obtain ⟨hb1, hb2⟩ := hb
  rw [Raw.read_val hb1, Raw.read_val hb2, h.page, h.index]
  rw [Raw.read_val ⟨p, Raw.read_ok.1 h1⟩] at h1
  rw [Raw.read_val ⟨x, Raw.read_ok.1 h2⟩] at h2
  cases h1
  cases h2
  rfl

theorem recordRow (h : Alike s s') {i : Nat} {q : Loc} (hr : s.recordRow i q = .ok t) (hi : s'.Room i) :
    ∃ t', s'.recordRow i q = .ok t' ∧ Alike t t' := by
  unfold Store.recordRow at hr ⊢
  obtain ⟨a, h1, hr⟩ := bind_eq_ok.1 hr
  obtain ⟨b, h2, hr⟩ := bind_eq_ok.1 hr
  obtain ⟨c, h3, hr⟩ := bind_eq_ok.1 hr
  cases hr
  obtain ⟨a', k1, j1⟩ := write h.page h1 hi.1
  obtain ⟨b', k2, j2⟩ := write h.index h2 hi.2.1
  obtain ⟨c', k3, j3⟩ := setOn h.bits h3 hi.2.2
  rw [k1, k2, k3]
  exact ⟨_, rfl, h.archs, j3, j1, j2⟩

theorem swapRemove (h : Alike s s') (ho : Ecs.Owned s'.Room s'.archs.pages) {q : Loc} (hr : s.swapRemoveInternal q = .ok t) :
    ∃ t', s'.swapRemoveInternal q = .ok t' ∧ Alike t t' := by
  unfold Store.swapRemoveInternal at hr ⊢
  obtain ⟨⟨a, o⟩, h1, hr⟩ := bind_eq_ok.1 hr
  rw [← h.archs] at h1
  rw [h1]
  cases o with
  | none =>
    cases hr
    exact ⟨_, rfl, rfl, h.bits, h.page, h.index⟩
  | some i =>
    obtain ⟨b, h2, hr⟩ := bind_eq_ok.1 hr
    cases hr
    obtain ⟨b', k2, j2⟩ := write h.index h2 (ho.swapRemoveEntity_id h1).2.1
    dsimp only
    show ∃ t', (Raw.write s'.toIndex i q.index >>= _) = _ ∧ _
    rw [k2]
    exact ⟨_, rfl, rfl, h.bits, h.page, j2⟩

theorem destroyRow (h : Alike s s') (ho : Ecs.Owned s'.Room s'.archs.pages) {e : Entity} (hi : s'.Room e.id)
    (hb : s'.hasArch.bit e.id = true → s'.HasRow e.id) (hr : s.destroyRow e = .ok t) : ∃ t', s'.destroyRow e = .ok t' ∧ Alike t t' := by
  unfold Store.destroyRow at hr ⊢
  obtain ⟨v, h1, hr⟩ := bind_eq_ok.1 hr
  obtain ⟨k1, j1⟩ := isOn h.bits h1 hi.2.2
  rw [k1]
  cases v with
  | false =>
    cases hr
    exact ⟨_, rfl, h⟩
  | true =>
    obtain ⟨q, h2, hr⟩ := bind_eq_ok.1 hr
    have k2 := h.loc h2 (hb (by rw [h.bits, j1]))
    show ∃ t', (s'.getLocUnchecked e.id >>= _) = _ ∧ _
    rw [k2]
    exact h.swapRemove ho hr

theorem move (h : Alike s s') (ho : Ecs.Owned s'.Room s'.archs.pages) {e : Entity} (hi : s'.Room e.id) (hb : s'.HasRow e.id)
    {a : Archetype} {q : Loc} (hr : s.moveEntityToOtherArchetype dbg e a = .ok (t, q)) :
    ∃ t', s'.moveEntityToOtherArchetype dbg e a = .ok (t', q) ∧ Alike t t' := by
  unfold Store.moveEntityToOtherArchetype at hr ⊢
  obtain ⟨prev, h1, hr⟩ := bind_eq_ok.1 hr
  obtain ⟨pi, h2, hr⟩ := bind_eq_ok.1 hr
  obtain ⟨⟨c, q'⟩, h3, hr⟩ := bind_eq_ok.1 hr
  obtain ⟨tp, h4, hr⟩ := bind_eq_ok.1 hr
  obtain ⟨ti, h5, hr⟩ := bind_eq_ok.1 hr
  obtain ⟨s1, h6, hr⟩ := bind_eq_ok.1 hr
  cases hr
  rw [h.loc h1 hb]
  rw [← h.archs] at h2 h3
  obtain ⟨tp', k4, j4⟩ := write h.page h4 hi.1
  obtain ⟨ti', k5, j5⟩ := write h.index h5 hi.2.1
  dsimp only [ok_bind]
  have ho1 : Ecs.Owned s'.Room c.pages := Owned.move ho hi h3
  have hsame : SameCore s' { s' with archs := c, toPage := tp', toIndex := ti' } :=
    ⟨rfl, rfl, rfl, by obtain ⟨_, rfl⟩ := Raw.write_ok.1 k4; simp, by obtain ⟨_, rfl⟩ := Raw.write_ok.1 k5; simp, rfl⟩
  obtain ⟨t', k6, j6⟩ := swapRemove (s := { s with archs := c, toPage := tp, toIndex := ti })
    (s' := { s' with archs := c, toPage := tp', toIndex := ti' }) ⟨rfl, h.bits, j4, j5⟩
    (ho1.mono fun i hi => hsame.room hi) h6
  refine ⟨t', ?_, j6⟩
  show (idx s'.archs.pageToArch prev.page >>= _) = _
  rw [h2]
  show (s'.archs.moveEntityToOtherArchetype dbg e.id prev pi a >>= _) = _
  rw [h3]
  show (Raw.write s'.toPage e.id q.page >>= _) = _
  rw [k4]
  show (Raw.write s'.toIndex e.id q.index >>= _) = _
  rw [k5]
  show (({ s' with archs := c, toPage := tp', toIndex := ti' } : Store).swapRemoveInternal prev >>= _) = _
  rw [k6]
  rfl

theorem ensure (h : Alike s s') (ho : Ecs.Owned s'.Room s'.archs.pages) {e : Entity} (hi : s'.Room e.id)
    (hb : s'.hasArch.bit e.id = true → s'.HasRow e.id) {ts : List TypeId} {q : Loc}
    (hr : s.ensureComponents U dbg e ts = .ok (t, q)) : ∃ t', s'.ensureComponents U dbg e ts = .ok (t', q) ∧ Alike t t' := by
  unfold Store.ensureComponents at hr ⊢
  obtain ⟨v, h1, hr⟩ := bind_eq_ok.1 hr
  obtain ⟨k1, j1⟩ := isOn h.bits h1 hi.2.2
  rw [k1]
  cases v with
  | true =>
    have hrow := hb (by rw [h.bits, j1])
    obtain ⟨loc, h2, hr⟩ := bind_eq_ok.1 hr
    obtain ⟨ai, h3, hr⟩ := bind_eq_ok.1 hr
    obtain ⟨arch, h4, hr⟩ := bind_eq_ok.1 hr
    have k2 := h.loc h2 hrow
    rw [← h.archs] at h3 h4
    show ∃ t', (s'.getLocUnchecked e.id >>= _) = _ ∧ _
    rw [k2]
    show ∃ t', (idx s'.archs.pageToArch loc.page >>= _) = _ ∧ _
    rw [h3]
    show ∃ t', (idxUnchecked s'.archs.archetypes ai >>= _) = _ ∧ _
    rw [h4]
    show ∃ t', (if tupleIncluded ts arch then _ else _) = _ ∧ _
    split at hr
    · rename_i hc
      rw [if_pos hc]
      cases hr
      exact ⟨_, rfl, h⟩
    · rename_i hc
      rw [if_neg hc]
      obtain ⟨⟨na, nb⟩, h5, hr⟩ := bind_eq_ok.1 hr
      rw [h5]
      exact h.move ho hi hrow hr
  | false =>
    obtain ⟨a, h2, hr⟩ := bind_eq_ok.1 hr
    obtain ⟨⟨c, loc⟩, h3, hr⟩ := bind_eq_ok.1 hr
    obtain ⟨s1, h4, hr⟩ := bind_eq_ok.1 hr
    cases hr
    rw [← h.archs] at h3
    obtain ⟨t', k4, j4⟩ := recordRow (s := { s with archs := c }) (s' := { s' with archs := c }) ⟨rfl, h.bits, h.page, h.index⟩ h4 hi
    refine ⟨t', ?_, j4⟩
    show (Archetype.withComponents U ts >>= _) = _
    rw [h2]
    show (s'.archs.addEntity dbg e.id a >>= _) = _
    rw [h3]
    show (({ s' with archs := c } : Store).recordRow e.id q >>= _) = _
    rw [k4]
    rfl

theorem pageView {s s' : Store} (h : s'.archs = s.archs) (p : Nat) : s'.getPageViewUnchecked p = s.getPageViewUnchecked p := by
  unfold Store.getPageViewUnchecked
  rw [h]

theorem setPages (h : Alike s s') (ps : List Page) :
    Alike { s with archs := { s.archs with pages := ps } } { s' with archs := { s'.archs with pages := ps } } :=
  ⟨by dsimp only; rw [h.archs], h.bits, h.page, h.index⟩

theorem added (h : Alike s s') (ho : Ecs.Owned s'.Room s'.archs.pages) {e : Entity} (hi : s'.Room e.id)
    (hb : s'.hasArch.bit e.id = true → s'.HasRow e.id) (ha : s.isAlive dbg e = s'.isAlive dbg e) {vals : TupleVal}
    (hr : s.addComponents U dbg e vals = .ok t) : ∃ t', s'.addComponents U dbg e vals = .ok t' ∧ Alike t t' := by
  unfold Store.addComponents at hr ⊢
  obtain ⟨v, h1, hr⟩ := bind_eq_ok.1 hr
  rw [← ha, h1]
  cases v with
  | false =>
    cases hr
    exact ⟨_, rfl, h⟩
  | true =>
    obtain ⟨⟨s1, q⟩, h2, hr⟩ := bind_eq_ok.1 hr
    obtain ⟨s1', k2, j2⟩ := h.ensure ho hi hb h2
    obtain ⟨view, h3, hr⟩ := bind_eq_ok.1 hr
    obtain ⟨offs, h4, hr⟩ := bind_eq_ok.1 hr
    obtain ⟨ps, h5, hr⟩ := bind_eq_ok.1 hr
    cases hr
    refine ⟨_, ?_, j2.setPages ps⟩
    show (s'.ensureComponents U dbg e _ >>= _) = _
    rw [k2]
    show (s1'.getPageViewUnchecked q.page >>= _) = _
    rw [pageView j2.archs, show s1.getPageViewUnchecked q.page = _ from h3]
    show (Ecs.getOffsetsUnchecked view.archetype view.layout _ >>= _) = _
    rw [h4]
    show (assignToRefs _ _ s1'.archs.pages >>= _) = _
    rw [j2.archs, show assignToRefs _ _ s1.archs.pages = _ from h5]
    rfl

theorem valid (h : Alike s s') {e : Entity} (hi : s.Room e.id) (hi' : s'.Room e.id) (ha : s.isAlive dbg e = s'.isAlive dbg e) :
    s.isValidEntityWithArchetype dbg e = s'.isValidEntityWithArchetype dbg e := by
  unfold Store.isValidEntityWithArchetype
  rw [ha, Words.isOn_of_lt hi.2.2, Words.isOn_of_lt hi'.2.2, h.bits]

theorem valid_bit {e : Entity} (hr : s.isValidEntityWithArchetype dbg e = .ok true) : s.hasArch.bit e.id = true := by
  unfold Store.isValidEntityWithArchetype at hr
  obtain ⟨v, h1, hr⟩ := bind_eq_ok.1 hr
  cases v with
  | false => cases hr
  | true =>
    have hl := (Words.isOn_ok.1 hr).1
    have hr : s.hasArch.isOn e.id = .ok true := hr
    rw [Words.isOn_of_lt hl] at hr
    exact Except.ok.inj hr

theorem removed (h : Alike s s') (ho : Ecs.Owned s'.Room s'.archs.pages) {e : Entity} (hi : s.Room e.id) (hi' : s'.Room e.id)
    (hb : s'.hasArch.bit e.id = true → s'.HasRow e.id) (ha : s.isAlive dbg e = s'.isAlive dbg e) {ts : List TypeId}
    (hr : s.removeComponents U dbg e ts = .ok t) : ∃ t', s'.removeComponents U dbg e ts = .ok t' ∧ Alike t t' := by
  unfold Store.removeComponents at hr ⊢
  obtain ⟨v, h1, hr⟩ := bind_eq_ok.1 hr
  rw [h.valid hi hi' ha] at h1
  rw [h1]
  cases v with
  | false =>
    cases hr
    exact ⟨_, rfl, h⟩
  | true =>
    have hrow := hb (valid_bit h1)
    obtain ⟨prev, h2, hr⟩ := bind_eq_ok.1 hr
    obtain ⟨pi, h3, hr⟩ := bind_eq_ok.1 hr
    obtain ⟨arch, h4, hr⟩ := bind_eq_ok.1 hr
    obtain ⟨⟨na, nb⟩, h5, hr⟩ := bind_eq_ok.1 hr
    obtain ⟨⟨s1, q⟩, h6, hr⟩ := bind_eq_ok.1 hr
    cases hr
    rw [← h.archs] at h3 h4
    obtain ⟨t', k6, j6⟩ := h.move ho hi' hrow h6
    refine ⟨t', ?_, j6⟩
    show (s'.getLocUnchecked e.id >>= _) = _
    rw [h.loc h2 hrow]
    show (idx s'.archs.pageToArch prev.page >>= _) = _
    rw [h3]
    show (idxUnchecked s'.archs.archetypes pi >>= _) = _
    rw [h4]
    show (((ArchetypeBuilder.new.includeArchetype arch).excludeComponents U ts).build >>= _) = _
    rw [h5]
    show (s'.moveEntityToOtherArchetype dbg e na >>= _) = _
    rw [k6]
    rfl

theorem refs (h : Alike s s') {e : Entity} (hi : s.Room e.id) (hi' : s'.Room e.id) (hb : s.hasArch.bit e.id = true → s.HasRow e.id)
    (hb' : s'.hasArch.bit e.id = true → s'.HasRow e.id) (ha : s.isAlive dbg e = s'.isAlive dbg e) (ts : List TypeId) :
    s.getComponentsRefs U dbg e ts = s'.getComponentsRefs U dbg e ts := by
  unfold Store.getComponentsRefs
  rw [h.valid hi hi' ha]
  cases hv : s'.isValidEntityWithArchetype dbg e with
  | error _ => rfl
  | ok v =>
    cases v with
    | false => rfl
    | true =>
      have hon := valid_bit hv
      obtain ⟨k1, k2⟩ := hb' hon
      obtain ⟨k3, k4⟩ := hb (by rw [← h.bits]; exact hon)
      show (Raw.read s.toPage e.id >>= _) = (Raw.read s'.toPage e.id >>= _)
      rw [Raw.read_val k1, Raw.read_val k3, h.page]
      show (s.getPageViewUnchecked _ >>= _) = (s'.getPageViewUnchecked _ >>= _)
      rw [pageView h.archs, Raw.read_val k2, Raw.read_val k4, h.index]

theorem archetype (h : Alike s s') {e : Entity} (hi : s.Room e.id) (hi' : s'.Room e.id)
    (hb : s.hasArch.bit e.id = true → s.HasRow e.id) (hb' : s'.hasArch.bit e.id = true → s'.HasRow e.id)
    (ha : s.isAlive dbg e = s'.isAlive dbg e) : s.getEntityArchetype dbg e = s'.getEntityArchetype dbg e := by
  unfold Store.getEntityArchetype
  rw [h.valid hi hi' ha]
  cases hv : s'.isValidEntityWithArchetype dbg e with
  | error _ => rfl
  | ok v =>
    cases v with
    | false => rfl
    | true =>
      have hon := valid_bit hv
      obtain ⟨k1, k2⟩ := hb' hon
      obtain ⟨k3, k4⟩ := hb (by rw [← h.bits]; exact hon)
      show (Raw.read s.toPage e.id >>= _) = (Raw.read s'.toPage e.id >>= _)
      rw [Raw.read_val k1, Raw.read_val k3, h.page, h.archs]

theorem assigned (h : Alike s s') {e : Entity} {vals : TupleVal} {b : Bool}
    (href : s.getComponentsRefs U dbg e (vals.map (·.1)) = s'.getComponentsRefs U dbg e (vals.map (·.1)))
    (hr : s.setComponents U dbg e vals = .ok (t, b)) : ∃ t', s'.setComponents U dbg e vals = .ok (t', b) ∧ Alike t t' := by
  unfold Store.setComponents at hr ⊢
  obtain ⟨o, h1, hr⟩ := bind_eq_ok.1 hr
  rw [← href, h1]
  cases o with
  | none =>
    cases hr
    exact ⟨_, rfl, h⟩
  | some refs =>
    obtain ⟨ps, h2, hr⟩ := bind_eq_ok.1 hr
    cases hr
    refine ⟨_, ?_, h.setPages ps⟩
    show (assignToRefs refs _ s'.archs.pages >>= _) = _
    rw [h.archs, h2]
    rfl

theorem refl (s : Store) : Alike s s := ⟨rfl, fun _ => rfl, fun _ => rfl, fun _ => rfl⟩

theorem symm (h : Alike s s') : Alike s' s :=
  ⟨h.archs.symm, fun i => (h.bits i).symm, fun i => (h.page i).symm, fun i => (h.index i).symm⟩

theorem trans (h : Alike s s') (h' : Alike s' t) : Alike s t :=
  ⟨h'.archs.trans h.archs, fun i => (h'.bits i).trans (h.bits i), fun i => (h'.page i).trans (h.page i),
    fun i => (h'.index i).trans (h.index i)⟩

theorem val_append (a : Raw Nat) (n i : Nat) : Raw.val (a ++ List.replicate n none) i = a.val i := by
  unfold Raw.val
  rw [List.getElem?_append]
  split
  · rfl
  · rename_i hi
    rw [List.getElem?_replicate, List.getElem?_eq_none (Nat.le_of_not_lt hi)]
    split <;> rfl

theorem register {w : World} (h : Core s w) (hb : w.issued.length + 1 < u32Size) {e : Entity}
    (hr : s.registerNewEntity dbg = .ok (t, e)) : Alike s t ∧ t.tags.tagIds = s.tags.tagIds := by
  unfold Store.registerNewEntity at hr
  obtain ⟨⟨ents, cr⟩, hc, hr⟩ := bind_eq_ok.1 hr
  obtain ⟨h1, h2, h3, h4, h5, h6, h7, h8⟩ := h.ents.create_spec hc (Or.inr hb)
  dsimp only at hr
  split at hr
  · obtain ⟨s1, hg, hr⟩ := bind_eq_ok.1 hr
    cases hr
    obtain ⟨hw', k1, k2, k3⟩ := Words.realloc_of h.blen h5
    unfold Store.growEntitiesInternal Store.entitiesCapacity at hg
    simp only [h3, Raw.realloc_of h.plen h5, Raw.realloc_of h.ilen h5, k1, ok_bind] at hg
    obtain ⟨tg, t1, hg⟩ := bind_eq_ok.1 hg
    obtain ⟨od, _, hg⟩ := bind_eq_ok.1 hg
    cases hg
    refine ⟨⟨rfl, k3, fun i => val_append _ _ i, fun i => val_append _ _ i⟩, ?_⟩
    unfold Tags.grow at t1
    obtain ⟨_, _, t1⟩ := bind_eq_ok.1 t1
    cases t1
    rfl
  · cases hr
    exact ⟨⟨rfl, fun _ => rfl, fun _ => rfl, fun _ => rfl⟩, rfl⟩

/-- The calls on tags change the registered tags in the same way. -/
theorem tagIds_addTag {c c' d d' : Tags} {tag i : Nat} (h : d.tagIds = c.tagIds) (hc : c.addTag tag i = .ok c')
    (hd : d.addTag tag i = .ok d') : d'.tagIds = c'.tagIds := by
  unfold Tags.addTag Tags.reserveTag at hc hd
  rw [h] at hd
  cases hb : binarySearch c.tagIds tag with
  | found k =>
    simp only [hb] at hc hd
    obtain ⟨_, _, hc⟩ := bind_eq_ok.1 hc
    obtain ⟨_, _, hc⟩ := bind_eq_ok.1 hc
    obtain ⟨_, _, hd⟩ := bind_eq_ok.1 hd
    obtain ⟨_, _, hd⟩ := bind_eq_ok.1 hd
    cases hc
    cases hd
    exact h
  | notFound k =>
    simp only [hb] at hc hd
    obtain ⟨_, _, hc⟩ := bind_eq_ok.1 hc
    obtain ⟨_, _, hc⟩ := bind_eq_ok.1 hc
    obtain ⟨_, _, hd⟩ := bind_eq_ok.1 hd
    obtain ⟨_, _, hd⟩ := bind_eq_ok.1 hd
    cases hc
    cases hd
    rfl

theorem tagIds_removeTag {c c' : Tags} {tag i : Nat} (hc : c.removeTag tag i = .ok c') : c'.tagIds = c.tagIds := by
  unfold Tags.removeTag at hc
  split at hc
  · obtain ⟨_, _, hc⟩ := bind_eq_ok.1 hc
    obtain ⟨_, _, hc⟩ := bind_eq_ok.1 hc
    cases hc
    rfl
  · cases hc
    rfl

theorem tagIds_removeAll {c c' : Tags} {i : Nat} (hc : c.removeAllTagsForEntity i = .ok c') : c'.tagIds = c.tagIds := by
  unfold Tags.removeAllTagsForEntity at hc
  obtain ⟨_, _, hc⟩ := bind_eq_ok.1 hc
  cases hc
  rfl

/-- Only the tags and groups are changed. -/
theorem tag_call {s s1 : Store} {c : Tags} {d : Orders} (h : s1 = { s with tags := c, orders := d }) : Alike s s1 := by
  subst h
  exact ⟨rfl, fun _ => rfl, fun _ => rfl, fun _ => rfl⟩

end Alike

/-- The two stores have the same rows and the same registered tags. -/
structure Twins (s s' : Store) : Prop where
  alike : Alike s s'
  tagIds : s'.tags.tagIds = s.tags.tagIds

theorem Core.room {s : Store} {w : World} (h : Core s w) {e : Entity} (he : e ∈ w.issued) : s.Room e.id := by
  have hlt := h.ents.issued_id_lt he
  exact ⟨by rw [h.plen]; exact hlt, by rw [h.ilen]; exact hlt, by rw [h.blen]; exact Words.div_lt_getLen hlt⟩

theorem Core.owned_room {s : Store} {w : World} (h : Core s w) {ps : List Page} (ho : Owned (Store.Owned.Issued w) ps) :
    Owned s.Room ps :=
  ho.mono fun i hi => by
    obtain ⟨e, he, rfl⟩ := hi
    exact h.room he

namespace Twins
variable {U : Universe} {dbg : Bool} {cap cap' : Nat} {h : List Event} {s s' t : Store}

theorem isAlive (hx : LooseExec U dbg cap h s) (hx' : LooseExec U dbg cap' h s') {e : Entity} (he : e ∈ handles h) :
    s.isAlive dbg e = s'.isAlive dbg e := by
  rw [handles_eq] at he
  rw [(loose_core hx).isAlive ((loose_core hx).ents.issued_id_lt he),
    (loose_core hx').isAlive ((loose_core hx').ents.issued_id_lt he)]

theorem register (hx : LooseExec U dbg cap h s) (hx' : LooseExec U dbg cap' h s') (hT : Twins s s')
    (hb : (world h).issued.length + 1 < u32Size) {e : Entity} (hr : s.registerNewEntity dbg = .ok (t, e)) :
    ∃ t', s'.registerNewEntity dbg = .ok (t', e) ∧ Twins t t' ∧ Core t' ((world h).birth e) := by
  obtain ⟨t', e', hr', _, hc'⟩ := (loose_core hx').born (dbg := dbg) hb
  obtain ⟨a1, b1⟩ := Alike.register (loose_core hx) hb hr
  obtain ⟨a2, b2⟩ := Alike.register (loose_core hx') hb hr'
  have hh : ∀ {s1 s2 : Store} {e1 : Entity} {cap : Nat}, LooseExec U dbg cap h s1 → s1.registerNewEntity dbg = .ok (s2, e1) →
      e1 = nextHandle (entHistory h) := by
    intro s1 s2 e1 cap hx hr
    unfold Store.registerNewEntity at hr
    obtain ⟨⟨ents, cr⟩, hc, hr⟩ := bind_eq_ok.1 hr
    dsimp only at hr
    have he : cr.entity = e1 := by
      split at hr
      · obtain ⟨_, _, hr⟩ := bind_eq_ok.1 hr
        cases hr
        rfl
      · cases hr
        rfl
    subst he
    exact create_next (loose_ents hx) hc (Or.inr (by rw [issued_entHistory, handles_eq]; exact hb))
  have he : e' = e := (hh hx' hr').trans (hh hx hr).symm
  subst he
  exact ⟨t', hr', ⟨a1.symm.trans (hT.alike.trans a2), b2.trans (hT.tagIds.trans b1.symm)⟩, hc'⟩

theorem step (hx : LooseExec U dbg cap h s) (hx' : LooseExec U dbg cap' h s') (hT : Twins s s') {ev : Event}
    (hl : Loose (world h) ev) (ho : ownHandles (ev :: h)) (hr : Returns U dbg s ev t) :
    ∃ t', Returns U dbg s' ev t' ∧ Twins t t' := by
  have hc := loose_core hx
  have hc' := loose_core hx'
  have hown := hc'.owned_room (loose_owned hx')
  have hrow := (hasRow hx').2
  cases ev with
  | created e =>
    unfold Returns Store.createEntity at hr
    obtain ⟨⟨s1, e1⟩, h1, hr⟩ := bind_eq_ok.1 hr
    obtain ⟨b, h2, hr⟩ := bind_eq_ok.1 hr
    cases hr
    obtain ⟨s1', k1, kT, kc⟩ := register hx hx' hT hl h1
    have hroom := kc.room (e := e) (by simp [World.birth])
    obtain ⟨b', k2, j2⟩ := Alike.setOff kT.alike.bits h2 hroom.2.2
    refine ⟨{ s1' with hasArch := b' }, ?_, ⟨kT.alike.archs, j2, kT.alike.page, kT.alike.index⟩, kT.tagIds⟩
    show (s'.registerNewEntity dbg >>= _) = _
    rw [k1]
    show (s1'.hasArch.setOff e.id >>= _) = _
    rw [k2]
    rfl
  | createdWith e ts init =>
    obtain ⟨a, hB, hids, hr⟩ := hr
    unfold Store.createEntityWithArchetype at hr
    obtain ⟨⟨s1, e1⟩, h1, hr⟩ := bind_eq_ok.1 hr
    obtain ⟨⟨c, q⟩, h2, hr⟩ := bind_eq_ok.1 hr
    obtain ⟨s2, h3, hr⟩ := bind_eq_ok.1 hr
    cases hr
    obtain ⟨s1', k1, kT, kc⟩ := register hx hx' hT hl h1
    have hroom := kc.room (e := e) (by simp [World.birth])
    have h2 : s1.archs.addEntity dbg e.id a = .ok (c, q) := h2
    rw [← kT.alike.archs] at h2
    obtain ⟨s2', k3, j3⟩ := Alike.recordRow (s := { s1 with archs := c }) (s' := { s1' with archs := c })
      ⟨rfl, kT.alike.bits, kT.alike.page, kT.alike.index⟩ h3 hroom
    refine ⟨s2', ⟨a, hB, hids, ?_⟩, j3, ?_⟩
    · show (s'.registerNewEntity dbg >>= _) = _
      rw [k1]
      show (s1'.archs.addEntity dbg e.id a >>= _) = _
      rw [h2]
      show (({ s1' with archs := c } : Store).recordRow e.id q >>= _) = _
      rw [k3]
      rfl
    · rw [(SameCore.recordRow k3).tags, (SameCore.recordRow h3).tags]
      exact kT.tagIds
  | destroyed e =>
    have he : e ∈ (world h).live := hl
    unfold Returns Store.destroyEntity at hr
    obtain ⟨s1, r1, hr⟩ := bind_eq_ok.1 hr
    obtain ⟨en, r2, hr⟩ := bind_eq_ok.1 hr
    obtain ⟨tg, r3, hr⟩ := bind_eq_ok.1 hr
    obtain ⟨od, r4, hr⟩ := bind_eq_ok.1 hr
    cases hr
    obtain ⟨s1', k1, j1⟩ := hT.alike.destroyRow hown (hc'.room (hc'.ents.sub e he)) (hrow e.id) r1
    have h1 := hc'.same (w' := world h) (SameCore.destroyRow k1) rfl rfl rfl rfl
    have hlt := h1.ents.id_lt he
    obtain ⟨ents, e1, _, _, _⟩ := h1.ents.destroy_live (dbg := dbg) he
    obtain ⟨tg', t1, _, _, _⟩ := Tags.removeAll_spec h1.tags (id := e.id) (by rw [h1.tcap]; exact hlt)
    obtain ⟨od', o1, _, _⟩ := h1.orders.removeAll (e := e.id) (by rw [h1.ocap]; exact hlt) (h1.ne_null he)
    refine ⟨{ s1' with ents := ents, tags := tg', orders := od' }, ?_, ⟨j1.archs, j1.bits, j1.page, j1.index⟩, ?_⟩
    · unfold Returns Store.destroyEntity
      show (s'.destroyRow e >>= _) = _
      rw [k1]
      show (s1'.ents.destroy dbg e >>= _) = _
      rw [e1]
      show (s1'.tags.removeAllTagsForEntity e.id >>= _) = _
      rw [t1]
      show (s1'.orders.removeAll e.id >>= _) = _
      rw [o1]
      rfl
    · show tg'.tagIds = tg.tagIds
      rw [Alike.tagIds_removeAll t1, Alike.tagIds_removeAll r3, (SameCore.destroyRow k1).tags, (SameCore.destroyRow r1).tags]
      exact hT.tagIds
  | added e vals =>
    have he : e ∈ handles h := ho.1
    have hi : e ∈ (world h).issued := by rw [← handles_eq]; exact he
    obtain ⟨t', k, j⟩ := hT.alike.added (U := U) hown (hc'.room hi) (hrow e.id) (isAlive hx hx' he) hr
    refine ⟨t', k, j, ?_⟩
    rw [(SameCore.added k).tags, (SameCore.added hr).tags]
    exact hT.tagIds
  | removed e ts =>
    have he : e ∈ handles h := ho.1
    have hi : e ∈ (world h).issued := by rw [← handles_eq]; exact he
    obtain ⟨t', k, j⟩ := hT.alike.removed (U := U) hown (hc.room hi) (hc'.room hi) (hrow e.id) (isAlive hx hx' he) hr
    refine ⟨t', k, j, ?_⟩
    rw [(SameCore.removed k).tags, (SameCore.removed hr).tags]
    exact hT.tagIds
  | assigned e vals =>
    have he : e ∈ handles h := ho.1
    have hi : e ∈ (world h).issued := by rw [← handles_eq]; exact he
    obtain ⟨b, hr⟩ := hr
    obtain ⟨t', k, j⟩ := hT.alike.assigned (U := U)
      (hT.alike.refs (hc.room hi) (hc'.room hi) ((hasRow hx).2 e.id) (hrow e.id) (isAlive hx hx' he) _) hr
    refine ⟨t', ⟨b, k⟩, j, ?_⟩
    rw [(SameCore.assigned k).tags, (SameCore.assigned hr).tags]
    exact hT.tagIds
  | tagged tag e =>
    obtain ⟨t', k, _⟩ := hc'.tagged tag hl
    refine ⟨t', k, ?_⟩
    unfold Returns Store.addTag at hr
    unfold Store.addTag at k
    obtain ⟨c, r1, hr⟩ := bind_eq_ok.1 hr
    obtain ⟨c', k1, k⟩ := bind_eq_ok.1 k
    cases hr
    cases k
    exact ⟨(Alike.tag_call rfl).symm.trans (hT.alike.trans (Alike.tag_call rfl)), Alike.tagIds_addTag hT.tagIds r1 k1⟩
  | untagged tag e =>
    obtain ⟨t', k, _⟩ := hc'.untagged tag hl
    refine ⟨t', k, ?_⟩
    unfold Returns Store.removeTag at hr
    unfold Store.removeTag at k
    obtain ⟨c, r1, hr⟩ := bind_eq_ok.1 hr
    obtain ⟨c', k1, k⟩ := bind_eq_ok.1 k
    cases hr
    cases k
    exact ⟨(Alike.tag_call rfl).symm.trans (hT.alike.trans (Alike.tag_call rfl)),
      by show c'.tagIds = c.tagIds; rw [Alike.tagIds_removeTag r1, Alike.tagIds_removeTag k1]; exact hT.tagIds⟩
  | orderedLast g e =>
    obtain ⟨t', k, _⟩ := hc'.orderedLast (dbg := dbg) hl.1 hl.2
    refine ⟨t', k, ?_⟩
    unfold Returns Store.addOrder at hr
    unfold Store.addOrder at k
    obtain ⟨c, r1, hr⟩ := bind_eq_ok.1 hr
    obtain ⟨c', k1, k⟩ := bind_eq_ok.1 k
    cases hr
    cases k
    exact ⟨(Alike.tag_call rfl).symm.trans (hT.alike.trans (Alike.tag_call rfl)), hT.tagIds⟩
  | orderedAfter g e x =>
    obtain ⟨t', k, _⟩ := hc'.orderedAfter (dbg := dbg) hl.1 hl.2.1 hl.2.2
    refine ⟨t', k, ?_⟩
    unfold Returns Store.addOrderNextTo at hr
    unfold Store.addOrderNextTo at k
    obtain ⟨c, r1, hr⟩ := bind_eq_ok.1 hr
    obtain ⟨c', k1, k⟩ := bind_eq_ok.1 k
    cases hr
    cases k
    exact ⟨(Alike.tag_call rfl).symm.trans (hT.alike.trans (Alike.tag_call rfl)), hT.tagIds⟩
  | orderedBefore g e x =>
    obtain ⟨t', k, _⟩ := hc'.orderedBefore (dbg := dbg) hl.1 hl.2.1 hl.2.2
    refine ⟨t', k, ?_⟩
    unfold Returns Store.addOrderPreviousTo at hr
    unfold Store.addOrderPreviousTo at k
    obtain ⟨c, r1, hr⟩ := bind_eq_ok.1 hr
    obtain ⟨c', k1, k⟩ := bind_eq_ok.1 k
    cases hr
    cases k
    exact ⟨(Alike.tag_call rfl).symm.trans (hT.alike.trans (Alike.tag_call rfl)), hT.tagIds⟩
  | unordered g e =>
    obtain ⟨t', k, _⟩ := hc'.unordered (g := g) hl
    refine ⟨t', k, ?_⟩
    unfold Returns Store.removeOrder at hr
    unfold Store.removeOrder at k
    obtain ⟨c, r1, hr⟩ := bind_eq_ok.1 hr
    obtain ⟨c', k1, k⟩ := bind_eq_ok.1 k
    cases hr
    cases k
    exact ⟨(Alike.tag_call rfl).symm.trans (hT.alike.trans (Alike.tag_call rfl)), hT.tagIds⟩

end Twins
end Ecs
