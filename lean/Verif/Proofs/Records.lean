import Verif.Proofs.StoreLoose
import Verif.Proofs.History
import Verif.Spec.Query

/-! Two facts about every execution: which tags are registered, and for which ids a row was recorded. -/

namespace Ecs
open Spec

/-! ### Registered tags -/

theorem tagIds_removeAll {c c' : Tags} {id : Nat} (h : c.removeAllTagsForEntity id = .ok c') : c'.tagIds = c.tagIds := by
  unfold Tags.removeAllTagsForEntity at h
  obtain ⟨_, _, h⟩ := bind_eq_ok.1 h
  cases h; rfl

theorem tagIds_grow {c c' : Tags} {n : Nat} (h : c.grow n = .ok c') : c'.tagIds = c.tagIds := by
  unfold Tags.grow at h
  obtain ⟨_, _, h⟩ := bind_eq_ok.1 h
  cases h; rfl

theorem tagIds_removeTag {c c' : Tags} {tag id : Nat} (h : c.removeTag tag id = .ok c') : c'.tagIds = c.tagIds := by
  unfold Tags.removeTag at h
  split at h
  · obtain ⟨_, _, h⟩ := bind_eq_ok.1 h
    obtain ⟨_, _, h⟩ := bind_eq_ok.1 h
    cases h; rfl
  · cases h; rfl

theorem tagIds_register {dbg : Bool} {s s' : Store} {e : Entity} (h : s.registerNewEntity dbg = .ok (s', e)) :
    s'.tags.tagIds = s.tags.tagIds := by
  unfold Store.registerNewEntity at h
  obtain ⟨⟨ents, cr⟩, _, h⟩ := bind_eq_ok.1 h
  dsimp only at h
  split at h
  · obtain ⟨s1, h1, h⟩ := bind_eq_ok.1 h
    cases h
    unfold Store.growEntitiesInternal at h1
    obtain ⟨_, _, h1⟩ := bind_eq_ok.1 h1
    obtain ⟨_, _, h1⟩ := bind_eq_ok.1 h1
    obtain ⟨_, _, h1⟩ := bind_eq_ok.1 h1
    obtain ⟨tg, ht, h1⟩ := bind_eq_ok.1 h1
    obtain ⟨_, _, h1⟩ := bind_eq_ok.1 h1
    cases h1
    exact tagIds_grow ht
  · cases h; rfl

theorem addOrder_tags {f : Res Orders} {s s' : Store}
    (h : (do let o ← f; return { s with orders := o }) = (.ok s' : Res Store)) : s'.tags = s.tags := by
  obtain ⟨_, _, h⟩ := bind_eq_ok.1 h
  cases h; rfl

theorem tagIds_step {U : Universe} {dbg : Bool} {s s' : Store} {ev : Event} (hi : s.tags.Inv) (hr : Returns U dbg s ev s')
    (t : Nat) : t ∈ s'.tags.tagIds ↔ t ∈ s.tags.tagIds ∨ ∃ e, ev = .tagged t e := by
  have same : s'.tags.tagIds = s.tags.tagIds → (∀ e, ev ≠ .tagged t e) →
      (t ∈ s'.tags.tagIds ↔ t ∈ s.tags.tagIds ∨ ∃ e, ev = .tagged t e) := by
    intro h1 h2
    rw [h1]
    exact ⟨Or.inl, fun h => h.elim id fun ⟨e, he⟩ => absurd he (h2 e)⟩
  cases ev with
  | created e =>
    refine same ?_ (by simp)
    simp only [Returns, Store.createEntity] at hr
    obtain ⟨⟨s1, e1⟩, h1, hr⟩ := bind_eq_ok.1 hr
    obtain ⟨_, _, hr⟩ := bind_eq_ok.1 hr
    cases hr
    have := tagIds_register h1
    exact this
  | createdWith e ts init =>
    refine same ?_ (by simp)
    obtain ⟨a, _, _, hr⟩ := hr
    unfold Store.createEntityWithArchetype at hr
    obtain ⟨⟨s1, e1⟩, h1, hr⟩ := bind_eq_ok.1 hr
    obtain ⟨⟨c, q⟩, _, hr⟩ := bind_eq_ok.1 hr
    dsimp only at hr
    obtain ⟨s2, h2, hr⟩ := bind_eq_ok.1 hr
    cases hr
    rw [(SameCore.recordRow h2).tags]
    have := tagIds_register h1
    exact this
  | destroyed e =>
    refine same ?_ (by simp)
    simp only [Returns, Store.destroyEntity] at hr
    obtain ⟨s1, h1, hr⟩ := bind_eq_ok.1 hr
    obtain ⟨_, _, hr⟩ := bind_eq_ok.1 hr
    obtain ⟨tg, h2, hr⟩ := bind_eq_ok.1 hr
    obtain ⟨_, _, hr⟩ := bind_eq_ok.1 hr
    cases hr
    rw [← (SameCore.destroyRow h1).tags]
    exact tagIds_removeAll h2
  | added e vals => exact same (by rw [(SameCore.added hr).tags]) (by simp)
  | removed e ts => exact same (by rw [(SameCore.removed hr).tags]) (by simp)
  | assigned e vals =>
    obtain ⟨b, hr⟩ := hr
    exact same (by rw [(SameCore.assigned hr).tags]) (by simp)
  | tagged tag e =>
    simp only [Returns, Store.addTag] at hr
    obtain ⟨tg, h1, hr⟩ := bind_eq_ok.1 hr
    cases hr
    have := Tags.tagIds_addTag h1 hi t
    simp only [this]
    constructor
    · rintro (rfl | h)
      · exact .inr ⟨e, rfl⟩
      · exact .inl h
    · rintro (h | ⟨x, hx⟩)
      · exact .inr h
      · cases hx; exact .inl rfl
  | untagged tag e =>
    refine same ?_ (by simp)
    simp only [Returns, Store.removeTag] at hr
    obtain ⟨tg, h1, hr⟩ := bind_eq_ok.1 hr
    cases hr
    exact tagIds_removeTag h1
  | orderedLast g e =>
    simp only [Returns, Store.addOrder] at hr
    exact same (congrArg Tags.tagIds (addOrder_tags hr)) (by simp)
  | orderedAfter g e x =>
    simp only [Returns, Store.addOrderNextTo] at hr
    exact same (congrArg Tags.tagIds (addOrder_tags hr)) (by simp)
  | orderedBefore g e x =>
    simp only [Returns, Store.addOrderPreviousTo] at hr
    exact same (congrArg Tags.tagIds (addOrder_tags hr)) (by simp)
  | unordered g e =>
    simp only [Returns, Store.removeOrder] at hr
    exact same (congrArg Tags.tagIds (addOrder_tags hr)) (by simp)

/-- A tag is registered iff some entity was ever given it. -/
theorem registered_iff {U : Universe} {dbg : Bool} {cap : Nat} {h : List Event} {s : Store} (hx : LooseExec U dbg cap h s)
    (t : Nat) : t ∈ s.tags.tagIds ↔ ∃ e, .tagged t e ∈ h := by
  induction hx with
  | init hs =>
    unfold Store.withCapacity at hs
    have : ∀ c : Tags, c = Tags.new cap → t ∉ c.tagIds := by rintro _ rfl; simp [Tags.new]
    constructor
    · intro ht
      refine absurd ht (this _ ?_)
      obtain ⟨_, _, hs⟩ := bind_eq_ok.1 hs
      cases hs; rfl
    · rintro ⟨e, he⟩; cases he
  | step ev hx hl hr ih =>
    rw [tagIds_step (loose_core hx).tags hr t, ih]
    constructor
    · rintro (⟨e, he⟩ | ⟨e, rfl⟩)
      · exact ⟨e, List.mem_cons_of_mem _ he⟩
      · exact ⟨e, List.mem_cons_self⟩
    · rintro ⟨e, he⟩
      rcases List.mem_cons.1 he with he | he
      · exact .inr ⟨e, he.symm⟩
      · exact .inl ⟨e, he⟩

/-! ### Recorded rows -/

/-- Entry `i` of the buffer was written. -/
def Inited (a : Raw Nat) (i : Nat) : Prop := ∃ v, a[i]? = some (some v)

/-- A row was recorded for the id. -/
def Store.HasRow (s : Store) (id : Nat) : Prop := Inited s.toPage id ∧ Inited s.toIndex id

theorem Inited.write {a b : Raw Nat} {i v : Nat} (h : Raw.write a i v = .ok b) : ∀ j, Inited a j → Inited b j := by
  rintro j ⟨x, hx⟩
  obtain ⟨_, rfl⟩ := Raw.write_ok.1 h
  by_cases hij : i = j
  · subst hij
    exact ⟨v, by rw [List.getElem?_set_self (List.getElem?_eq_some_iff.1 hx).1]⟩
  · exact ⟨x, by rw [List.getElem?_set_ne hij]; exact hx⟩

theorem Inited.written {a b : Raw Nat} {i v : Nat} (h : Raw.write a i v = .ok b) : Inited b i := by
  obtain ⟨h1, rfl⟩ := Raw.write_ok.1 h
  exact ⟨v, List.getElem?_set_self h1⟩

/-- From `s` to `s'` no record is lost, and archetype bits are only set together with a record. -/
structure Keeps (s s' : Store) : Prop where
  rows : ∀ i, s.HasRow i → s'.HasRow i
  bits : ∀ i, s'.hasArch.bit i = true → s.hasArch.bit i = true ∨ s'.HasRow i

namespace Keeps
variable {U : Universe} {dbg : Bool} {s s' s'' : Store}

theorem refl (s : Store) : Keeps s s := ⟨fun _ h => h, fun _ h => .inl h⟩

theorem trans (h : Keeps s s') (h' : Keeps s' s'') : Keeps s s'' :=
  ⟨fun i hi => h'.rows i (h.rows i hi), fun i hi => (h'.bits i hi).elim
    (fun hb => (h.bits i hb).elim .inl fun hr => .inr (h'.rows i hr)) .inr⟩

/-- Nothing about records changes. -/
theorem same (hp : s'.toPage = s.toPage) (hi : s'.toIndex = s.toIndex) (hb : s'.hasArch = s.hasArch) : Keeps s s' :=
  ⟨fun i h => by unfold Store.HasRow; rw [hp, hi]; exact h, fun i h => .inl (by rw [← hb]; exact h)⟩

theorem recordRow {id : Nat} {q : Loc} (h : s.recordRow id q = .ok s') : Keeps s s' ∧ s'.HasRow id := by
  unfold Store.recordRow at h
  obtain ⟨a, h1, h⟩ := bind_eq_ok.1 h
  obtain ⟨b, h2, h⟩ := bind_eq_ok.1 h
  obtain ⟨c, h3, h⟩ := bind_eq_ok.1 h
  cases h
  have hrow : Inited a id ∧ Inited b id := ⟨Inited.written h1, Inited.written h2⟩
  refine ⟨⟨fun i hi => ⟨Inited.write h1 i hi.1, Inited.write h2 i hi.2⟩, fun i hi => ?_⟩, hrow⟩
  have hlt : id / 32 < s.hasArch.length := by
    unfold Words.setOn at h3
    split at h3
    · next h => exact (List.getElem?_eq_some_iff.1 h).1
    · cases h3
  obtain ⟨c', k1, _, k3⟩ := Words.setOn_of_lt hlt
  rw [k1] at h3
  cases h3
  simp only [k3, Bool.or_eq_true, decide_eq_true_eq] at hi
  rcases hi with rfl | hi
  · exact .inr hrow
  · exact .inl hi

theorem swapRemove {q : Loc} (h : s.swapRemoveInternal q = .ok s') : Keeps s s' := by
  unfold Store.swapRemoveInternal at h
  obtain ⟨⟨c, info⟩, h1, h⟩ := bind_eq_ok.1 h
  dsimp only at h
  split at h
  · obtain ⟨b, h2, h⟩ := bind_eq_ok.1 h
    cases h
    exact ⟨fun i hi => ⟨hi.1, Inited.write h2 i hi.2⟩, fun i hi => .inl hi⟩
  · cases h
    exact same rfl rfl rfl

theorem destroyRow {e : Entity} (h : s.destroyRow e = .ok s') : Keeps s s' := by
  unfold Store.destroyRow at h
  obtain ⟨b, h1, h⟩ := bind_eq_ok.1 h
  split at h
  · obtain ⟨q, h2, h⟩ := bind_eq_ok.1 h
    exact swapRemove h
  · cases h; exact refl s

theorem move {e : Entity} {a : Archetype} {q : Loc} (h : s.moveEntityToOtherArchetype dbg e a = .ok (s', q)) :
    Keeps s s' := by
  unfold Store.moveEntityToOtherArchetype at h
  obtain ⟨p, h1, h⟩ := bind_eq_ok.1 h
  obtain ⟨ai, h2, h⟩ := bind_eq_ok.1 h
  obtain ⟨⟨c, q'⟩, h3, h⟩ := bind_eq_ok.1 h
  dsimp only at h
  obtain ⟨x, h4, h⟩ := bind_eq_ok.1 h
  obtain ⟨y, h5, h⟩ := bind_eq_ok.1 h
  obtain ⟨s1, h6, h⟩ := bind_eq_ok.1 h
  cases h
  refine trans (s' := { s with archs := c, toPage := x, toIndex := y }) ?_ (swapRemove h6)
  exact ⟨fun i hi => ⟨Inited.write h4 i hi.1, Inited.write h5 i hi.2⟩, fun i hi => .inl hi⟩

theorem ensure {e : Entity} {ts : List TypeId} {q : Loc} (h : s.ensureComponents U dbg e ts = .ok (s', q)) :
    Keeps s s' ∧ (s.hasArch.bit e.id = true ∨ s'.HasRow e.id) := by
  unfold Store.ensureComponents at h
  obtain ⟨b, h1, h⟩ := bind_eq_ok.1 h
  split at h
  · next hb =>
    refine ⟨?_, .inl ?_⟩
    · obtain ⟨p, h2, h⟩ := bind_eq_ok.1 h
      obtain ⟨ai, h3, h⟩ := bind_eq_ok.1 h
      obtain ⟨a, h4, h⟩ := bind_eq_ok.1 h
      split at h
      · cases h; exact refl s
      · obtain ⟨⟨na, bb⟩, h5, h⟩ := bind_eq_ok.1 h
        exact move h
    · subst hb
      exact (Words.isOn_ok.1 h1).2.symm
  · obtain ⟨a, h2, h⟩ := bind_eq_ok.1 h
    obtain ⟨⟨c, q'⟩, h3, h⟩ := bind_eq_ok.1 h
    dsimp only at h
    obtain ⟨s1, h4, h⟩ := bind_eq_ok.1 h
    cases h
    obtain ⟨k1, k2⟩ := recordRow h4
    exact ⟨trans (s' := { s with archs := c }) (same rfl rfl rfl) k1, .inr k2⟩

theorem added {e : Entity} {vals : TupleVal} (h : s.addComponents U dbg e vals = .ok s') :
    Keeps s s' ∧ (s.isAlive dbg e = .ok true → s.hasArch.bit e.id = true ∨ s'.HasRow e.id) := by
  unfold Store.addComponents at h
  obtain ⟨b, h1, h⟩ := bind_eq_ok.1 h
  split at h
  · next hb =>
    cases h
    refine ⟨refl s, fun ha => ?_⟩
    rw [h1] at ha
    cases ha
    cases hb
  · obtain ⟨⟨s1, q⟩, h2, h⟩ := bind_eq_ok.1 h
    dsimp only at h
    obtain ⟨v, h3, h⟩ := bind_eq_ok.1 h
    obtain ⟨o, h4, h⟩ := bind_eq_ok.1 h
    obtain ⟨pg, h5, h⟩ := bind_eq_ok.1 h
    cases h
    obtain ⟨k1, k2⟩ := ensure h2
    exact ⟨trans k1 (same rfl rfl rfl), fun _ => k2⟩

theorem removed {e : Entity} {ts : List TypeId} (h : s.removeComponents U dbg e ts = .ok s') : Keeps s s' := by
  unfold Store.removeComponents at h
  obtain ⟨b, h1, h⟩ := bind_eq_ok.1 h
  split at h
  · cases h; exact refl s
  · obtain ⟨p, h2, h⟩ := bind_eq_ok.1 h
    obtain ⟨ai, h3, h⟩ := bind_eq_ok.1 h
    obtain ⟨a, h4, h⟩ := bind_eq_ok.1 h
    obtain ⟨⟨na, bb⟩, h5, h⟩ := bind_eq_ok.1 h
    obtain ⟨⟨s1, q⟩, h6, h⟩ := bind_eq_ok.1 h
    cases h
    exact move h6

theorem assigned {e : Entity} {vals : TupleVal} {b : Bool} (h : s.setComponents U dbg e vals = .ok (s', b)) :
    Keeps s s' := by
  unfold Store.setComponents at h
  obtain ⟨o, h1, h⟩ := bind_eq_ok.1 h
  split at h
  · cases h; exact refl s
  · obtain ⟨pg, h2, h⟩ := bind_eq_ok.1 h
    cases h
    exact same rfl rfl rfl

theorem register {w : World} (h : Core s w) (hb : w.issued.length + 1 < u32Size) {e : Entity}
    (hr : s.registerNewEntity dbg = .ok (s', e)) : Keeps s s' := by
  obtain ⟨s1, e1, h1, _, _, _, _, _, _, _, _, h10, h11, h12, _⟩ := h.register (dbg := dbg) hb
  rw [h1] at hr
  cases hr
  refine ⟨fun i hi => ?_, fun i hi => .inl (by rw [← h12]; exact hi)⟩
  obtain ⟨⟨a, ha⟩, ⟨b, hb⟩⟩ := hi
  have hlt : i < s.ents.capacity := by rw [← h.plen]; exact (List.getElem?_eq_some_iff.1 ha).1
  exact ⟨⟨a, by rw [h10 i hlt]; exact ha⟩, ⟨b, by rw [h11 i hlt]; exact hb⟩⟩

theorem order {f : Res Orders} (h : (do let o ← f; return { s with orders := o }) = (.ok s' : Res Store)) : Keeps s s' := by
  obtain ⟨_, _, h⟩ := bind_eq_ok.1 h
  cases h; exact same rfl rfl rfl

theorem tag {f : Res Tags} (h : (do let o ← f; return { s with tags := o }) = (.ok s' : Res Store)) : Keeps s s' := by
  obtain ⟨_, _, h⟩ := bind_eq_ok.1 h
  cases h; exact same rfl rfl rfl

/-- Every call keeps the records, and the entity it stores gets one. -/
theorem step {w : World} (h : Core s w) {ev : Event} (hl : Loose w ev) (hr : Returns U dbg s ev s') :
    Keeps s s' ∧ match ev with
      | .createdWith e _ _ => s'.HasRow e.id
      | .added e _ => e ∈ w.live → s.hasArch.bit e.id = true ∨ s'.HasRow e.id
      | _ => True := by
  cases ev with
  | created e =>
    refine ⟨?_, trivial⟩
    simp only [Returns, Store.createEntity] at hr
    obtain ⟨⟨s1, e1⟩, h1, hr⟩ := bind_eq_ok.1 hr
    obtain ⟨b, h2, hr⟩ := bind_eq_ok.1 hr
    cases hr
    have hk := register h hl h1
    refine trans hk ⟨fun i hi => hi, fun i hi => .inl ?_⟩
    dsimp only at h2
    have hlt : e1.id / 32 < s1.hasArch.length := by
      unfold Words.setOff at h2
      split at h2
      · next h => exact (List.getElem?_eq_some_iff.1 h).1
      · cases h2
    obtain ⟨c', k1, _, k3⟩ := Words.setOff_of_lt hlt
    rw [k1] at h2
    cases h2
    simp only [k3, Bool.and_eq_true] at hi
    exact hi.2
  | createdWith e ts init =>
    obtain ⟨a, _, _, hr⟩ := hr
    unfold Store.createEntityWithArchetype at hr
    obtain ⟨⟨s1, e1⟩, h1, hr⟩ := bind_eq_ok.1 hr
    obtain ⟨⟨c, q⟩, _, hr⟩ := bind_eq_ok.1 hr
    dsimp only at hr
    obtain ⟨s2, h2, hr⟩ := bind_eq_ok.1 hr
    cases hr
    obtain ⟨k1, k2⟩ := recordRow h2
    exact ⟨trans (register h hl h1) (trans (s' := { s1 with archs := c }) (same rfl rfl rfl) k1), k2⟩
  | destroyed e =>
    refine ⟨?_, trivial⟩
    simp only [Returns, Store.destroyEntity] at hr
    obtain ⟨s1, h1, hr⟩ := bind_eq_ok.1 hr
    obtain ⟨_, _, hr⟩ := bind_eq_ok.1 hr
    obtain ⟨tg, h2, hr⟩ := bind_eq_ok.1 hr
    obtain ⟨_, _, hr⟩ := bind_eq_ok.1 hr
    cases hr
    exact trans (destroyRow h1) (same rfl rfl rfl)
  | added e vals =>
    obtain ⟨k1, k2⟩ := added hr
    refine ⟨k1, fun he => k2 ?_⟩
    rw [h.isAlive (h.ents.id_lt he)]
    simp [he]
  | removed e ts => exact ⟨removed hr, trivial⟩
  | assigned e vals =>
    obtain ⟨b, hr⟩ := hr
    exact ⟨assigned hr, trivial⟩
  | tagged t e => exact ⟨tag hr, trivial⟩
  | untagged t e => exact ⟨tag hr, trivial⟩
  | orderedLast g e => exact ⟨order hr, trivial⟩
  | orderedAfter g e x => exact ⟨order hr, trivial⟩
  | orderedBefore g e x => exact ⟨order hr, trivial⟩
  | unordered g e => exact ⟨order hr, trivial⟩

end Keeps

/-- A row is recorded for the ids of the initial capacity (as zero), for all ids ever given components,
and wherever the archetype bit is on. -/
theorem hasRow {U : Universe} {dbg : Bool} {cap : Nat} {h : List Event} {s : Store} (hx : LooseExec U dbg cap h s) :
    (∀ i, i < cap ∨ i ∈ stored h → s.HasRow i) ∧ ∀ i, s.hasArch.bit i = true → s.HasRow i := by
  induction hx with
  | init hs =>
    unfold Store.withCapacity at hs
    obtain ⟨_, _, hs⟩ := bind_eq_ok.1 hs
    cases hs
    refine ⟨fun i hi => ?_, fun i hi => ?_⟩
    · rcases hi with hi | hi
      · have : (List.replicate cap (some 0) : Raw Nat)[i]? = some (some 0) := by simp [hi]
        exact ⟨⟨0, this⟩, ⟨0, this⟩⟩
      · cases hi
    · rw [Words.bit_alloc] at hi
      cases hi
  | step ev hx hl hr ih =>
    obtain ⟨k, hev⟩ := Keeps.step (loose_core hx) hl hr
    refine ⟨?_, fun i hi => (k.bits i hi).elim (fun hb => k.rows i (ih.2 i hb)) id⟩
    have old := fun i hi => k.rows i (ih.1 i hi)
    intro i hi
    rcases hi with hi | hi
    · exact old i (.inl hi)
    · cases ev <;> try exact old i (.inr hi)
      · simp only [stored, List.mem_cons] at hi
        rcases hi with rfl | hi
        · exact hev
        · exact old i (.inr hi)
      · next e vals =>
        simp only [stored] at hi
        split at hi
        · next he =>
          rcases List.mem_cons.1 hi with rfl | hi
          · rw [alive_eq] at he
            exact (hev he).elim (fun hb => k.rows _ (ih.2 _ hb)) id
          · exact old i (.inr hi)
        · exact old i (.inr hi)

end Ecs
