import Verif.Proofs.Walks
import Verif.Spec.Stray
import Verif.Spec.Run

/-! Tags and groups along executions whose tag and order calls may get dead handles. -/

namespace Ecs
open Spec

/-- The store agrees with the history as far as ids are concerned. -/
structure Strays (s : Store) (h : List Event) : Prop where
  core : IdCore s (handles h) (alive h) (fun g => idSequence g h)
  tagOn : ∀ tag i, s.tags.on tag i = idTag tag i h
  cur : ∀ i e, newest i h = some e → s.ents.versions[i]? = some (some e.version)
  null : ∀ e ∈ handles h, e.id ≠ NULL_ID
  mem : ∀ g, ∀ i ∈ idSequence g h, ∃ e ∈ handles h, e.id = i

namespace IdCore
variable {U : Universe} {dbg : Bool} {s s' : Store} {I L : List Entity} {O : Nat → List Nat}

theorem same (h : IdCore s I L O) (hs : SameCore s s') : IdCore s' I L O :=
  ⟨by rw [hs.ents]; exact h.ents, by rw [hs.plen, hs.ents]; exact h.plen, by rw [hs.ilen, hs.ents]; exact h.ilen,
    by rw [hs.blen, hs.ents]; exact h.blen, by rw [hs.tags]; exact h.tags, by rw [hs.tags, hs.ents]; exact h.tcap,
    by rw [hs.orders]; exact h.orders, by rw [hs.orders, hs.ents]; exact h.ocap⟩

end IdCore

theorem mem_insertAfter_iff {α : Type} [DecidableEq α] {x y z : α} {l : List α} (h : z ∈ insertAfter x y l) :
    z = y ∨ z ∈ l := by
  induction l with
  | nil => simp [insertAfter] at h
  | cons a l ih =>
    unfold insertAfter at h
    split at h
    · simp only [List.mem_cons] at h ⊢; tauto
    · simp only [List.mem_cons] at h ⊢
      rcases h with h | h
      · exact .inr (.inl h)
      · rcases ih h with h | h <;> tauto

theorem mem_insertBefore_iff {α : Type} [DecidableEq α] {x y z : α} {l : List α} (h : z ∈ insertBefore x y l) :
    z = y ∨ z ∈ l := by
  induction l with
  | nil => simp [insertBefore] at h
  | cons a l ih =>
    unfold insertBefore at h
    split at h
    · simp only [List.mem_cons] at h ⊢; tauto
    · simp only [List.mem_cons] at h ⊢
      rcases h with h | h
      · exact .inr (.inl h)
      · rcases ih h with h | h <;> tauto

namespace Strays
variable {U : Universe} {dbg : Bool} {s s' : Store} {h : List Event}

theorem init {cap : Nat} (hs : Store.withCapacity dbg cap = .ok s) : Strays s [] := by
  have hc := (Core.init hs).idCore
  refine ⟨hc, fun tag i => ?_, fun i e he => (by cases he), fun e he => (by cases he), fun g i hi => (by cases hi)⟩
  have := (Core.init hs).tagOn tag i
  cases hb : s.tags.on tag i with
  | false => rfl
  | true => obtain ⟨e, he, _⟩ := this.1 hb; cases he

/-- Calls that concern components only. -/
theorem same (hc : Strays s h) (hs : SameCore s s') {ev : Event} (h1 : handles (ev :: h) = handles h)
    (h2 : alive (ev :: h) = alive h) (h3 : ∀ g, idSequence g (ev :: h) = idSequence g h)
    (h4 : ∀ t i, idTag t i (ev :: h) = idTag t i h) : Strays s' (ev :: h) := by
  refine ⟨?_, ?_, ?_, ?_, ?_⟩
  · rw [h1, h2, funext h3]; exact hc.core.same hs
  · intro t i; rw [hs.tags, h4]; exact hc.tagOn t i
  · intro i e; unfold newest; rw [h1, hs.ents]; exact hc.cur i e
  · rw [h1]; exact hc.null
  · intro g; rw [h1, h3]; exact hc.mem g

theorem born (hc : Strays s h) (hb : (handles h).length + 1 < u32Size) {ev : Event} {e : Entity} {s1 : Store}
    (hr : s.registerNewEntity dbg = .ok (s1, e)) (hs : SameCore s1 s') (h1 : handles (ev :: h) = e :: handles h)
    (h2 : alive (ev :: h) = e :: alive h) (h3 : ∀ g, idSequence g (ev :: h) = idSequence g h)
    (h4 : ∀ t i, idTag t i (ev :: h) = idTag t i h) : Strays s' (ev :: h) := by
  obtain ⟨s2, e2, k1, k2, k3, k4, k5, k6, k7, k8, k9, k10, k11, k12, k13, k14, k15, k16, k17, k18⟩ :=
    hc.core.register (dbg := dbg) hb
  rw [hr] at k1
  cases k1
  refine ⟨?_, ?_, ?_, ?_, ?_⟩
  · rw [h1, h2, funext h3]
    exact IdCore.same ⟨k2, k7, k8, k9, k13, k14, k16, k17⟩ hs
  · intro t i; rw [hs.tags, h4, k15]; exact hc.tagOn t i
  · intro i x hx
    unfold newest at hx
    rw [h1, List.find?_cons] at hx
    rw [hs.ents]
    split at hx
    · rename_i hi
      cases hx
      have := k2.lver e List.mem_cons_self
      simp only [decide_eq_true_eq] at hi
      rw [← hi]; exact this
    · rename_i hi
      have hm := List.mem_of_find?_eq_some hx
      have hxi := List.find?_some hx
      simp only [decide_eq_true_eq] at hxi
      rw [k18 i (by rw [← hxi]; exact hc.core.ents.issued_id_lt hm) (by intro hh; simp [hh] at hi)]
      exact hc.cur i x hx
  · rw [h1]
    intro x hx
    rcases List.mem_cons.1 hx with rfl | hx
    · have j1 := (k2.ids x.id).1 (Or.inl (by simp))
      have j2 := k2.next_lt
      omega
    · exact hc.null x hx
  · intro g; rw [h1, h3]
    intro i hi
    obtain ⟨x, hx, hxi⟩ := hc.mem g i hi
    exact ⟨x, List.mem_cons_of_mem _ hx, hxi⟩

theorem destroyed (hc : Strays s h) {e : Entity} (he : e ∈ alive h) (hr : s.destroyEntity dbg e = .ok s') :
    Strays s' (.destroyed e :: h) := by
  unfold Store.destroyEntity at hr
  obtain ⟨s1, r1, hr⟩ := bind_eq_ok.1 hr
  have hsame := SameCore.destroyRow r1
  have h1 := hc.core.same hsame
  have hlt := h1.ents.id_lt he
  have hn := hc.null e (hc.core.ents.sub e he)
  obtain ⟨ents, e1, e2, e3, e4⟩ := h1.ents.destroy_live (dbg := dbg) he
  obtain ⟨tg, t1, t2, t3, t4⟩ := Tags.removeAll_spec h1.tags (id := e.id) (by rw [h1.tcap]; exact hlt)
  obtain ⟨od, o1, o2, o3⟩ := h1.orders.removeAll (e := e.id) (by rw [h1.ocap]; exact hlt) hn
  simp only [e1, t1, o1, ok_bind] at hr
  cases hr
  refine ⟨⟨e2, ?_, ?_, ?_, t2, ?_, o2, ?_⟩, ?_, ?_, hc.null, ?_⟩
  · simp only [e3]; exact h1.plen
  · simp only [e3]; exact h1.ilen
  · simp only [e3]; exact h1.blen
  · simp only [t3, e3, h1.tcap]
  · simp only [o3, e3, h1.ocap]
  · intro t i
    simp only [t4, idTag, hsame.tags, hc.tagOn t i]
    by_cases hi : i = e.id
    · simp [hi]
    · rw [if_neg (fun hh => hi hh.symm)]; simp [hi]
  · intro i x hx
    dsimp only
    rw [e4, hsame.ents]
    exact hc.cur i x hx
  · exact fun g i hi => hc.mem g i (List.mem_of_mem_erase hi)

theorem tagged (hc : Strays s h) {e : Entity} (tag : Nat) (he : e ∈ handles h) :
    ∃ s', s.addTag tag e = .ok s' ∧ Strays s' (.tagged tag e :: h) := by
  obtain ⟨c', t1, t2, t3, t4⟩ := Tags.addTag_spec hc.core.tags tag (id := e.id)
    (by rw [hc.core.tcap]; exact hc.core.ents.issued_id_lt he)
  refine ⟨{ s with tags := c' }, ?_, ⟨hc.core.ents, hc.core.plen, hc.core.ilen, hc.core.blen, t2,
    by simp only [t3]; exact hc.core.tcap, hc.core.orders, hc.core.ocap⟩, ?_, hc.cur, hc.null, hc.mem⟩
  · unfold Store.addTag; simp only [t1, ok_bind, pure_ok]
  · intro t i
    simp only [t4, idTag, hc.tagOn t i]
    by_cases hi : t = tag ∧ i = e.id
    · rw [if_pos ⟨hi.1.symm, hi.2.symm⟩]; simp [hi]
    · rw [if_neg (fun hh => hi ⟨hh.1.symm, hh.2.symm⟩)]; simp [hi]

theorem untagged (hc : Strays s h) {e : Entity} (tag : Nat) (he : e ∈ handles h) :
    ∃ s', s.removeTag tag e = .ok s' ∧ Strays s' (.untagged tag e :: h) := by
  obtain ⟨c', t1, t2, t3, t4⟩ := Tags.removeTag_spec hc.core.tags tag (id := e.id)
    (by rw [hc.core.tcap]; exact hc.core.ents.issued_id_lt he)
  refine ⟨{ s with tags := c' }, ?_, ⟨hc.core.ents, hc.core.plen, hc.core.ilen, hc.core.blen, t2,
    by simp only [t3]; exact hc.core.tcap, hc.core.orders, hc.core.ocap⟩, ?_, hc.cur, hc.null, hc.mem⟩
  · unfold Store.removeTag; simp only [t1, ok_bind, pure_ok]
  · intro t i
    simp only [t4, idTag, hc.tagOn t i]
    by_cases hi : t = tag ∧ i = e.id
    · rw [if_pos ⟨hi.1.symm, hi.2.symm⟩]; simp [hi]
    · rw [if_neg (fun hh => hi ⟨hh.1.symm, hh.2.symm⟩)]; simp [hi]

/-- A changed group. -/
theorem reorder (hc : Strays s h) {c' : Orders} {g : Nat} {l : List Nat} {ev : Event}
    (hr : c'.Rep (Orders.upd (fun g => idSequence g h) g l)) (hcap : c'.entityCapacity = s.orders.entityCapacity)
    (h1 : handles (ev :: h) = handles h) (h2 : alive (ev :: h) = alive h)
    (h3 : ∀ g', idSequence g' (ev :: h) = if g = g' then l else idSequence g' h)
    (h4 : ∀ t i, idTag t i (ev :: h) = idTag t i h) (h5 : ∀ i ∈ l, ∃ e ∈ handles h, e.id = i) :
    Strays { s with orders := c' } (ev :: h) := by
  refine ⟨?_, ?_, ?_, ?_, ?_⟩
  · rw [h1, h2]
    refine ⟨hc.core.ents, hc.core.plen, hc.core.ilen, hc.core.blen, hc.core.tags, hc.core.tcap, ?_,
      by simp only [hcap]; exact hc.core.ocap⟩
    have : (fun g => idSequence g (ev :: h)) = Orders.upd (fun g => idSequence g h) g l := by
      funext g'
      rw [h3]
      unfold Orders.upd
      by_cases hg : g = g'
      · rw [if_pos hg, if_pos hg.symm]
      · rw [if_neg hg, if_neg (fun hh => hg hh.symm)]
    rw [this]
    exact hr
  · intro t i; rw [h4]; exact hc.tagOn t i
  · intro i e; unfold newest; rw [h1]; exact hc.cur i e
  · rw [h1]; exact hc.null
  · intro g'; rw [h1, h3]
    split
    · exact h5
    · exact hc.mem g'

theorem orderedLast (hc : Strays s h) {e : Entity} {g : Nat} (he : e ∈ handles h) (hn : e.id ∉ idSequence g h) :
    ∃ s', s.addOrder dbg g e = .ok s' ∧ Strays s' (.orderedLast g e :: h) := by
  obtain ⟨c', o1, o2, o3⟩ := hc.core.orders.add dbg g (by rw [hc.core.ocap]; exact hc.core.ents.issued_id_lt he)
    (hc.null e he) hn
  refine ⟨{ s with orders := c' }, ?_, hc.reorder o2 o3 rfl rfl (fun g' => ?_) (fun _ _ => rfl) fun i hi => ?_⟩
  · unfold Store.addOrder; simp only [o1, ok_bind, pure_ok]
  · simp only [idSequence]
    by_cases hg : g = g'
    · subst hg; simp
    · simp [hg]
  · rcases List.mem_append.1 hi with hi | hi
    · exact hc.mem g i hi
    · exact ⟨e, he, (List.mem_singleton.1 hi).symm⟩

theorem orderedAfter (hc : Strays s h) {e x : Entity} {g : Nat} (he : e ∈ handles h) (hn : e.id ∉ idSequence g h)
    (hx : x.id ∈ idSequence g h) :
    ∃ s', s.addOrderNextTo dbg g e x = .ok s' ∧ Strays s' (.orderedAfter g e x :: h) := by
  obtain ⟨c', o1, o2, o3⟩ := hc.core.orders.addNextTo dbg g
    (by rw [hc.core.ocap]; exact hc.core.ents.issued_id_lt he) (hc.null e he) hn hx
  refine ⟨{ s with orders := c' }, ?_, hc.reorder o2 o3 rfl rfl (fun g' => ?_) (fun _ _ => rfl) fun i hi => ?_⟩
  · unfold Store.addOrderNextTo; simp only [o1, ok_bind, pure_ok]
  · simp only [idSequence]
    by_cases hg : g = g'
    · subst hg; simp
    · simp [hg]
  · rcases mem_insertAfter_iff hi with rfl | hi
    · exact ⟨e, he, rfl⟩
    · exact hc.mem g i hi

theorem orderedBefore (hc : Strays s h) {e x : Entity} {g : Nat} (he : e ∈ handles h) (hn : e.id ∉ idSequence g h)
    (hx : x.id ∈ idSequence g h) :
    ∃ s', s.addOrderPreviousTo dbg g e x = .ok s' ∧ Strays s' (.orderedBefore g e x :: h) := by
  obtain ⟨c', o1, o2, o3⟩ := hc.core.orders.addPreviousTo dbg g
    (by rw [hc.core.ocap]; exact hc.core.ents.issued_id_lt he) (hc.null e he) hn hx
  refine ⟨{ s with orders := c' }, ?_, hc.reorder o2 o3 rfl rfl (fun g' => ?_) (fun _ _ => rfl) fun i hi => ?_⟩
  · unfold Store.addOrderPreviousTo; simp only [o1, ok_bind, pure_ok]
  · simp only [idSequence]
    by_cases hg : g = g'
    · subst hg; simp
    · simp [hg]
  · rcases mem_insertBefore_iff hi with rfl | hi
    · exact ⟨e, he, rfl⟩
    · exact hc.mem g i hi

theorem unordered (hc : Strays s h) {e : Entity} {g : Nat} (he : e ∈ handles h) :
    ∃ s', s.removeOrder g e = .ok s' ∧ Strays s' (.unordered g e :: h) := by
  obtain ⟨c', o1, o2, o3⟩ := hc.core.orders.remove g (by rw [hc.core.ocap]; exact hc.core.ents.issued_id_lt he)
    (hc.null e he)
  refine ⟨{ s with orders := c' }, ?_, hc.reorder o2 o3 rfl rfl (fun g' => ?_) (fun _ _ => rfl) fun i hi => ?_⟩
  · unfold Store.removeOrder; simp only [o1, ok_bind, pure_ok]
  · simp only [idSequence]
    by_cases hg : g = g'
    · subst hg; simp
    · simp [hg]
  · exact hc.mem g i (List.mem_of_mem_erase hi)

theorem step (hc : Strays s h) {ev : Event} (hl : Stray h ev) (hr : Returns U dbg s ev s') : Strays s' (ev :: h) := by
  cases ev with
  | created e =>
    simp only [Returns, Store.createEntity] at hr
    obtain ⟨⟨s1, e1⟩, h1, hr⟩ := bind_eq_ok.1 hr
    obtain ⟨b, h2, hr⟩ := bind_eq_ok.1 hr
    cases hr
    refine hc.born hl h1 ⟨rfl, rfl, rfl, rfl, rfl, ?_⟩ rfl rfl (fun _ => rfl) (fun _ _ => rfl)
    dsimp only at h2 ⊢
    unfold Words.setOff at h2
    split at h2
    · cases h2; exact List.length_set
    · cases h2
  | createdWith e ts init =>
    obtain ⟨a, _, _, hr⟩ := hr
    unfold Store.createEntityWithArchetype at hr
    obtain ⟨⟨s1, e1⟩, h1, hr⟩ := bind_eq_ok.1 hr
    obtain ⟨⟨c, q⟩, _, hr⟩ := bind_eq_ok.1 hr
    dsimp only at hr
    obtain ⟨s2, h2, hr⟩ := bind_eq_ok.1 hr
    cases hr
    exact hc.born hl h1
      (SameCore.trans (s' := { s1 with archs := c }) ⟨rfl, rfl, rfl, rfl, rfl, rfl⟩ (SameCore.recordRow h2)) rfl rfl
      (fun _ => rfl) (fun _ _ => rfl)
  | destroyed e => exact hc.destroyed hl hr
  | added e vals => exact hc.same (SameCore.added hr) rfl rfl (fun _ => rfl) (fun _ _ => rfl)
  | removed e ts => exact hc.same (SameCore.removed hr) rfl rfl (fun _ => rfl) (fun _ _ => rfl)
  | assigned e vals =>
    obtain ⟨b, hr⟩ := hr
    exact hc.same (SameCore.assigned hr) rfl rfl (fun _ => rfl) (fun _ _ => rfl)
  | tagged tag e =>
    obtain ⟨s1, h1, h2⟩ := hc.tagged tag hl
    simp only [Returns] at hr
    rw [h1] at hr; cases hr; exact h2
  | untagged tag e =>
    obtain ⟨s1, h1, h2⟩ := hc.untagged tag hl
    simp only [Returns] at hr
    rw [h1] at hr; cases hr; exact h2
  | orderedLast g e =>
    obtain ⟨s1, h1, h2⟩ := hc.orderedLast (dbg := dbg) hl.1 hl.2
    simp only [Returns] at hr
    rw [h1] at hr; cases hr; exact h2
  | orderedAfter g e x =>
    obtain ⟨s1, h1, h2⟩ := hc.orderedAfter (dbg := dbg) hl.1 hl.2.1 hl.2.2
    simp only [Returns] at hr
    rw [h1] at hr; cases hr; exact h2
  | orderedBefore g e x =>
    obtain ⟨s1, h1, h2⟩ := hc.orderedBefore (dbg := dbg) hl.1 hl.2.1 hl.2.2
    simp only [Returns] at hr
    rw [h1] at hr; cases hr; exact h2
  | unordered g e =>
    obtain ⟨s1, h1, h2⟩ := hc.unordered (g := g) hl
    simp only [Returns] at hr
    rw [h1] at hr; cases hr; exact h2

theorem hasTag (hc : Strays s h) {e : Entity} (he : e ∈ handles h) (tag : Nat) :
    s.hasTag tag e = .ok (idTag tag e.id h) := by
  unfold Store.hasTag
  rw [Tags.hasTag_spec hc.core.tags tag (by rw [hc.core.tcap]; exact hc.core.ents.issued_id_lt he), hc.tagOn]

theorem newest_some {i : Nat} (hm : ∃ e ∈ handles h, e.id = i) : ∃ e, newest i h = some e ∧ e ∈ handles h ∧ e.id = i := by
  obtain ⟨e, he, hi⟩ := hm
  cases hn : newest i h with
  | none =>
    unfold newest at hn
    have := List.find?_eq_none.1 hn e he
    simp [hi] at this
  | some x =>
    refine ⟨x, rfl, List.mem_of_find?_eq_some hn, ?_⟩
    have := List.find?_some hn
    simpa using this

theorem mapEntity (hc : Strays s h) {g : Nat} {o : Option Nat} (ho : ∀ i, o = some i → i ∈ idSequence g h) :
    s.mapEntity o = .ok (o.bind (newest · h)) := by
  cases o with
  | none => rfl
  | some i =>
    obtain ⟨x, h1, _, h3⟩ := newest_some (hc.mem g i (ho i rfl))
    simp only [Store.mapEntity, Store.getEntityById, Raw.read_of_some (hc.cur i x h1), ok_bind, pure_ok, Option.bind_some, h1]
    rw [← h3]

end Strays

theorem stray_core {U : Universe} {dbg : Bool} {cap : Nat} {h : List Event} {s : Store} (hx : StrayExec U dbg cap h s) :
    Strays s h := by
  induction hx with
  | init hs => exact Strays.init hs
  | step ev _ hl hr ih => exact ih.step hl hr

/-- Executions whose tag and order calls only get live handles: the ids of the sequence. -/
theorem idSequence_eq {U : Universe} {dbg : Bool} {cap : Nat} {h : List Event} {s : Store} (hx : LooseExec U dbg cap h s)
    (g : Nat) : idSequence g h = (sequence g h).map (·.id) := by
  induction hx with
  | init hs => rfl
  | @step h s s' ev hx hl hr ih =>
    have hc := loose_core hx
    rw [sequence_eq] at ih
    cases ev with
    | orderedLast g' e =>
      simp only [idSequence, sequence, ih, sequence_eq]
      split <;> simp
    | orderedAfter g' e x =>
      simp only [idSequence, sequence, ih, sequence_eq]
      split
      · next hg =>
        subst hg
        exact Core.insertAfter_map hc.inj (hc.ordLive g') (hc.ordLive g' x hl.2.2)
      · rfl
    | orderedBefore g' e x =>
      simp only [idSequence, sequence, ih, sequence_eq]
      split
      · next hg =>
        subst hg
        exact Core.insertBefore_map hc.inj (hc.ordLive g') (hc.ordLive g' x hl.2.2)
      · rfl
    | unordered g' e =>
      simp only [idSequence, sequence, ih, sequence_eq]
      split
      · next hg =>
        subst hg
        exact Core.erase_map hc.inj (hc.ordLive g') hl
      · rfl
    | destroyed e =>
      simp only [idSequence, sequence, ih, sequence_eq]
      exact Core.erase_map hc.inj (hc.ordLive g) hl
    | _ => simp only [idSequence, sequence, ih, sequence_eq]

/-- These executions are special cases. -/
theorem Spec.LooseExec.stray {U : Universe} {dbg : Bool} {cap : Nat} {h : List Event} {s : Store}
    (hx : LooseExec U dbg cap h s) : StrayExec U dbg cap h s := by
  induction hx with
  | init hs => exact .init hs
  | @step h s s' ev hx hl hr ih =>
    refine .step ev ih ?_ hr
    have hc := loose_core hx
    have hsub : ∀ e, e ∈ (world h).live → e ∈ handles h := fun e he => by rw [handles_eq]; exact hc.ents.sub e he
    cases ev with
    | created e => simp only [Stray, handles_eq]; exact hl
    | createdWith e ts init => simp only [Stray, handles_eq]; exact hl
    | destroyed e => simp only [Stray, alive_eq]; exact hl
    | added e vals => trivial
    | removed e ts => trivial
    | assigned e vals => trivial
    | tagged t e => exact hsub e hl
    | untagged t e => exact hsub e hl
    | unordered t e => exact hsub e hl
    | orderedLast g e =>
      refine ⟨hsub e hl.1, ?_⟩
      rw [idSequence_eq hx, sequence_eq]
      exact hc.not_mem_ids hl.1 hl.2
    | orderedAfter g e x =>
      refine ⟨hsub e hl.1, ?_⟩
      rw [idSequence_eq hx, sequence_eq]
      exact ⟨hc.not_mem_ids hl.1 hl.2.1, List.mem_map.2 ⟨x, hl.2.2, rfl⟩⟩
    | orderedBefore g e x =>
      refine ⟨hsub e hl.1, ?_⟩
      rw [idSequence_eq hx, sequence_eq]
      exact ⟨hc.not_mem_ids hl.1 hl.2.1, List.mem_map.2 ⟨x, hl.2.2, rfl⟩⟩

end Ecs
