import Verif.Proofs.UnwindCalm
import Verif.Spec.Run
import Verif.Proofs.Walks

/-! Property C66: what a call that panics leaves behind, for programs that catch the panic and go on using the store. -/

namespace Ecs.Props
open Spec

section
variable {U : Universe} {dbg : Bool} {cap : Nat} {h : List Event} {s s' : Store}

/-- **C66.** A panic of any mutating call except `create_entity_with_archetype`, and except `destroy_entity` with a
handle that is not alive, leaves the store exactly as it was before the call; or else the build is a debug build, some
component set of the store has no room for a single row in a page, and everything but the pages is as it was, and so
are the ids in all rows. Missing: the two excepted calls, and exact equality in the second case, for which there are
the counterexamples below. -/
theorem C66_panic_changes_nothing_partial (hx : LooseExec U dbg cap h s) {c : Call} (hc : Undone h c)
    (hp : Panics U dbg s c s') :
    s' = s ∨ (dbg = true ∧ SomeRowless s' ∧ s'.ents = s.ents ∧ s'.tags = s.tags ∧ s'.orders = s.orders ∧
      s'.toPage = s.toPage ∧ s'.toIndex = s.toIndex ∧ s'.hasArch = s.hasArch ∧ ∀ p i, rowId s' p i = rowId s p i) := by
  obtain ⟨c', rfl, h1 | ⟨h1, h2, h3⟩⟩ := Store.onPanic hx c hc hp
  · left; rw [h1]
  · exact .inr ⟨h1, h2, rfl, rfl, rfl, rfl, rfl, rfl, fun p i => h3 ⟨p, i⟩⟩

/-- The model used here keeps the state of a call that panics. Forgetting it gives the model used everywhere else: the
call panics here iff it panics there, for every state. -/
theorem C66_models_agree (U : Universe) (dbg : Bool) (s : Store) (c : Call) :
    (∃ s', Panics U dbg s c s') ↔ ∃ p, outcome U dbg s c = .error (.panic p) := by
  have key : ∀ {α : Type} (m : Unw Store α) (r : Res Unit), ((m.result s).map fun _ => ()) = r →
      ((∃ s', m.Panics s s') ↔ ∃ p, r = .error (.panic p)) := by
    rintro α m r rfl
    unfold Unw.Panics Unw.result Unw.run
    rcases m s with ⟨_ | _, s'⟩
    · constructor
      · rintro ⟨_, p, h⟩; cases h; exact ⟨p, rfl⟩
      · rintro ⟨p, h⟩; cases h; exact ⟨s', p, rfl⟩
    · constructor
      · rintro ⟨_, p, h⟩; cases h
      · rintro ⟨p, h⟩; cases h
  have unit : ∀ {r : Res Store}, ((r >>= fun s' => (.ok (s', ()) : Res (Store × Unit))).map fun _ => ()) = r.map fun _ => () := by
    intro r; cases r <;> rfl
  cases c with
  | create => exact key _ _ (by rw [Store.createU_result]; rfl)
  | createWith a => exact key _ _ (by rw [Store.createWithU_result]; rfl)
  | destroy e => exact key _ _ (by rw [Store.destroyU_result, unit]; rfl)
  | add e vals => exact key _ _ (by rw [Store.addU_result, unit]; rfl)
  | remove e ts => exact key _ _ (by rw [Store.removeU_result, unit]; rfl)
  | assign e vals => exact key _ _ (by rw [Store.setU_result]; rfl)
  | tag t e => exact key _ _ ((congrArg _ (Unw.result_step _ _)).trans unit)
  | untag t e => exact key _ _ ((congrArg _ (Unw.result_step _ _)).trans unit)
  | orderLast g e => exact key _ _ (by rw [Store.addOrderU_result, unit]; rfl)
  | orderAfter g e x => exact key _ _ (by rw [Store.addOrderNextToU_result, unit]; rfl)
  | orderBefore g e x => exact key _ _ (by rw [Store.addOrderPreviousToU_result, unit]; rfl)
  | unorder g e => exact key _ _ ((congrArg _ (Unw.result_step _ _)).trans unit)

/-- **C66**, release builds: a panic of such a call leaves the store exactly as it was. -/
theorem C66_release_panic_changes_nothing_partial (hx : LooseExec U false cap h s) {c : Call} (hc : Undone h c)
    (hp : Panics U false s c s') : s' = s :=
  (C66_panic_changes_nothing_partial hx hc hp).resolve_right fun k => by cases k.1

/-- **C66**, calls that never panic at all: `create_entity` while handles have not run out, and `destroy_entity` of a
live entity. -/
theorem C66_create_destroy_never_panic (hx : LooseExec U dbg cap h s) :
    ((handles h).length + 1 < u32Size → ∀ s', ¬ Panics U dbg s .create s') ∧
    (∀ e ∈ alive h, ∀ s', ¬ Panics U dbg s (.destroy e) s') :=
  ⟨fun hb => Store.createU_onPanic hx hb (Q := fun _ => False),
    fun _ he => Store.destroyU_onPanic hx he (Q := fun _ => False)⟩

/-- **C66**, programs that catch such panics: their states are states of executions in which the panicking calls
were not made. So every property of all executions (`LooseExec`) proved elsewhere holds of them. -/
theorem C66_caught_is_exec_partial (hx : CaughtExec U dbg cap h s) : LooseExec U dbg cap h s := by
  induction hx with
  | init h1 => exact .init h1
  | step ev _ h1 h2 ih => exact .step ev ih h1 h2
  | caught c _ h1 h2 h3 ih =>
    rcases C66_panic_changes_nothing_partial ih h1 h3 with rfl | ⟨k1, k2, _⟩
    · exact ih
    · exact absurd k2 (h2 k1)

/-- **C66**, `create_entity_with_archetype`. When it panics, an entity has been created whose handle nobody gets:
there is a handle `e`, never returned before, which is now alive, has no tag and is in no group. Every handle returned
before is alive or not as before, every live entity keeps its tags and all groups stay as they were, and so do the ids
in all rows; if moreover no component set of the store is without rows (or the build is a release build), the
components of all live entities are as before. -/
theorem C66_created_with_leaks_entity (hx : LooseExec U dbg cap h s) (hb : (handles h).length + 1 < u32Size)
    {a : Archetype} (ha : Built U a) (hp : Panics U dbg s (.createWith a) s') :
    ∃ e, e ∉ handles h ∧ s'.isAlive dbg e = .ok true ∧ (∀ t, s'.hasTag t e = .ok false) ∧
      (∀ x ∈ handles h, s'.isAlive dbg x = .ok (decide (x ∈ alive h))) ∧
      (∀ t, ∀ x ∈ alive h, s'.hasTag t x = s.hasTag t x) ∧
      (∀ g, s'.getFirstOrdered g = s.getFirstOrdered g ∧ s'.getLastOrdered g = s.getLastOrdered g ∧
        s'.getNextOrdered g e = .ok none ∧ s'.getPreviousOrdered g e = .ok none ∧
        ∀ x ∈ alive h, s'.getNextOrdered g x = s.getNextOrdered g x ∧
          s'.getPreviousOrdered g x = s.getPreviousOrdered g x) ∧
      (∀ p i, rowId s' p i = rowId s p i) ∧
      ((dbg = true → ¬ SomeRowless s') → ∀ x ∈ alive h, ∀ ts, s'.getComponents U dbg x ts = s.getComponents U dbg x ts) := by
  have hc := loose_core hx
  obtain ⟨s1, e, h1, c, rfl, hk⟩ := Store.createWithU_onPanic hx hb ha.wf.even s' hp
  have hb' := hb
  rw [handles_eq] at hb'
  obtain ⟨s2, e2, k1, k2, k3, k4, k5, k6, k7, k8, k9, k10, k11, k12, k13, k14, k15, k16, k17⟩ := hc.register (dbg := dbg) hb'
  rw [h1] at k1
  cases k1
  have hc' : Core { s1 with archs := c } ((world h).birth e) :=
    ⟨k2, k7, k8, k9, k13, k14, fun t i => by rw [k15]; exact hc.birth_tagOn k4 t i, k16, k17,
      fun g x hx' => List.mem_cons_of_mem _ (hc.ordLive g x hx')⟩
  have hne : ∀ x ∈ (world h).live, x ≠ e := fun x hx' hxe => k4 x hx' (by rw [hxe])
  have hord : ∀ g, e ∉ ((world h).birth e).order g := fun g hm => hne e (hc.ordLive g e hm) rfl
  have hlive : ∀ x ∈ (world h).live, x ∈ ((world h).birth e).live := fun x hx' => List.mem_cons_of_mem _ hx'
  have hself : e ∈ ((world h).birth e).live := List.mem_cons_self
  rw [handles_eq, alive_eq]
  refine ⟨e, k3, ?_, fun t => ?_, fun x hx' => ?_, fun t x hx' => ?_, fun g => ⟨?_, ?_, ?_, ?_, fun x hx' => ⟨?_, ?_⟩⟩, fun p i => ?_, fun hz x hx' ts => ?_⟩
  · rw [hc'.isAlive (hc'.ents.id_lt hself), decide_eq_true hself]
  · rw [hc'.hasTag hself]; exact congrArg _ (Core.at'_self _ _ _)
  · rw [hc'.isAlive (hc'.ents.issued_id_lt (List.mem_cons_of_mem _ hx'))]
    have : x ≠ e := fun hxe => k3 (hxe ▸ hx')
    simp [World.birth, this]
  · rw [hc'.hasTag (hlive x hx'), hc.hasTag hx']; exact congrArg _ (Core.at'_ne _ _ (hne x hx'))
  · rw [hc'.getFirst, hc.getFirst]; rfl
  · rw [hc'.getLast, hc.getLast]; rfl
  · rw [hc'.getNext g hself, follower_none (hord g)]
  · rw [hc'.getPrevious g hself, preceder_none (hord g)]
  · rw [hc'.getNext g (hlive x hx'), hc.getNext g hx']; rfl
  · rw [hc'.getPrevious g (hlive x hx'), hc.getPrevious g hx']; rfl
  · rcases hk with hk | ⟨-, -, hk⟩
    · unfold rowId; simp only [hk, k5]
    · exact (hk ⟨p, i⟩).trans (by unfold Archs.row; rw [k5]; rfl)
  · rcases hk with hk | ⟨hd, hk, -⟩
    · have hlt := hc.ents.id_lt hx'
      have hv : Store.isValidEntityWithArchetype dbg { s1 with archs := c } x = s.isValidEntityWithArchetype dbg x := by
        unfold Store.isValidEntityWithArchetype
        rw [hc'.isAlive (hc'.ents.id_lt (hlive x hx')), hc.isAlive hlt, decide_eq_true hx', decide_eq_true (hlive x hx')]
        simp only [ok_bind, if_true]
        rw [Words.isOn_of_lt (by rw [k9]; exact Words.div_lt_getLen (by omega)),
          Words.isOn_of_lt (by rw [hc.blen]; exact Words.div_lt_getLen hlt), k12]
      have hp1 : Raw.read s1.toPage x.id = Raw.read s.toPage x.id := by unfold Raw.read; rw [k10 _ hlt]
      have hi1 : Raw.read s1.toIndex x.id = Raw.read s.toIndex x.id := by unfold Raw.read; rw [k11 _ hlt]
      have ha1 : c = s.archs := hk.trans k5
      unfold Store.getComponents Store.getComponentsRefs Store.getPageViewUnchecked
      rw [hv]
      simp only [hp1, hi1, ha1]
    · exact absurd hk (hz hd)

end

/-- The call panicked and left a state with property `P`. -/
def panicsAnd {σ α : Type} (r : Res α × σ) (P : σ → Bool) : Bool :=
  match r with
  | (.error (.panic _), s) => P s
  | _ => false

theorem panicsAnd_iff {σ α : Type} {m : Unw σ α} {s : σ} {P : σ → Bool} (h : panicsAnd (m.run s) P = true) :
    ∃ s', m.Panics s s' ∧ P s' = true := by
  unfold panicsAnd at h
  split at h
  · next p s' heq => exact ⟨s', ⟨p, heq⟩, h⟩
  · cases h

/-- An entity with component `1`, then one destroyed. -/
def oneGone : List Event := [.destroyed ⟨0, 1⟩, .createdWith ⟨0, 1⟩ [1] fun _ => [none]]

/-- A second entity with the same id as a destroyed one. -/
def rebornEnt : List Event := .createdWith ⟨0, 2⟩ [1] (fun _ => [none]) :: oneGone

/-- One entity without components. -/
def lone : List Event := [.created ⟨0, 1⟩]

/-- Two entities in a group. -/
def queued : List Event := [.orderedLast 0 ⟨1, 1⟩, .orderedLast 0 ⟨0, 1⟩, .created ⟨1, 1⟩, .created ⟨0, 1⟩]

/-- Components of which one is larger than its share of a page. -/
def tooLarge : TupleVal := [(1, [1]), (3, List.replicate 5000 0), (4, [2]), (5, [2])]

/-- Panics of the first kind: adding a zero-sized component (a division by zero), in both builds. -/
example (dbg : Bool) : ∃ s s', LooseExec demo dbg 1 lone s ∧ Undone lone (.add ⟨0, 1⟩ [(6, [])]) ∧
    Panics demo dbg s (.add ⟨0, 1⟩ [(6, [])]) s' := by
  have hr : (runLoose demo dbg 1 lone).any (fun s =>
      panicsAnd ((Store.addComponentsU demo dbg ⟨0, 1⟩ [(6, [])]).run s) fun _ => true) = true := by
    cases dbg <;> decide
  obtain ⟨s, h1, h2⟩ := any_some hr
  obtain ⟨s', h3, -⟩ := panicsAnd_iff h2
  exact ⟨s, s', runLoose_sound h1, trivial, h3⟩

/-- A program that catches a panic of `add_order` (an entity already in the group, debug build), and goes on. -/
example : ∃ s, CaughtExec demo true 1 (.unordered 0 ⟨1, 1⟩ :: queued) s := by
  have hr : (runLoose demo true 1 queued).any (fun s =>
      panicsAnd ((Store.addOrderU true 0 ⟨0, 1⟩).run s) fun s' => s'.archs.layouts.isEmpty &&
        okAnd (s'.removeOrder 0 ⟨1, 1⟩) fun _ => true) = true := by decide
  obtain ⟨s, h1, h2⟩ := any_some hr
  obtain ⟨s', h3, h4⟩ := panicsAnd_iff h2
  rw [Bool.and_eq_true] at h4
  obtain ⟨s2, h5, -⟩ := okAnd_iff h4.2
  have hloose : ∀ {h s}, LooseExec demo true 1 h s → CaughtExec demo true 1 h s := by
    intro h s hx
    induction hx with
    | init h1 => exact .init h1
    | step ev _ h1 h2 ih => exact .step ev ih h1 h2
  refine ⟨s2, .step _ (.caught (.orderLast 0 ⟨0, 1⟩) (hloose (runLoose_sound h1)) trivial ?_ h3) ?_ h5⟩
  · rintro - ⟨l, hl, -⟩
    rw [List.isEmpty_iff.1 h4.1] at hl
    cases hl
  · show (⟨1, 1⟩ : Entity) ∈ (world queued).live
    decide

/-- **C66 is false of `create_entity_with_archetype`**, in both builds. After a panic (here: a zero-sized component)
an entity is alive whose handle was never returned. Its id was used before, so that the store takes it to own the row
of the earlier entity with this id, which by then belongs to nobody; the next entity gets the same row, and a write to
its component shows in the component of the other. -/
theorem C66_counterexample_created_with (dbg : Bool) : ∃ s s' a a1 s2 s3, LooseExec demo dbg 1 oneGone s ∧ Built demo a ∧
    Panics demo dbg s (.createWith a) s' ∧ (⟨0, 2⟩ : Entity) ∉ handles oneGone ∧ s'.isAlive dbg ⟨0, 2⟩ = .ok true ∧
    Built demo a1 ∧ s'.createEntityWithArchetype dbg a1 = .ok (s2, ⟨1, 1⟩) ∧
    s2.setComponents demo dbg ⟨1, 1⟩ [(1, [7])] = .ok (s3, true) ∧
    s3.getComponents demo dbg ⟨0, 2⟩ [1] = .ok (some [[some 7]]) := by
  have hr : (runLoose demo dbg 1 oneGone).any (fun s => okAnd (Archetype.withComponents demo [6]) fun a =>
      okAnd (Archetype.withComponents demo [1]) fun a1 =>
      panicsAnd ((Store.createEntityWithArchetypeU dbg a).run s) fun s' =>
        okAnd (s'.isAlive dbg ⟨0, 2⟩) id && okAnd (s'.createEntityWithArchetype dbg a1) fun x =>
          decide (x.2 = ⟨1, 1⟩) && okAnd (x.1.setComponents demo dbg ⟨1, 1⟩ [(1, [7])]) fun y =>
            y.2 && okAnd (y.1.getComponents demo dbg ⟨0, 2⟩ [1]) fun v => decide (v = some [[some 7]])) = true := by
    cases dbg <;> decide
  obtain ⟨s, h1, h2⟩ := any_some hr
  obtain ⟨a, ha, h2⟩ := okAnd_iff h2
  obtain ⟨a1, ha1, h2⟩ := okAnd_iff h2
  obtain ⟨s', h3, h4⟩ := panicsAnd_iff h2
  rw [Bool.and_eq_true] at h4
  obtain ⟨b, h5, h6⟩ := okAnd_iff h4.1
  obtain ⟨⟨s2, e⟩, h7, h8⟩ := okAnd_iff h4.2
  rw [Bool.and_eq_true, decide_eq_true_eq] at h8
  obtain ⟨⟨s3, b'⟩, h9, h10⟩ := okAnd_iff h8.2
  rw [Bool.and_eq_true] at h10
  obtain ⟨v, h11, h12⟩ := okAnd_iff h10.2
  rw [decide_eq_true_eq] at h12
  refine ⟨s, s', a, a1, s2, s3, runLoose_sound h1, .tuple _ (by decide) ha, h3, by decide, ?_, .tuple _ (by decide) ha1, ?_, ?_, ?_⟩
  · rw [h5]; exact congrArg _ h6
  · rw [h7]; exact congrArg _ (Prod.ext rfl h8.1)
  · rw [h9]; exact congrArg _ (Prod.ext rfl h10.1)
  · rw [h11, h12]

/-- **C66 is false of `destroy_entity` with a dead handle**, in debug builds: before the call panics it has removed
the row of the live entity with the same id, which the store still takes to own it; the next entity gets the same
row. -/
theorem C66_counterexample_destroy_dead : ∃ s s' a1 s2 s3, LooseExec demo true 1 rebornEnt s ∧
    (⟨0, 1⟩ : Entity) ∉ alive rebornEnt ∧ ⟨0, 2⟩ ∈ alive rebornEnt ∧ Panics demo true s (.destroy ⟨0, 1⟩) s' ∧
    (∃ p i, rowId s p i = some 0) ∧ (∀ p i, rowId s' p i = none) ∧ s'.isAlive true ⟨0, 2⟩ = .ok true ∧
    Built demo a1 ∧ s'.createEntityWithArchetype true a1 = .ok (s2, ⟨1, 1⟩) ∧
    s2.setComponents demo true ⟨1, 1⟩ [(1, [7])] = .ok (s3, true) ∧
    s3.getComponents demo true ⟨0, 2⟩ [1] = .ok (some [[some 7]]) := by
  have hr : (runLoose demo true 1 rebornEnt).any (fun s => decide (rowId s 4 0 = some 0) &&
      okAnd (Archetype.withComponents demo [1]) fun a1 =>
      panicsAnd ((Store.destroyEntityU true ⟨0, 1⟩).run s) fun s' => (s'.archs.pages.all fun pg => pg.ids.items.isEmpty) &&
        (okAnd (s'.isAlive true ⟨0, 2⟩) id && okAnd (s'.createEntityWithArchetype true a1) fun x =>
          decide (x.2 = ⟨1, 1⟩) && okAnd (x.1.setComponents demo true ⟨1, 1⟩ [(1, [7])]) fun y =>
            y.2 && okAnd (y.1.getComponents demo true ⟨0, 2⟩ [1]) fun v => decide (v = some [[some 7]]))) = true := by
    decide
  obtain ⟨s, h1, h2⟩ := any_some hr
  rw [Bool.and_eq_true, decide_eq_true_eq] at h2
  obtain ⟨hrow, h2⟩ := h2
  obtain ⟨a1, ha1, h2⟩ := okAnd_iff h2
  obtain ⟨s', h3, h4⟩ := panicsAnd_iff h2
  rw [Bool.and_eq_true] at h4
  obtain ⟨hnone, h4⟩ := h4
  rw [Bool.and_eq_true] at h4
  obtain ⟨b, h5, h6⟩ := okAnd_iff h4.1
  obtain ⟨⟨s2, e⟩, h7, h8⟩ := okAnd_iff h4.2
  rw [Bool.and_eq_true, decide_eq_true_eq] at h8
  obtain ⟨⟨s3, b'⟩, h9, h10⟩ := okAnd_iff h8.2
  rw [Bool.and_eq_true] at h10
  obtain ⟨v, h11, h12⟩ := okAnd_iff h10.2
  rw [decide_eq_true_eq] at h12
  refine ⟨s, s', a1, s2, s3, runLoose_sound h1, by decide, by decide, h3, ⟨4, 0, hrow⟩, fun p i => ?_, ?_,
    .tuple _ (by decide) ha1, ?_, ?_, ?_⟩
  · unfold rowId
    cases hp : s'.archs.pages[p]? with
    | none => rfl
    | some pg =>
      have := List.all_eq_true.1 hnone pg (List.mem_of_getElem? hp)
      rw [List.isEmpty_iff] at this
      show pg.ids.items[i]? = none
      rw [this]; rfl
  · rw [h5]; exact congrArg _ h6
  · rw [h7]; exact congrArg _ (Prod.ext rfl h8.1)
  · rw [h9]; exact congrArg _ (Prod.ext rfl h10.1)
  · rw [h11, h12]

/-- **C66**, debug builds and component sets without rows: every caught panic takes one more page that is never used. -/
theorem C66_counterexample_rowless : ∃ s s' s'', LooseExec demo true 1 lone s ∧ Undone lone (.add ⟨0, 1⟩ tooLarge) ∧
    Panics demo true s (.add ⟨0, 1⟩ tooLarge) s' ∧ Panics demo true s' (.add ⟨0, 1⟩ tooLarge) s'' ∧
    s'.archs.freePages.length + 1 = s.archs.freePages.length ∧
    s''.archs.freePages.length + 1 = s'.archs.freePages.length := by
  have hr : (runLoose demo true 1 lone).any (fun s =>
      panicsAnd ((Store.addComponentsU demo true ⟨0, 1⟩ tooLarge).run s) fun s' =>
        decide (s'.archs.freePages.length + 1 = s.archs.freePages.length) &&
        panicsAnd ((Store.addComponentsU demo true ⟨0, 1⟩ tooLarge).run s') fun s'' =>
          decide (s''.archs.freePages.length + 1 = s'.archs.freePages.length)) = true := by decide +kernel
  obtain ⟨s, h1, h2⟩ := any_some hr
  obtain ⟨s', h3, h4⟩ := panicsAnd_iff h2
  rw [Bool.and_eq_true, decide_eq_true_eq] at h4
  obtain ⟨s'', h5, h6⟩ := panicsAnd_iff h4.2
  exact ⟨s, s', s'', runLoose_sound h1, trivial, h3, h5, h4.1, of_decide_eq_true h6⟩

end Ecs.Props
