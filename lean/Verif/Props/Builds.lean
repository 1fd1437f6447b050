import Verif.Proofs.Builds
import Verif.Props.Resource
import Verif.Spec.Run

/-! Property C67: debug and release builds. -/

namespace Ecs.Props
open Spec

section
variable {U : Universe} {dbg : Bool} {cap : Nat} {h : List Event} {s s' : Store}

/-- **C67**, mutating calls. In every state, each call with any arguments does the same in both builds, or the debug build
panics at a `debug_assert!` or an overflow check. (Tag calls and the removal from a group do not depend on the build.) -/
theorem C67_calls (hx : LooseExec U dbg cap h s) :
    Stricter (s.createEntity true) (s.createEntity false) ∧
    (∀ a, Stricter (s.createEntityWithArchetype true a) (s.createEntityWithArchetype false a)) ∧
    (∀ e, Stricter (s.destroyEntity true e) (s.destroyEntity false e)) ∧
    (∀ e vals, Stricter (s.addComponents U true e vals) (s.addComponents U false e vals)) ∧
    (∀ e ts, Stricter (s.removeComponents U true e ts) (s.removeComponents U false e ts)) ∧
    (∀ e vals, Stricter (s.setComponents U true e vals) (s.setComponents U false e vals)) ∧
    (∀ g e, Stricter (s.addOrder true g e) (s.addOrder false g e)) ∧
    (∀ g e x, Stricter (s.addOrderNextTo true g e x) (s.addOrderNextTo false g e x)) ∧
    (∀ g e x, Stricter (s.addOrderPreviousTo true g e x) (s.addOrderPreviousTo false g e x)) :=
  ⟨.createEntity s, .createWith s, fun e => .destroyEntity s e (loose_core hx).ents, .addComponents U s, .removeComponents U s,
    .setComponents U s, fun g e => .addOrder s e g, fun g e x => .addOrderNextTo s e g x,
    fun g e x => .addOrderPreviousTo s e g x⟩

/-- **C67**, calls that only look, for any state and handle. -/
theorem C67_observers (U : Universe) (s : Store) (e : Entity) :
    Stricter (s.isAlive true e) (s.isAlive false e) ∧
    (∀ ts, Stricter (s.getComponents U true e ts) (s.getComponents U false e ts)) ∧
    Stricter (s.getEntityArchetype true e) (s.getEntityArchetype false e) :=
  ⟨.isAlive s e, .getComponents U s e, .getArchetype s e⟩

/-- **C67**, queries, for any state: full iterations. -/
theorem C67_queries (U : Universe) (s : Store) (acc : Access) (old : List IterView) (old' : List (Range × IterView)) (fuel : Nat) :
    Stricter (runComponentQueryWithEntities U true s acc old fuel) (runComponentQueryWithEntities U false s acc old fuel) ∧
    (∀ tag, Stricter (runComponentQueryFilterTag U true s acc tag old fuel) (runComponentQueryFilterTag U false s acc tag old fuel)) ∧
    (∀ l, Stricter (runEntityQuery U true s l acc old' fuel) (runEntityQuery U false s l acc old' fuel)) ∧
    (∀ l, Stricter (runEntityQueryWithEntities U true s l acc old' fuel) (runEntityQueryWithEntities U false s l acc old' fuel)) ∧
    (∀ g, Stricter (runOrderedQuery U true s g acc old' fuel) (runOrderedQuery U false s g acc old' fuel)) ∧
    (∀ g, Stricter (runOrderedQueryWithEntities U true s g acc old' fuel) (runOrderedQueryWithEntities U false s g acc old' fuel)) := by
  unfold runComponentQueryWithEntities runComponentQueryFilterTag runEntityQuery runEntityQueryWithEntities runOrderedQuery
    runOrderedQueryWithEntities
  exact ⟨.same fun _ => .drain (Stricter.compNext s) _ _, fun _ => .same fun _ => .same fun _ => .drain (Stricter.compFiltered s _ _) _ _,
    fun l => .bind (.entityQueryIter U s acc l old') fun _ => .drain (Stricter.entNext s) _ _,
    fun l => .bind (.entityQueryIter U s acc l old') fun _ => .drain (Stricter.entNextWith s) _ _,
    fun _ => .same fun _ => .drain Stricter.ordNext _ _, fun _ => .same fun _ => .drain (Stricter.ordNextWith s) _ _⟩

/-- **C67**, loops that write through queries, for any state and update function. -/
theorem C67_updates (U : Universe) (s : Store) (acc : Access) (old : List IterView) (old' : List (Range × IterView)) (fuel : Nat) :
    (∀ f, Stricter (updateComponents U true s acc old f fuel) (updateComponents U false s acc old f fuel)) ∧
    (∀ l f, Stricter (updateEntities U true s l acc old' f fuel) (updateEntities U false s l acc old' f fuel)) ∧
    (∀ g f, Stricter (updateOrdered U true s g acc old' f fuel) (updateOrdered U false s g acc old' f fuel)) := by
  unfold updateComponents updateEntities updateOrdered
  exact ⟨fun _ => .same fun _ => .updateLoop Stricter.compNext _ _ _ _ _ _,
    fun l _ => .bind (.entityQueryIter U s acc l old') fun _ => .updateLoop Stricter.entNextWith _ _ _ _ _ _,
    fun _ _ => .same fun _ => .updateLoop (fun _ => Stricter.ordNext) _ _ _ _ _ _⟩

/-- One call that returned in a debug build returns in a release build, with the same handle and state. -/
theorem C67_step (hx : LooseExec U dbg cap h s) {ev : Event} (hr : Returns U true s ev s') : Returns U false s ev s' := by
  obtain ⟨c1, c2, c3, c4, c5, c6, c7, c8, c9⟩ := C67_calls hx
  cases ev with
  | created e => exact c1.ok hr
  | createdWith e ts init => obtain ⟨a, h1, h2, h3⟩ := hr; exact ⟨a, h1, h2, (c2 a).ok h3⟩
  | destroyed e => exact (c3 e).ok hr
  | added e vals => exact (c4 e vals).ok hr
  | removed e ts => exact (c5 e ts).ok hr
  | assigned e vals => obtain ⟨b, hr⟩ := hr; exact ⟨b, (c6 e vals).ok hr⟩
  | tagged tag e => exact hr
  | untagged tag e => exact hr
  | orderedLast g e => exact (c7 g e).ok hr
  | orderedAfter g e x => exact (c8 g e x).ok hr
  | orderedBefore g e x => exact (c9 g e x).ok hr
  | unordered g e => exact hr

/-- Runs of well-behaved programs are runs. -/
theorem WellExec.loose (hx : WellExec U dbg cap h s) : LooseExec U dbg cap h s := by
  induction hx with
  | init h1 => exact .init h1
  | @step h s s' ev hx ha hr ih => exact .step ev ih (by cases ev <;> first | exact ha | trivial) hr

/-- **C67**, whole programs: a debug run in which every call returned is, call by call and handle by handle, a release run
that ends in the same state. So what is proved of release runs holds of debug runs, and a program whose debug run does not
panic does the same in a release build. -/
theorem C67_debug_run_is_release_run :
    (LooseExec U true cap h s → LooseExec U false cap h s) ∧ (WellExec U true cap h s → WellExec U false cap h s) := by
  constructor
  · intro hx
    induction hx with
    | init h1 => exact .init ((Stricter.withCapacity _).ok h1)
    | step ev hx hl hr ih => exact .step ev ih hl (C67_step hx hr)
  · intro hx
    induction hx with
    | init h1 => exact .init ((Stricter.withCapacity _).ok h1)
    | step ev hx hl hr ih => exact .step ev ih hl (C67_step (WellExec.loose hx) hr)

end

/-- A debug run with components, tags and an ordered group: its end state is reached by the same calls in a release build. -/
def builtBoth : List Event :=
  [.destroyed ⟨0, 1⟩, .removed ⟨1, 1⟩ [1], .orderedBefore 7 ⟨1, 1⟩ ⟨0, 1⟩, .orderedLast 7 ⟨0, 1⟩, .tagged 5 ⟨0, 1⟩,
   .added ⟨1, 1⟩ [(1, [4]), (4, [5])], .created ⟨1, 1⟩, .created ⟨0, 1⟩]

example : ∃ s, WellExec demo true 1 builtBoth s ∧ WellExec demo false 1 builtBoth s ∧
    s.getComponents demo true ⟨1, 1⟩ [4] = .ok (some [[some 5]]) := by
  have h : ((runWell demo true 1 builtBoth).any fun s =>
      decide (s.getComponents demo true ⟨1, 1⟩ [4] = .ok (some [[some 5]]))) = true := by decide
  obtain ⟨s, hs, h⟩ := any_some h
  exact ⟨s, runWell_sound hs, C67_debug_run_is_release_run.2 (runWell_sound hs), of_decide_eq_true h⟩

theorem error_of_map {r : Res α} {f : Fault} (h : r.map (fun _ => ()) = .error f) : r = .error f := by
  cases r with
  | ok _ => exact nomatch h
  | error _ => cases h; rfl

/-- The converse of `C67_debug_run_is_release_run` and the equality of the builds are false: adding the members of a group
again panics in a debug build and returns in a release build; so does destroying a dead entity. -/
theorem C67_builds_differ : ∃ h s, WellExec demo true 1 h s ∧ WellExec demo false 1 h s ∧
    s.addOrder true 7 ⟨0, 1⟩ = .error (.panic .debugAssert) ∧ (∃ s', s.addOrder false 7 ⟨0, 1⟩ = .ok s') ∧
    s.destroyEntity true ⟨2, 1⟩ = .error (.panic .debugAssert) ∧ ∃ s', s.destroyEntity false ⟨2, 1⟩ = .ok s' := by
  have h : ((runWell demo true 1 [.orderedLast 7 ⟨1, 1⟩, .orderedLast 7 ⟨0, 1⟩, .destroyed ⟨2, 1⟩, .created ⟨2, 1⟩,
      .created ⟨1, 1⟩, .created ⟨0, 1⟩]).any fun s =>
      decide ((s.addOrder true 7 ⟨0, 1⟩).map (fun _ => ()) = .error (.panic .debugAssert)) && okAnd (s.addOrder false 7 ⟨0, 1⟩) (fun _ => true) &&
      decide ((s.destroyEntity true ⟨2, 1⟩).map (fun _ => ()) = .error (.panic .debugAssert)) &&
      okAnd (s.destroyEntity false ⟨2, 1⟩) (fun _ => true)) = true := by decide
  obtain ⟨s, hs, h⟩ := any_some h
  simp only [Bool.and_eq_true, decide_eq_true_eq] at h
  obtain ⟨⟨⟨h1, h2⟩, h3⟩, h4⟩ := h
  obtain ⟨s1, h2, _⟩ := okAnd_iff h2
  obtain ⟨s2, h4, _⟩ := okAnd_iff h4
  exact ⟨_, s, runWell_sound hs, C67_debug_run_is_release_run.2 (runWell_sound hs), error_of_map h1, ⟨s1, h2⟩,
    error_of_map h3, s2, h4⟩

/-- **C67**, the resource store. -/
theorem C67_resource_calls {dbg : Bool} {cap : Nat} {h : List (ResEvent α)} {r : ResStore α} (hx : ResExec dbg cap h r)
    (hb : dbg = true ∨ (resIssued h).length < u32Size) :
    (∀ v, Stricter (r.create true v) (r.create false v)) ∧ (∀ e, Stricter (r.release true e) (r.release false e)) ∧
    (∀ e, Stricter (r.index true e) (r.index false e)) ∧ (∀ e v, Stricter (r.assign true e v) (r.assign false e v)) :=
  have hi := (res_exec_inv hx hb).1.ents
  ⟨.resCreate r, .resRelease hi, .resIndex hi, .resAssign hi⟩

/-- **C67**, whole programs with a resource store. -/
theorem C67_resource_debug_run_is_release_run {cap : Nat} {h : List (ResEvent α)} {r : ResStore α}
    (hx : ResExec true cap h r) : ResExec false cap h r := by
  induction hx with
  | init => exact .init
  | create v hx hr ih => exact .create v ih (((C67_resource_calls hx (.inl rfl)).1 v).ok hr)
  | @release h r r' v e hx hr hl ih =>
    refine .release e ih (((C67_resource_calls hx (.inl rfl)).2.1 e).ok hr) (.inr ?_)
    cases hm : resMap h e with
    | some _ => rfl
    | none => rw [(C10_debug_rejects_stale hx e hm).2.1] at hr; exact nomatch hr
  | @assign h r r' old e new hx hr hl ih =>
    refine .assign e new ih (((C67_resource_calls hx (.inl rfl)).2.2.2 e new).ok hr) (.inr ?_)
    cases hm : resMap h e with
    | some _ => rfl
    | none => rw [(C10_debug_rejects_stale hx e hm).2.2] at hr; exact nomatch hr

example : ∃ r : ResStore String, ResExec true 0 [.created ⟨0, 2⟩ "c", .released ⟨0, 1⟩ "a", .assigned ⟨1, 1⟩ "b" "b2",
    .created ⟨1, 1⟩ "b", .created ⟨0, 1⟩ "a"] r := resource_example true

end Ecs.Props
