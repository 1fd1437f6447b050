import Verif.Proofs.Walks
import Verif.Spec.Run

/-! Properties C41–C45: order groups. Component calls are arbitrary in these executions. -/

namespace Ecs.Props
open Spec

section
variable {U : Universe} {dbg : Bool} {cap : Nat} {h : List Event} {s : Store}

/-- **C41**, observers. The calls of the history that concern group `g`, replayed on a list
(`Spec.sequence`), give a duplicate-free list of live entities, and first, last, next and previous
report its ends and neighbours. None of these calls fails. -/
theorem C41_group_is_sequence (hx : LooseExec U dbg cap h s) (g : Nat) :
    (sequence g h).Nodup ∧ (∀ e ∈ sequence g h, e ∈ alive h) ∧
    s.getFirstOrdered g = .ok (sequence g h).head? ∧
    s.getLastOrdered g = .ok (sequence g h).getLast? ∧
    (∀ e ∈ alive h, s.getNextOrdered g e = .ok (follower (sequence g h) e)) ∧
    (∀ e ∈ alive h, s.getPreviousOrdered g e = .ok (preceder (sequence g h) e)) := by
  have hc := loose_core hx
  rw [sequence_eq, alive_eq]
  exact ⟨hc.order_nodup g, hc.ordLive g, hc.getFirst g, hc.getLast g, fun e he => hc.getNext g he,
    fun e he => hc.getPrevious g he⟩

/-- **C41**, calls. On live entities (not yet in the group, and with a reference in the group, for the
additions) each call returns, and the history extended by it is again an execution, so that
`C41_group_is_sequence` describes the group afterwards. -/
theorem C41_calls_return (hx : LooseExec U dbg cap h s) (g : Nat) {e : Entity} (he : e ∈ alive h) :
    (e ∉ sequence g h → ∃ s', s.addOrder dbg g e = .ok s' ∧ LooseExec U dbg cap (.orderedLast g e :: h) s') ∧
    (∀ x ∈ sequence g h, e ∉ sequence g h →
      ∃ s', s.addOrderNextTo dbg g e x = .ok s' ∧ LooseExec U dbg cap (.orderedAfter g e x :: h) s') ∧
    (∀ x ∈ sequence g h, e ∉ sequence g h →
      ∃ s', s.addOrderPreviousTo dbg g e x = .ok s' ∧ LooseExec U dbg cap (.orderedBefore g e x :: h) s') ∧
    (∃ s', s.removeOrder g e = .ok s' ∧ LooseExec U dbg cap (.unordered g e :: h) s') := by
  have hc := loose_core hx
  rw [sequence_eq]
  rw [alive_eq] at he
  refine ⟨fun hn => ?_, fun x hx' hn => ?_, fun x hx' hn => ?_, ?_⟩
  · obtain ⟨s', hr, -⟩ := hc.orderedLast (dbg := dbg) he hn
    exact ⟨s', hr, .step _ hx ⟨he, hn⟩ hr⟩
  · obtain ⟨s', hr, -⟩ := hc.orderedAfter (dbg := dbg) he hn hx'
    exact ⟨s', hr, .step _ hx ⟨he, hn, hx'⟩ hr⟩
  · obtain ⟨s', hr, -⟩ := hc.orderedBefore (dbg := dbg) he hn hx'
    exact ⟨s', hr, .step _ hx ⟨he, hn, hx'⟩ hr⟩
  · obtain ⟨s', hr, -⟩ := hc.unordered (g := g) he
    exact ⟨s', hr, .step _ hx he hr⟩

/-- **C42.** From `get_first`, following `get_next` ends after passing through all members once, the
last one being `get_last`; from `get_last`, following `get_previous` passes through the same members in
reverse. Both walks are unique. -/
theorem C42_walks_agree (hx : LooseExec U dbg cap h s) (g : Nat) :
    ∃ first last l, s.getFirstOrdered g = .ok first ∧ s.getLastOrdered g = .ok last ∧
      WalksForward s g first l ∧ WalksBackward s g last l.reverse ∧
      l.Nodup ∧ l.getLast? = last ∧ l = sequence g h ∧
      (∀ l', WalksForward s g first l' → l' = l) ∧ (∀ l', WalksBackward s g last l' → l' = l.reverse) := by
  have hc := loose_core hx
  refine ⟨_, _, sequence g h, (C41_group_is_sequence hx g).2.2.1, (C41_group_is_sequence hx g).2.2.2.1, ?_⟩
  rw [sequence_eq]
  have h1 := walksForward hc g [] ((world h).order g) rfl
  have h2 := walksBackward hc g [] ((world h).order g).reverse rfl
  rw [List.head?_reverse] at h2
  exact ⟨h1, h2, hc.order_nodup g, rfl, rfl, fun l' hl' => hl'.unique h1, fun l' hl' => hl'.unique h2⟩

/-- **C43.** Destroying a live entity takes it out of every group and keeps the order of the other
members; and an entity returned by a creation call, even with the id of a destroyed member, is in no
group. -/
theorem C43_destroy_leaves_groups (hx : LooseExec U dbg cap h s) :
    (∀ e ∈ alive h, ∀ s', s.destroyEntity dbg e = .ok s' → ∀ g, ∃ l,
      e ∉ l ∧ l = (sequence g h).filter (· ≠ e) ∧
      s'.getFirstOrdered g = .ok l.head? ∧ s'.getLastOrdered g = .ok l.getLast? ∧
      (∀ x ∈ l, s'.getNextOrdered g x = .ok (follower l x) ∧ s'.getPreviousOrdered g x = .ok (preceder l x))) ∧
    (∀ e s', (handles h).length + 1 < u32Size →
      (s.createEntity dbg = .ok (s', e) ∨ ∃ a, Built U a ∧ s.createEntityWithArchetype dbg a = .ok (s', e)) →
      ∀ g, NotInGroup s' g e) := by
  have hc := loose_core hx
  rw [handles_eq]
  refine ⟨fun e he s' hr g => ?_, fun e s' hb hr g => ?_⟩
  · have he' := he
    rw [alive_eq] at he'
    have hx' : LooseExec U dbg cap (.destroyed e :: h) s' := .step _ hx he' hr
    obtain ⟨h1, h2, h3, h4, h5, h6⟩ := C41_group_is_sequence hx' g
    have heq : sequence g (.destroyed e :: h) = (sequence g h).filter (· ≠ e) := by
      show (sequence g h).erase e = _
      rw [(C41_group_is_sequence hx g).1.erase_eq_filter]
      congr 1
      funext x
      exact Bool.eq_iff_iff.2 (by simp)
    refine ⟨sequence g (.destroyed e :: h), ?_, heq, h3, h4, fun x hx1 => ⟨h5 x (h2 x hx1), h6 x (h2 x hx1)⟩⟩
    rw [heq]; simp
  · have key : ∀ ev, alive (ev :: h) = e :: alive h → sequence g (ev :: h) = sequence g h → e ∉ (world h).issued →
        LooseExec U dbg cap (ev :: h) s' → NotInGroup s' g e := by
      intro ev ha hs hn hx'
      obtain ⟨h1, h2, h3, h4, h5, h6⟩ := C41_group_is_sequence hx' g
      have hno : e ∉ sequence g (ev :: h) := by
        rw [hs, sequence_eq]
        exact fun hm => hn (hc.ents.sub _ (hc.ordLive g e hm))
      have hal : e ∈ alive (ev :: h) := by rw [ha]; exact List.mem_cons_self
      refine ⟨by rw [h5 e hal, follower_none hno], by rw [h6 e hal, preceder_none hno], ?_, ?_⟩
      · rw [h3]; intro hh; exact hno (List.mem_of_mem_head? (Except.ok.inj hh))
      · rw [h4]; intro hh; exact hno (List.mem_of_getLast? (Except.ok.inj hh))
    rcases hr with hr | ⟨a, ha, hr⟩
    · exact key (.created e) rfl rfl (hc.created hb hr).1 (.step (.created e) hx hb hr)
    · exact key (.createdWith e a.ids (fun _ => [])) rfl rfl (hc.createdWith hb hr).1
        (.step (.createdWith e a.ids _) hx hb ⟨a, ha, rfl, hr⟩)

/-- Events that add to or remove from group `g`. -/
def ConcernsGroup (g : Nat) : Event → Prop
  | .orderedLast g' _ => g' = g
  | .orderedAfter g' _ _ => g' = g
  | .orderedBefore g' _ _ => g' = g
  | .unordered g' _ => g' = g
  | .destroyed _ => True
  | _ => False

/-- **C44.** An order call on another group (or any call other than destruction of an entity) changes
nothing that can be observed of group `g`, whether or not either group was in use before. -/
theorem C44_groups_independent (hx : LooseExec U dbg cap h s) (g : Nat) {ev : Event} {s' : Store}
    (hx' : LooseExec U dbg cap (ev :: h) s') (hg : ¬ ConcernsGroup g ev) :
    s'.getFirstOrdered g = s.getFirstOrdered g ∧ s'.getLastOrdered g = s.getLastOrdered g ∧
    ∀ e ∈ alive h, s'.getNextOrdered g e = s.getNextOrdered g e ∧
      s'.getPreviousOrdered g e = s.getPreviousOrdered g e := by
  obtain ⟨-, -, h3, h4, h5, h6⟩ := C41_group_is_sequence hx g
  obtain ⟨-, -, h3', h4', h5', h6'⟩ := C41_group_is_sequence hx' g
  have hseq : sequence g (ev :: h) = sequence g h := by
    cases ev <;> first | rfl | exact if_neg hg | exact absurd trivial hg
  have hal : ∀ e ∈ alive h, e ∈ alive (ev :: h) := by
    intro e he
    cases ev <;> first | exact he | exact List.mem_cons_of_mem _ he | exact absurd trivial hg
  rw [hseq] at h3' h4' h5' h6'
  exact ⟨h3'.trans h3.symm, h4'.trans h4.symm, fun e he =>
    ⟨(h5' e (hal e he)).trans (h5 e he).symm, (h6' e (hal e he)).trans (h6 e he).symm⟩⟩

/-- **C45**, true part: in a debug build, adding a member of a group with at least one other member
again panics, for all three calls and any reference entity. -/
theorem C45_double_add_panics_partial (hx : LooseExec U true cap h s) (g : Nat) {e : Entity}
    (he : e ∈ sequence g h) (h2 : sequence g h ≠ [e]) :
    s.addOrder true g e = .error (.panic .debugAssert) ∧
    (∀ x, s.addOrderNextTo true g e x = .error (.panic .debugAssert)) ∧
    (∀ x, s.addOrderPreviousTo true g e x = .error (.panic .debugAssert)) := by
  have hc := loose_core hx
  rw [sequence_eq] at he h2
  have hm : e.id ∈ ((world h).order g).map (·.id) := List.mem_map_of_mem he
  have hne : ((world h).order g).map (·.id) ≠ [e.id] := by
    intro hh
    cases hl : (world h).order g with
    | nil => rw [hl] at he; cases he
    | cons a l =>
      rw [hl] at hh h2 he
      cases l with
      | nil => simp_all
      | cons b l => simp at hh
  refine ⟨?_, fun x => ?_, fun x => ?_⟩
  · unfold Store.addOrder; rw [hc.orders.add_twice hm hne]; rfl
  · unfold Store.addOrderNextTo; rw [hc.orders.addNextTo_twice hm hne]; rfl
  · unfold Store.addOrderPreviousTo; rw [hc.orders.addPreviousTo_twice hm hne]; rfl

/-- No walk through group `g` ends: it starts and ends with `e`, which is before and after itself. -/
def Endless (s : Store) (g : Nat) (e : Entity) : Prop :=
  s.getFirstOrdered g = .ok (some e) ∧ s.getLastOrdered g = .ok (some e) ∧
  s.getNextOrdered g e = .ok (some e) ∧ s.getPreviousOrdered g e = .ok (some e) ∧
  (∀ l, ¬ WalksForward s g (some e) l) ∧ (∀ l, ¬ WalksBackward s g (some e) l)

/-- **C45**, what the code does with the sole member of a group, in both build modes: adding it again (at the end, or
next to itself) never panics, and makes the group endless. -/
theorem C45_sole_member_never_panics (hx : LooseExec U dbg cap h s) (g : Nat) {e : Entity} (h1 : sequence g h = [e]) :
    (∃ s', s.addOrder dbg g e = .ok s' ∧ Endless s' g e) ∧
    (∃ s', s.addOrderNextTo dbg g e e = .ok s' ∧ Endless s' g e) ∧
    (∃ s', s.addOrderPreviousTo dbg g e e = .ok s' ∧ Endless s' g e) := by
  have hc := loose_core hx
  rw [sequence_eq] at h1
  have he : e ∈ (world h).live := hc.ordLive g e (by simp [h1])
  have key : ∀ o, o.Looped g e.id → Endless { s with orders := o } g e := by
    intro o ⟨a1, a2, a3, a4⟩
    have hm : Store.mapEntity { s with orders := o } (some e.id) = .ok (some e) :=
      hc.mapEntity (o := some e) (fun x hx => by cases hx; exact he)
    have b3 : Store.getNextOrdered { s with orders := o } g e = .ok (some e) := by
      unfold Store.getNextOrdered; simp only [a3, ok_bind, hm]
    have b4 : Store.getPreviousOrdered { s with orders := o } g e = .ok (some e) := by
      unfold Store.getPreviousOrdered; simp only [a4, ok_bind, hm]
    refine ⟨?_, ?_, b3, b4, fun l => ?_, fun l => ?_⟩
    · unfold Store.getFirstOrdered; simp only [a1, ok_bind, hm]
    · unfold Store.getLastOrdered; simp only [a2, ok_bind, hm]
    · induction l with
      | nil => exact fun hw => nomatch hw
      | cons a l ih =>
        intro hw
        cases hw with
        | step w1 w2 => rw [b3] at w1; cases w1; exact ih w2
    · induction l with
      | nil => exact fun hw => nomatch hw
      | cons a l ih =>
        intro hw
        cases hw with
        | step w1 w2 => rw [b4] at w1; cases w1; exact ih w2
  obtain ⟨⟨o1, p1, q1⟩, ⟨o2, p2, q2⟩, ⟨o3, p3, q3⟩⟩ := hc.orders.add_sole dbg (gid := g) (e := e.id) (by simp [h1])
  refine ⟨⟨_, ?_, key o1 q1⟩, ⟨_, ?_, key o2 q2⟩, ⟨_, ?_, key o3 q3⟩⟩
  · unfold Store.addOrder; simp only [p1, ok_bind, pure_ok]
  · unfold Store.addOrderNextTo; simp only [p2, ok_bind, pure_ok]
  · unfold Store.addOrderPreviousTo; simp only [p3, ok_bind, pure_ok]

/-- **C45**, exactly: in a debug build, adding a member again panics if and only if the group has another member. -/
theorem C45_double_add_panics_iff (hx : LooseExec U true cap h s) (g : Nat) {e : Entity} (he : e ∈ sequence g h) :
    s.addOrder true g e = .error (.panic .debugAssert) ↔ ∃ x ∈ sequence g h, x ≠ e := by
  have hn := (C41_group_is_sequence hx g).1
  constructor
  · intro hp
    by_contra hno
    have h1 : sequence g h = [e] := by
      cases hl : sequence g h with
      | nil => rw [hl] at he; cases he
      | cons a l =>
        rw [hl] at hno hn
        have ha : a = e := by by_contra hne; exact hno ⟨a, by simp, hne⟩
        cases l with
        | nil => rw [ha]
        | cons b l =>
          have hb : b = e := by by_contra hne; exact hno ⟨b, by simp, hne⟩
          rw [ha, hb] at hn; simp at hn
    obtain ⟨⟨s', h2, _⟩, _⟩ := C45_sole_member_never_panics hx g h1
    rw [h2] at hp; cases hp
  · rintro ⟨x, hx', hne⟩
    exact (C45_double_add_panics_partial hx g he (fun h1 => by rw [h1] at hx'; simp at hx'; exact hne hx')).1

end

/-- Two groups, insertions at both sides, a destroyed member whose id is reused. -/
def groupHistory : List Event :=
  [.orderedLast 3 ⟨1, 2⟩, .created ⟨1, 2⟩, .destroyed ⟨1, 1⟩, .orderedLast 3 ⟨0, 1⟩, .orderedBefore 7 ⟨2, 1⟩ ⟨0, 1⟩,
   .orderedAfter 7 ⟨1, 1⟩ ⟨0, 1⟩, .orderedLast 7 ⟨0, 1⟩, .created ⟨2, 1⟩, .created ⟨1, 1⟩, .created ⟨0, 1⟩]

example : ∃ s, LooseExec demo true 1 groupHistory s ∧ sequence 7 groupHistory = [⟨2, 1⟩, ⟨0, 1⟩] ∧
    sequence 3 groupHistory = [⟨0, 1⟩, ⟨1, 2⟩] ∧
    sequence 7 (groupHistory.drop 3) = [⟨2, 1⟩, ⟨0, 1⟩, ⟨1, 1⟩] := by
  have h : (runLoose demo true 1 groupHistory).isSome = true := by decide
  obtain ⟨s, hs⟩ := Option.isSome_iff_exists.1 h
  exact ⟨s, runLoose_sound hs, by decide, by decide, by decide⟩

/-- **C45 is false of the code**: the sole member of a group can be added again without a panic, in a
debug build, and the group then has no end: `get_next` of the entity is the entity itself. -/
theorem C45_counterexample_sole_member :
    ∃ s s', LooseExec demo true 1 [.orderedLast 7 ⟨0, 1⟩, .created ⟨0, 1⟩] s ∧
      s.addOrder true 7 ⟨0, 1⟩ = .ok s' ∧ s'.getNextOrdered 7 ⟨0, 1⟩ = .ok (some ⟨0, 1⟩) := by
  have h : ((runLoose demo true 1 [.orderedLast 7 ⟨0, 1⟩, .created ⟨0, 1⟩]).any fun s =>
      okAnd (s.addOrder true 7 ⟨0, 1⟩) fun s' => decide (s'.getNextOrdered 7 ⟨0, 1⟩ = .ok (some ⟨0, 1⟩))) = true := by
    decide
  obtain ⟨s, hs, h⟩ := any_some h
  obtain ⟨s', hs', h⟩ := okAnd_iff h
  exact ⟨s, s', runLoose_sound hs, hs', of_decide_eq_true h⟩

end Ecs.Props
