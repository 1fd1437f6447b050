import Verif.Proofs.ChainStore
import Verif.Props.Stray

/-! Property C77: order calls that put an entity next to one that is not in the group. -/

namespace Ecs.Props
open Spec

section
variable {U : Universe} {dbg : Bool} {cap : Nat} {h : List Event} {s s' : Store}

/-- The executions of C63 and C64, where entities are put next to members only, are among those considered here; their groups
have no chains beside them. -/
theorem stray_is_lax (hx : StrayExec U dbg cap h s) :
    LaxExec U dbg cap h s ∧ ∀ g, chains g h = ⟨idSequence g h, []⟩ := ⟨hx.lax, stray_chains hx⟩

/-- **C77**, observers. The calls of the history that concern group `g`, replayed on a list and on the chains beside it, give
disjoint duplicate-free lists of ids of returned handles. First and last report the ends of the group's list. Next and previous
of any handle ever returned report its neighbours in the list in which it has its place, be it the group's or a chain. -/
theorem C77_groups_and_chains (hx : LaxExec U dbg cap h s) (g : Nat) :
    (chains g h).placed.Nodup ∧ (∀ l ∈ (chains g h).side, 2 ≤ l.length) ∧
    (∀ i ∈ (chains g h).placed, ∃ e ∈ handles h, e.id = i ∧ newest i h = some e) ∧
    s.getFirstOrdered g = .ok ((chains g h).seq.head?.bind (newest · h)) ∧
    s.getLastOrdered g = .ok ((chains g h).seq.getLast?.bind (newest · h)) ∧
    (∀ e ∈ handles h, s.getNextOrdered g e = .ok ((follower ((chains g h).around e.id) e.id).bind (newest · h))) ∧
    (∀ e ∈ handles h, s.getPreviousOrdered g e = .ok ((preceder ((chains g h).around e.id) e.id).bind (newest · h))) := by
  have hc := lax_core hx
  have ho := hc.orders
  refine ⟨ho.nodup g, ho.long g, fun i hi => ?_, ?_, ?_, fun e he => ?_, fun e he => ?_⟩
  · obtain ⟨e, h1, h2, h3⟩ := Strays.newest_some (hc.mem g i hi)
    exact ⟨e, h2, h3, h1⟩
  · unfold Store.getFirstOrdered
    rw [ho.getHead g]
    exact hc.mapEntity (g := g) fun i hi => List.mem_append_left _ (List.mem_of_mem_head? hi)
  · unfold Store.getLastOrdered
    rw [ho.getTail g]
    exact hc.mapEntity (g := g) fun i hi => List.mem_append_left _ (List.mem_of_getLast? hi)
  · unfold Store.getNextOrdered
    rw [ho.getNext g (hc.lt he)]
    exact hc.mapEntity (g := g) fun i hi => Chains.around_sub (mem_of_follower hi)
  · unfold Store.getPreviousOrdered
    rw [ho.getPrevious g (hc.lt he)]
    exact hc.mapEntity (g := g) fun i hi => Chains.around_sub (mem_of_preceder hi)

/-- **C77**, calls. With an entity that has no place in the group or beside it, the additions return in both build modes,
whether the entity next to which it is put is in the group, in a chain, or nowhere. The removal always returns. -/
theorem C77_calls_return (hx : LaxExec U dbg cap h s) (g : Nat) {e : Entity} (he : e ∈ handles h) :
    (e.id ∉ (chains g h).placed →
      (∃ s', s.addOrder dbg g e = .ok s' ∧ LaxExec U dbg cap (.orderedLast g e :: h) s') ∧
      ∀ x ∈ handles h, x.id ≠ e.id →
        (∃ s', s.addOrderNextTo dbg g e x = .ok s' ∧ LaxExec U dbg cap (.orderedAfter g e x :: h) s') ∧
        (∃ s', s.addOrderPreviousTo dbg g e x = .ok s' ∧ LaxExec U dbg cap (.orderedBefore g e x :: h) s')) ∧
    (∃ s', s.removeOrder g e = .ok s' ∧ LaxExec U dbg cap (.unordered g e :: h) s') := by
  have hc := lax_core hx
  refine ⟨fun hn => ⟨?_, fun x hxm hxe => ⟨?_, ?_⟩⟩, ?_⟩
  · obtain ⟨s', hr, -⟩ := hc.orderedLast (dbg := dbg) he hn
    exact ⟨s', hr, .step _ hx ⟨he, hn⟩ hr⟩
  · obtain ⟨s', hr, -⟩ := hc.orderedAfter (dbg := dbg) he (List.mem_map.2 ⟨x, hxm, rfl⟩) hxe hn
    exact ⟨s', hr, .step _ hx ⟨he, List.mem_map.2 ⟨x, hxm, rfl⟩, hxe, hn⟩ hr⟩
  · obtain ⟨s', hr, -⟩ := hc.orderedBefore (dbg := dbg) he (List.mem_map.2 ⟨x, hxm, rfl⟩) hxe hn
    exact ⟨s', hr, .step _ hx ⟨he, List.mem_map.2 ⟨x, hxm, rfl⟩, hxe, hn⟩ hr⟩
  · obtain ⟨s', hr, -⟩ := hc.unordered (g := g) he
    exact ⟨s', hr, .step _ hx he hr⟩

theorem around_seq {c : Chains} {i : Nat} (hi : i ∈ c.seq) : c.around i = c.seq := by
  unfold Chains.around
  rw [List.find?_cons, show decide (i ∈ c.seq) = true from decide_eq_true hi]
  rfl

/-- **C77**, an entity put next to one that is not in the group is not in the group. The calls return, but the ends of the group
and the neighbours of its members are what they were before. -/
theorem C77_beside (hx : LaxExec U dbg cap h s) {g : Nat} {e x : Entity} (he : e ∈ handles h) (hxm : x ∈ handles h)
    (hxe : x.id ≠ e.id) (hn : e.id ∉ (chains g h).placed) (hxg : x.id ∉ (chains g h).seq)
    (hr : s.addOrderNextTo dbg g e x = .ok s' ∨ s.addOrderPreviousTo dbg g e x = .ok s') :
    s'.getFirstOrdered g = s.getFirstOrdered g ∧ s'.getLastOrdered g = s.getLastOrdered g ∧
    ∀ m ∈ handles h, m.id ∈ (chains g h).seq →
      m.id ≠ e.id ∧ s'.getNextOrdered g m = s.getNextOrdered g m ∧ s'.getPreviousOrdered g m = s.getPreviousOrdered g m := by
  have hmem : x.id ∈ (handles h).map (·.id) := List.mem_map.2 ⟨x, hxm, rfl⟩
  have key : ∀ ev, LaxExec U dbg cap (ev :: h) s' → handles (ev :: h) = handles h →
      (chains g (ev :: h)).seq = (chains g h).seq →
      s'.getFirstOrdered g = s.getFirstOrdered g ∧ s'.getLastOrdered g = s.getLastOrdered g ∧
      ∀ m ∈ handles h, m.id ∈ (chains g h).seq →
        m.id ≠ e.id ∧ s'.getNextOrdered g m = s.getNextOrdered g m ∧ s'.getPreviousOrdered g m = s.getPreviousOrdered g m := by
    intro ev hx' hh hs
    obtain ⟨-, -, -, a1, a2, a3, a4⟩ := C77_groups_and_chains hx g
    obtain ⟨-, -, -, b1, b2, b3, b4⟩ := C77_groups_and_chains hx' g
    have hnew : ∀ i, newest i (ev :: h) = newest i h := fun i => by unfold newest; rw [hh]
    refine ⟨by rw [b1, a1, hs]; simp only [hnew], by rw [b2, a2, hs]; simp only [hnew], fun m hm hms => ⟨?_, ?_, ?_⟩⟩
    · exact fun hme => hn (List.mem_append_left _ (hme ▸ hms))
    · rw [b3 m (hh ▸ hm), a3 m hm, around_seq hms, around_seq (hs ▸ hms), hs]; simp only [hnew]
    · rw [b4 m (hh ▸ hm), a4 m hm, around_seq hms, around_seq (hs ▸ hms), hs]; simp only [hnew]
  rcases hr with hr | hr
  · refine key (.orderedAfter g e x) (.step _ hx ⟨he, hmem, hxe, hn⟩ hr) rfl ?_
    simp only [chains, if_true, Chains.putAfter]
    rw [if_neg hxg]
    split <;> rfl
  · refine key (.orderedBefore g e x) (.step _ hx ⟨he, hmem, hxe, hn⟩ hr) rfl ?_
    simp only [chains, if_true, Chains.putBefore]
    rw [if_neg hxg]
    split <;> rfl

/-- **C77**, an entity that has a place in the group or beside it: in debug builds both relative additions panic, whatever they are
relative to, unless it is the sole member of the group. Appending panics too, unless the group is empty. -/
theorem C77_placed_panics (hx : LaxExec U true cap h s) {g : Nat} {e : Entity} (hp : e.id ∈ (chains g h).placed)
    (hs : (chains g h).seq ≠ [e.id]) :
    ((chains g h).seq ≠ [] → s.addOrder true g e = .error (.panic .debugAssert)) ∧
    ∀ x : Entity, s.addOrderNextTo true g e x = .error (.panic .debugAssert) ∧
      s.addOrderPreviousTo true g e x = .error (.panic .debugAssert) := by
  obtain ⟨k1, k2, k3⟩ := (lax_core hx).orders.placed_panics hp hs
  refine ⟨fun hne => ?_, fun x => ⟨?_, ?_⟩⟩
  · unfold Store.addOrder; rw [k1 hne]; rfl
  · unfold Store.addOrderNextTo; rw [k2]; rfl
  · unfold Store.addOrderPreviousTo; rw [k3]; rfl

/-- **C77**, an entity without a place put next to itself. Both calls return in both build modes. The entity is then its own next
and its own previous; the ends of the group and the neighbours of all other entities are what they were before. -/
theorem C77_next_to_itself (hx : LaxExec U dbg cap h s) {g : Nat} {e : Entity} (he : e ∈ handles h)
    (hn : e.id ∉ (chains g h).placed) {r : Res Store} (hr : r = s.addOrderNextTo dbg g e e ∨ r = s.addOrderPreviousTo dbg g e e) :
    ∃ s', r = .ok s' ∧ s'.getNextOrdered g e = .ok (newest e.id h) ∧ s'.getPreviousOrdered g e = .ok (newest e.id h) ∧
      s'.getFirstOrdered g = s.getFirstOrdered g ∧ s'.getLastOrdered g = s.getLastOrdered g ∧
      ∀ x ∈ handles h, x.id ≠ e.id →
        s'.getNextOrdered g x = s.getNextOrdered g x ∧ s'.getPreviousOrdered g x = s.getPreviousOrdered g x := by
  have hc := lax_core hx
  obtain ⟨ro, hro, hr⟩ : ∃ ro : Res Orders,
      (ro = s.orders.addNextTo dbg g e.id e.id ∨ ro = s.orders.addPreviousTo dbg g e.id e.id) ∧
      r = ro >>= fun o => pure { s with orders := o } := by
    rcases hr with hr | hr
    · exact ⟨_, .inl rfl, hr⟩
    · exact ⟨_, .inr rfl, hr⟩
  obtain ⟨o, o1, o2, o3, o4⟩ := hc.orders.self dbg g (hc.lt he) (hc.null e he) hn hro
  have hme : ∀ i, Store.mapEntity { s with orders := o } i = s.mapEntity i := fun i => by cases i <;> rfl
  obtain ⟨y, y1, y2, y3⟩ := Strays.newest_some ⟨e, he, rfl⟩
  have hself : s.mapEntity (some e.id) = .ok (newest e.id h) := by
    simp only [Store.mapEntity, Store.getEntityById, Raw.read_of_some (hc.cur e.id y y1), ok_bind, pure_ok, y1]
    rw [← y3]
  refine ⟨{ s with orders := o }, by rw [hr, o1]; rfl, ?_, ?_, ?_, ?_, fun x hxm hxe => ⟨?_, ?_⟩⟩
  · unfold Store.getNextOrdered
    simp only [(o4 e.id (hc.lt he)).1, ok_bind, if_pos, hme, hself]
  · unfold Store.getPreviousOrdered
    simp only [(o4 e.id (hc.lt he)).2, ok_bind, if_pos, hme, hself]
  · unfold Store.getFirstOrdered
    simp only [o2, hc.orders.getHead g, ok_bind, hme]
  · unfold Store.getLastOrdered
    simp only [o3, hc.orders.getTail g, ok_bind, hme]
  · unfold Store.getNextOrdered
    simp only [(o4 x.id (hc.lt hxm)).1, if_neg hxe, hc.orders.getNext g (hc.lt hxm), ok_bind, hme]
  · unfold Store.getPreviousOrdered
    simp only [(o4 x.id (hc.lt hxm)).2, if_neg hxe, hc.orders.getPrevious g (hc.lt hxm), ok_bind, hme]

end

/-- Run a history, checking `Lax` before every call. -/
def runLax (U : Universe) (dbg : Bool) (cap : Nat) : List Event → Option Store
  | [] => (Store.withCapacity dbg cap).toOption
  | ev :: h =>
    match runLax U dbg cap h with
    | some s => if Lax h ev then perform U dbg s ev else none
    | none => none

theorem runLax_sound {U : Universe} {dbg : Bool} {cap : Nat} {h : List Event} {s : Store}
    (hr : runLax U dbg cap h = some s) : LaxExec U dbg cap h s := by
  induction h generalizing s with
  | nil => exact .init (withCapacity_of hr)
  | cons ev h ih =>
    unfold runLax at hr
    split at hr
    · rename_i s1 h1
      split at hr
      · rename_i hl
        exact .step ev (ih h1) hl (perform_returns hr)
      · cases hr
    · cases hr

/-- Group 7 has member 0. Entity 2 is put next to 1, which is not in the group, and 3 before 1. -/
def aside : List Event :=
  [.orderedBefore 7 ⟨3, 1⟩ ⟨1, 1⟩, .orderedAfter 7 ⟨2, 1⟩ ⟨1, 1⟩, .orderedLast 7 ⟨0, 1⟩,
   .created ⟨4, 1⟩, .created ⟨3, 1⟩, .created ⟨2, 1⟩, .created ⟨1, 1⟩, .created ⟨0, 1⟩]

/-- The hypotheses of C77 are met: a group with one member and a chain of three beside it, to whose end another entity can be
added. -/
example : ∃ s, LaxExec demo true 1 aside s ∧ chains 7 aside = ⟨[0], [[3, 1, 2]]⟩ ∧
    s.getFirstOrdered 7 = .ok (some ⟨0, 1⟩) ∧ s.getLastOrdered 7 = .ok (some ⟨0, 1⟩) ∧
    s.getNextOrdered 7 ⟨0, 1⟩ = .ok none ∧ s.getNextOrdered 7 ⟨3, 1⟩ = .ok (some ⟨1, 1⟩) ∧
    s.getNextOrdered 7 ⟨1, 1⟩ = .ok (some ⟨2, 1⟩) ∧ s.getPreviousOrdered 7 ⟨1, 1⟩ = .ok (some ⟨3, 1⟩) ∧
    ⟨4, 1⟩ ∈ handles aside ∧ ⟨2, 1⟩ ∈ handles aside ∧ 4 ∉ (chains 7 aside).placed ∧ 2 ∉ (chains 7 aside).seq := by
  have h : ((runLax demo true 1 aside).any fun s => decide (s.getFirstOrdered 7 = .ok (some ⟨0, 1⟩) ∧
      s.getLastOrdered 7 = .ok (some ⟨0, 1⟩) ∧ s.getNextOrdered 7 ⟨0, 1⟩ = .ok none ∧
      s.getNextOrdered 7 ⟨3, 1⟩ = .ok (some ⟨1, 1⟩) ∧ s.getNextOrdered 7 ⟨1, 1⟩ = .ok (some ⟨2, 1⟩) ∧
      s.getPreviousOrdered 7 ⟨1, 1⟩ = .ok (some ⟨3, 1⟩))) = true := by decide +kernel
  obtain ⟨s, hs, h⟩ := any_some h
  obtain ⟨h1, h2, h3, h4, h5, h6⟩ := of_decide_eq_true h
  exact ⟨s, runLax_sound hs, by decide, h1, h2, h3, h4, h5, h6, by decide, by decide, by decide, by decide⟩

/-- The hypotheses of `C77_placed_panics` are met: entity 1 is in the chain. And the same with the group emptied: appending entity 1
then returns, also in a debug build; it is the first of the group and has a previous. -/
theorem C77_counterexample_append : (∃ s, LaxExec demo true 1 aside s ∧ 1 ∈ (chains 7 aside).placed ∧ (chains 7 aside).seq ≠ [1] ∧
      (chains 7 aside).seq ≠ []) ∧
    ∃ s s', LaxExec demo true 1 (.unordered 7 ⟨0, 1⟩ :: aside) s ∧ s.getFirstOrdered 7 = .ok none ∧
      s.addOrder true 7 ⟨1, 1⟩ = .ok s' ∧ s'.getFirstOrdered 7 = .ok (some ⟨1, 1⟩) ∧ s'.getLastOrdered 7 = .ok (some ⟨1, 1⟩) ∧
      s'.getPreviousOrdered 7 ⟨1, 1⟩ = .ok (some ⟨3, 1⟩) ∧ s'.getNextOrdered 7 ⟨1, 1⟩ = .ok (some ⟨2, 1⟩) := by
  have h0 : (runLax demo true 1 aside).any (fun _ => true) = true := by decide +kernel
  obtain ⟨s0, hs0, -⟩ := any_some h0
  have h : ((runLax demo true 1 (.unordered 7 ⟨0, 1⟩ :: aside)).any fun s => decide (s.getFirstOrdered 7 = .ok none) &&
      okAnd (s.addOrder true 7 ⟨1, 1⟩) fun s' => decide (s'.getFirstOrdered 7 = .ok (some ⟨1, 1⟩) ∧
        s'.getLastOrdered 7 = .ok (some ⟨1, 1⟩) ∧ s'.getPreviousOrdered 7 ⟨1, 1⟩ = .ok (some ⟨3, 1⟩) ∧
        s'.getNextOrdered 7 ⟨1, 1⟩ = .ok (some ⟨2, 1⟩))) = true := by decide +kernel
  obtain ⟨s, hs, h⟩ := any_some h
  rw [Bool.and_eq_true] at h
  obtain ⟨s', h2, h3⟩ := okAnd_iff h.2
  have h1 := h.1
  obtain ⟨k1, k2, k3, k4⟩ := of_decide_eq_true h3
  exact ⟨⟨s0, runLax_sound hs0, by decide, by decide, by decide⟩, s, s', runLax_sound hs, of_decide_eq_true h1, h2, k1, k2, k3, k4⟩

/-- **C43 is false of the code** for entities put next to a non-member: the call returns in a debug build, and the group is still
empty. -/
theorem C77_counterexample_beside : ∃ s, LaxExec demo true 1 [.orderedAfter 7 ⟨1, 1⟩ ⟨0, 1⟩, .created ⟨1, 1⟩, .created ⟨0, 1⟩] s ∧
    s.getFirstOrdered 7 = .ok none ∧ s.getLastOrdered 7 = .ok none ∧ s.getNextOrdered 7 ⟨0, 1⟩ = .ok (some ⟨1, 1⟩) ∧
    runOrderedQuery demo true s 7 (.readonly []) [] 10 = .ok [] := by
  have h : ((runLax demo true 1 [.orderedAfter 7 ⟨1, 1⟩ ⟨0, 1⟩, .created ⟨1, 1⟩, .created ⟨0, 1⟩]).any fun s =>
      decide (s.getFirstOrdered 7 = .ok none ∧ s.getLastOrdered 7 = .ok none ∧ s.getNextOrdered 7 ⟨0, 1⟩ = .ok (some ⟨1, 1⟩) ∧
        runOrderedQuery demo true s 7 (.readonly []) [] 10 = .ok [])) = true := by decide +kernel
  obtain ⟨s, hs, h⟩ := any_some h
  exact ⟨s, runLax_sound hs, of_decide_eq_true h⟩

end Ecs.Props
