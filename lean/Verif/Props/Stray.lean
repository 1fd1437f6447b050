import Verif.Proofs.Stray
import Verif.Props.QueryDefects

/-! Properties C63 and C64: tag and order calls with handles that may be dead. The code looks at the id of
the handle only. -/

namespace Ecs.Props
open Spec

section
variable {U : Universe} {dbg : Bool} {cap : Nat} {h : List Event} {s : Store}

/-- The executions of C39–C45, whose tag and order calls get live handles, are among those considered here. -/
theorem loose_is_stray (hx : LooseExec U dbg cap h s) : StrayExec U dbg cap h s := hx.stray

/-- **C63.** `has_tag` with any handle ever returned, live or dead, returns whether the last of the calls that
tagged or untagged a handle with the same id (whatever its version), or destroyed an entity with this id, was
the addition of the tag. No other call matters; the creation of an entity with this id does not. -/
theorem C63_tags_belong_to_ids (hx : StrayExec U dbg cap h s) (tag : Nat) {e : Entity} (he : e ∈ handles h) :
    s.hasTag tag e = .ok (idTag tag e.id h) := (stray_core hx).hasTag he tag

/-- **C63**, the tag calls themselves: with any handle ever returned they return, and change this tag of all
handles with the same id, and nothing else. -/
theorem C63_tag_calls (hx : StrayExec U dbg cap h s) (tag : Nat) {e : Entity} (he : e ∈ handles h) :
    (∃ s', s.addTag tag e = .ok s' ∧ StrayExec U dbg cap (.tagged tag e :: h) s' ∧
      ∀ tag', ∀ x ∈ handles h, s'.hasTag tag' x = if tag' = tag ∧ x.id = e.id then .ok true else s.hasTag tag' x) ∧
    (∃ s', s.removeTag tag e = .ok s' ∧ StrayExec U dbg cap (.untagged tag e :: h) s' ∧
      ∀ tag', ∀ x ∈ handles h, s'.hasTag tag' x = if tag' = tag ∧ x.id = e.id then .ok false else s.hasTag tag' x) := by
  have hc := stray_core hx
  refine ⟨?_, ?_⟩
  · obtain ⟨s', hr, hc'⟩ := hc.tagged tag he
    refine ⟨s', hr, .step _ hx he hr, fun tag' x hxm => ?_⟩
    rw [hc'.hasTag (e := x) hxm, hc.hasTag hxm]
    simp only [idTag]
    by_cases hh : tag' = tag ∧ x.id = e.id
    · rw [if_pos hh, if_pos ⟨hh.1.symm, hh.2.symm⟩]
    · rw [if_neg hh, if_neg (fun k => hh ⟨k.1.symm, k.2.symm⟩)]
  · obtain ⟨s', hr, hc'⟩ := hc.untagged tag he
    refine ⟨s', hr, .step _ hx he hr, fun tag' x hxm => ?_⟩
    rw [hc'.hasTag (e := x) hxm, hc.hasTag hxm]
    simp only [idTag]
    by_cases hh : tag' = tag ∧ x.id = e.id
    · rw [if_pos hh, if_pos ⟨hh.1.symm, hh.2.symm⟩]
    · rw [if_neg hh, if_neg (fun k => hh ⟨k.1.symm, k.2.symm⟩)]

/-- **C63**, creation: a new entity has exactly the tags that were put on its id through dead handles since the
last entity with this id was destroyed. -/
theorem C63_new_entity_tags (hx : StrayExec U dbg cap h s) {e : Entity} {s' : Store}
    (hb : (handles h).length + 1 < u32Size)
    (hr : s.createEntity dbg = .ok (s', e) ∨
      ∃ a, Built U a ∧ s.createEntityWithArchetype dbg a = .ok (s', e)) (tag : Nat) :
    s'.hasTag tag e = .ok (idTag tag e.id h) := by
  rcases hr with hr | ⟨a, ha, hr⟩
  · exact C63_tags_belong_to_ids (.step (.created e) hx hb hr) tag List.mem_cons_self
  · exact C63_tags_belong_to_ids (.step (.createdWith e a.ids (fun _ => [])) hx hb ⟨a, ha, rfl, hr⟩) tag
      List.mem_cons_self

/-- **C64**, observers. The calls of the history that concern group `g`, replayed on a list of ids, give a
duplicate-free list of ids of returned handles, and first, last, next and previous — of any handle ever
returned — report its ends and neighbours. What they report is the newest handle with the id, be it alive or
dead. -/
theorem C64_groups_are_id_sequences (hx : StrayExec U dbg cap h s) (g : Nat) :
    (idSequence g h).Nodup ∧ (∀ i ∈ idSequence g h, ∃ e ∈ handles h, e.id = i ∧ newest i h = some e) ∧
    s.getFirstOrdered g = .ok ((idSequence g h).head?.bind (newest · h)) ∧
    s.getLastOrdered g = .ok ((idSequence g h).getLast?.bind (newest · h)) ∧
    (∀ e ∈ handles h, s.getNextOrdered g e = .ok ((follower (idSequence g h) e.id).bind (newest · h))) ∧
    (∀ e ∈ handles h, s.getPreviousOrdered g e = .ok ((preceder (idSequence g h) e.id).bind (newest · h))) := by
  have hc := stray_core hx
  have ho := hc.core.orders
  refine ⟨ho.nodup g, fun i hi => ?_, ?_, ?_, fun e he => ?_, fun e he => ?_⟩
  · obtain ⟨e, h1, h2, h3⟩ := Strays.newest_some (hc.mem g i hi)
    exact ⟨e, h2, h3, h1⟩
  · unfold Store.getFirstOrdered
    rw [ho.getHead g]
    exact hc.mapEntity (g := g) fun i hi => List.mem_of_mem_head? hi
  · unfold Store.getLastOrdered
    rw [ho.getTail g]
    exact hc.mapEntity (g := g) fun i hi => List.mem_of_getLast? hi
  · unfold Store.getNextOrdered
    rw [ho.getNext g (by rw [hc.core.ocap]; exact hc.core.ents.issued_id_lt he)]
    exact hc.mapEntity (g := g) fun i hi => mem_of_follower hi
  · unfold Store.getPreviousOrdered
    rw [ho.getPrevious g (by rw [hc.core.ocap]; exact hc.core.ents.issued_id_lt he)]
    exact hc.mapEntity (g := g) fun i hi => List.mem_reverse.1 (mem_of_follower hi)

/-- **C64**, calls. With any handle ever returned whose id is not in the group (and next to a handle whose id
is) the additions return, and so does the removal. -/
theorem C64_calls_return (hx : StrayExec U dbg cap h s) (g : Nat) {e : Entity} (he : e ∈ handles h) :
    (e.id ∉ idSequence g h → ∃ s', s.addOrder dbg g e = .ok s' ∧ StrayExec U dbg cap (.orderedLast g e :: h) s') ∧
    (∀ x : Entity, x.id ∈ idSequence g h → e.id ∉ idSequence g h →
      ∃ s', s.addOrderNextTo dbg g e x = .ok s' ∧ StrayExec U dbg cap (.orderedAfter g e x :: h) s') ∧
    (∀ x : Entity, x.id ∈ idSequence g h → e.id ∉ idSequence g h →
      ∃ s', s.addOrderPreviousTo dbg g e x = .ok s' ∧ StrayExec U dbg cap (.orderedBefore g e x :: h) s') ∧
    (∃ s', s.removeOrder g e = .ok s' ∧ StrayExec U dbg cap (.unordered g e :: h) s') := by
  have hc := stray_core hx
  refine ⟨fun hn => ?_, fun x hx' hn => ?_, fun x hx' hn => ?_, ?_⟩
  · obtain ⟨s', hr, -⟩ := hc.orderedLast (dbg := dbg) he hn
    exact ⟨s', hr, .step _ hx ⟨he, hn⟩ hr⟩
  · obtain ⟨s', hr, -⟩ := hc.orderedAfter (dbg := dbg) he hn hx'
    exact ⟨s', hr, .step _ hx ⟨he, hn, hx'⟩ hr⟩
  · obtain ⟨s', hr, -⟩ := hc.orderedBefore (dbg := dbg) he hn hx'
    exact ⟨s', hr, .step _ hx ⟨he, hn, hx'⟩ hr⟩
  · obtain ⟨s', hr, -⟩ := hc.unordered (g := g) he
    exact ⟨s', hr, .step _ hx he hr⟩

/-- Handles stay valid or invalid as without dead handles in these calls. -/
theorem stray_is_alive (hx : StrayExec U dbg cap h s) {e : Entity} (he : e ∈ handles h) :
    s.isAlive dbg e = .ok (decide (e ∈ alive h)) :=
  (stray_core hx).core.ents.isAlive_of_lt ((stray_core hx).core.ents.issued_id_lt he)

/-- Dropping the store never fails. -/
theorem stray_drop (hx : StrayExec U dbg cap h s) : s.drop = .ok () := (stray_core hx).core.drop

end

/-- Run a history, checking `Stray` before every call. -/
def runStray (U : Universe) (dbg : Bool) (cap : Nat) : List Event → Option Store
  | [] => (Store.withCapacity dbg cap).toOption
  | ev :: h =>
    match runStray U dbg cap h with
    | some s => if Stray h ev then perform U dbg s ev else none
    | none => none

theorem runStray_sound {U : Universe} {dbg : Bool} {cap : Nat} {h : List Event} {s : Store}
    (hr : runStray U dbg cap h = some s) : StrayExec U dbg cap h s := by
  induction h generalizing s with
  | nil => exact .init (withCapacity_of hr)
  | cons ev h ih =>
    unfold runStray at hr
    split at hr
    · rename_i s1 h1
      split at hr
      · rename_i hl
        exact .step ev (ih h1) hl (perform_returns hr)
      · cases hr
    · cases hr

/-- An entity is destroyed, then tagged and put into group 7 through its dead handle, and its id is reused. -/
def haunted : List Event :=
  [.created ⟨0, 2⟩, .orderedLast 7 ⟨1, 1⟩, .orderedLast 7 ⟨0, 1⟩, .tagged 5 ⟨0, 1⟩, .destroyed ⟨0, 1⟩, .tagged 6 ⟨0, 1⟩,
   .created ⟨1, 1⟩, .created ⟨0, 1⟩]

/-- **C40 and C43 are false of the code** if dead handles are given to tag and order calls: the new entity has a
tag and is first in a group, although no such call was made for it. The same history without the last call: the
group's first entity is a dead one. -/
theorem C63_counterexample : (∃ s, StrayExec demo true 1 haunted s ∧
      s.hasTag 5 ⟨0, 2⟩ = .ok true ∧ s.hasTag 6 ⟨0, 2⟩ = .ok false ∧ lastTag 5 ⟨0, 2⟩ haunted = false ∧
      s.getFirstOrdered 7 = .ok (some ⟨0, 2⟩) ∧ ⟨0, 2⟩ ∉ sequence 7 haunted) ∧
    (∃ s, StrayExec demo true 1 haunted.tail s ∧ s.getFirstOrdered 7 = .ok (some ⟨0, 1⟩) ∧ ⟨0, 1⟩ ∉ alive haunted.tail) := by
  have h1 : ((runStray demo true 1 haunted).any fun s =>
      decide (s.hasTag 5 ⟨0, 2⟩ = .ok true ∧ s.hasTag 6 ⟨0, 2⟩ = .ok false ∧ s.getFirstOrdered 7 = .ok (some ⟨0, 2⟩))) = true := by
    decide
  have h2 : ((runStray demo true 1 haunted.tail).any fun s => decide (s.getFirstOrdered 7 = .ok (some ⟨0, 1⟩))) = true := by
    decide
  obtain ⟨s, hs, h1⟩ := any_some h1
  obtain ⟨s2, hs2, h2⟩ := any_some h2
  have h1 := of_decide_eq_true h1
  exact ⟨⟨s, runStray_sound hs, h1.1, h1.2.1, by decide, h1.2.2, by decide⟩,
    ⟨s2, runStray_sound hs2, of_decide_eq_true h2, by decide⟩⟩

/-- Two entities with component 1; the first is destroyed, and then both are put into group 7. -/
def ghost : List Event :=
  [.orderedLast 7 ⟨1, 1⟩, .orderedLast 7 ⟨0, 1⟩, .destroyed ⟨0, 1⟩, .added ⟨1, 1⟩ [(1, [11])], .added ⟨0, 1⟩ [(1, [10])],
   .created ⟨1, 1⟩, .created ⟨0, 1⟩]

/-- **C34 is false of the code** for ordered queries over groups with dead members: two mutable references to the
one component of the other entity. -/
theorem C64_counterexample_query : ∃ s r, StrayExec demo true 1 ghost s ∧
    runOrderedQuery demo true s 7 (.write [1]) [] 10 = .ok [[r], [r]] ∧ r.size = 1 ∧
    s.getComponents demo true ⟨1, 1⟩ [1] = .ok (some [[some 11]]) := by
  have h : ((runStray demo true 1 ghost).any fun s =>
      decide (runOrderedQuery demo true s 7 (.write [1]) [] 10 = .ok [[⟨4, 0, 1⟩], [⟨4, 0, 1⟩]] ∧
        s.getComponents demo true ⟨1, 1⟩ [1] = .ok (some [[some 11]]))) = true := by decide
  obtain ⟨s, hs, h⟩ := any_some h
  have h := of_decide_eq_true h
  exact ⟨s, ⟨4, 0, 1⟩, runStray_sound hs, h.1, rfl, h.2⟩

/-- The hypotheses are met by these histories, with ids that are in groups and tags on a dead handle's id. -/
example : ∃ s, StrayExec demo true 1 haunted s ∧ ⟨0, 1⟩ ∈ handles haunted ∧ ⟨0, 1⟩ ∉ alive haunted ∧
    idTag 5 0 haunted = true ∧ idTag 6 0 haunted = false ∧ idSequence 7 haunted = [0, 1] ∧ newest 0 haunted = some ⟨0, 2⟩ := by
  have h : ((runStray demo true 1 haunted).any fun _ => true) = true := by decide
  obtain ⟨s, hs, _⟩ := any_some h
  exact ⟨s, runStray_sound hs, by decide, by decide, by decide, by decide, by decide, by decide⟩

end Ecs.Props
