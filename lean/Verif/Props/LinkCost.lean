import Verif.Proofs.LinkCost
import Verif.Props.LinkRefs
import Verif.Props.MarkCost

/-! Property C117: how many links the order functions read and write, and whose. -/

namespace Ecs.Props
open Spec
variable {U : Universe} {dbg : Bool} {cap : Nat} {h : List Event} {s : Store}

/-- **C117.** In every state of the container, with any arguments, whether the call returns or not: appending an entity to a group
reads and writes links at most 4 times, putting it next to another one at most 9 times, removing it at most 12 times, however many
members the group has; removing it from all groups, at most 12 times for each group. (By C91 these functions are the ones of the
model.) -/
theorem C117_constant (dbg : Bool) (c : Orders) (g e x : Nat) :
    linkAccesses (c.addT dbg g e).uses ≤ 4 ∧
    linkAccesses (c.addNextToT dbg g e x).uses ≤ 9 ∧
    linkAccesses (c.addPreviousToT dbg g e x).uses ≤ 9 ∧
    linkAccesses (c.removeT g e).uses ≤ 12 ∧
    linkAccesses (c.removeAllT e).uses ≤ 12 * c.groups.length :=
  ⟨Orders.few_add .., Orders.few_addNextTo .., Orders.few_addPreviousTo .., Orders.few_remove .., Orders.few_removeAll ..⟩

/-- **C117**, destruction: taking a destroyed entity out of its groups reads and writes links at most 12 times for each group that
was ever used. -/
theorem C117_destroy (hx : LooseExec U dbg cap h s) {n : Nat} (hn : Count (groupNamed h) n) (e : Entity) :
    linkAccesses (s.orders.removeAllT e.id).uses ≤ 12 * n := by
  rw [count_unique hn (count_groups hx)]
  exact (C117_constant dbg s.orders 0 e.id 0).2.2.2.2

/-- **C117**, whose links. The links read or written belong to one group, and there
to the entity itself and the last member, when the entity is appended;
to the entity, the member `x`, and the one after `x`, when it is put after `x`;
to the entity, the member `x`, and the one before `x`, when it is put before `x`;
to the entity and its two neighbours, when it is removed. When it is destroyed, to the entity and its two neighbours in each group. -/
theorem C117_neighbours (hx : LooseExec U dbg cap h s) (g : Nat) {e x : Entity} (he : e ∈ alive h) (hxa : x ∈ alive h) :
    (∃ k, ∀ l ∈ linksTouched (s.orders.addT dbg g e.id).uses, l.group = k ∧
      (l.id = e.id ∨ ∃ z, (sequence g h).getLast? = some z ∧ l.id = z.id)) ∧
    (∃ k, ∀ l ∈ linksTouched (s.orders.addNextToT dbg g e.id x.id).uses, l.group = k ∧
      (l.id = e.id ∨ l.id = x.id ∨ ∃ z, follower (sequence g h) x = some z ∧ l.id = z.id)) ∧
    (∃ k, ∀ l ∈ linksTouched (s.orders.addPreviousToT dbg g e.id x.id).uses, l.group = k ∧
      (l.id = e.id ∨ l.id = x.id ∨ ∃ z, preceder (sequence g h) x = some z ∧ l.id = z.id)) ∧
    (∃ k, ∀ l ∈ linksTouched (s.orders.removeT g e.id).uses, l.group = k ∧
      (l.id = e.id ∨ ∃ z, (follower (sequence g h) e = some z ∨ preceder (sequence g h) e = some z) ∧ l.id = z.id)) ∧
    (∀ l ∈ linksTouched (s.orders.removeAllT e.id).uses, ∃ k, s.orders.groupIds[l.group]? = some k ∧
      (l.id = e.id ∨ ∃ z, (follower (sequence k h) e = some z ∨ preceder (sequence k h) e = some z) ∧ l.id = z.id)) := by
  have hc := loose_core hx
  rw [alive_eq] at he hxa
  simp only [sequence_eq]
  have next : ∀ {g i : Nat} {y : Entity}, y ∈ (world h).live → s.orders.getNext g y.id = .ok (some i) →
      ∃ z, follower ((world h).order g) y = some z ∧ i = z.id := by
    intro g i y hy hn
    rw [hc.orders.getNext g (by rw [hc.ocap]; exact hc.ents.id_lt hy), Core.follower_map hc.inj (hc.ordLive g) hy] at hn
    obtain ⟨z, h1, h2⟩ := Option.map_eq_some_iff.1 (Except.ok.inj hn)
    exact ⟨z, h1, h2.symm⟩
  have prev : ∀ {g i : Nat} {y : Entity}, y ∈ (world h).live → s.orders.getPrevious g y.id = .ok (some i) →
      ∃ z, preceder ((world h).order g) y = some z ∧ i = z.id := by
    intro g i y hy hn
    rw [hc.orders.getPrevious g (by rw [hc.ocap]; exact hc.ents.id_lt hy), Core.preceder_map hc.inj (hc.ordLive g) hy] at hn
    obtain ⟨z, h1, h2⟩ := Option.map_eq_some_iff.1 (Except.ok.inj hn)
    exact ⟨z, h1, h2.symm⟩
  have sides : ∀ {g i : Nat}, s.orders.getNext g e.id = .ok (some i) ∨ s.orders.getPrevious g e.id = .ok (some i) →
      ∃ z, (follower ((world h).order g) e = some z ∨ preceder ((world h).order g) e = some z) ∧ i = z.id := by
    intro g i hs
    rcases hs with hs | hs
    · obtain ⟨z, h1, h2⟩ := next he hs; exact ⟨z, .inl h1, h2⟩
    · obtain ⟨z, h1, h2⟩ := prev he hs; exact ⟨z, .inr h1, h2⟩
  refine ⟨?_, ?_, ?_, ?_, ?_⟩
  · obtain ⟨k, hk⟩ := Orders.within_add dbg s.orders g e.id
    refine ⟨k, fun l hl => ⟨(hk l hl).1, (hk l hl).2.imp id fun ⟨h1, h2⟩ => ?_⟩⟩
    rw [hc.orders.getHead g, List.head?_map] at h1
    rw [hc.orders.getTail g, List.getLast?_map] at h2
    cases hz : ((world h).order g).getLast? with
    | none => rw [List.getLast?_eq_none_iff.1 hz] at h1; exact absurd rfl h1
    | some z =>
      rw [hz] at h2
      have h2 : some z.id = Orders.nullToNone l.id := Except.ok.inj h2
      refine ⟨z, rfl, ?_⟩
      unfold Orders.nullToNone at h2
      split at h2
      · exact (Option.some.inj h2).symm
      · cases h2
  · obtain ⟨k, hk⟩ := Orders.within_addNextTo dbg s.orders g e.id x.id
    exact ⟨k, fun l hl => ⟨(hk l hl).1, (hk l hl).2.imp id fun h1 => h1.imp id fun h2 => next hxa h2⟩⟩
  · obtain ⟨k, hk⟩ := Orders.within_addPreviousTo dbg s.orders g e.id x.id
    exact ⟨k, fun l hl => ⟨(hk l hl).1, (hk l hl).2.imp id fun h1 => h1.imp id fun h2 => prev hxa h2⟩⟩
  · obtain ⟨k, hk⟩ := Orders.within_remove s.orders g e.id
    exact ⟨k, fun l hl => ⟨(hk l hl).1, (hk l hl).2.imp id sides⟩⟩
  · intro l hl
    obtain ⟨k, h1, h2⟩ := Orders.within_removeAll s.orders e.id hc.orders.incr hc.orders.len l hl
    exact ⟨k, h1, h2.imp id sides⟩

/-! ### Cases -/

/-- Four members in one group; the second is removed, and another entity is put after the first. -/
def linkDemo : List Event :=
  [.created ⟨4, 1⟩, .orderedLast 7 ⟨3, 1⟩, .orderedLast 7 ⟨2, 1⟩, .orderedLast 7 ⟨1, 1⟩, .orderedLast 7 ⟨0, 1⟩, .created ⟨3, 1⟩, .created ⟨2, 1⟩,
   .created ⟨1, 1⟩, .created ⟨0, 1⟩]

/-- The hypotheses of the theorems are met; the bounds 4 and 9 are reached, and 10 accesses are needed for a member in the middle. -/
example : ∃ s, LooseExec demo true 1 linkDemo s ∧ sequence 7 linkDemo = [⟨0, 1⟩, ⟨1, 1⟩, ⟨2, 1⟩, ⟨3, 1⟩] ∧
    linkAccesses (s.orders.addT true 7 4).uses = 4 ∧
    linkAccesses (s.orders.addNextToT true 7 4 0).uses = 9 ∧
    linkAccesses (s.orders.addPreviousToT true 7 4 2).uses = 9 ∧
    linkAccesses (s.orders.removeT 7 1).uses = 10 ∧
    (linksTouched (s.orders.addNextToT true 7 4 0).uses).map (·.id) = [4, 4, 0, 1] ∧
    (linksTouched (s.orders.removeT 7 1).uses).map (·.id) = [1, 1, 2, 0] := by
  have h : ((runLoose demo true 1 linkDemo).any fun s => decide (linkAccesses (s.orders.addT true 7 4).uses = 4 ∧
    linkAccesses (s.orders.addNextToT true 7 4 0).uses = 9 ∧
    linkAccesses (s.orders.addPreviousToT true 7 4 2).uses = 9 ∧
    linkAccesses (s.orders.removeT 7 1).uses = 10 ∧
    (linksTouched (s.orders.addNextToT true 7 4 0).uses).map (·.id) = [4, 4, 0, 1] ∧
    (linksTouched (s.orders.removeT 7 1).uses).map (·.id) = [1, 1, 2, 0])) = true := by decide +kernel
  obtain ⟨s, hs, h⟩ := any_some h
  exact ⟨s, runLoose_sound hs, by decide, of_decide_eq_true h⟩

end Ecs.Props
