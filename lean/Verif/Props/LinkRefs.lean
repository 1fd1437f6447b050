import Verif.Proofs.LinkRefs
import Verif.Props.Chains

/-! Property C91: while the order functions use a mutable reference to a link, the link is not accessed in any other way. -/

namespace Ecs.Props
open Spec

section
variable {U : Universe} {dbg : Bool} {cap : Nat} {h : List Event} {s s' s2 : Store}

/-- The functions with recorded accesses return what the functions of the model return, for all arguments. -/
theorem C91_same_results (dbg : Bool) (c : Orders) (g e x : Nat) :
    (c.addT dbg g e).result = c.add dbg g e ∧
    (c.addNextToT dbg g e x).result = c.addNextTo dbg g e x ∧
    (c.addPreviousToT dbg g e x).result = c.addPreviousTo dbg g e x ∧
    (c.removeT g e).result = c.remove g e ∧
    (c.removeAllT e).result = c.removeAll e :=
  ⟨Orders.result_add .., Orders.result_addNextTo .., Orders.result_addPreviousTo .., Orders.result_remove ..,
    Orders.result_removeAll ..⟩

theorem follower_not_self {l : List Nat} {x : Nat} (hn : l.Nodup) : follower l x ≠ some x := by
  induction l with
  | nil => exact fun h => nomatch h
  | cons a l ih =>
    rw [List.nodup_cons] at hn
    unfold follower
    split
    · rename_i hxa
      subst hxa
      exact fun h => hn.1 (List.mem_of_mem_head? h)
    · exact ih hn.2

theorem around_nodup {c : Chains} (hn : c.placed.Nodup) (i : Nat) : (c.around i).Nodup := by
  unfold Chains.around
  cases hf : (c.seq :: c.side).find? fun l => decide (i ∈ l) with
  | none => exact List.nodup_nil
  | some l =>
    have hm : l ∈ c.seq :: c.side := List.mem_of_find?_eq_some hf
    exact (List.sublist_flatten_of_mem hm).nodup (show (c.seq :: c.side).flatten.Nodup from hn)

/-- **C91**, the calls of C77: appending an entity that has no place, putting it next to another entity, and removing or
destroying an entity respect the exclusiveness of all mutable references to links that the functions take. -/
theorem C91_exclusive (hx : LaxExec U dbg cap h s) (g : Nat) {e : Entity} (he : e ∈ handles h) :
    (e.id ∉ (chains g h).placed →
      Exclusive (s.orders.addT dbg g e.id).uses ∧
      ∀ x ∈ handles h, x.id ≠ e.id →
        Exclusive (s.orders.addNextToT dbg g e.id x.id).uses ∧ Exclusive (s.orders.addPreviousToT dbg g e.id x.id).uses) ∧
    Exclusive (s.orders.removeT g e.id).uses ∧ Exclusive (s.orders.removeAllT e.id).uses := by
  have hc := lax_core hx
  have ho := hc.orders
  have hself : ∀ g, s.orders.getNext g e.id ≠ .ok (some e.id) ∧ s.orders.getPrevious g e.id ≠ .ok (some e.id) := by
    intro g
    rw [ho.getNext g (hc.lt he), ho.getPrevious g (hc.lt he)]
    have hn := around_nodup (ho.nodup g) e.id
    refine ⟨fun h => follower_not_self hn (Except.ok.inj h), fun h => ?_⟩
    exact follower_not_self (List.nodup_reverse.2 hn) (Except.ok.inj h)
  refine ⟨fun hp => ⟨Orders.add_exclusive .., fun x hxm hxe => ⟨?_, ?_⟩⟩, ?_, ?_⟩
  · obtain ⟨o, hr, -⟩ := ho.addNextTo dbg g (hc.lt he) (hc.null e he) hp (hc.lt hxm) (hc.null x hxm) hxe
    refine (Orders.addNextTo_exclusive hr (hc.null e he)).2 (.inr ⟨hxe, fun h => ?_⟩)
    rw [ho.getNext g (hc.lt hxm)] at h
    exact hp (Chains.around_sub (mem_of_follower (Except.ok.inj h)))
  · obtain ⟨o, hr, -⟩ := ho.addPreviousTo dbg g (hc.lt he) (hc.null e he) hp (hc.lt hxm) (hc.null x hxm) hxe
    refine (Orders.addPreviousTo_exclusive hr (hc.null e he)).2 (.inr ⟨hxe, fun h => ?_⟩)
    rw [ho.getPrevious g (hc.lt hxm)] at h
    exact hp (Chains.around_sub (mem_of_preceder (Except.ok.inj h)))
  · obtain ⟨o, hr, -⟩ := ho.remove g (hc.lt he) (hc.null e he)
    exact (Orders.remove_exclusive hr (hc.null e he)).2 (hself g)
  · obtain ⟨o, hr, -⟩ := ho.removeAll (hc.lt he) (hc.null e he)
    exact (Orders.removeAll_exclusive hr (hc.null e he) ho.incr ho.len).2 hself

/-- **C91, exactly**, in every state of the container, for a call that returns. Appending is always right. Putting `e` next to
`x` is right if and only if `x` is last or alone, or neither `x` nor the entity after it is `e` itself. Removing `e` is right if
and only if `e` is not its own neighbour; removing it from all groups, if and only if it is its own neighbour in none, for which
the numbers of the groups must be in increasing order, one for each group (as they are in every execution). -/
theorem C91_exact (dbg : Bool) (c c' : Orders) (g e x : Nat) (he : e ≠ NULL_ID) :
    Exclusive (c.addT dbg g e).uses ∧
    (c.addNextTo dbg g e x = .ok c' →
      (Exclusive (c.addNextToT dbg g e x).uses ↔ c.getNext g x = .ok none ∨ x ≠ e ∧ c.getNext g x ≠ .ok (some e))) ∧
    (c.addPreviousTo dbg g e x = .ok c' →
      (Exclusive (c.addPreviousToT dbg g e x).uses ↔
        c.getPrevious g x = .ok none ∨ x ≠ e ∧ c.getPrevious g x ≠ .ok (some e))) ∧
    (c.remove g e = .ok c' →
      (Exclusive (c.removeT g e).uses ↔ c.getNext g e ≠ .ok (some e) ∧ c.getPrevious g e ≠ .ok (some e))) ∧
    (c.removeAll e = .ok c' → c.groupIds.Pairwise (· < ·) → c.groups.length = c.groupIds.length →
      (Exclusive (c.removeAllT e).uses ↔ ∀ k, c.getNext k e ≠ .ok (some e) ∧ c.getPrevious k e ≠ .ok (some e))) :=
  ⟨Orders.add_exclusive .., fun hr => Orders.addNextTo_exclusive hr he, fun hr => Orders.addPreviousTo_exclusive hr he,
    fun hr => Orders.remove_exclusive hr he, fun hr hi hl => Orders.removeAll_exclusive hr he hi hl⟩

/-- **C91**, calls that panic, in every state: the assertions come before the second access to any link. -/
theorem C91_panics (c : Orders) (g e x : Nat) (p : Panic) :
    (c.addNextTo dbg g e x = .error (.panic p) → Exclusive (c.addNextToT dbg g e x).uses) ∧
    (c.addPreviousTo dbg g e x = .error (.panic p) → Exclusive (c.addPreviousToT dbg g e x).uses) :=
  ⟨Orders.next_to_panic, Orders.previous_to_panic⟩

/-- **C91 fails** after the misuse of C45, in both build modes: if the sole member of a group was added again, removing it uses
a reference to a link after the link was written in another way. -/
theorem C91_sole_member_again (hx : LooseExec U dbg cap h s) {g : Nat} {e : Entity} (h1 : sequence g h = [e])
    (ha : s.addOrder dbg g e = .ok s') (hr : s'.removeOrder g e = .ok s2) :
    ¬ Exclusive (s'.orders.removeT g e.id).uses := by
  have hc := loose_core hx
  rw [sequence_eq] at h1
  obtain ⟨⟨o1, p1, -, -, a3, -⟩, -, -⟩ := hc.orders.add_sole dbg (gid := g) (e := e.id) (by simp [h1])
  have he : e.id ≠ NULL_ID := (hc.orders.lt g e.id (by simp [h1])).2
  have hs' : s' = { s with orders := o1 } := by
    unfold Store.addOrder at ha
    rw [p1] at ha
    cases ha; rfl
  subst hs'
  unfold Store.removeOrder at hr
  obtain ⟨o2, r2, -⟩ := bind_eq_ok.1 hr
  rw [Orders.remove_exclusive r2 he]
  exact fun hh => hh.1 a3

end
/-- The hypotheses of `C91_exclusive` are met, with references and other accesses to the same arrays in use at the same time:
entity 4 is put between 1 and 2, which are in a chain, and 1 is taken out. -/
example : ∃ s, LaxExec demo true 1 aside s ∧ ⟨4, 1⟩ ∈ handles aside ∧ 4 ∉ (chains 7 aside).placed ∧
    (s.orders.addNextToT true 7 4 1).uses =
      [.borrow .fwdEntityId ⟨0, true, 4⟩, .borrow .bwdEntityId ⟨0, false, 4⟩, .via .fwdEntityId, .via .bwdEntityId,
       .borrow .fwdAfterId ⟨0, true, 1⟩, .via .fwdAfterId, .via .fwdAfterId, .raw ⟨0, false, 2⟩, .via .fwdAfterId,
       .via .fwdEntityId, .via .fwdAfterId, .via .bwdEntityId] ∧
    (s.orders.removeT 7 1).uses =
      [.borrow .fwd ⟨0, true, 1⟩, .borrow .bwd ⟨0, false, 1⟩, .via .fwd, .via .bwd, .via .fwd, .raw ⟨0, false, 2⟩, .via .bwd,
       .via .fwd, .via .bwd, .raw ⟨0, true, 3⟩, .via .bwd, .via .fwd] := by
  have h : ((runLax demo true 1 aside).any fun s => decide ((s.orders.addNextToT true 7 4 1).uses =
      [.borrow .fwdEntityId ⟨0, true, 4⟩, .borrow .bwdEntityId ⟨0, false, 4⟩, .via .fwdEntityId, .via .bwdEntityId,
       .borrow .fwdAfterId ⟨0, true, 1⟩, .via .fwdAfterId, .via .fwdAfterId, .raw ⟨0, false, 2⟩, .via .fwdAfterId,
       .via .fwdEntityId, .via .fwdAfterId, .via .bwdEntityId] ∧
    (s.orders.removeT 7 1).uses =
      [.borrow .fwd ⟨0, true, 1⟩, .borrow .bwd ⟨0, false, 1⟩, .via .fwd, .via .bwd, .via .fwd, .raw ⟨0, false, 2⟩, .via .bwd,
       .via .fwd, .via .bwd, .raw ⟨0, true, 3⟩, .via .bwd, .via .fwd])) = true := by decide +kernel
  obtain ⟨s, hs, h⟩ := any_some h
  exact ⟨s, runLax_sound hs, by decide, by decide, of_decide_eq_true h⟩

/-- Entity 0 is the sole member of group 7, added once. -/
def soleMember : List Event := [.orderedLast 7 ⟨0, 1⟩, .created ⟨0, 1⟩]

/-- **C91 is false of the code** in general: in a debug build, the sole member of a group is added again, which returns. Removing
or destroying it returns too, but uses a reference to its backward link after writing to the link through the array. -/
theorem C91_counterexample : ∃ s s' s2 s3, WellExec demo true 1 soleMember s ∧ sequence 7 soleMember = [⟨0, 1⟩] ∧
    s.addOrder true 7 ⟨0, 1⟩ = .ok s' ∧ s'.removeOrder 7 ⟨0, 1⟩ = .ok s2 ∧ s'.destroyEntity true ⟨0, 1⟩ = .ok s3 ∧
    ¬ Exclusive (s'.orders.removeT 7 0).uses ∧ ¬ Exclusive (s'.orders.removeAllT 0).uses := by
  have h : ((runWell demo true 1 soleMember).any fun s => okAnd (s.addOrder true 7 ⟨0, 1⟩) fun s' =>
      okAnd (s'.removeOrder 7 ⟨0, 1⟩) fun _ => okAnd (s'.destroyEntity true ⟨0, 1⟩) fun _ =>
        decide (¬ Exclusive (s'.orders.removeT 7 0).uses ∧ ¬ Exclusive (s'.orders.removeAllT 0).uses)) = true := by decide +kernel
  obtain ⟨s, hs, h⟩ := any_some h
  obtain ⟨s', h1, h⟩ := okAnd_iff h
  obtain ⟨s2, h2, h⟩ := okAnd_iff h
  obtain ⟨s3, h3, h⟩ := okAnd_iff h
  exact ⟨s, s', s2, s3, runWell_sound hs, by decide, h1, h2, h3, of_decide_eq_true h⟩

/-- Entities 0 and 1 are the members of group 7, in this order. -/
def twoMembers : List Event := [.orderedLast 7 ⟨1, 1⟩, .orderedLast 7 ⟨0, 1⟩, .created ⟨1, 1⟩, .created ⟨0, 1⟩]

/-- **C91 is false of the code** in general: in a release build, entity 1 is put next to 0 although it is there already. -/
theorem C91_counterexample_release : ∃ s s', WellExec demo false 1 twoMembers s ∧
    s.addOrderNextTo false 7 ⟨1, 1⟩ ⟨0, 1⟩ = .ok s' ∧ ¬ Exclusive (s.orders.addNextToT false 7 1 0).uses := by
  have h : ((runWell demo false 1 twoMembers).any fun s => okAnd (s.addOrderNextTo false 7 ⟨1, 1⟩ ⟨0, 1⟩) fun _ =>
      decide (¬ Exclusive (s.orders.addNextToT false 7 1 0).uses)) = true := by decide +kernel
  obtain ⟨s, hs, h⟩ := any_some h
  obtain ⟨s', h1, h⟩ := okAnd_iff h
  exact ⟨s, s', runWell_sound hs, h1, of_decide_eq_true h⟩

end Ecs.Props
