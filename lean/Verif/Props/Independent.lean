import Verif.Proofs.Independent
import Verif.Props.Unchecked

/-! C78: tags and order groups do not influence entities, components, queries, or each other. -/

namespace Ecs.Props
open Spec

variable {U : Universe} {dbg : Bool} {cap : Nat} {h h' : List Event} {s s' : Store}

/-- **C78** Take any calls with any arguments, valid or not, that all returned. Then the same program without its calls about
tags (unless `kt`) and about order groups (unless `ko`) also runs: every remaining call returns, creations return the same
handles, and in the end all entities, components, archetypes and query results are the same, and so are the tags and the order
groups if their calls were kept. -/
theorem C78_left_out (kt ko : Bool) (hx : Runs U dbg cap h s) : ∃ s', Runs U dbg cap (without kt ko h) s' ∧
    SeesSame U dbg s s' ∧ (kt = true → SameTags U dbg s s') ∧ (ko = true → SameOrders U dbg s s') :=
  ⟨_, runs_keep kt ko hx, same_components, fun hk => by subst hk; exact same_tags, fun hk => by subst hk; exact same_orders⟩

/-- **C78** Two programs that differ only in their calls about tags and order groups, and whose calls all return, get the same
handles and see the same entities, components and query results. With `kt` their calls about tags agree too, and they see the
same tags; likewise `ko` for order groups. -/
theorem C78_noninterference (kt ko : Bool) (hx : Runs U dbg cap h s) (hy : Runs U dbg cap h' s')
    (hs : List.Forall₂ SameCall (without kt ko h) (without kt ko h')) : handles h = handles h' ∧
    SeesSame U dbg s s' ∧ (kt = true → SameTags U dbg s s') ∧ (ko = true → SameOrders U dbg s s') := by
  obtain ⟨h1, h2⟩ := same_runs (runs_keep kt ko hx) (runs_keep kt ko hy) hs
  rw [handles_without, handles_without] at h2
  have hc : SeesSame U dbg s (s'.keep kt ko) := by
    rw [← h1]
    exact same_components
  have hc' : SeesSame U dbg s' (s'.keep kt ko) := same_components
  refine ⟨h2, ⟨hc.1.trans hc'.1.symm, fun e => (hc.2 e).trans (hc'.2 e).symm, fun e => (hc.3 e).trans (hc'.3 e).symm,
    fun e ts => (hc.4 e ts).trans (hc'.4 e ts).symm, fun e ts => (hc.5 e ts).trans (hc'.5 e ts).symm,
    fun a b c => (hc.6 a b c).trans (hc'.6 a b c).symm, fun a b c => (hc.7 a b c).trans (hc'.7 a b c).symm,
    fun a b c d => (hc.8 a b c d).trans (hc'.8 a b c d).symm, fun a b c d => (hc.9 a b c d).trans (hc'.9 a b c d).symm⟩, ?_, ?_⟩
  · rintro rfl
    have ht : SameTags U dbg s (s'.keep true ko) := by
      rw [← h1]
      exact same_tags
    have ht' : SameTags U dbg s' (s'.keep true ko) := same_tags
    exact ⟨fun a b => (ht.1 a b).trans (ht'.1 a b).symm, fun a b c d => (ht.2 a b c d).trans (ht'.2 a b c d).symm⟩
  · rintro rfl
    have ht : SameOrders U dbg s (s'.keep kt true) := by
      rw [← h1]
      exact same_orders
    have ht' : SameOrders U dbg s' (s'.keep kt true) := same_orders
    exact ⟨fun a b => (ht.1 a b).trans (ht'.1 a b).symm, fun a b => (ht.2 a b).trans (ht'.2 a b).symm,
      fun a => (ht.3 a).trans (ht'.3 a).symm, fun a => (ht.4 a).trans (ht'.4 a).symm,
      fun a b c d => (ht.5 a b c d).trans (ht'.5 a b c d).symm, fun a b c d => (ht.6 a b c d).trans (ht'.6 a b c d).symm⟩

/-- **C78** In two such programs a call that adds, removes or assigns components also fails in the same way, if it does. -/
theorem C78_same_faults (hx : Runs U dbg cap h s) (hy : Runs U dbg cap h' s')
    (hs : List.Forall₂ SameCall (without false false h) (without false false h')) (e : Entity) (x : Fault) :
    (∀ vals, s.addComponents U dbg e vals = .error x ↔ s'.addComponents U dbg e vals = .error x) ∧
    (∀ ts, s.removeComponents U dbg e ts = .error x ↔ s'.removeComponents U dbg e ts = .error x) ∧
    (∀ vals, s.setComponents U dbg e vals = .error x ↔ s'.setComponents U dbg e vals = .error x) := by
  obtain ⟨h1, _⟩ := same_runs (runs_keep false false hx) (runs_keep false false hy) hs
  refine ⟨fun vals => ?_, fun ts => ?_, fun vals => ?_⟩
  · rw [← map_error (r := s.addComponents U dbg e vals), ← map_error (r := s'.addComponents U dbg e vals),
      ← Store.addComponents_dress, ← Store.addComponents_dress]
    exact Eq.congr (congrArg (fun z : Store => z.addComponents U dbg e vals) h1) rfl
  · rw [← map_error (r := s.removeComponents U dbg e ts), ← map_error (r := s'.removeComponents U dbg e ts),
      ← Store.removeComponents_dress, ← Store.removeComponents_dress]
    exact Eq.congr (congrArg (fun z : Store => z.removeComponents U dbg e ts) h1) rfl
  · rw [← map_error (r := s.setComponents U dbg e vals), ← map_error (r := s'.setComponents U dbg e vals),
      ← Store.setComponents_dress, ← Store.setComponents_dress]
    exact Eq.congr (congrArg (fun z : Store => z.setComponents U dbg e vals) h1) rfl

/-- Executions of the store with any arguments are among those of C78. -/
theorem free_runs (hx : FreeExec U dbg cap h s) : Runs U dbg cap h s := by
  induction hx with
  | init hs => exact .init hs
  | step ev _ _ hr ih => exact .step ev ih hr

/-- Two entities with a component, tags, an order group, growth, a destruction and a reused id. -/
def decorated : List Event :=
  [.tagged 5 ⟨2, 1⟩, .added ⟨0, 2⟩ [(1, [7])], .created ⟨0, 2⟩, .destroyed ⟨0, 1⟩, .orderedBefore 7 ⟨2, 1⟩ ⟨0, 1⟩, .created ⟨2, 1⟩,
   .orderedLast 7 ⟨1, 1⟩, .orderedLast 7 ⟨0, 1⟩, .tagged 5 ⟨1, 1⟩, .added ⟨1, 1⟩ [(1, [2])], .created ⟨1, 1⟩, .tagged 6 ⟨0, 1⟩,
   .created ⟨0, 1⟩]

/-- A program with the same entities and components and other tags and groups. -/
def redecorated : List Event :=
  [.added ⟨0, 2⟩ [(1, [7])], .created ⟨0, 2⟩, .destroyed ⟨0, 1⟩, .created ⟨2, 1⟩, .orderedLast 9 ⟨1, 1⟩,
   .added ⟨1, 1⟩ [(1, [2])], .created ⟨1, 1⟩, .created ⟨0, 1⟩]

/-- The hypotheses of the theorems above; the tags of the two programs do differ, and so do their groups. -/
example : ∃ s s', Runs demo true 1 decorated s ∧ Runs demo true 1 redecorated s' ∧
    List.Forall₂ SameCall (without false false decorated) (without false false redecorated) ∧
    s.hasTag 5 ⟨2, 1⟩ = .ok true ∧ s'.hasTag 5 ⟨2, 1⟩ = .ok false ∧ s.getFirstOrdered 7 = .ok (some ⟨2, 1⟩) ∧
    s'.getFirstOrdered 7 = .ok none ∧ s'.getComponents demo true ⟨0, 2⟩ [1] = .ok (some [[some 7]]) ∧
    handles decorated = [⟨0, 2⟩, ⟨2, 1⟩, ⟨1, 1⟩, ⟨0, 1⟩] := by
  have h : ((runFree demo true 1 decorated).any fun s =>
      decide (s.hasTag 5 ⟨2, 1⟩ = .ok true ∧ s.getFirstOrdered 7 = .ok (some ⟨2, 1⟩))) = true := by decide +kernel
  have h' : ((runFree demo true 1 redecorated).any fun s =>
      decide (s.hasTag 5 ⟨2, 1⟩ = .ok false ∧ s.getFirstOrdered 7 = .ok none ∧
        s.getComponents demo true ⟨0, 2⟩ [1] = .ok (some [[some 7]]))) = true := by decide +kernel
  obtain ⟨s, hs, h⟩ := any_some h
  obtain ⟨s', hs', h'⟩ := any_some h'
  have h := of_decide_eq_true h
  have h' := of_decide_eq_true h'
  exact ⟨s, s', free_runs (runFree_sound hs), free_runs (runFree_sound hs'),
    List.forall₂_iff_zip.2 ⟨rfl, fun hm => by
      simp only [without, decorated, redecorated, aboutTags, aboutOrders, List.filter] at hm
      simp at hm
      rcases hm with ⟨rfl, rfl⟩ | ⟨rfl, rfl⟩ | ⟨rfl, rfl⟩ | ⟨rfl, rfl⟩ | ⟨rfl, rfl⟩ | ⟨rfl, rfl⟩ | ⟨rfl, rfl⟩ <;> trivial⟩,
    h.1, h'.1, h.2, h'.2.1, h'.2.2, rfl⟩

end Ecs.Props
