import Verif.Proofs.HeapCalls
import Verif.Props.Heap
import Verif.Props.Defects

/-! Property C54 for programs that make calls on a store, and property C76: the memory a store holds. Here the operations on the
heap are not arbitrary but the ones that the calls perform, `heapOps` in `Spec/HeapCalls.lean`. -/

namespace Ecs.Props
open Spec StorePtrs

variable {U : Universe} {dbg : Bool} {cap : Nat} {quiet : Bool} {ops : List HeapOp} {s : Store}

theorem lost_eq (op : HeapOp) : leak op = lost op := by
  unfold leak lost
  rcases op with _ | ⟨_, _ | ⟨_, _, _ | _⟩, _⟩ | _ | _ <;> rfl

/-- **C54**, for all programs that catch panics, with a positive initial capacity: the calls of the allocator made by the program
are never undefined behaviour, nor are those made by the drop of the store, and after the drop the heap contains the blocks
it had before and the blocks that were lost by calls that panicked. **C76**: before the drop, the blocks in the heap are
those that were there before, those lost, and exactly those that the state of the store tells (`ownedBlocks`). -/
theorem C76_memory_of_store (hcap : 0 < cap) (h : HeapExec U dbg cap quiet ops s) (H : Heap) :
    ∃ (p0 p : StorePtrs) (H0 H1 H2 : Heap) (L : List Block),
      StorePtrs.withCapacity dbg cap H = .ok p0 H0 ∧ ops.foldlM StorePtrs.caught p0 H0 = .ok p H1 ∧ p.drop H1 = .ok () H2 ∧
      (H1.blocks.map (·.2)).Perm (ownedBlocks s ++ L.map (·.2) ++ H.blocks.map (·.2)) ∧
      H2.blocks.Perm (L ++ H.blocks) ∧ (L.map (·.2)).Perm (ops.flatMap lost) := by
  obtain ⟨hs, -, hf, -⟩ := Store.heapExec_sized h
  obtain ⟨p0, H0, p, H1, H2, L, e0, e1, hg, hsh, e2, -, b2, hl, b1⟩ := life_spec dbg hcap ops hf H
  refine ⟨p0, p, H0, H1, H2, L, e0, e1, e2, ?_, b2, ?_⟩
  · rw [← hsh] at hs
    have := congrArg (Multiset.map Prod.snd) b1
    rw [Multiset.map_add, Multiset.map_add, Store.owned hs hg] at this
    apply Multiset.coe_eq_coe.1
    rw [List.append_assoc, ← Multiset.coe_add, ← Multiset.coe_add, ← Multiset.map_coe, ← Multiset.map_coe, ← Multiset.map_coe]
    exact this
  · rw [show lost = leak from funext fun op => (lost_eq op).symm]
    exact hl

/-- **C54**: a call that loses a block panics; so programs in which no call panics get all their memory back. -/
theorem C54_lost_only_by_panics (h : HeapExec U dbg cap quiet ops s) (c : Call) {r : Res Unit} {s' : Store}
    (hr : (c.exec U dbg).run s = (r, s')) (hE : Ended r) (hl : (heapOps U dbg s c).flatMap lost ≠ []) : ∃ p, r = .error (.panic p) := by
  obtain ⟨h1, h2, -, -⟩ := Store.heapExec_sized h
  have := Store.call_after U dbg c h1 h2
  unfold Unw.Sat at this
  change c.exec U dbg s = _ at hr
  rw [hr] at this
  exact (this hE).2 (by rw [show leak = lost from funext lost_eq]; exact hl)

/-- **C54**, for all programs in which no call panics, with a positive initial capacity: after the drop of the store the heap contains
the same blocks as before its creation. -/
theorem C54_quiet_programs_return_memory (hcap : 0 < cap) (h : HeapExec U dbg cap true ops s) (H : Heap) :
    ∃ H', StorePtrs.life dbg cap ops H = .ok () H' ∧ H'.blocks.Perm H.blocks := by
  obtain ⟨-, -, hf, hq⟩ := Store.heapExec_sized h
  obtain ⟨p0, H0, p, H1, H2, L, -, -, -, -, -, hlife, b2, hl, -⟩ := life_spec dbg hcap ops hf H
  rw [hq rfl] at hl
  rw [List.map_eq_nil_iff.1 hl.eq_nil] at b2
  exact ⟨H2, hlife, b2⟩

/-- **C76**: no call makes the capacity smaller or gives blocks back, whether it panics or not; calls that destroy an entity,
assign components, remove a tag or remove from an order group leave the memory as it is. -/
theorem C76_never_shrinks (h : HeapExec U dbg cap quiet ops s) (c : Call) {r : Res Unit} {s' : Store}
    (hr : (c.exec U dbg).run s = (r, s')) (hE : Ended r) :
    s.entitiesCapacity ≤ s'.entitiesCapacity ∧ (ownedBlocks s).length ≤ (ownedBlocks s').length ∧
      ((∃ e, c = .destroy e) ∨ (∃ e vals, c = .assign e vals) ∨ (∃ t e, c = .untag t e) ∨ (∃ g e, c = .unorder g e) →
        ownedBlocks s' = ownedBlocks s) := by
  obtain ⟨h1, h2, h3⟩ := Store.call_blocks h hr hE
  refine ⟨h1, h2, fun hc => h3 ?_⟩
  rcases hc with ⟨_, rfl⟩ | ⟨_, _, rfl⟩ | ⟨_, _, rfl⟩ | ⟨_, _, rfl⟩ <;> rfl

/-! ### A program -/

/-- Checks that the call is sensible. -/
def sensible : Call → Bool
  | .createWith a => !a.ids.isEmpty
  | _ => true

/-- Checks how the call ended. -/
def endedWell (quiet : Bool) : Res Unit → Bool
  | .ok _ => true
  | .error (.panic _) => !quiet
  | .error _ => false

/-- Runs calls, newest first, and collects the operations on the heap; `none` if a call is undefined behaviour (or panics although
`quiet`) or the capacity gets too large. -/
def runHeap (U : Universe) (dbg quiet : Bool) (cap : Nat) : List Call → Option (List HeapOp × Store)
  | [] =>
    match Store.withCapacity dbg cap with
    | .ok s => if s.entitiesCapacity < u32Size then some ([], s) else none
    | .error _ => none
  | c :: calls =>
    match runHeap U dbg quiet cap calls with
    | none => none
    | some (ops, s) =>
      match (c.exec U dbg).run s with
      | (r, s') =>
        if sensible c ∧ endedWell quiet r ∧ s'.entitiesCapacity < u32Size then some (ops ++ heapOps U dbg s c, s') else none

theorem runHeap_sound {calls : List Call} (h : runHeap U dbg quiet cap calls = some (ops, s)) : HeapExec U dbg cap quiet ops s := by
  induction calls generalizing ops s with
  | nil =>
    unfold runHeap at h
    split at h
    · rename_i s0 hs
      split at h
      · cases h
        exact .init hs ‹_›
      · cases h
    · cases h
  | cons c calls ih =>
    unfold runHeap at h
    split at h
    · cases h
    · rename_i ops0 s0 hr
      split at h
      rename_i r s' hc
      split at h
      · rename_i hi
        cases h
        refine .call c (ih hr) ?_ hc ?_ ?_ hi.2.2
        · have := hi.1
          cases c with
          | createWith a =>
            unfold Call.Sensible
            change (!a.ids.isEmpty) = true at this
            rintro he
            rw [he] at this
            cases this
          | _ => trivial
        · have := hi.2.1
          unfold endedWell at this
          unfold Ended
          split at this <;> first | trivial | cases this
        · intro hq
          have := hi.2.1
          subst hq
          unfold endedWell at this
          split at this
          · rfl
          · cases this
          · cases this
      · cases h

/-- The archetype of some types. -/
def archetypeOf (U : Universe) (ts : List TypeId) : Archetype :=
  match Archetype.withComponents U ts with
  | .ok a => a
  | .error _ => ⟨[], [], []⟩

/-- Entity 0 with six components; removing one of them panics (C29); the entity gets a tag and is put into a group; a second entity
is created, for which the buffers grow; entity 0 is destroyed. -/
def losingCalls : List Call :=
  [.destroy ⟨0, 1⟩, .create, .orderLast 3 ⟨0, 1⟩, .tag 7 ⟨0, 1⟩, .remove ⟨0, 1⟩ [5], .createWith (archetypeOf coarse [0, 1, 2, 3, 4, 5])]

/-- The hypotheses of C76 are met by these calls, one block is lost, and the store holds these blocks. -/
example : (runHeap coarse true false 1 losingCalls).any (fun p => decide (p.1.flatMap lost = [40]) &&
    decide (ownedBlocks p.2 = [8, 8, 8, 4, 4, 4, 8, 8, 96, 48, 48, 96, 48, 16384, 16384, 16384, 16384, 16384])) = true := by
  decide +kernel

/-- Without the call that panics the program is quiet. -/
example : ∃ p, runHeap coarse true true 1
    [.destroy ⟨0, 1⟩, .create, .orderLast 3 ⟨0, 1⟩, .tag 7 ⟨0, 1⟩, .createWith (archetypeOf coarse [0, 1, 2, 3, 4, 5])] = some p :=
  Option.isSome_iff_exists.1 (by decide +kernel)

end Ecs.Props
