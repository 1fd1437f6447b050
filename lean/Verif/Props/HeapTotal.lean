import Verif.Proofs.HeapTotal
import Verif.Props.HeapSizes

/-! Property C88: what growing costs. -/

namespace Ecs.Props
open Spec StorePtrs HeapM

variable {U : Universe} {dbg : Bool} {cap : Nat} {quiet : Bool} {ops : List HeapOp} {s : Store}

/-- **C88**, for stores: in its whole life, a store with a positive initial capacity asks the allocator for at most 44 bytes for each
entity it has room for in the end, 10 more for each tag and 16 more for each order group (although it moves its tables each time it
grows), apart from the pages, and 48 or 56 bytes for each component type in an archetype that it makes. (The operations need not
come from a program: see `HeapOp`.) -/
theorem C88_store_total (dbg : Bool) (hcap : 0 < cap) (ops : List HeapOp) (hops : ∀ op ∈ ops, Makeable op) (H : Heap) :
    ∃ H', StorePtrs.life dbg cap ops H = .ok () H' ∧
      H'.total ≤ H.total + (44 + 10 * ops.countP HeapOp.isTag + 16 * ops.countP HeapOp.isGroup) * ops.foldl HeapOp.capacity cap +
        5 * 16384 + (ops.map HeapOp.extra).sum := by
  obtain ⟨H', _, hl, -⟩ := C54_exact_leak dbg hcap ops hops H
  refine ⟨H', hl, ?_⟩
  have := costs_life dbg hcap ops H
  rw [hl] at this
  have := this.1
  unfold rate at this
  omega

/-- The numbers of tags and groups in the shape. -/
theorem shape_tags (ops : List HeapOp) (S : Shape) :
    (ops.foldl Shape.caught S).tags = S.tags + ops.countP HeapOp.isTag ∧
      (ops.foldl Shape.caught S).groups = S.groups + ops.countP HeapOp.isGroup := by
  induction ops generalizing S with
  | nil => exact ⟨rfl, rfl⟩
  | cons op ops ih =>
    rw [List.foldl_cons, List.countP_cons, List.countP_cons]
    have hs : (S.caught op).tags = S.tags + (if op.isTag then 1 else 0) ∧ (S.caught op).groups = S.groups + if op.isGroup then 1 else 0 := by
      unfold Shape.caught
      rcases op with g | ⟨t, _ | ⟨n, slot, fits⟩, page⟩ | i | i
      · exact ⟨rfl, rfl⟩
      · exact ⟨rfl, rfl⟩
      · cases fits
        · exact ⟨rfl, rfl⟩
        · exact ⟨rfl, rfl⟩
      · exact ⟨rfl, rfl⟩
      · exact ⟨rfl, rfl⟩
    obtain ⟨h1, h2⟩ := ih (S.caught op)
    omega

/-- **C88**, for all programs that catch panics and whose capacity stays below 2^32: the same with the capacity, the numbers of tags
and order groups of the store in the end. By `C05_store_ids_and_capacity` the capacity is at most the initial one or twice the
largest number of entities alive at the same time. -/
theorem C88_program_total (hcap : 0 < cap) (h : HeapExec U dbg cap quiet ops s) (H : Heap) :
    ∃ H', StorePtrs.life dbg cap ops H = .ok () H' ∧
      H'.total ≤ H.total + (44 + 10 * s.tags.bitvecs.length + 16 * s.orders.groups.length) * s.entitiesCapacity +
        5 * 16384 + (ops.map HeapOp.extra).sum := by
  obtain ⟨hs, hu, hf, -⟩ := Store.heapExec_sized h
  have h1 := capacity_foldl ops ⟨cap, 0, 0, [], [], 5⟩
  obtain ⟨h2, h3⟩ := shape_tags ops ⟨cap, 0, 0, [], [], 5⟩
  have hc := hs.cap
  have ht := hs.tags
  have hg := hs.groups
  dsimp only at h1 h2 h3
  rw [Nat.zero_add] at h2 h3
  rw [h1] at hc
  rw [h2] at ht
  rw [h3] at hg
  obtain ⟨H', hl, hb⟩ := C88_store_total dbg hcap ops (fun op hop => by
    have := hf op hop
    cases op <;> exact this) H
  exact ⟨H', hl, by rw [ht, hg]; show _ ≤ _ + _ * s.ents.capacity + _ + _; rw [hc]; exact hb⟩

/-- **C88**, for resource stores of a type of `size` bytes: at most `2 * (size + 9)` bytes for each value it has room for in the
end. -/
theorem C88_resource_total {size : Nat} (hs : 0 < size) (hcap : 0 < cap) (ops : List Bool) (H : Heap) :
    ∃ H', ResPtrs.life size cap ops H = .ok () H' ∧
      H'.total ≤ H.total + 2 * (size + 9) * (ops.map HeapOp.create).foldl HeapOp.capacity cap := by
  obtain ⟨H', _, _, hl, -⟩ := C55_drop_leaks_elements hs hcap ops H
  refine ⟨H', hl, ?_⟩
  have := ResPtrs.costs_life (size := size) hcap ops H
  rw [hl] at this
  exact this.1

/-- The sum of all requests. -/
def totalOf (r : EStateM.Result Fault Heap Unit) : Option Nat :=
  match r with
  | .ok _ H => some H.total
  | .error _ _ => none

/-- A store that doubles eight times after a tag and a group were registered: its tables take 5228 bytes in the end, and it
asked for 10460 bytes for them in all (the bound allows 17920), and 5 * 16384 for the pages. -/
example : totalOf (StorePtrs.life true 1 (.tag 0 :: .group 0 :: List.replicate 8 (.create true)) ⟨0, [], []⟩) = some (10460 + 5 * 16384) ∧
    (44 + 10 * 1 + 16 * 1) * (HeapOp.tag 0 :: .group 0 :: List.replicate 8 (.create true)).foldl HeapOp.capacity 1 = 17920 := by
  decide +kernel

/-- The program of C76, with one lost block. -/
example : (runHeap coarse true false 1 losingCalls).any (fun p => decide ((p.1.map HeapOp.extra).sum = 856) &&
    decide ((p.2.tags.bitvecs.length, p.2.orders.groups.length, p.2.entitiesCapacity) = (1, 1, 2))) = true := by
  decide +kernel

/-- A resource store of a type of 24 bytes that doubles ten times. -/
example : totalOf (ResPtrs.life 24 1 (List.replicate 10 true) ⟨0, [], []⟩) = some 57596 ∧
    2 * (24 + 9) * ((List.replicate 10 true).map HeapOp.create).foldl HeapOp.capacity 1 = 67584 := by
  decide +kernel

end Ecs.Props
