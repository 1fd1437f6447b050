import Verif.Proofs.Heap

/-! Properties C54 and C55: the memory of stores. The model is `Model/Heap.lean`: a heap is a list of allocated blocks
(address, size); freeing a block that is not in the list (freed twice, never allocated, or with another
size) and requests of zero bytes are undefined behaviour and end the program with an error. -/

namespace Ecs.Props

/-- The archetypes made by an operation have at least one type and their rows fit into a page. -/
def Placeable : HeapOp → Prop
  | .place temporary archetype _ =>
    (∀ n, temporary = some n → 0 < n) ∧ ∀ count slot fits, archetype = some (count, slot, fits) → 0 < count ∧ fits = true
  | _ => True

/-- The archetypes made by an operation have at least one type. -/
def Makeable : HeapOp → Prop
  | .place temporary archetype _ =>
    (∀ n, temporary = some n → 0 < n) ∧ ∀ count slot fits, archetype = some (count, slot, fits) → 0 < count
  | _ => True

/-- What an operation loses: the offsets (8 bytes per component type) of an archetype whose rows do not fit into a page. -/
def lost : HeapOp → List Nat
  | .place _ (some (count, _, false)) _ => [8 * count]
  | _ => []

/-- **C54**, with panics caught, for stores with a positive initial capacity: whatever is done with a store, none of its calls of
the allocator, nor of those of its drop, is undefined behaviour, and after the drop the heap contains the blocks it had
before the store was created and exactly one more for each operation that panicked, of 8 bytes for each component type. -/
theorem C54_exact_leak (dbg : Bool) {cap : Nat} (hcap : 0 < cap) (ops : List HeapOp) (hops : ∀ op ∈ ops, Makeable op) (H : Heap) :
    ∃ (H' : Heap) (L : List Block), StorePtrs.life dbg cap ops H = .ok () H' ∧ H'.blocks.Perm (L ++ H.blocks) ∧
      (L.map (·.2)).Perm (ops.flatMap lost) := by
  have ho : ∀ op ∈ ops, StorePtrs.OpFair op := by
    intro op hop
    have := hops op hop
    cases op <;> exact this
  obtain ⟨_, _, _, _, H', L, -, -, -, -, -, h1, h2, h3, -⟩ := StorePtrs.life_spec dbg hcap ops ho H
  exact ⟨H', L, h1, h2, h3⟩

/-- **C54**, for stores with a positive initial capacity on which no call panics: whatever is done with a store, none
of its calls of the allocator, nor of those of its drop, is undefined behaviour, and after the drop the heap
contains the same blocks as before the store was created. -/
theorem C54_store_returns_memory_partial (dbg : Bool) {cap : Nat} (hcap : 0 < cap) (ops : List HeapOp)
    (hops : ∀ op ∈ ops, Placeable op) (H : Heap) :
    ∃ H', StorePtrs.life dbg cap ops H = .ok () H' ∧ H'.blocks.Perm H.blocks := by
  obtain ⟨H', L, h1, h2, h3⟩ := C54_exact_leak dbg hcap ops (fun op hop => by
    have := hops op hop
    cases op with
    | place t a p => exact ⟨this.1, fun c s f he => (this.2 c s f he).1⟩
    | _ => trivial) H
  have hl : ops.flatMap lost = [] := List.flatMap_eq_nil_iff.2 fun op hop => by
    have h := hops op hop
    match op, h with
    | .place _ (some (c, s, f)) _, h => rw [(h.2 c s f rfl).2]; rfl
    | .place _ none _, _ | .create _, _ | .tag _, _ | .group _, _ => rfl
  rw [hl] at h3
  rw [List.map_eq_nil_iff.1 h3.eq_nil] at h2
  exact ⟨H', h1, h2⟩

/-- What the heap looks like after the life of a store. -/
def afterLife (r : EStateM.Result Fault Heap Unit) : Option (Nat × List Block) :=
  match r with
  | .ok _ H => some (H.next, H.blocks)
  | .error _ _ => none

/-- The hypotheses of C54 are met by a life with all kinds of operations; at its end the heap has the one block it had
before, although 40 blocks were handed out. -/
example : (∀ op ∈ [HeapOp.create false, .place none (some (2, 0, true)) false, .create true, .tag 0, .group 0, .group 0,
      .place (some 3) (some (3, 0, true)) true, .create true], Placeable op) ∧
    afterLife (StorePtrs.life true 1 [.create false, .place none (some (2, 0, true)) false, .create true, .tag 0, .group 0, .group 0,
      .place (some 3) (some (3, 0, true)) true, .create true] ⟨1, [(0, 8)], []⟩) = some (41, [(0, 8)]) :=
  ⟨by simp [Placeable], by decide +kernel⟩

/-- Two operations that panic, one of them with a temporary archetype, and ones that do not: blocks of 16 and 24 bytes are left. -/
example : (∀ op ∈ [HeapOp.create false, .place none (some (2, 0, false)) false, .create true,
      .place (some 3) (some (3, 0, false)) true, .place (some 1) (some (1, 0, true)) false], Makeable op) ∧
    afterLife (StorePtrs.life true 1 [.create false, .place none (some (2, 0, false)) false, .create true,
      .place (some 3) (some (3, 0, false)) true, .place (some 1) (some (1, 0, true)) false] ⟨1, [(0, 8)], []⟩) =
      some (29, [(19, 24), (11, 16), (0, 8)]) :=
  ⟨by simp [Makeable], by decide +kernel⟩

/-- What is left after a call of `op` on a new store panicked, the panic was caught and the store was dropped: the
number of blocks in the heap. -/
def leftAfterPanic (dbg : Bool) (cap : Nat) (op : HeapOp) (H : Heap) : Option Nat :=
  match StorePtrs.withCapacity dbg cap H with
  | .ok s H1 =>
    match s.step op H1 with
    | .error (.panic _) H2 =>
      match s.drop H2 with
      | .ok _ H3 => some H3.blocks.length
      | .error _ _ => none
    | _ => none
  | .error _ _ => none

/-- **C54** is false without these hypotheses: `Store::with_capacity(0)` in a release build asks for zero bytes,
and if creating an entity panics because the rows of its archetype do not fit into a page, the offsets
allocated for the layout are never freed. -/
theorem C54_counterexample :
    (∃ H, StorePtrs.life false 0 [] ⟨0, [], []⟩ = .error (.ub .zeroAlloc) H) ∧
    leftAfterPanic true 1 (.place none (some (2, 0, false)) false) ⟨0, [], []⟩ = some 1 :=
  ⟨⟨⟨0, [], []⟩, rfl⟩, by decide +kernel⟩

/-- **C55**, negated in general: a resource store of a type with a positive size and a positive initial capacity works,
but its drop always leaves exactly one block behind: the array of its elements, of the current capacity. -/
theorem C55_drop_leaks_elements {size cap : Nat} (hs : 0 < size) (hcap : 0 < cap) (ops : List Bool) (H : Heap) :
    ∃ H' p n, ResPtrs.life size cap ops H = .ok () H' ∧ cap ≤ n ∧ H'.blocks.Perm ((p, size * n) :: H.blocks) := by
  obtain ⟨r, H1, h1, hr, b1⟩ := ResPtrs.takes_use hs hcap ops H H.bag (by simp)
  obtain ⟨_, H2, h2, _, b2⟩ := r.takes_drop H1 H.bag b1
  refine ⟨H2, r.elements, r.ents.capacity, ?_, hr.le, ?_⟩
  · have : ResPtrs.life size cap ops = (ResPtrs.withCapacity size cap >>= fun r => ops.foldlM ResPtrs.create r) >>= ResPtrs.drop := by
      rw [bind_assoc]; rfl
    rw [this]
    show EStateM.bind _ _ H = _
    unfold EStateM.bind
    rw [h1]
    exact h2
  · rw [hr.size] at b2
    apply Multiset.coe_eq_coe.1
    rw [← Multiset.cons_coe, ← Multiset.singleton_add]
    exact b2

/-- **C55**, for `ResourceStore::new()` and for types of size zero: both ask the allocator for zero bytes, which is
undefined behaviour. -/
theorem C55_zero_bytes (size cap : Nat) (H : Heap) :
    ResPtrs.new size H = .error (.ub .zeroAlloc) H ∧ ResPtrs.withCapacity 0 cap H = .error (.ub .zeroAlloc) H := by
  constructor
  · rfl
  · show EStateM.bind _ _ H = _
    unfold EStateM.bind HeapM.alloc
    rw [Nat.zero_mul, if_pos rfl]

/-- The resource store of C55 with three creations, two of which grow it: 16 bytes for each of 4 elements are left. -/
example : afterLife (ResPtrs.life 16 1 [false, true, true] ⟨0, [], []⟩) = some (7, [(6, 64)]) := by decide +kernel

end Ecs.Props
