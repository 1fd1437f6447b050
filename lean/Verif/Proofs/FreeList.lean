import Verif.Spec.Run
import Verif.Spec.Alloc
import Verif.Proofs.History

/-! A program with few entities and types that makes the list of free archetypes longer and longer (C126). -/

namespace Ecs.FreeList
open Spec

/-- The archetype with one type of one byte. -/
def single (t : Nat) : Archetype := ⟨[t], [1], [1]⟩

/-- The container between two uses: three archetypes, the last two free, page 3 used last for archetype `i`. -/
def restArchs (i : Nat) (f : List Nat) : Archs where
  archetypes := [single 0, single 4, single 5]
  layouts := [⟨[0], 16383⟩, ⟨[0], 16383⟩, ⟨[0], 16383⟩]
  archPages := [[4], [], []]
  pages := [Page.new, Page.new, ⟨⟨[], 16383⟩, fun _ => none⟩, ⟨⟨[], 16383⟩, fun _ => none⟩, ⟨⟨[], 16383⟩, fun _ => none⟩]
  pageToArch := [0, 0, 2, i, 0]
  freeArchetypes := f
  freePages := [0, 1, 2, 3]

/-- The container while entity 0 has the archetype `i`. -/
def busyArchs (i : Nat) (f : List Nat) : Archs :=
  { restArchs i f with
    archPages := [[4], [], []].set i [3]
    pages := [Page.new, Page.new, ⟨⟨[], 16383⟩, fun _ => none⟩, ⟨⟨[0], 16383⟩, fun _ => none⟩, ⟨⟨[], 16383⟩, fun _ => none⟩]
    freePages := [0, 1, 2] }

/-- The store between two uses. -/
def rest (i v : Nat) (f : List Nat) : Store where
  ents := ⟨[], 2, [some v, some 1], [0], 0⟩
  archs := restArchs i f
  tags := ⟨[], [], 2⟩
  orders := ⟨[], [], 2⟩
  toPage := [some 3, some 2]
  toIndex := [some 0, some 0]
  hasArch := [3]

/-- The store while the handle with id 0 and version `v` has the archetype `i`. -/
def busy (i v : Nat) (f : List Nat) : Store :=
  { rest i v f with ents := ⟨[], 2, [some v, some 1], [1], 1⟩, archs := busyArchs i f }

/-- The list after `reserve_archetype` has looked for the archetype in it. -/
def taken (f : List Nat) (i : Nat) : List Nat :=
  match binarySearch f i with
  | .found k => f.eraseIdx k
  | .notFound _ => f

theorem create_ents (dbg : Bool) {v : Nat} (hv : v + 1 < u32Size) :
    Ents.create dbg ⟨[], 2, [some v, some 1], [0], 0⟩ =
      .ok (⟨[], 2, [some (v + 1), some 1], [1], 1⟩, ⟨⟨0, v + 1⟩, 2, 2⟩) := by
  have h1 : Ents.takeId dbg ⟨[], 2, [some v, some 1], [0], 0⟩ = .ok (0, ⟨[], 2, [some v, some 1], [0], 1⟩) := rfl
  have h2 : Words.toggle [0] 0 = .ok [1] := rfl
  have h3 : addU32 dbg v 1 = .ok (v + 1) := if_pos hv
  unfold Ents.create
  rw [h1, ok_bind]
  dsimp only
  rw [h2, ok_bind, show Raw.read [some v, some 1] 0 = .ok v from rfl, ok_bind, h3, ok_bind]
  rfl

theorem destroy_ents (dbg : Bool) (v : Nat) :
    Ents.destroy dbg ⟨[], 2, [some v, some 1], [1], 1⟩ ⟨0, v⟩ = .ok ⟨[], 2, [some v, some 1], [0], 0⟩ := by
  have h1 : Ents.validateVersion ⟨[], 2, [some v, some 1], [1], 1⟩ ⟨0, v⟩ = .ok true := by
    unfold Ents.validateVersion
    rw [show Raw.read [some v, some 1] 0 = .ok v from rfl, ok_bind, beq_self_eq_true]
    rfl
  have h2 : Words.toggle [1] 0 = .ok [0] := by decide
  have h3 : Words.isOn [1] 0 = .ok true := by decide
  cases dbg with
  | false =>
    unfold Ents.destroy
    simp only [Ents.validateVersionWithPanic, Bool.false_eq_true, if_false, pure_bind, h2, ok_bind]
    rfl
  | true =>
    unfold Ents.destroy Ents.validateVersionWithPanic Ents.isAlive
    simp only [h1, h2, h3, ok_bind, if_true, Bool.and_self]
    rfl

theorem reserve (dbg : Bool) {i : Nat} (hi : i = 1 ∨ i = 2) (j : Nat) (f : List Nat) :
    (restArchs j f).reserveArchetype dbg (single (i + 3)) = .ok (restArchs j (taken f i), i) := by
  have h1 : Archs.findSame (single (i + 3)) 0 (restArchs j f).archetypes = some i := by
    show Archs.findSame (single (i + 3)) 0 [single 0, single 4, single 5] = some i
    rcases hi with rfl | rfl <;> decide
  unfold Archs.reserveArchetype taken
  rw [h1]
  dsimp only
  show (match binarySearch f i with | .found k => _ | .notFound _ => _) = _
  split <;> rfl

theorem create_store (dbg : Bool) {i : Nat} (hi : i = 1 ∨ i = 2) (j : Nat) {v : Nat} (hv : v + 1 < u32Size) (f : List Nat) :
    (rest j v f).createEntityWithArchetype dbg (single (i + 3)) = .ok (busy i (v + 1) (taken f i), ⟨0, v + 1⟩) := by
  have h1 : (rest j v f).registerNewEntity dbg =
      .ok ({ rest j v f with ents := ⟨[], 2, [some (v + 1), some 1], [1], 1⟩ }, ⟨0, v + 1⟩) := by
    unfold Store.registerNewEntity
    rw [show (rest j v f).ents = ⟨[], 2, [some v, some 1], [0], 0⟩ from rfl, create_ents dbg hv, ok_bind]
    rfl
  have h2 : (restArchs j f).addEntity dbg 0 (single (i + 3)) = .ok (busyArchs i (taken f i), ⟨3, 0⟩) := by
    unfold Archs.addEntity
    rw [reserve dbg hi, ok_bind]
    rcases hi with rfl | rfl <;> cases dbg <;> rfl
  unfold Store.createEntityWithArchetype
  rw [h1, ok_bind]
  dsimp only
  rw [show (rest j v f).archs = restArchs j f from rfl, h2, ok_bind]
  rfl

theorem destroy_store (dbg : Bool) {i : Nat} (hi : i = 1 ∨ i = 2) (v : Nat) (f : List Nat) :
    (busy i v f).destroyEntity dbg ⟨0, v⟩ = .ok (rest i v (f ++ [i])) := by
  have h1 : (busy i v f).destroyRow ⟨0, v⟩ = .ok { busy i v f with archs := restArchs i (f ++ [i]) } := by
    have h2 : Words.isOn [3] 0 = .ok true := by decide
    have h3 : (busyArchs i f).swapRemoveEntity ⟨3, 0⟩ = .ok (restArchs i (f ++ [i]), none) := by
      rcases hi with rfl | rfl <;> rfl
    unfold Store.destroyRow
    rw [show (busy i v f).hasArch = [3] from rfl, h2, ok_bind, if_pos rfl,
      show (busy i v f).getLocUnchecked 0 = .ok ⟨3, 0⟩ from rfl, ok_bind]
    unfold Store.swapRemoveInternal
    rw [show (busy i v f).archs = busyArchs i f from rfl, h3, ok_bind]
    rfl
  unfold Store.destroyEntity
  rw [h1, ok_bind]
  dsimp only
  rw [show (busy i v f).ents = ⟨[], 2, [some v, some 1], [1], 1⟩ from rfl, destroy_ents, ok_bind]
  rfl

/-- If nothing is larger than the number searched for, the search ends at the last place. -/
theorem bsLoop_last {l : List Nat} {x : Nat} (hl : ∀ k, l.getD k 0 ≤ x) :
    ∀ fuel size base, size ≤ fuel → 0 < size → bsLoop l x fuel size base = base + size - 1 := by
  intro fuel
  induction fuel with
  | zero => intro size base h1 h2; omega
  | succ fuel ih =>
    intro size base h1 h2
    unfold bsLoop
    split
    · dsimp only
      rw [if_neg (Nat.not_lt.2 (hl _)), ih _ _ (by omega) (by omega)]
      omega
    · omega

theorem taken_two {f : List Nat} (hf : ∀ x ∈ f, x ≤ 2) : taken (f ++ [1]) 2 = f ++ [1] := by
  have hl : ∀ k, (f ++ [1]).getD k 0 ≤ 2 := by
    intro k
    rw [List.getD_eq_getElem?_getD]
    cases hk : (f ++ [1])[k]? with
    | none => exact Nat.zero_le _
    | some x =>
      rcases List.mem_append.1 (List.mem_of_getElem? hk) with h | h
      · exact hf x h
      · rw [List.mem_singleton.1 h]; decide
  have h1 := bsLoop_last hl (f ++ [1]).length (f ++ [1]).length 0 (Nat.le_refl _) (by simp)
  unfold taken binarySearch
  rw [if_neg (by simp)]
  dsimp only
  rw [h1]
  simp

theorem taken_le {f : List Nat} {i : Nat} : (∀ x ∈ f, x ≤ 2) → ∀ x ∈ taken f i, x ≤ 2 := by
  intro hf x hx
  unfold taken at hx
  split at hx
  · exact hf x (List.mem_of_mem_eraseIdx hx)
  · exact hf x hx

theorem taken_length (f : List Nat) (i : Nat) : f.length ≤ (taken f i).length + 1 := by
  unfold taken
  split
  · rw [List.length_eraseIdx]; split <;> omega
  · omega

/-- The start of the program: an entity that is destroyed, then two of different types, of which the last is destroyed first. -/
def start : List Event :=
  [.destroyed ⟨0, 2⟩, .destroyed ⟨1, 1⟩, .createdWith ⟨1, 1⟩ [5] fun _ => [none], .createdWith ⟨0, 2⟩ [4] fun _ => [none],
    .destroyed ⟨0, 1⟩, .createdWith ⟨0, 1⟩ [0] fun _ => [none]]

/-- After the start, in every round an entity with the one type is created and destroyed, then an entity with the other type. -/
def rounds : Nat → List Event
  | 0 => start
  | n + 1 => .destroyed ⟨0, 2 * n + 4⟩ :: .createdWith ⟨0, 2 * n + 4⟩ [4] (fun _ => [none]) ::
      .destroyed ⟨0, 2 * n + 3⟩ :: .createdWith ⟨0, 2 * n + 3⟩ [5] (fun _ => [none]) :: rounds n

theorem start_runs (dbg : Bool) : runLoose demo dbg 2 start = some (rest 1 2 [2, 1]) := by
  cases dbg <;> rfl

theorem rounds_alive (n : Nat) : alive (rounds n) = [] := by
  induction n with
  | zero => decide
  | succ n ih => simp [rounds, alive, ih]

theorem rounds_handles (n : Nat) : (handles (rounds n)).length = 2 * n + 3 := by
  induction n with
  | zero => decide
  | succ n ih => simp [rounds, handles, ih]; omega

theorem single_built {i : Nat} (hi : i = 1 ∨ i = 2) : Built demo (single (i + 3)) :=
  .tuple [i + 3] (List.nodup_singleton _) (by rcases hi with rfl | rfl <;> decide)

/-- A use of one of the two types by one entity. -/
theorem use {dbg : Bool} {cap : Nat} {h : List Event} {i j v : Nat} {f : List Nat} (hx : LooseExec demo dbg cap h (rest j v f))
    (hi : i = 1 ∨ i = 2) (hv : v + 1 < u32Size) (hb : (handles h).length + 1 < u32Size) :
    LooseExec demo dbg cap (.destroyed ⟨0, v + 1⟩ :: .createdWith ⟨0, v + 1⟩ [i + 3] (fun _ => [none]) :: h)
      (rest i (v + 1) (taken f i ++ [i])) := by
  have h1 : LooseExec demo dbg cap (.createdWith ⟨0, v + 1⟩ [i + 3] (fun _ => [none]) :: h) (busy i (v + 1) (taken f i)) :=
    .step _ hx (by rw [handles_eq] at hb; exact hb) ⟨_, single_built hi, rfl, create_store dbg hi j hv f⟩
  refine .step _ h1 ?_ (destroy_store dbg hi (v + 1) (taken f i))
  show _ ∈ (world _).live
  rw [← alive_eq]
  exact List.mem_cons_self

theorem rounds_run (dbg : Bool) : ∀ n, 2 * n + 4 < u32Size → ∃ f, LooseExec demo dbg 2 (rounds n) (rest 1 (2 * n + 2) (f ++ [1])) ∧
    (∀ x ∈ f, x ≤ 2) ∧ n < f.length := by
  intro n
  induction n with
  | zero => exact fun _ => ⟨[2], runLoose_sound (start_runs dbg), by decide, by decide⟩
  | succ n ih =>
    intro hn
    obtain ⟨f, h1, h2, h3⟩ := ih (by omega)
    have hh := rounds_handles n
    have k1 := use (i := 2) h1 (.inr rfl) (by omega) (by omega)
    rw [taken_two h2] at k1
    have k2 := use (i := 1) k1 (.inl rfl) (by omega) (by simp only [handles, List.length_cons, hh]; omega)
    refine ⟨_, k2, taken_le fun x hx => ?_, ?_⟩
    · simp only [List.mem_append, List.mem_singleton] at hx
      rcases hx with (hx | rfl) | rfl
      · exact h2 x hx
      · decide
      · decide
    · have := taken_length (f ++ [1] ++ [2]) 1
      simp only [List.length_append, List.length_singleton] at this
      omega

theorem rounds_few (n : Nat) : ∀ h', h' <:+ rounds n → (alive h').length ≤ 2 := by
  induction n with
  | zero =>
    have key : ∀ n ≤ 6, (alive (start.drop n)).length ≤ 2 := by decide
    intro h' hh
    rw [List.suffix_iff_eq_drop.1 hh]
    exact key _ (Nat.sub_le _ _)
  | succ n ih =>
    intro h' hh
    have h0 := rounds_alive n
    simp only [rounds, List.suffix_cons_iff] at hh
    rcases hh with rfl | rfl | rfl | rfl | hh
    · simp [alive, h0]
    · simp [alive, h0]
    · simp [alive, h0]
    · simp [alive, h0]
    · exact ih h' hh

theorem rounds_types (n : Nat) : ∀ ev ∈ rounds n, (∃ e, ev = .destroyed e) ∨ ∃ e t init, ev = .createdWith e [t] init ∧ t ∈ [0, 4, 5] := by
  induction n with
  | zero => simp [rounds, start]
  | succ n ih =>
    intro ev hev
    simp only [rounds, List.mem_cons] at hev
    rcases hev with rfl | rfl | rfl | rfl | hev
    · exact .inl ⟨_, rfl⟩
    · exact .inr ⟨_, _, _, rfl, by decide⟩
    · exact .inl ⟨_, rfl⟩
    · exact .inr ⟨_, _, _, rfl, by decide⟩
    · exact ih ev hev

end Ecs.FreeList
