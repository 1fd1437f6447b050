import Verif.Proofs.Crowd
import Verif.Model.Heap
import Verif.Props.Growth
import Verif.Props.Alloc

/-! Property C95: very many entities at the same time. -/

namespace Ecs.Props
open Spec

variable {dbg : Bool} {cap : Nat} {h : History} {c : Ents}

/-- **C95**, the ids: up to 2^32 − 1 entities can be created one after the other, and they get the ids 0, 1, 2, … -/
theorem C95_room (dbg : Bool) (cap n : Nat) (hn : n < 2 ^ 32) : ∃ c, EntsExec dbg cap (firstCreations n) c :=
  first_exec dbg cap n hn

/-- **C95**, the ids, for stores: they can hold up to 2^32 − 1 entities (as far as memory allows, see below). -/
theorem C95_room_store (U : Universe) (dbg : Bool) {cap : Nat} (hcap : 0 < cap) (n : Nat) (hn : n < 2 ^ 32) :
    ∃ hist s, LooseExec U dbg cap hist s ∧ entHistory hist = firstCreations n ∧ (alive hist).length = n := by
  induction n with
  | zero =>
    have : ∃ s, Store.withCapacity dbg cap = .ok s := by
      unfold Store.withCapacity
      simp [dassert, hcap]
    obtain ⟨s, hs⟩ := this
    exact ⟨[], s, .init hs, rfl, rfl⟩
  | succ n ih =>
    obtain ⟨hist, s, hx, he, hl⟩ := ih (by omega)
    have hb : (handles hist).length + 1 < u32Size := by
      rw [← issued_entHistory, he, issued_first]; exact hn
    obtain ⟨s', e, hr, -⟩ := C06_growth_loses_nothing hx hb
    have hh := (C57_handle_is_determined hx hb).1 s' e hr
    rw [he, nextHandle_first] at hh
    subst hh
    have he' : entHistory (.created ⟨n, 1⟩ :: hist) = firstCreations (n + 1) := by
      simp only [entHistory, he, firstCreations]
    refine ⟨_, s', .step (.created ⟨n, 1⟩) hx ?_ hr, he', ?_⟩
    · rw [handles_eq] at hb; exact hb
    · rw [← live_entHistory, he', live_first]

/-- **C95**, the capacity: it doubles only when it is exhausted, as long as it stays below 2^32. -/
theorem C95_capacity_partial {n : Nat} (hx : EntsExec dbg cap (firstCreations n) c) (hn : n < 2 ^ 32)
    (hc : expectedCapacity cap n < 2 ^ 32) : c.capacity = expectedCapacity cap n := by
  rw [first_capacity hn hx, crowd_expected n hc]

/-- **C95**, exactly when a creation enlarges the container, in all executions: when no id is free below the number of live
entities, and that number is at least the capacity modulo 2^32 (not: the capacity). -/
theorem C95_grows_iff (hx : EntsExec dbg cap h c) (hb : dbg = true ∨ (issued h).length < 2 ^ 32) {c' : Ents} {cr : EntityCreation}
    (hr : c.create dbg = .ok (c', cr)) :
    (c'.capacity ≠ c.capacity ↔ (freeIds h).gaps = [] ∧ c.capacity % 2 ^ 32 ≤ (live h).length) ∧
    (c'.capacity ≠ c.capacity → c'.capacity = 2 * max c.capacity 1) := by
  have hl := (exec_inv hx hb).live_length
  obtain ⟨h1, h2, -⟩ := exec_free hx hb
  have hg : c.gapIds = [] ↔ (freeIds h).gaps = [] := by rw [h2]; simp
  rw [create_capacity_exact hr]
  by_cases hge : c.gapIds = []
  · rw [hge] at hl
    have hl : (live h).length = c.nextFreeId := by simpa using hl
    rw [hl, ← hg]
    by_cases hc : c.capacity % u32Size ≤ c.nextFreeId
    · rw [if_pos ⟨hge, hc⟩]
      exact ⟨⟨fun _ => ⟨hge, hc⟩, fun _ => by omega⟩, fun _ => by omega⟩
    · rw [if_neg (fun h => hc h.2)]
      exact ⟨⟨fun h => absurd rfl h, fun h => absurd h.2 hc⟩, fun h => absurd rfl h⟩
  · rw [if_neg (fun h => hge h.1), ← hg]
    exact ⟨⟨fun h => absurd rfl h, fun h => absurd h.1 hge⟩, fun h => absurd rfl h⟩

/-- **C95** is false of the code: `will_grow_with_id` compares with `capacity as u32`. A store made by `Store::new`, with capacity
10, has capacity 10 · 2^28 when that many entities exist. From then on every creation doubles the capacity, although half of it
is unused. -/
theorem C95_counterexample_new (j : Nat) (hn : 10 * 2 ^ 28 + j < 2 ^ 32) (hx : EntsExec dbg 10 (firstCreations (10 * 2 ^ 28 + j)) c) :
    c.capacity = 10 * 2 ^ 28 * 2 ^ j := by
  rw [first_capacity hn hx, crowd_beyond (by omega) (by decide)]
  intro i
  match i with
  | 0 => decide
  | 1 => decide
  | 2 => decide
  | i + 3 =>
    have : 10 * 2 ^ 28 * 2 ^ (i + 3) = u32Size * (5 * 2 ^ i) := by rw [Nat.pow_add]; omega
    rw [this, Nat.mul_mod_right]; omega

/-- **C95**, the same for initial capacities that are powers of two: the capacity doubles at every creation after 2^31. -/
theorem C95_counterexample_power {k : Nat} (hk : k ≤ 31) (j : Nat) (hn : 2 ^ 31 + j < 2 ^ 32)
    (hx : EntsExec dbg (2 ^ k) (firstCreations (2 ^ 31 + j)) c) : c.capacity = 2 ^ 31 * 2 ^ j := by
  have hp : 2 ^ k * 2 ^ (31 - k) = 2 ^ 31 := by rw [← Nat.pow_add, Nat.add_sub_cancel' hk]
  have := crowd_beyond (cap := 2 ^ k) (M := 31 - k) (Nat.pow_pos (by omega)) (by rw [hp]; decide) (fun i => ?_) j
  · rw [hp] at this
    rw [first_capacity hn hx, this]
  · rw [hp]
    match i with
    | 0 => decide
    | i + 1 =>
      have : 2 ^ 31 * 2 ^ (i + 1) = u32Size * 2 ^ i := by rw [Nat.pow_succ]; omega
      rw [this, Nat.mul_mod_right]; omega

/-- **C95**, for stores, whatever else is done with the entities. -/
theorem C95_counterexample_store {U : Universe} {hist : List Event} {s : Store} (hx : LooseExec U dbg 10 hist s) (j : Nat)
    (hn : 10 * 2 ^ 28 + j < 2 ^ 32) (he : entHistory hist = firstCreations (10 * 2 ^ 28 + j)) :
    s.entitiesCapacity = 10 * 2 ^ 28 * 2 ^ j := by
  have := loose_ents hx
  rw [he] at this
  exact C95_counterexample_new j hn this

/-- **C95**, hence a store made by `Store::new` cannot hold 2684354590 entities: the last of these creations computes the layout of
a version table of more than `isize::MAX` bytes, which must not be made. -/
theorem C95_counterexample_layout (U : Universe) (dbg : Bool) :
    ∃ hist s, LooseExec U dbg 10 hist s ∧ (alive hist).length = 2684354590 ∧
      HeapM.layoutOf dbg 4 s.entitiesCapacity = .error (.ub .badLayout) := by
  obtain ⟨hist, s, hx, he, hl⟩ := C95_room_store U dbg (cap := 10) (by omega) (10 * 2 ^ 28 + 30) (by decide)
  refine ⟨hist, s, hx, hl, ?_⟩
  rw [C95_counterexample_store hx 30 (by decide) he]
  cases dbg <;> decide

/-- **C95**, when all ids are in use, in debug builds: the creation panics. -/
theorem C95_full_debug (hx : EntsExec true cap h c) (hl : (live h).length = 2 ^ 32 - 1) :
    c.create true = .error (.panic .arithOverflow) := by
  have hi := exec_inv hx (Or.inl rfl)
  have h1 := hi.live_length
  have h2 := hi.next_lt
  have hg : c.gapIds = [] := by
    rw [← List.length_eq_zero_iff]; omega
  have hn : c.nextFreeId = 4294967295 := by rw [hg] at h1; simp at h1; omega
  unfold Ents.create Ents.takeId
  rw [hg, hn]
  rfl

/-- **C95** is false of the code in release builds: when all ids are in use, the next creation returns the id of the null entity. The
one after it returns the id 0, and then neither the entity that had the id 0 nor the new one is alive. -/
theorem C95_full_release (hx : EntsExec false cap h c) (hb : (issued h).length < 2 ^ 32) (hl : (live h).length = 2 ^ 32 - 1) :
    ∃ c1 cr1 c2 cr2 e, c.create false = .ok (c1, cr1) ∧ cr1.entity.id = Entity.null.id ∧
      c1.create false = .ok (c2, cr2) ∧ cr2.entity.id = 0 ∧
      e ∈ live h ∧ e.id = 0 ∧ c.isAlive false e = .ok true ∧ c2.isAlive false e = .ok false ∧
      c2.isAlive false cr2.entity = .ok false := by
  have hi := exec_inv hx (Or.inr hb)
  have h1 := hi.live_length
  have h2 := hi.next_lt
  have hg : c.gapIds = [] := by
    rw [← List.length_eq_zero_iff]; omega
  have hn : c.nextFreeId = 4294967295 := by rw [hg] at h1; simp at h1; omega
  obtain ⟨c1, cr1, a1, a2, a3, a4, a5, a6, a7, a8⟩ := hi.sturdy.create hg hi.next_lt
  have hn1 : c1.nextFreeId = 0 := by rw [a4, hn]
  obtain ⟨c2, cr2, b1, b2, b3, b4, b5, b6, b7, b8⟩ := a5.create a3 (by rw [hn1]; decide)
  obtain ⟨e, he, he0⟩ : ∃ e ∈ live h, e.id = 0 := by
    rcases (hi.ids 0).2 (by omega) with h | h
    · exact List.mem_map.1 h
    · rw [hg] at h; cases h
  have hbit : c2.aliveBits.bit 0 = false := by
    have : c.aliveBits.bit 0 = true := (hi.bits 0).2 (List.mem_map.2 ⟨e, he, he0⟩)
    rw [b6, a6, this, hn1, hn]; rfl
  have dead : ∀ x : Entity, x.id = 0 → c2.isAlive false x = .ok false := by
    intro x hx0
    obtain ⟨v, hv⟩ := b5.vinit 0 (by omega)
    have hbl : 0 / 32 < c2.aliveBits.length := by rw [b5.blen]; exact Words.div_lt_getLen (by omega)
    unfold Ents.isAlive Ents.validateVersion
    rw [hx0]
    simp [Raw.read_of_some hv, Words.isOn_of_lt hbl, hbit, dassert]
  refine ⟨c1, cr1, c2, cr2, e, a1, by rw [a2, hn]; rfl, b1, by rw [b2, hn1], he, he0, ?_, dead e he0,
    dead _ (by rw [b2, hn1])⟩
  rw [hi.isAlive_of_lt (hi.id_lt he), decide_eq_true he]

/-- Such executions exist for all initial capacities; with the capacity 2^32 − 1 the container has never grown. -/
example : ∃ c, EntsExec dbg (2 ^ 32 - 1) (firstCreations (2 ^ 32 - 1)) c ∧ (live (firstCreations (2 ^ 32 - 1))).length = 2 ^ 32 - 1 ∧
    (issued (firstCreations (2 ^ 32 - 1))).length < 2 ^ 32 ∧ c.capacity = 2 ^ 32 - 1 := by
  obtain ⟨c, hx⟩ := C95_room dbg (2 ^ 32 - 1) (2 ^ 32 - 1) (by decide)
  refine ⟨c, hx, live_first _, by rw [issued_first]; decide, ?_⟩
  rw [first_capacity (by decide) hx]
  obtain ⟨m, h1, h2, -⟩ := crowd_below (cap := 2 ^ 32 - 1) (M := 0) (by decide) (by decide) (2 ^ 32 - 1) (by decide)
  rw [h2, Nat.le_zero.1 h1]

example : expectedCapacity 10 25 = 40 := by decide

end Ecs.Props
