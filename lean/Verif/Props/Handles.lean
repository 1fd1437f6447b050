import Verif.Proofs.EntsExec

/-! Properties C01–C05 and C07 for the entities container (shared by `Store` and `ResourceStore`). -/

namespace Ecs.Props
open Spec

/-- **C01.** No handle is issued twice: the handles of a history are pairwise different. In debug
builds always, in release builds as long as fewer than 2^32 handles have been issued. -/
theorem C01_handles_issued_once {dbg : Bool} {cap : Nat} {h : History} {c : Ents}
    (hx : EntsExec dbg cap h c) (hb : dbg = true ∨ (issued h).length < u32Size) :
    (issued h).Nodup := by
  induction hx with
  | init => exact List.nodup_nil
  | @create h c c' cr hx hr ih =>
    have hb' : dbg = true ∨ (issued h).length + 1 < u32Size := hb
    have hb0 : dbg = true ∨ (issued h).length < u32Size := hb'.imp id (fun h => by omega)
    exact List.nodup_cons.2 ⟨((exec_inv hx hb0).create_spec hr hb').2.1, ih hb0⟩
  | destroy e hx hr he ih => exact ih hb

/-- **C02.** `is_alive` is exact, for every handle value whose id is inside the capacity (in
particular for every handle ever issued): it never fails and answers whether the handle is live. -/
theorem C02_is_alive_exact {dbg : Bool} {cap : Nat} {h : History} {c : Ents}
    (hx : EntsExec dbg cap h c) (hb : dbg = true ∨ (issued h).length < u32Size) :
    (∀ e ∈ issued h, c.isAlive dbg e = .ok (decide (e ∈ live h))) ∧
    (∀ e : Entity, e.id < c.capacity → c.isAlive dbg e = .ok (decide (e ∈ live h))) :=
  ⟨fun _ he => (exec_inv hx hb).isAlive_of_lt ((exec_inv hx hb).issued_id_lt he),
   fun _ he => (exec_inv hx hb).isAlive_of_lt he⟩

/-- **C02**, what `live` means: created and not destroyed (a handle can only be destroyed once). -/
theorem C02_live_iff {dbg : Bool} {cap : Nat} {h : History} {c : Ents}
    (hx : EntsExec dbg cap h c) (hb : dbg = true ∨ (issued h).length < u32Size) (e : Entity) :
    e ∈ live h ↔ EntEvent.created e ∈ h ∧ EntEvent.destroyed e ∉ h := by
  have hmem : ∀ h : History, e ∈ issued h ↔ EntEvent.created e ∈ h := by
    intro h
    induction h with
    | nil => simp [issued]
    | cons ev h ih => cases ev <;> simp [issued, ih]
  induction hx with
  | init => simp [live]
  | @create h c c' cr hx hr ih =>
    have hb' : dbg = true ∨ (issued h).length + 1 < u32Size := hb
    have hb0 : dbg = true ∨ (issued h).length < u32Size := hb'.imp id (fun h => by omega)
    have hi := exec_inv hx hb0
    obtain ⟨_, hnew, _⟩ := hi.create_spec hr hb'
    have ih := ih hb0
    show e ∈ cr.entity :: live h ↔ _
    simp only [List.mem_cons, EntEvent.created.injEq, reduceCtorEq, false_or]
    constructor
    · rintro (rfl | h1)
      · refine ⟨Or.inl rfl, fun hd => ?_⟩
        -- a destroyed handle was issued before
        exact hnew (destroyed_issued hx hb0 hd)
      · exact ⟨Or.inr (ih.1 h1).1, (ih.1 h1).2⟩
    · rintro ⟨rfl | h1, h2⟩
      · exact Or.inl rfl
      · exact Or.inr (ih.2 ⟨h1, h2⟩)
  | @destroy h c c' d hx hr hd ih =>
    have hi := exec_inv hx hb
    have ih := ih hb
    show e ∈ (live h).erase d ↔ _
    rw [hi.nodup_live.mem_erase_iff]
    simp only [List.mem_cons, reduceCtorEq, false_or, EntEvent.destroyed.injEq, not_or]
    tauto
where
  destroyed_issued {dbg : Bool} {cap : Nat} {h : History} {c : Ents} {e : Entity}
      (hx : EntsExec dbg cap h c) (hb : dbg = true ∨ (issued h).length < u32Size)
      (hd : EntEvent.destroyed e ∈ h) : e ∈ issued h := by
    induction hx with
    | init => simp at hd
    | @create h c c' cr hx hr ih =>
      have hb' : dbg = true ∨ (issued h).length + 1 < u32Size := hb
      have hb0 : dbg = true ∨ (issued h).length < u32Size := hb'.imp id (fun h => by omega)
      simp only [List.mem_cons, reduceCtorEq, false_or] at hd
      exact List.mem_cons_of_mem _ (ih hb0 hd)
    | @destroy h c c' d hx hr hd' ih =>
      have hi := exec_inv hx hb
      rcases List.mem_cons.1 hd with hd | hd
      · cases hd; exact hi.sub _ (hi.destroy_spec hr hd').1
      · exact ih hb hd

/-- **C02**, out-of-range handles: a debug build panics on a handle whose id was never in range. -/
theorem C02_debug_foreign_handle (c : Ents) (e : Entity) (he : c.capacity ≤ e.id) :
    c.isAlive true e = .error (.panic .debugAssert) :=
  EntInv.isAlive_debug_oob (by omega)

/-- **C03.** A destroyed handle is dead in every later state. -/
theorem C03_destroyed_stays_dead {dbg : Bool} {cap : Nat} {later before : History} {e : Entity}
    {c : Ents} (hx : EntsExec dbg cap (later ++ EntEvent.destroyed e :: before) c)
    (hb : dbg = true ∨ (issued (later ++ EntEvent.destroyed e :: before)).length < u32Size) :
    c.isAlive dbg e = .ok false := by
  have hi := exec_inv hx hb
  have hd : e ∉ live (later ++ EntEvent.destroyed e :: before) := by
    rw [C02_live_iff hx hb e]; simp
  have hm := C02_live_iff.destroyed_issued (e := e) hx hb (by simp)
  rw [(C02_is_alive_exact hx hb).1 e hm]
  simp [hd]

/-- **C04.** Live handles with the same id are the same handle. -/
theorem C04_live_ids_distinct {dbg : Bool} {cap : Nat} {h : History} {c : Ents}
    (hx : EntsExec dbg cap h c) (hb : dbg = true ∨ (issued h).length < u32Size) :
    (∀ e₁ ∈ live h, ∀ e₂ ∈ live h, e₁.id = e₂.id → e₁ = e₂) ∧ ((live h).map (·.id)).Nodup :=
  ⟨fun _ h1 _ h2 hid => (exec_inv hx hb).eq_of_id h1 h2 hid, (exec_inv hx hb).nodup_live_ids⟩

/-- **C05.** Ids are dense: every live id is below the peak number of simultaneously live handles;
the container grows only when every slot is taken, and then doubles; its capacity never exceeds
`max initial (2 * peak)`. (`u32` limit: fewer than 2^31 simultaneously live handles, and an initial
capacity below 2^32; see `C05_counterexample_huge_capacity` for why the latter is needed.) -/
theorem C05_dense_ids_and_growth {dbg : Bool} {cap : Nat} {h : History} {c : Ents}
    (hx : EntsExec dbg cap h c) (hb : dbg = true ∨ (issued h).length < u32Size)
    (hcap : cap < u32Size) (hp : peak h < 2147483648) :
    (∀ e ∈ live h, e.id < peak h) ∧
    c.capacity ≤ max cap (2 * peak h) ∧
    (∀ c' cr, c.create dbg = .ok (c', cr) → c'.capacity ≠ c.capacity →
      (live h).length = c.capacity ∧ c'.capacity = 2 * max c.capacity 1) := by
  have hi := exec_inv hx hb
  have hcl := exec_capacity hx hb hcap hp
  refine ⟨fun e he => ?_, hcl, fun c' cr hr hne => ?_⟩
  · have h1 : e.id < c.nextFreeId := (hi.ids e.id).1 (Or.inl (List.mem_map.2 ⟨e, he, rfl⟩))
    have h2 := exec_peak hx hb
    omega
  · rcases create_capacity hi hr (by omega) with h1 | ⟨h1, h2⟩
    · exact absurd h1 hne
    · exact ⟨h1, by omega⟩

/-- A history of two creations, a destruction and a third creation that recycles the id, ending in a
container that had to grow: it meets the hypotheses of C01–C05 in both build modes. -/
theorem handles_example (dbg : Bool) :
    ∃ c, EntsExec dbg 1
      [.created ⟨0, 2⟩, .destroyed ⟨0, 1⟩, .created ⟨1, 1⟩, .created ⟨0, 1⟩] c ∧ c.capacity = 2 := by
  have s1 := EntsExec.create (dbg := dbg) (cap := 1) (cr := ⟨⟨0, 1⟩, 1, 1⟩) .init
    (by cases dbg <;> rfl)
  have s2 := EntsExec.create (cr := ⟨⟨1, 1⟩, 1, 2⟩) s1 (by cases dbg <;> rfl)
  have s3 := EntsExec.destroy ⟨0, 1⟩ s2 (by cases dbg <;> rfl) (by right; decide)
  have s4 := EntsExec.create (cr := ⟨⟨0, 2⟩, 2, 2⟩) s3 (by cases dbg <;> rfl)
  exact ⟨_, s4, rfl⟩

example : (issued [.created ⟨0, 2⟩, .destroyed ⟨0, 1⟩, .created ⟨1, 1⟩, .created ⟨0, 1⟩]).Nodup :=
  let ⟨_, hx, _⟩ := handles_example true
  C01_handles_issued_once hx (Or.inl rfl)

example (c : Ents) (hx : EntsExec true 1
      [.created ⟨0, 2⟩, .destroyed ⟨0, 1⟩, .created ⟨1, 1⟩, .created ⟨0, 1⟩] c) :
    c.isAlive true ⟨0, 1⟩ = .ok false ∧ c.isAlive true ⟨0, 2⟩ = .ok true :=
  ⟨C03_destroyed_stays_dead (later := [.created ⟨0, 2⟩]) hx (Or.inl rfl),
   (C02_is_alive_exact hx (Or.inl rfl)).1 ⟨0, 2⟩ (by decide)⟩

/-- **C05**, why the 32-bit restriction is needed: `will_grow_with_id` truncates the capacity to 32
bits, so a container created with capacity 2^32 doubles its buffers at the very first creation. -/
theorem C05_counterexample_huge_capacity (dbg : Bool) :
    ∃ c' cr, (Ents.new u32Size).create dbg = .ok (c', cr) ∧ c'.capacity = 2 * u32Size := by
  have hi := EntInv.new u32Size
  obtain ⟨c', cr, hr⟩ := hi.create_ok (dbg := dbg) (by decide)
  refine ⟨c', cr, hr, ?_⟩
  unfold Ents.create at hr
  obtain ⟨⟨id, c1⟩, ht, hr⟩ := bind_eq_ok.1 hr
  have hcap : c'.capacity = c1.capacity := by
    dsimp only at hr
    obtain ⟨_, _, hr⟩ := bind_eq_ok.1 hr
    obtain ⟨_, _, hr⟩ := bind_eq_ok.1 hr
    obtain ⟨_, _, hr⟩ := bind_eq_ok.1 hr
    obtain ⟨_, _, hr⟩ := bind_eq_ok.1 hr
    cases hr; rfl
  rw [hcap]
  unfold Ents.takeId at ht
  simp only [Ents.new, List.getLast?_nil] at ht
  obtain ⟨next, hn, ht⟩ := bind_eq_ok.1 ht
  simp only [Ents.willGrowWithId, Nat.mod_self, Nat.zero_le, ge_iff_le, decide_true, if_true] at ht
  obtain ⟨c2, h2, ht⟩ := bind_eq_ok.1 ht
  unfold Ents.grow at h2
  rw [if_neg (by show ¬ max u32Size 1 * 2 ≤ u32Size; omega)] at h2
  obtain ⟨_, _, h2⟩ := bind_eq_ok.1 h2
  obtain ⟨_, _, h2⟩ := bind_eq_ok.1 h2
  cases h2; cases ht; rfl

/-! ### C07: version wrap-around -/

/-- Create an entity and destroy it again, `n` times. -/
def recycle (dbg : Bool) : Nat → Ents → Res Ents
  | 0, c => .ok c
  | n + 1, c => do
    let c ← recycle dbg n c
    let (c, cr) ← c.create dbg
    c.destroy dbg cr.entity

/-- State of a container after `n` recyclings of id 0. -/
structure Recycled (cap n : Nat) (c : Ents) : Prop where
  gaps : c.gapIds = []
  capEq : c.capacity = cap
  next : c.nextFreeId = 0
  vlen : c.versions.length = cap
  v0 : c.versions[0]? = some (some (n % u32Size))
  blen : c.aliveBits.length = Words.getLen cap
  bits : ∀ i, c.aliveBits.bit i = false

theorem recycled_create {cap n : Nat} {c : Ents} {dbg : Bool} (h : Recycled cap n c) (h0 : 0 < cap)
    (h1 : cap < u32Size) (hn : dbg = true → n + 1 < u32Size) :
    ∃ c' cr, c.create dbg = .ok (c', cr) ∧ cr.entity = ⟨0, (n + 1) % u32Size⟩ ∧
      c'.isAlive dbg cr.entity = .ok true ∧
      ∃ c'', c'.destroy dbg cr.entity = .ok c'' ∧ Recycled cap (n + 1) c'' := by
  have hb0 : 0 / 32 < c.aliveBits.length := by rw [h.blen]; exact Words.div_lt_getLen h0
  obtain ⟨w, hw, hwl, hwb⟩ := Words.toggle_of_lt hb0
  have hb1 : 0 / 32 < w.length := by omega
  obtain ⟨w2, hw2, hwl2, hwb2⟩ := Words.toggle_of_lt hb1
  have hver : addU32 dbg (n % u32Size) 1 = .ok ((n + 1) % u32Size) := by
    unfold addU32
    by_cases hlt : n % u32Size + 1 < u32Size
    · rw [if_pos hlt]; congr 1; omega
    · rw [if_neg hlt]
      cases dbg
      · simp only [Bool.false_eq_true, if_false]; congr 1; omega
      · have := hn rfl
        omega
  have hgrow : c.willGrowWithId 0 = false := by
    simp only [Ents.willGrowWithId, h.capEq, Nat.mod_eq_of_lt h1]
    simp; omega
  have hcreate : c.create dbg = .ok
      ({ c with aliveBits := w, versions := c.versions.set 0 (some ((n + 1) % u32Size)), nextFreeId := 1 },
       ⟨⟨0, (n + 1) % u32Size⟩, c.capacity, c.capacity⟩) := by
    have hwg : ∀ x, ({ c with nextFreeId := x } : Ents).willGrowWithId 0 = false := fun _ => hgrow
    unfold Ents.create Ents.takeId
    rw [h.gaps, h.next]
    simp only [List.getLast?_nil]
    rw [show addU32 dbg 0 1 = .ok 1 from rfl]
    simp only [ok_bind]
    rw [← h.gaps]
    simp only [hwg, Bool.false_eq_true, if_false, pure_ok, ok_bind, hw, Raw.read_of_some h.v0, hver,
      Raw.write_of_lt _ (show 0 < c.versions.length by rw [h.vlen]; exact h0)]
  refine ⟨_, _, hcreate, rfl, ?_, ?_⟩
  · have hv : ((c.versions.set 0 (some ((n + 1) % u32Size))) : Raw Nat)[0]? =
        some (some ((n + 1) % u32Size)) := by
      rw [List.getElem?_set]; simp [h.vlen, h0]
    unfold Ents.isAlive Ents.validateId Ents.validateVersion
    simp only [h.capEq, h0, decide_true, dassert_true, ok_bind, Raw.read_of_some hv,
      Words.isOn_of_lt hb1, pure_ok]
    simp [hwb, h.bits]
  · have hv : ((c.versions.set 0 (some ((n + 1) % u32Size))) : Raw Nat)[0]? =
        some (some ((n + 1) % u32Size)) := by
      rw [List.getElem?_set]; simp [h.vlen, h0]
    have hal : ({ c with aliveBits := w, versions := c.versions.set 0 (some ((n + 1) % u32Size)), nextFreeId := 1 }
        : Ents).isAlive dbg ⟨0, (n + 1) % u32Size⟩ = .ok true := by
      unfold Ents.isAlive Ents.validateId Ents.validateVersion
      simp only [h.capEq, h0, decide_true, dassert_true, ok_bind, Raw.read_of_some hv,
        Words.isOn_of_lt hb1, pure_ok]
      simp [hwb, h.bits]
    have hvp : ({ c with aliveBits := w, versions := c.versions.set 0 (some ((n + 1) % u32Size)), nextFreeId := 1 }
        : Ents).validateVersionWithPanic dbg ⟨0, (n + 1) % u32Size⟩ = .ok () := by
      unfold Ents.validateVersionWithPanic Ents.validateId Ents.validateVersion
      simp only [h.capEq, h0, decide_true, dassert_true, ok_bind, Raw.read_of_some hv, pure_ok]
      cases dbg <;> simp
    have hsub : subU32 dbg 1 1 = .ok 0 := rfl
    refine ⟨{ c with aliveBits := w2, versions := c.versions.set 0 (some ((n + 1) % u32Size)), nextFreeId := 0 },
      ?_, ?_⟩
    · unfold Ents.destroy
      cases dbg <;> simp [hvp, hal, hw2, hsub]
    · exact ⟨h.gaps, h.capEq, rfl, by simp [h.vlen], hv, by rw [hwl2, hwl, h.blen],
        fun i => by rw [hwb2, hwb, h.bits]; simp⟩

theorem recycle_spec {cap : Nat} {dbg : Bool} (h0 : 0 < cap) (h1 : cap < u32Size) (n : Nat)
    (hn : dbg = true → n < u32Size) : ∃ c, recycle dbg n (Ents.new cap) = .ok c ∧ Recycled cap n c := by
  induction n with
  | zero =>
    refine ⟨_, rfl, rfl, rfl, rfl, by simp [Ents.new, Raw.allocZeroed], ?_, Words.length_alloc _,
      fun i => Words.bit_alloc _ _⟩
    simp only [Ents.new, Raw.allocZeroed]
    rw [List.getElem?_replicate]; simp [h0]
  | succ n ih =>
    obtain ⟨c, hc, hr⟩ := ih (fun hd => by have := hn hd; omega)
    obtain ⟨c', cr, h2, _, _, c'', h4, h5⟩ := recycled_create (dbg := dbg) hr h0 h1 hn
    refine ⟨c'', ?_, h5⟩
    simp only [recycle, hc, ok_bind, h2, h4]

/-- **C07**, release builds. If id 0 is recycled 2^32 times, the next creation returns exactly the
handle that the first creation returned, and that stale handle then reads as alive. The first
conjunct gives the handle of every single creation. -/
theorem C07_release_version_wraps (cap : Nat) (h0 : 0 < cap) (h1 : cap < u32Size) :
    (∀ n, ∃ c c' cr, recycle false n (Ents.new cap) = .ok c ∧ c.create false = .ok (c', cr) ∧
      cr.entity = ⟨0, (n + 1) % u32Size⟩) ∧
    ∃ first c c' cr,
      (∃ c₁, (Ents.new cap).create false = .ok (c₁, first)) ∧
      recycle false u32Size (Ents.new cap) = .ok c ∧ c.create false = .ok (c', cr) ∧
      cr.entity = first.entity ∧ c'.isAlive false first.entity = .ok true := by
  refine ⟨fun n => ?_, ?_⟩
  · obtain ⟨c, hc, hr⟩ := recycle_spec (dbg := false) h0 h1 n (by simp)
    obtain ⟨c', cr, h2, h3, _⟩ := recycled_create (dbg := false) hr h0 h1 (by simp)
    exact ⟨c, c', cr, hc, h2, h3⟩
  · obtain ⟨c₀, hc₀, hr₀⟩ := recycle_spec (dbg := false) h0 h1 0 (by simp)
    cases hc₀
    obtain ⟨c₁, first, f2, f3, _⟩ := recycled_create (dbg := false) hr₀ h0 h1 (by simp)
    obtain ⟨c, hc, hr⟩ := recycle_spec (dbg := false) h0 h1 u32Size (by simp)
    obtain ⟨c', cr, h2, h3, h4, _⟩ := recycled_create (dbg := false) hr h0 h1 (by simp)
    have he : cr.entity = first.entity := by rw [h3, f3]
    exact ⟨first, c, c', cr, ⟨c₁, f2⟩, hc, h2, he, he ▸ h4⟩

/-- **C07**, debug builds. Recycling one id works for the first 2^32-1 times and the next creation
panics with an overflow instead of issuing a handle again. -/
theorem C07_debug_version_overflow_panics (cap : Nat) (h0 : 0 < cap) (h1 : cap < u32Size) :
    (∀ n, n + 1 < u32Size → ∃ c c' cr, recycle true n (Ents.new cap) = .ok c ∧
      c.create true = .ok (c', cr) ∧ cr.entity = ⟨0, n + 1⟩) ∧
    ∃ c, recycle true (u32Size - 1) (Ents.new cap) = .ok c ∧
      c.create true = .error (.panic .arithOverflow) := by
  refine ⟨fun n hn => ?_, ?_⟩
  · obtain ⟨c, hc, hr⟩ := recycle_spec (dbg := true) h0 h1 n (fun _ => by omega)
    obtain ⟨c', cr, h2, h3, _⟩ := recycled_create (dbg := true) hr h0 h1 (fun _ => hn)
    exact ⟨c, c', cr, hc, h2, by rw [h3, Nat.mod_eq_of_lt hn]⟩
  · obtain ⟨c, hc, h⟩ := recycle_spec (dbg := true) h0 h1 (u32Size - 1) (fun _ => by decide)
    refine ⟨c, hc, ?_⟩
    have hb0 : 0 / 32 < c.aliveBits.length := by rw [h.blen]; exact Words.div_lt_getLen h0
    obtain ⟨w, hw, hwl, hwb⟩ := Words.toggle_of_lt hb0
    have hgrow : ∀ x, ({ c with nextFreeId := x } : Ents).willGrowWithId 0 = false := by
      intro x
      simp only [Ents.willGrowWithId, h.capEq, Nat.mod_eq_of_lt h1]
      simp; omega
    unfold Ents.create Ents.takeId
    rw [h.gaps, h.next]
    simp only [List.getLast?_nil]
    rw [show addU32 true 0 1 = .ok 1 from rfl]
    simp only [ok_bind]
    rw [← h.gaps]
    simp only [hgrow, Bool.false_eq_true, if_false, pure_ok, ok_bind, hw, Raw.read_of_some h.v0]
    rfl

end Ecs.Props
