import Verif.Model.Entities
import Verif.Proofs.Bits
import Mathlib.Data.List.Nodup
import Mathlib.Data.List.Perm.Basic

/-! The invariant of the entities container and its preservation. -/

namespace Ecs

/-- Container `c` represents a state in which the handles `I` have been issued so far and the handles
`L` are live. -/
structure EntInv (c : Ents) (I L : List Entity) : Prop where
  vlen : c.versions.length = c.capacity
  vinit : ∀ i, i < c.capacity → ∃ v, c.versions[i]? = some (some v) ∧ v ≤ I.length ∧ v < u32Size
  blen : c.aliveBits.length = Words.getLen c.capacity
  next_le : c.nextFreeId ≤ c.capacity
  next_le_issued : c.nextFreeId ≤ I.length
  next_lt : c.nextFreeId < u32Size
  nodup : (L.map (·.id) ++ c.gapIds).Nodup
  ids : ∀ i, i ∈ L.map (·.id) ∨ i ∈ c.gapIds ↔ i < c.nextFreeId
  bits : ∀ i, c.aliveBits.bit i = true ↔ i ∈ L.map (·.id)
  lver : ∀ e ∈ L, c.versions[e.id]? = some (some e.version)
  iver : ∀ e ∈ I, 1 ≤ e.version ∧ ∃ v, c.versions[e.id]? = some (some v) ∧ e.version ≤ v
  sub : ∀ e ∈ L, e ∈ I

namespace EntInv
variable {c c' : Ents} {I L : List Entity} {dbg : Bool}

theorem new (cap : Nat) : EntInv (Ents.new cap) [] [] where
  vlen := by simp [Ents.new, Raw.allocZeroed]
  vinit := by
    intro i hi
    refine ⟨0, ?_, by simp, by decide⟩
    simp only [Ents.new, Raw.allocZeroed] at *
    rw [List.getElem?_replicate]; simp [hi]
  blen := by simp [Ents.new, Words.length_alloc]
  next_le := by simp [Ents.new]
  next_le_issued := by simp [Ents.new]
  next_lt := by simp [Ents.new]
  nodup := by simp [Ents.new]
  ids := by simp [Ents.new]
  bits := by intro i; simp [Ents.new, Words.bit_alloc]
  lver := by simp
  iver := by simp
  sub := by simp

theorem nodup_live_ids (h : EntInv c I L) : (L.map (·.id)).Nodup := (List.nodup_append.1 h.nodup).1

theorem nodup_live (h : EntInv c I L) : L.Nodup := List.Nodup.of_map _ h.nodup_live_ids

theorem eq_of_id (h : EntInv c I L) {e e' : Entity} (he : e ∈ L) (he' : e' ∈ L)
    (hid : e.id = e'.id) : e = e' := by
  have h1 := h.lver e he
  have h2 := h.lver e' he'
  rw [hid, h2] at h1
  cases e; cases e'; simp_all

theorem id_lt (h : EntInv c I L) {e : Entity} (he : e ∈ L) : e.id < c.capacity := by
  have : e.id < c.nextFreeId := (h.ids e.id).1 (Or.inl (List.mem_map.2 ⟨e, he, rfl⟩))
  have := h.next_le
  omega

theorem issued_id_lt (h : EntInv c I L) {e : Entity} (he : e ∈ I) : e.id < c.capacity := by
  obtain ⟨_, v, hv, _⟩ := h.iver e he
  rw [← h.vlen]
  exact (List.getElem?_eq_some_iff.1 hv).1

theorem live_length (h : EntInv c I L) : L.length + c.gapIds.length = c.nextFreeId := by
  have hp : (L.map (·.id) ++ c.gapIds).Perm (List.range c.nextFreeId) := by
    rw [List.perm_ext_iff_of_nodup h.nodup List.nodup_range]
    intro i
    rw [List.mem_append, h.ids i, List.mem_range]
  simpa using hp.length_eq

/-- Liveness of an arbitrary handle value with a valid id. -/
theorem mem_iff (h : EntInv c I L) (e : Entity) :
    e ∈ L ↔ c.versions[e.id]? = some (some e.version) ∧ c.aliveBits.bit e.id = true := by
  constructor
  · intro he
    exact ⟨h.lver e he, (h.bits _).2 (List.mem_map.2 ⟨e, he, rfl⟩)⟩
  · rintro ⟨hv, hb⟩
    obtain ⟨e', he', hid⟩ := List.mem_map.1 ((h.bits _).1 hb)
    have hv' := h.lver e' he'
    rw [hid, hv] at hv'
    have : e' = e := by cases e; cases e'; simp_all
    exact this ▸ he'

theorem isAlive_of_lt (h : EntInv c I L) {e : Entity} (hid : e.id < c.capacity) :
    c.isAlive dbg e = .ok (decide (e ∈ L)) := by
  obtain ⟨v, hv, _⟩ := h.vinit e.id hid
  unfold Ents.isAlive Ents.validateVersion Ents.validateId
  have hb : e.id / 32 < c.aliveBits.length := by rw [h.blen]; exact Words.div_lt_getLen hid
  simp only [hid, decide_true, dassert_true, ok_bind, Raw.read_of_some hv, Words.isOn_of_lt hb, pure_ok]
  congr 1
  rw [Bool.eq_iff_iff]
  rw [decide_eq_true_iff, h.mem_iff, hv]
  simp

theorem isAlive_debug_oob {e : Entity} (hid : ¬ e.id < c.capacity) :
    c.isAlive true e = .error (.panic .debugAssert) := by
  unfold Ents.isAlive Ents.validateId
  simp [hid, dassert]

theorem takeId_spec (h : EntInv c I L) {id : Nat} (hr : c.takeId dbg = .ok (id, c'))
    (hb : dbg = true ∨ I.length + 1 < u32Size) :
    c'.versions.length = c'.capacity ∧ c.capacity ≤ c'.capacity ∧ id < c'.capacity ∧
    (∀ i, i < c.capacity → c'.versions[i]? = c.versions[i]?) ∧
    (∀ i, i < c'.capacity → ¬ i < c.capacity → c'.versions[i]? = some (some 0)) ∧
    c'.aliveBits.length = Words.getLen c'.capacity ∧
    (∀ i, c'.aliveBits.bit i = c.aliveBits.bit i) ∧
    c'.nextFreeId ≤ c'.capacity ∧ c'.nextFreeId ≤ I.length + 1 ∧ c'.nextFreeId < u32Size ∧
    id ∉ L.map (·.id) ∧ (id :: L.map (·.id) ++ c'.gapIds).Nodup ∧
    (∀ i, (i = id ∨ i ∈ L.map (·.id)) ∨ i ∈ c'.gapIds ↔ i < c'.nextFreeId) := by
  unfold Ents.takeId at hr
  split at hr
  · -- recycle a gap
    rename_i id' hg
    cases hr
    have hne : c.gapIds ≠ [] := by intro hn; simp [hn] at hg
    have hgl : c.gapIds = c.gapIds.dropLast ++ [id] := by
      have := List.dropLast_append_getLast? id (by simpa using hg)
      exact this.symm
    have hmem : id ∈ c.gapIds := by rw [hgl]; simp
    have hlt : id < c.nextFreeId := (h.ids id).1 (Or.inr hmem)
    have hnd := h.nodup
    rw [hgl] at hnd
    have hnd2 : (id :: L.map (·.id) ++ c.gapIds.dropLast).Nodup := by
      have hp : (L.map (·.id) ++ (c.gapIds.dropLast ++ [id])).Perm
          (id :: L.map (·.id) ++ c.gapIds.dropLast) := by
        rw [← List.append_assoc]
        exact List.perm_append_singleton _ _
      exact hp.nodup_iff.1 hnd
    have hni : id ∉ L.map (·.id) := by
      have := (List.nodup_cons.1 hnd2).1
      intro hm; exact this (List.mem_append_left _ hm)
    have hle := h.next_le
    have hli := h.next_le_issued
    refine ⟨h.vlen, Nat.le_refl _, ?_, fun _ _ => rfl, fun i hi hi' => absurd hi hi', h.blen, fun _ => rfl,
      h.next_le, ?_, h.next_lt, hni, hnd2, fun i => ?_⟩
    · show id < c.capacity; omega
    · show c.nextFreeId ≤ _; omega
    · show _ ↔ i < c.nextFreeId
      rw [← h.ids i]
      conv => rhs; rw [hgl]
      simp only [List.mem_append, List.mem_singleton]
      constructor
      · rintro ((rfl | h1) | h2)
        · exact Or.inr (Or.inr rfl)
        · exact Or.inl h1
        · exact Or.inr (Or.inl h2)
      · rintro (h1 | h2 | rfl)
        · exact Or.inl (Or.inr h1)
        · exact Or.inr h2
        · exact Or.inl (Or.inl rfl)
  · -- fresh id
    rename_i hg
    have hge : c.gapIds = [] := by simpa using hg
    obtain ⟨next, hn, hr⟩ := bind_eq_ok.1 hr
    have hnext : next = c.nextFreeId + 1 ∧ c.nextFreeId + 1 < u32Size := by
      unfold addU32 at hn
      split at hn
      · cases hn; exact ⟨rfl, by assumption⟩
      · split at hn
        · cases hn
        · have := h.next_le_issued
          rename_i h1 h2
          rcases hb with hb | hb
          · exact absurd hb h2
          · omega
    obtain ⟨rfl, hlt⟩ := hnext
    have hle := h.next_le
    have hli := h.next_le_issued
    have hids := h.ids
    have hnd := h.nodup
    rw [hge] at hnd hids
    have hni : c.nextFreeId ∉ L.map (·.id) := by
      intro hm
      have := (hids c.nextFreeId).1 (Or.inl hm)
      omega
    -- facts common to both sub-cases about ids
    have key : (c.nextFreeId :: L.map (·.id) ++ ([] : List Nat)).Nodup ∧
        (∀ i, (i = c.nextFreeId ∨ i ∈ L.map (·.id)) ∨ i ∈ ([] : List Nat) ↔ i < c.nextFreeId + 1) := by
      refine ⟨?_, fun i => ?_⟩
      · simp only [List.append_nil] at *
        exact List.nodup_cons.2 ⟨hni, hnd⟩
      · have := hids i
        simp only [List.not_mem_nil, or_false] at *
        rw [this]; omega
    dsimp only at hr
    split at hr
    · -- growth
      rename_i hw
      unfold Ents.grow at hr
      have hcap : c.capacity < max c.capacity 1 * 2 := by omega
      rw [if_neg (by show ¬ max c.capacity 1 * 2 ≤ c.capacity; omega)] at hr
      have hz := Raw.reallocZeroing_of 0 h.vlen (Nat.le_of_lt hcap)
      obtain ⟨w', hw', hwl, hwb⟩ := Words.realloc_of h.blen (Nat.le_of_lt hcap)
      simp only [hz, hw', ok_bind, pure_ok] at hr
      cases hr
      refine ⟨?_, Nat.le_of_lt hcap, ?_, ?_, ?_, hwl, hwb, ?_, ?_, hlt, hni, ?_, ?_⟩
      · simp [h.vlen]; omega
      · show c.nextFreeId < max c.capacity 1 * 2; omega
      · intro i hi
        show (c.versions ++ _)[i]? = _
        rw [List.getElem?_append_left (by rw [h.vlen]; exact hi)]
      · intro i hi hi'
        show (c.versions ++ _)[i]? = _
        rw [List.getElem?_append_right (by rw [h.vlen]; omega), List.getElem?_replicate, h.vlen]
        simp only at hi
        rw [if_pos (by omega)]
      · show c.nextFreeId + 1 ≤ max c.capacity 1 * 2; omega
      · show c.nextFreeId + 1 ≤ _; omega
      · rw [hge]; exact key.1
      · rw [hge]; exact key.2
    · rename_i hw
      cases hr
      have hlt2 : c.nextFreeId < c.capacity := by
        simp only [Ents.willGrowWithId, ge_iff_le, decide_eq_true_eq, Nat.not_le] at hw
        have := Nat.mod_le c.capacity u32Size
        omega
      refine ⟨h.vlen, Nat.le_refl _, hlt2, fun _ _ => rfl, fun i hi hi' => absurd hi hi', h.blen,
        fun _ => rfl, ?_, ?_, hlt, hni, ?_, ?_⟩
      · show c.nextFreeId + 1 ≤ c.capacity; omega
      · show c.nextFreeId + 1 ≤ _; omega
      · rw [hge]; exact key.1
      · rw [hge]; exact key.2

theorem takeId_ok (h : EntInv c I L) (hb : I.length + 1 < u32Size) :
    ∃ r, c.takeId dbg = .ok r := by
  unfold Ents.takeId
  split
  · exact ⟨_, rfl⟩
  · have hli := h.next_le_issued
    have : addU32 dbg c.nextFreeId 1 = .ok (c.nextFreeId + 1) := by
      unfold addU32; rw [if_pos (by omega)]
    simp only [this, ok_bind]
    split
    · unfold Ents.grow
      have hcap : c.capacity < max c.capacity 1 * 2 := by omega
      have hz := Raw.reallocZeroing_of 0 h.vlen (Nat.le_of_lt hcap)
      obtain ⟨w', hw', _⟩ := Words.realloc_of h.blen (Nat.le_of_lt hcap)
      rw [if_neg (by show ¬ max c.capacity 1 * 2 ≤ c.capacity; omega)]
      simp only [hz, hw', ok_bind, pure_ok]
      exact ⟨_, rfl⟩
    · exact ⟨_, rfl⟩

theorem create_spec (h : EntInv c I L) {cr : EntityCreation}
    (hr : c.create dbg = .ok (c', cr)) (hb : dbg = true ∨ I.length + 1 < u32Size) :
    EntInv c' (cr.entity :: I) (cr.entity :: L) ∧ cr.entity ∉ I ∧ cr.capacityBefore = c.capacity ∧
    cr.capacityAfter = c'.capacity ∧ c.capacity ≤ c'.capacity ∧ cr.entity.id < c'.capacity ∧
    cr.entity.id ∉ L.map (·.id) ∧
    (∀ i, i < c.capacity → i ≠ cr.entity.id → c'.versions[i]? = c.versions[i]?) := by
  unfold Ents.create at hr
  obtain ⟨⟨id, c1⟩, ht, hr⟩ := bind_eq_ok.1 hr
  obtain ⟨t1, t2, t3, t4, t5, t6, t7, t8, t9, t10, t11, t12, t13⟩ := h.takeId_spec ht hb
  dsimp only at hr
  have hbl : id / 32 < c1.aliveBits.length := by rw [t6]; exact Words.div_lt_getLen t3
  obtain ⟨w, hw, hwl, hwb⟩ := Words.toggle_of_lt hbl
  have hv0 : ∃ v, c1.versions[id]? = some (some v) ∧ v ≤ I.length ∧ v < u32Size ∧
      (∀ e ∈ I, e.id = id → e.version ≤ v) := by
    by_cases hi : id < c.capacity
    · obtain ⟨v, hv, hvl, hvu⟩ := h.vinit id hi
      refine ⟨v, by rw [t4 id hi, hv], hvl, hvu, fun e he hid => ?_⟩
      obtain ⟨_, v', hv', hle⟩ := h.iver e he
      rw [hid, hv] at hv'
      cases hv'; exact hle
    · refine ⟨0, t5 id t3 hi, Nat.zero_le _, by decide, fun e he hid => ?_⟩
      have := h.issued_id_lt he
      omega
  obtain ⟨v, hv, hvl, hvu, hvI⟩ := hv0
  simp only [hw, Raw.read_of_some hv, ok_bind] at hr
  obtain ⟨ver, ha, hr⟩ := bind_eq_ok.1 hr
  have hver : ver = v + 1 ∧ v + 1 < u32Size := by
    unfold addU32 at ha
    split at ha
    · cases ha; exact ⟨rfl, by assumption⟩
    · split at ha
      · cases ha
      · rename_i h1 h2
        rcases hb with hb | hb
        · exact absurd hb h2
        · omega
  obtain ⟨rfl, hv1⟩ := hver
  have hwr := Raw.write_of_lt (a := c1.versions) (i := id) (v + 1) (by rw [t1]; exact t3)
  simp only [hwr, ok_bind, pure_ok] at hr
  cases hr
  have hset : ∀ i, (c1.versions.set id (some (v + 1)))[i]? =
      if i = id then some (some (v + 1)) else c1.versions[i]? := by
    intro i
    rw [List.getElem?_set]
    by_cases hi : i = id
    · subst hi; simp [t1, t3]
    · have : ¬ id = i := fun e => hi e.symm
      simp [hi, this]
  have hold : ∀ i, i < c.capacity → i ≠ id →
      (c1.versions.set id (some (v + 1)))[i]? = c.versions[i]? := by
    intro i hi hne
    rw [hset, if_neg hne, t4 i hi]
  refine ⟨?_, ?_, rfl, rfl, t2, t3, t11, hold⟩
  · constructor
    · simp [t1]
    · intro i hi
      show ∃ v', (c1.versions.set id (some (v + 1)))[i]? = _ ∧ _
      rw [hset]
      by_cases hii : i = id
      · rw [if_pos hii]; exact ⟨v + 1, rfl, by simp; omega, hv1⟩
      · rw [if_neg hii]
        by_cases hc : i < c.capacity
        · obtain ⟨v', hv', hl', hu'⟩ := h.vinit i hc
          exact ⟨v', by rw [t4 i hc, hv'], by simp; omega, hu'⟩
        · exact ⟨0, t5 i hi hc, by simp, by decide⟩
    · rw [show (_ : Ents).aliveBits = w from rfl, hwl, t6]
    · exact t8
    · simpa using t9
    · exact t10
    · simpa using t12
    · intro i; simpa using t13 i
    · intro i
      rw [show (_ : Ents).aliveBits = w from rfl, hwb, t7]
      have hbid : c.aliveBits.bit id = false := by
        have := h.bits id
        cases hh : c.aliveBits.bit id
        · rfl
        · exact absurd (this.1 hh) t11
      by_cases hi : i = id
      · subst hi; simp [hbid]
      · simp only [hi, decide_false, Bool.false_xor, List.map_cons, List.mem_cons, false_or]
        exact h.bits i
    · intro e he
      show (c1.versions.set id (some (v + 1)))[e.id]? = _
      rcases List.mem_cons.1 he with rfl | he
      · rw [hset]; simp
      · have hne : e.id ≠ id := fun hh => t11 (List.mem_map.2 ⟨e, he, hh⟩)
        rw [hold _ (h.id_lt he) hne]
        exact h.lver e he
    · intro e he
      show 1 ≤ e.version ∧ ∃ v', (c1.versions.set id (some (v + 1)))[e.id]? = _ ∧ _
      rcases List.mem_cons.1 he with rfl | he
      · refine ⟨by simp, v + 1, ?_, Nat.le_refl _⟩
        rw [hset]; simp
      · obtain ⟨h1, v', hv', hle⟩ := h.iver e he
        refine ⟨h1, ?_⟩
        by_cases hid : e.id = id
        · refine ⟨v + 1, by rw [hset, if_pos hid], ?_⟩
          have := hvI e he hid
          omega
        · exact ⟨v', by rw [hold _ (h.issued_id_lt he) hid, hv'], hle⟩
    · intro e he
      rcases List.mem_cons.1 he with rfl | he
      · simp
      · exact List.mem_cons_of_mem _ (h.sub e he)
  · intro hm
    have := hvI _ hm rfl
    simp at this
    omega

theorem create_ok (h : EntInv c I L) (hb : I.length + 1 < u32Size) :
    ∃ c' cr, c.create dbg = .ok (c', cr) := by
  obtain ⟨⟨id, c1⟩, ht⟩ := h.takeId_ok (dbg := dbg) hb
  obtain ⟨t1, t2, t3, t4, t5, t6, t7, t8, t9, t10, t11, t12, t13⟩ := h.takeId_spec ht (Or.inr hb)
  unfold Ents.create
  have hbl : id / 32 < c1.aliveBits.length := by rw [t6]; exact Words.div_lt_getLen t3
  obtain ⟨w, hw, hwl, hwb⟩ := Words.toggle_of_lt hbl
  have hv0 : ∃ v, c1.versions[id]? = some (some v) ∧ v ≤ I.length := by
    by_cases hi : id < c.capacity
    · obtain ⟨v, hv, hvl, hvu⟩ := h.vinit id hi
      exact ⟨v, by rw [t4 id hi, hv], hvl⟩
    · exact ⟨0, t5 id t3 hi, Nat.zero_le _⟩
  obtain ⟨v, hv, hvl⟩ := hv0
  have ha : addU32 dbg v 1 = .ok (v + 1) := by unfold addU32; rw [if_pos (by omega)]
  have hwr := Raw.write_of_lt (a := c1.versions) (i := id) (v + 1) (by rw [t1]; exact t3)
  simp only [ht, hw, Raw.read_of_some hv, ha, hwr, ok_bind, pure_ok]
  exact ⟨_, _, rfl⟩

/-- Removing a live handle. -/
theorem destroy_live (h : EntInv c I L) {e : Entity} (he : e ∈ L) :
    ∃ c', c.destroy dbg e = .ok c' ∧ EntInv c' I (L.erase e) ∧ c'.capacity = c.capacity ∧
      c'.versions = c.versions := by
  have hid := h.id_lt he
  have hnl : e.id < c.nextFreeId := (h.ids e.id).1 (Or.inl (List.mem_map.2 ⟨e, he, rfl⟩))
  have hbl : e.id / 32 < c.aliveBits.length := by rw [h.blen]; exact Words.div_lt_getLen hid
  obtain ⟨w, hw, hwl, hwb⟩ := Words.toggle_of_lt hbl
  have hvv : c.validateVersionWithPanic dbg e = .ok () := by
    unfold Ents.validateVersionWithPanic Ents.validateVersion Ents.validateId
    cases dbg
    · rfl
    · simp [hid, Raw.read_of_some (h.lver e he), dassert]
  have hal : c.isAlive dbg e = .ok true := by simp [h.isAlive_of_lt hid, he]
  have hsub : subU32 dbg c.nextFreeId 1 = .ok (c.nextFreeId - 1) := by
    unfold subU32; rw [if_pos (by omega)]
  -- the ids of the remaining live handles
  have hperm : (L.map (·.id)).Perm (e.id :: (L.erase e).map (·.id)) := by
    have := (List.perm_cons_erase he).map (·.id)
    simpa using this
  have hnd : (e.id :: ((L.erase e).map (·.id) ++ c.gapIds)).Nodup := by
    have h1 := (hperm.append_right c.gapIds).nodup_iff.1 h.nodup
    simpa using h1
  have hmem : ∀ i, i ∈ L.map (·.id) ↔ i = e.id ∨ i ∈ (L.erase e).map (·.id) := by
    intro i; rw [hperm.mem_iff]; simp only [List.mem_cons]
  have hni : e.id ∉ (L.erase e).map (·.id) := fun hm =>
    (List.nodup_cons.1 hnd).1 (List.mem_append_left _ hm)
  have hng : e.id ∉ c.gapIds := fun hm =>
    (List.nodup_cons.1 hnd).1 (List.mem_append_right _ hm)
  have hbits : ∀ i, w.bit i = true ↔ i ∈ (L.erase e).map (·.id) := by
    intro i
    rw [hwb]
    by_cases hi : i = e.id
    · subst hi
      have : c.aliveBits.bit e.id = true := (h.bits _).2 ((hmem _).2 (Or.inl rfl))
      simp only [decide_true, this, Bool.xor_self, Bool.false_eq_true, false_iff]
      exact hni
    · simp only [hi, decide_false, Bool.false_xor]
      rw [h.bits i, hmem]
      simp [hi]
  have hsubl : ∀ x ∈ L.erase e, x ∈ L := fun x hx => List.mem_of_mem_erase hx
  have hcompl : ∀ i, i ∈ (L.erase e).map (·.id) ∨ i ∈ c.gapIds ↔ i < c.nextFreeId ∧ i ≠ e.id := by
    intro i
    rw [← h.ids i, hmem]
    constructor
    · rintro (h1 | h1)
      · exact ⟨Or.inl (Or.inr h1), fun hh => hni (hh ▸ h1)⟩
      · exact ⟨Or.inr h1, fun hh => hng (hh ▸ h1)⟩
    · rintro ⟨(h1 | h1) | h1, h2⟩
      · exact absurd h1 h2
      · exact Or.inl h1
      · exact Or.inr h1
  have hd : c.destroy dbg e = if e.id = c.nextFreeId - 1 then
      .ok { c with aliveBits := w, nextFreeId := e.id }
      else .ok { c with aliveBits := w, gapIds := c.gapIds ++ [e.id] } := by
    unfold Ents.destroy
    cases dbg <;> simp [hvv, hw, hsub, hal]
  rw [hd]
  have hle := h.next_le
  have hli := h.next_le_issued
  have hlt := h.next_lt
  by_cases hl : e.id = c.nextFreeId - 1
  · rw [if_pos hl]
    refine ⟨_, rfl, ?_, rfl, rfl⟩
    constructor
    · exact h.vlen
    · exact h.vinit
    · rw [show (_ : Ents).aliveBits = w from rfl, hwl, h.blen]
    · show e.id ≤ c.capacity; omega
    · show e.id ≤ _; omega
    · show e.id < _; omega
    · exact (List.nodup_cons.1 hnd).2
    · intro i
      show _ ↔ i < e.id
      rw [hcompl i]; omega
    · exact hbits
    · intro x hx; exact h.lver x (hsubl x hx)
    · exact h.iver
    · intro x hx; exact h.sub x (hsubl x hx)
  · rw [if_neg hl]
    refine ⟨_, rfl, ?_, rfl, rfl⟩
    constructor
    · exact h.vlen
    · exact h.vinit
    · rw [show (_ : Ents).aliveBits = w from rfl, hwl, h.blen]
    · exact h.next_le
    · exact h.next_le_issued
    · exact h.next_lt
    · show ((L.erase e).map (·.id) ++ (c.gapIds ++ [e.id])).Nodup
      rw [← List.append_assoc]
      exact (List.perm_append_singleton _ _).nodup_iff.2 hnd
    · intro i
      show i ∈ _ ∨ i ∈ c.gapIds ++ [e.id] ↔ i < c.nextFreeId
      have := hcompl i
      rw [List.mem_append, List.mem_singleton, ← or_assoc, this]
      constructor
      · rintro (⟨h1, _⟩ | rfl)
        · exact h1
        · exact hnl
      · intro h1
        by_cases h2 : i = e.id
        · exact Or.inr h2
        · exact Or.inl ⟨h1, h2⟩
    · exact hbits
    · intro x hx; exact h.lver x (hsubl x hx)
    · exact h.iver
    · intro x hx; exact h.sub x (hsubl x hx)

/-- In a debug build, destroying anything but a live handle panics. -/
theorem destroy_debug_dead (h : EntInv c I L) {e : Entity} (he : e ∉ L) :
    c.destroy true e = .error (.panic .debugAssert) := by
  unfold Ents.destroy Ents.validateVersionWithPanic Ents.validateVersion Ents.validateId
  by_cases hid : e.id < c.capacity
  · obtain ⟨v, hv, _⟩ := h.vinit e.id hid
    by_cases hve : v = e.version
    · simp [hid, Raw.read_of_some hv, hve, h.isAlive_of_lt hid, he, dassert]
    · simp [hid, Raw.read_of_some hv, hve, dassert]
  · simp [hid, dassert]

theorem destroy_spec (h : EntInv c I L) {e : Entity} (hr : c.destroy dbg e = .ok c')
    (hb : dbg = true ∨ e ∈ L) :
    e ∈ L ∧ EntInv c' I (L.erase e) ∧ c'.capacity = c.capacity ∧ c'.versions = c.versions := by
  have he : e ∈ L := by
    rcases hb with rfl | hb
    · by_contra hn
      rw [h.destroy_debug_dead hn] at hr
      cases hr
    · exact hb
  obtain ⟨c2, h1, h2, h3, h4⟩ := h.destroy_live (dbg := dbg) he
  rw [hr] at h1
  cases h1
  exact ⟨he, h2, h3, h4⟩

end EntInv
end Ecs
