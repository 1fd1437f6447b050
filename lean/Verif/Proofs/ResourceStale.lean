import Verif.Proofs.Resource

/-! What the cells of a resource store contain, for stale handles too. -/

namespace Ecs
open Spec
variable {α : Type}

theorem ResStore.create_elements {r r' : ResStore α} {I : List Entity} {m : List (Entity × α)} {dbg : Bool}
    {v : α} {e : Entity} (h : ResInv r I m) (hr : r.create dbg v = .ok (r', e)) (hb : dbg = true ∨ I.length + 1 < u32Size) :
    ∀ i, i < r.ents.capacity ∨ i = e.id → r'.elements[i]? = if i = e.id then some (some v) else r.elements[i]? := by
  unfold ResStore.create at hr
  obtain ⟨⟨c', cr⟩, hc, hr⟩ := bind_eq_ok.1 hr
  obtain ⟨hi, hn, hcb, hca, hle, hlt, hnl, hold⟩ := h.ents.create_spec hc hb
  obtain ⟨el, hel', hr⟩ : ∃ el : Raw α, (el.length = c'.capacity ∧
      ∀ i, i < r.ents.capacity → el[i]? = r.elements[i]?) ∧
      (do let elements ← el.write cr.entity.id v
          pure (({ elements := elements, ents := c' } : ResStore α), cr.entity) : Res _) = .ok (r', e) := by
    dsimp only at hr
    split at hr
    · rw [Raw.realloc_of h.elen hle] at hr
      refine ⟨_, ⟨by simp [h.elen]; omega, fun i hi => ?_⟩, hr⟩
      rw [List.getElem?_append_left (by rw [h.elen]; exact hi)]
    · rename_i hw
      have : c'.capacity = r.ents.capacity := by
        simp [EntityCreation.wasGrow, hcb, hca] at hw
        omega
      exact ⟨_, ⟨by rw [h.elen, this], fun _ _ => rfl⟩, hr⟩
  obtain ⟨el2, hw, hr⟩ := bind_eq_ok.1 hr
  obtain ⟨hl, rfl⟩ := Raw.write_ok.1 hw
  cases hr
  intro i hi'
  simp only
  rw [List.getElem?_set]
  by_cases hie : i = cr.entity.id
  · subst hie; simp [hl]
  · rw [if_neg (fun h => hie h.symm), if_neg hie]
    exact hel'.2 i (hi'.resolve_right hie)

/-- Every cell that was ever used holds the last value stored in it. -/
theorem res_cells {dbg : Bool} {cap : Nat} {h : List (ResEvent α)} {r : ResStore α}
    (hx : ResExec dbg cap h r) (hb : dbg = true ∨ (resIssued h).length < u32Size) :
    ∀ e ∈ resIssued h, ∃ v, lastStored h e.id = some v ∧ r.elements[e.id]? = some (some v) := by
  induction hx with
  | init => simp [resIssued]
  | @create h r r' e v hx hr ih =>
    have hb' : dbg = true ∨ (resIssued h).length + 1 < u32Size := hb
    have hb0 : dbg = true ∨ (resIssued h).length < u32Size := hb'.imp id (fun h => by omega)
    have hi := (res_exec_inv hx hb0).1
    have hel := ResStore.create_elements hi hr hb'
    intro x hx'
    by_cases hxe : x.id = e.id
    · exact ⟨v, by simp [lastStored, hxe], by rw [hel _ (Or.inr hxe), if_pos hxe]⟩
    · have hx0 : x ∈ resIssued h := by
        rcases List.mem_cons.1 hx' with rfl | hx'
        · exact absurd rfl hxe
        · exact hx'
      obtain ⟨w, h1, h2⟩ := ih hb0 x hx0
      refine ⟨w, by simp [lastStored, hxe, h1], ?_⟩
      rw [hel _ (Or.inl (hi.ents.issued_id_lt hx0)), if_neg hxe, h2]
  | @release h r r' v e hx hr he ih =>
    intro x hx'
    obtain ⟨w, h1, h2⟩ := ih hb x hx'
    unfold ResStore.release at hr
    extract_lets k at hr
    obtain ⟨_, hr⟩ := guard_ok (k := k) hr
    simp only [k] at hr
    obtain ⟨_, _, hr⟩ := bind_eq_ok.1 hr
    obtain ⟨_, _, hr⟩ := bind_eq_ok.1 hr
    cases hr
    exact ⟨w, h1, h2⟩
  | @assign h r r' old e new hx hr he ih =>
    intro x hx'
    obtain ⟨w, h1, h2⟩ := ih hb x hx'
    unfold ResStore.assign at hr
    extract_lets k at hr
    obtain ⟨_, hr⟩ := guard_ok (k := k) hr
    simp only [k] at hr
    obtain ⟨_, _, hr⟩ := bind_eq_ok.1 hr
    obtain ⟨el, hel, hr⟩ := bind_eq_ok.1 hr
    obtain ⟨hl, rfl⟩ := Raw.write_ok.1 hel
    cases hr
    by_cases hxe : x.id = e.id
    · refine ⟨new, by simp [lastStored, hxe], ?_⟩
      simp only
      rw [hxe, List.getElem?_set_self hl]
    · refine ⟨w, by simp [lastStored, hxe, h1], ?_⟩
      simp only
      rw [List.getElem?_set_ne (fun h => hxe h.symm), h2]

/-- In a release build the handle given to `destroy_entity` is not checked: only the alive bit is flipped. -/
theorem destroy_release {c : Ents} {I L : List Entity} (h : EntInv c I L) {e : Entity} (he : e ∈ I) :
    ∃ c', c.destroy false e = .ok c' ∧ c'.versions = c.versions ∧ c'.capacity = c.capacity ∧
      c'.aliveBits.length = c.aliveBits.length ∧
      ∀ i, c'.aliveBits.bit i = if i = e.id then !c.aliveBits.bit i else c.aliveBits.bit i := by
  have hlt := h.issued_id_lt he
  obtain ⟨w, hw, hwl, hwb⟩ := Words.toggle_of_lt (w := c.aliveBits) (i := e.id)
    (by rw [h.blen]; exact Words.div_lt_getLen hlt)
  have hwb : ∀ i, w.bit i = if i = e.id then !c.aliveBits.bit i else c.aliveBits.bit i := by
    intro i
    rw [hwb i]
    by_cases hi : i = e.id <;> simp [hi]
  have hs : ∃ x, subU32 false c.nextFreeId 1 = .ok x := by
    unfold subU32; split <;> exact ⟨_, rfl⟩
  obtain ⟨x, hs⟩ := hs
  unfold Ents.destroy Ents.validateVersionWithPanic
  simp only [Bool.false_eq_true, if_false, pure_ok, ok_bind, hw, hs]
  split
  · exact ⟨_, rfl, rfl, rfl, hwl, hwb⟩
  · exact ⟨_, rfl, rfl, rfl, hwl, hwb⟩

/-- A value stored in a cell is held by a live handle or has left the store. -/
theorem res_lastStored {dbg : Bool} {cap : Nat} {h : List (ResEvent α)} {r : ResStore α}
    (hx : ResExec dbg cap h r) (hb : dbg = true ∨ (resIssued h).length < u32Size) :
    ∀ i v, lastStored h i = some v → (∃ e : Entity, e.id = i ∧ (e, v) ∈ resContents h) ∨ v ∈ valuesOut h := by
  induction hx with
  | init => intro i v hv; simp [lastStored] at hv
  | @create h r r' e w hx hr ih =>
    have hb0 : dbg = true ∨ (resIssued h).length < u32Size :=
      hb.imp id (fun h => by simp only [resIssued, List.length_cons] at h; omega)
    intro i v hv
    simp only [lastStored] at hv
    split at hv
    · cases hv; subst i
      exact Or.inl ⟨e, rfl, by simp [resContents]⟩
    · rcases ih hb0 i v hv with ⟨d, hd, hm⟩ | ho
      · exact Or.inl ⟨d, hd, by simp [resContents, hm]⟩
      · exact Or.inr ho
  | @release h r r' w e hx hr he ih =>
    intro i v hv
    simp only [lastStored] at hv
    obtain ⟨hi, hmap, _⟩ := res_exec_inv hx hb
    have he' : dbg = true ∨ e ∈ (resContents h).map (·.1) := by
      refine he.imp id (fun hs => ?_)
      obtain ⟨w, hw⟩ := Option.isSome_iff_exists.1 hs
      exact List.mem_map.2 ⟨_, (hmap _ _).1 hw, rfl⟩
    obtain ⟨hm, _⟩ := hi.release hr he'
    rcases ih hb i v hv with ⟨d, hd, hmd⟩ | ho
    · rcases List.mem_cons.1 ((ResInv.erase_perm hm hi.ents.nodup_live).mem_iff.1 hmd) with hq | hq
      · cases hq
        exact Or.inr (by simp [valuesOut])
      · exact Or.inl ⟨d, hd, hq⟩
    · exact Or.inr (by simp [valuesOut, ho])
  | @assign h r r' old e new hx hr he ih =>
    intro i v hv
    simp only [lastStored] at hv
    obtain ⟨hi, hmap, _⟩ := res_exec_inv hx hb
    have he' : dbg = true ∨ e ∈ (resContents h).map (·.1) := by
      refine he.imp id (fun hs => ?_)
      obtain ⟨w, hw⟩ := Option.isSome_iff_exists.1 hs
      exact List.mem_map.2 ⟨_, (hmap _ _).1 hw, rfl⟩
    obtain ⟨hm, _⟩ := hi.assign hr he'
    split at hv
    · cases hv; subst i
      exact Or.inl ⟨e, rfl, by simp [resContents]⟩
    · rcases ih hb i v hv with ⟨d, hd, hmd⟩ | ho
      · rcases List.mem_cons.1 ((ResInv.erase_perm hm hi.ents.nodup_live).mem_iff.1 hmd) with hq | hq
        · cases hq
          exact Or.inr (by simp [valuesOut])
        · exact Or.inl ⟨d, hd, by simp [resContents, hq]⟩
      · exact Or.inr (by simp [valuesOut, ho])

/-- `drop` needs nothing but initialized cells below every alive bit. -/
theorem ResStore.dropLoop_of {r : ResStore α} (is : List Nat)
    (hbit : ∀ i ∈ is, i / 32 < r.ents.aliveBits.length)
    (hcell : ∀ i, r.ents.aliveBits.bit i = true → ∃ v, r.elements[i]? = some (some v)) :
    ∃ vs, r.dropLoop is = .ok vs ∧
      vs.map some = (is.filter (fun i => r.ents.aliveBits.bit i)).map (fun i => (r.elements[i]?).join) := by
  induction is with
  | nil => exact ⟨[], rfl, rfl⟩
  | cons i is ih =>
    obtain ⟨vs, h1, h2⟩ := ih (fun j hj => hbit j (List.mem_cons_of_mem _ hj))
    unfold ResStore.dropLoop Ents.isAliveAtIndex
    rw [Words.isOn_of_lt (hbit i List.mem_cons_self)]
    simp only [ok_bind]
    cases hb : r.ents.aliveBits.bit i
    · exact ⟨vs, by simp [h1], by simp [hb, h2]⟩
    · obtain ⟨v, hv⟩ := hcell i hb
      exact ⟨v :: vs, by simp [h1, Raw.read_of_some hv], by simp [hb, h2, hv]⟩

/-- Releasing under a handle whose cell is free makes `drop` drop the moved-out value again. -/
theorem ResInv.release_free {r : ResStore α} {I : List Entity} {m : List (Entity × α)}
    (h : ResInv r I m) {e : Entity} {v : α} (he : e ∈ I) (hfree : ∀ p ∈ m, p.1.id ≠ e.id)
    (hv : r.elements[e.id]? = some (some v)) :
    ∃ r' vs, r.release false e = .ok (r', v) ∧ r'.drop = .ok vs ∧ vs.Perm (v :: m.map (·.2)) := by
  obtain ⟨c', hd, hver, hcap, hbl, hbits⟩ := destroy_release h.ents he
  have hoff : r.ents.aliveBits.bit e.id = false := by
    cases hb : r.ents.aliveBits.bit e.id with
    | false => rfl
    | true =>
      obtain ⟨d, hd, hid⟩ := List.mem_map.1 ((h.ents.bits e.id).1 hb)
      obtain ⟨p, hp, rfl⟩ := List.mem_map.1 hd
      exact absurd hid (hfree p hp)
  have hcell : ∀ i, c'.aliveBits.bit i = true → ∃ v, r.elements[i]? = some (some v) := by
    intro i hi
    rw [hbits i] at hi
    split at hi
    · subst i; exact ⟨v, hv⟩
    · obtain ⟨d, hd, hid⟩ := List.mem_map.1 ((h.ents.bits i).1 hi)
      obtain ⟨p, hp, rfl⟩ := List.mem_map.1 hd
      exact ⟨p.2, hid ▸ h.vals p hp⟩
  obtain ⟨vs, h1, h2⟩ := ResStore.dropLoop_of (r := { r with ents := c' }) (List.range c'.capacity)
    (fun i hi => by
      simp only
      rw [hbl, h.ents.blen, ← hcap]; exact Words.div_lt_getLen (List.mem_range.1 hi)) hcell
  refine ⟨{ r with ents := c' }, vs, ?_, ?_, ?_⟩
  · unfold ResStore.release
    simp [hd, Raw.read_of_some hv]
  · unfold ResStore.drop Ents.drop Words.dealloc Raw.dealloc
    simp only [h1, ok_bind]
    simp [hbl, h.ents.blen, hver, h.ents.vlen, hcap]
  · have hp : ((List.range c'.capacity).filter (fun i => c'.aliveBits.bit i)).Perm
        (e.id :: (m.map (·.1)).map (·.id)) := by
      have hnd : (e.id :: (m.map (·.1)).map (·.id)).Nodup := by
        refine List.nodup_cons.2 ⟨fun hm => ?_, h.ents.nodup_live_ids⟩
        obtain ⟨d, hd, hid⟩ := List.mem_map.1 hm
        obtain ⟨p, hp, rfl⟩ := List.mem_map.1 hd
        exact hfree p hp hid
      rw [List.perm_ext_iff_of_nodup (List.nodup_range.filter _) hnd]
      intro i
      rw [List.mem_filter, List.mem_range, hbits i, List.mem_cons, ← h.ents.bits i, hcap]
      constructor
      · rintro ⟨_, hh⟩
        by_cases hi : i = e.id
        · exact Or.inl hi
        · rw [if_neg hi] at hh; exact Or.inr hh
      · rintro (rfl | hh)
        · exact ⟨h.ents.issued_id_lt he, by simp [hoff]⟩
        · have hi : i ≠ e.id := fun hi => by rw [hi, hoff] at hh; cases hh
          refine ⟨?_, by rw [if_neg hi]; exact hh⟩
          obtain ⟨d, hd, hid⟩ := List.mem_map.1 ((h.ents.bits i).1 hh)
          exact hid ▸ h.ents.id_lt hd
    have hp2 := hp.map (fun i => (r.elements[i]?).join)
    have h2' : vs.map some = ((List.range c'.capacity).filter (fun i => c'.aliveBits.bit i)).map
        (fun i => (r.elements[i]?).join) := h2
    rw [← h2', List.map_cons] at hp2
    have he : ((m.map (·.1)).map (·.id)).map (fun i => (r.elements[i]?).join) =
        (m.map (·.2)).map some := by
      rw [List.map_map, List.map_map, List.map_map]
      apply List.map_congr_left
      intro p hp
      simp [h.vals p hp]
    rw [he, hv] at hp2
    exact (List.map_perm_map_iff (fun _ _ h => Option.some.inj h)).1 hp2

/-- Only cells of issued ids were ever written. -/
theorem res_cell_issued {dbg : Bool} {cap : Nat} {h : List (ResEvent α)} {r : ResStore α} (hx : ResExec dbg cap h r)
    (hb : dbg = true ∨ (resIssued h).length < u32Size) :
    ∀ i v, r.elements[i]? = some (some v) → ∃ x ∈ resIssued h, x.id = i := by
  induction hx with
  | init =>
    intro i v hv
    simp only [ResStore.withCapacity, Raw.alloc, List.getElem?_replicate] at hv
    split at hv <;> cases hv
  | @create h r r' e w hx hr ih =>
    have hb0 : dbg = true ∨ (resIssued h).length < u32Size :=
      hb.imp id (fun h => by simp only [resIssued, List.length_cons] at h; omega)
    intro i v hv
    unfold ResStore.create at hr
    obtain ⟨⟨c, cr⟩, _, hr⟩ := bind_eq_ok.1 hr
    have key : ∃ els, (∀ v, els[i]? = some (some v) → r.elements[i]? = some (some v)) ∧ e = cr.entity ∧
        Raw.write els cr.entity.id w = .ok r'.elements := by
      dsimp only at hr
      split at hr
      · obtain ⟨els, he, hr⟩ := bind_eq_ok.1 hr
        obtain ⟨els2, hw, hr⟩ := bind_eq_ok.1 hr
        cases hr
        refine ⟨els, fun v hv => ?_, rfl, hw⟩
        unfold Raw.realloc at he
        split at he
        · cases he; exact hv
        · split at he
          · cases he
          · obtain ⟨_, _, he⟩ := bind_eq_ok.1 he
            cases he
            rw [List.getElem?_append] at hv
            split at hv
            · rw [List.getElem?_take] at hv
              split at hv
              · exact hv
              · cases hv
            · rw [List.getElem?_replicate] at hv
              split at hv <;> cases hv
      · simp only [pure_ok, ok_bind] at hr
        obtain ⟨els2, hw, hr⟩ := bind_eq_ok.1 hr
        cases hr
        exact ⟨_, fun v hv => hv, rfl, hw⟩
    obtain ⟨els, hels, rfl, hw⟩ := key
    unfold Raw.write at hw
    split at hw
    · replace hw := Except.ok.inj hw
      rw [← hw, List.getElem?_set] at hv
      split at hv
      · rename_i hi
        exact ⟨_, List.mem_cons_self, hi⟩
      · obtain ⟨x, h1, h2⟩ := ih hb0 i v (hels v hv)
        exact ⟨x, List.mem_cons_of_mem _ h1, h2⟩
    · cases hw
  | @release h r r' w e hx hr he ih =>
    intro i v hv
    unfold ResStore.release at hr
    have : r'.elements = r.elements := by
      cases dbg
      · obtain ⟨_, _, hr⟩ := bind_eq_ok.1 hr
        obtain ⟨_, _, hr⟩ := bind_eq_ok.1 hr
        cases hr; rfl
      · simp only [if_true] at hr
        obtain ⟨_, _, hr⟩ := bind_eq_ok.1 hr
        obtain ⟨_, _, hr⟩ := bind_eq_ok.1 hr
        obtain ⟨_, _, hr⟩ := bind_eq_ok.1 hr
        obtain ⟨_, _, hr⟩ := bind_eq_ok.1 hr
        cases hr; rfl
    rw [this] at hv
    exact ih hb i v hv
  | @assign h r r' old e new hx hr he ih =>
    intro i v hv
    have key : ∃ o, Raw.read r.elements e.id = .ok o ∧ r'.elements = r.elements.set e.id (some new) := by
      unfold ResStore.assign at hr
      have fin : ∀ {x : Res (ResStore α × α)}, x = .ok (r', old) → x = (do
          let old ← Raw.read r.elements e.id
          let elements ← Raw.write r.elements e.id new
          return ({ r with elements := elements }, old)) →
          ∃ o, Raw.read r.elements e.id = .ok o ∧ r'.elements = r.elements.set e.id (some new) := by
        intro x h1 h2
        rw [h1] at h2
        obtain ⟨o, ho, h2⟩ := bind_eq_ok.1 h2.symm
        obtain ⟨w, hw, h2⟩ := bind_eq_ok.1 h2
        cases h2
        unfold Raw.write at hw
        split at hw
        · cases hw; exact ⟨_, ho, rfl⟩
        · cases hw
      cases dbg
      · exact fin hr rfl
      · simp only [if_true] at hr
        obtain ⟨_, _, hr⟩ := bind_eq_ok.1 hr
        obtain ⟨_, _, hr⟩ := bind_eq_ok.1 hr
        exact fin hr rfl
    obtain ⟨o, ho, hs⟩ := key
    rw [hs, List.getElem?_set] at hv
    split at hv
    · rename_i hi
      exact ih hb i o (hi ▸ Raw.read_ok.1 ho)
    · exact ih hb i v hv

end Ecs
