import Verif.Spec.Resource
import Verif.Proofs.Entities

namespace Ecs
open Spec

theorem EntInv.perm {c : Ents} {I L L' : List Entity} (h : EntInv c I L) (hp : L.Perm L') :
    EntInv c I L' where
  vlen := h.vlen
  vinit := h.vinit
  blen := h.blen
  next_le := h.next_le
  next_le_issued := h.next_le_issued
  next_lt := h.next_lt
  nodup := ((hp.map _).append_right _).nodup_iff.1 h.nodup
  ids := fun i => by rw [← (hp.map (·.id)).mem_iff]; exact h.ids i
  bits := fun i => by rw [← (hp.map (·.id)).mem_iff]; exact h.bits i
  lver := fun e he => h.lver e (hp.mem_iff.2 he)
  iver := h.iver
  sub := fun e he => h.sub e (hp.mem_iff.2 he)

variable {α : Type}

/-- The contents described by a history as an association list. -/
def resContents : List (ResEvent α) → List (Entity × α)
  | [] => []
  | .created e v :: h => (e, v) :: resContents h
  | .released e _ :: h => (resContents h).eraseP (fun p => p.1 = e)
  | .assigned e _ new :: h => (e, new) :: (resContents h).eraseP (fun p => p.1 = e)

theorem map_fst_eraseP (l : List (Entity × α)) (e : Entity) :
    (l.eraseP (fun p => p.1 = e)).map (·.1) = (l.map (·.1)).erase e := by
  induction l with
  | nil => rfl
  | cons p l ih =>
    by_cases h : p.1 = e
    · simp [h]
    · have h' : ¬ (p.1 == e) = true := by simpa using h
      rw [List.eraseP_cons_of_neg (by simpa using h), List.map_cons, List.map_cons,
        List.erase_cons_tail (by simpa using h), ih]

structure ResInv (r : ResStore α) (I : List Entity) (m : List (Entity × α)) : Prop where
  ents : EntInv r.ents I (m.map (·.1))
  elen : r.elements.length = r.ents.capacity
  vals : ∀ p ∈ m, r.elements[p.1.id]? = some (some p.2)

theorem ResInv.unique {r : ResStore α} {I : List Entity} {m : List (Entity × α)} (h : ResInv r I m)
    {e : Entity} {v v' : α} (h1 : (e, v) ∈ m) (h2 : (e, v') ∈ m) : v = v' := by
  have a := h.vals _ h1
  have b := h.vals _ h2
  simp only at a b
  rw [a] at b; cases b; rfl

theorem ResInv.create {r r' : ResStore α} {I : List Entity} {m : List (Entity × α)} {dbg : Bool}
    {v : α} {e : Entity} (h : ResInv r I m) (hr : r.create dbg v = .ok (r', e))
    (hb : dbg = true ∨ I.length + 1 < u32Size) :
    ResInv r' (e :: I) ((e, v) :: m) ∧ e ∉ I := by
  unfold ResStore.create at hr
  obtain ⟨⟨c', cr⟩, hc, hr⟩ := bind_eq_ok.1 hr
  obtain ⟨hi, hn, hcb, hca, hle, hlt, hnl, hold⟩ := h.ents.create_spec hc hb
  obtain ⟨el, hel', hr⟩ : ∃ el : Raw α, (el.length = c'.capacity ∧
      ∀ i, i < r.ents.capacity → el[i]? = r.elements[i]?) ∧
      (do let elements ← el.write cr.entity.id v
          pure (({ elements := elements, ents := c' } : ResStore α), cr.entity) : Res _) = .ok (r', e) := by
    dsimp only at hr
    split at hr
    · rw [Raw.realloc_of h.elen hle] at hr
      refine ⟨_, ⟨by simp [h.elen]; omega, fun i hi => ?_⟩, hr⟩
      rw [List.getElem?_append_left (by rw [h.elen]; exact hi)]
    · rename_i hw
      have : c'.capacity = r.ents.capacity := by
        simp [EntityCreation.wasGrow, hcb, hca] at hw
        omega
      exact ⟨_, ⟨by rw [h.elen, this], fun _ _ => rfl⟩, hr⟩
  obtain ⟨el2, hw, hr⟩ := bind_eq_ok.1 hr
  obtain ⟨hl, rfl⟩ := Raw.write_ok.1 hw
  cases hr
  refine ⟨⟨by simpa using hi, by simp [hel'.1], fun p hp => ?_⟩, hn⟩
  simp only
  rw [List.getElem?_set]
  rcases List.mem_cons.1 hp with rfl | hp
  · simp [hl]
  · have hid : p.1.id ∈ (m.map (·.1)).map (·.id) :=
      List.mem_map.2 ⟨p.1, List.mem_map.2 ⟨p, hp, rfl⟩, rfl⟩
    have hne : ¬ cr.entity.id = p.1.id := fun he => hnl (by rw [he]; exact hid)
    rw [if_neg hne, hel'.2 _ (h.ents.id_lt (List.mem_map.2 ⟨p, hp, rfl⟩))]
    exact h.vals p hp

theorem ResInv.live_of {r : ResStore α} {I : List Entity} {m : List (Entity × α)} {dbg : Bool}
    {e : Entity} (h : ResInv r I m)
    (ha : dbg = true → r.ents.isAlive dbg e = .ok true) (hb : dbg = true ∨ e ∈ m.map (·.1)) :
    e ∈ m.map (·.1) := by
  rcases hb with rfl | hb
  · have ha := ha rfl
    by_cases hid : e.id < r.ents.capacity
    · rw [h.ents.isAlive_of_lt hid] at ha
      simpa using ha
    · rw [EntInv.isAlive_debug_oob hid] at ha; cases ha
  · exact hb

theorem guard_ok {β : Type} {dbg : Bool} {x : Res Bool} {k : Unit → Res β} {b : β}
    (hr : (if dbg = true then (x >>= fun a => dassert dbg a >>= k) else k ()) = .ok b) :
    (dbg = true → x = .ok true) ∧ k () = .ok b := by
  cases dbg
  · exact ⟨by simp, hr⟩
  · simp only [if_true] at hr
    obtain ⟨a, hx, hr⟩ := bind_eq_ok.1 hr
    obtain ⟨_, hd, hr⟩ := bind_eq_ok.1 hr
    have := dassert_ok.1 hd rfl
    exact ⟨fun _ => by rw [hx, this], hr⟩

theorem ResInv.erase_perm {m : List (Entity × α)} {e : Entity} {v : α} (hm : (e, v) ∈ m)
    (hnd : (m.map (·.1)).Nodup) : m.Perm ((e, v) :: m.eraseP (fun p => p.1 = e)) := by
  induction m with
  | nil => simp at hm
  | cons p m ih =>
    by_cases hp : p.1 = e
    · have : p = (e, v) := by
        rcases List.mem_cons.1 hm with h | h
        · exact h.symm
        · exfalso
          rw [List.map_cons, List.nodup_cons] at hnd
          exact hnd.1 (hp ▸ List.mem_map.2 ⟨(e, v), h, rfl⟩)
      subst this
      simp
    · rw [List.eraseP_cons_of_neg (by simpa using hp)]
      have hm' : (e, v) ∈ m := by
        rcases List.mem_cons.1 hm with h | h
        · subst h; exact absurd rfl hp
        · exact h
      exact ((ih hm' (List.nodup_cons.1 hnd).2).cons p).trans (List.Perm.swap _ _ _)

theorem ResInv.release {r r' : ResStore α} {I : List Entity} {m : List (Entity × α)} {dbg : Bool}
    {v : α} {e : Entity} (h : ResInv r I m) (hr : r.release dbg e = .ok (r', v))
    (hb : dbg = true ∨ e ∈ m.map (·.1)) :
    (e, v) ∈ m ∧ ResInv r' I (m.eraseP (fun p => p.1 = e)) := by
  unfold ResStore.release at hr
  extract_lets k at hr
  obtain ⟨ha, hr⟩ := guard_ok (k := k) hr
  simp only [k] at hr
  have he := h.live_of ha hb
  obtain ⟨c', hc, hr⟩ := bind_eq_ok.1 hr
  obtain ⟨_, hi, hcap, _⟩ := h.ents.destroy_spec hc (Or.inr he)
  obtain ⟨w, hw, hr⟩ := bind_eq_ok.1 hr
  cases hr
  obtain ⟨⟨e', v'⟩, hm, heq⟩ := List.mem_map.1 he
  simp only at heq; subst heq
  have hv := h.vals _ hm
  have := Raw.read_ok.1 hw
  simp only at hv
  rw [hv] at this
  cases this
  refine ⟨hm, by rw [map_fst_eraseP]; exact hi, ?_, fun p hp => ?_⟩
  · show r.elements.length = c'.capacity
    rw [hcap, h.elen]
  · exact h.vals p (List.mem_of_mem_eraseP hp)

theorem ResInv.assign {r r' : ResStore α} {I : List Entity} {m : List (Entity × α)} {dbg : Bool}
    {old v : α} {e : Entity} (h : ResInv r I m) (hr : r.assign dbg e v = .ok (r', old))
    (hb : dbg = true ∨ e ∈ m.map (·.1)) :
    (e, old) ∈ m ∧ ResInv r' I ((e, v) :: m.eraseP (fun p => p.1 = e)) := by
  unfold ResStore.assign at hr
  extract_lets k at hr
  obtain ⟨ha, hr⟩ := guard_ok (k := k) hr
  simp only [k] at hr
  have he := h.live_of ha hb
  obtain ⟨w, hw, hr⟩ := bind_eq_ok.1 hr
  obtain ⟨el, hel, hr⟩ := bind_eq_ok.1 hr
  obtain ⟨hl, rfl⟩ := Raw.write_ok.1 hel
  cases hr
  obtain ⟨⟨e', v'⟩, hm, heq⟩ := List.mem_map.1 he
  simp only at heq; subst heq
  have hv := h.vals _ hm
  have := Raw.read_ok.1 hw
  simp only at hv
  rw [hv] at this
  cases this
  refine ⟨hm, ?_, by simp [h.elen], fun p hp => ?_⟩
  · simp only [List.map_cons]
    rw [map_fst_eraseP]
    exact h.ents.perm (List.perm_cons_erase he)
  · show (r.elements.set e'.id (some v))[p.1.id]? = _
    rw [List.getElem?_set]
    rcases List.mem_cons.1 hp with rfl | hp
    · simp [hl]
    · have hpm := List.mem_of_mem_eraseP hp
      have hne : ¬ e'.id = p.1.id := by
        intro hid
        have heq := h.ents.eq_of_id he (List.mem_map.2 ⟨p, hpm, rfl⟩) hid
        have hnd : ((e', old) :: m.eraseP (fun p => p.1 = e')).map (·.1) |>.Nodup :=
          ((ResInv.erase_perm hm h.ents.nodup_live).map (·.1)).nodup_iff.1 h.ents.nodup_live
        rw [List.map_cons, List.nodup_cons] at hnd
        exact hnd.1 (List.mem_map.2 ⟨p, hp, heq.symm⟩)
      rw [if_neg hne]
      exact h.vals p hpm

theorem resMap_iff {h : List (ResEvent α)} (hnd : ∀ t, t <:+ h → ((resContents t).map (·.1)).Nodup)
    (hm : ∀ t e o n, .assigned e o n :: t <:+ h → (e, o) ∈ resContents t)
    (hr : ∀ t e v, .released e v :: t <:+ h → (e, v) ∈ resContents t)
    (e : Entity) (v : α) : resMap h e = some v ↔ (e, v) ∈ resContents h := by
  induction h with
  | nil => simp [resMap, resContents]
  | cons ev h ih =>
    have ih := ih (fun t ht => hnd t (ht.trans (List.suffix_cons _ _)))
      (fun t e o n ht => hm t e o n (ht.trans (List.suffix_cons _ _)))
      (fun t e v ht => hr t e v (ht.trans (List.suffix_cons _ _)))
    have hn := hnd _ (List.suffix_refl _)
    cases ev with
    | created d w =>
      simp only [resMap, resContents, List.mem_cons, Prod.mk.injEq] at *
      split
      · rename_i hh
        subst hh
        constructor
        · intro hw; exact Or.inl ⟨rfl, (Option.some.inj hw).symm⟩
        · rintro (⟨_, rfl⟩ | hh)
          · rfl
          · exfalso
            rw [List.map_cons, List.nodup_cons] at hn
            exact hn.1 (List.mem_map.2 ⟨_, hh, rfl⟩)
      · rename_i hh
        rw [ih]; simp [hh]
    | released d w =>
      have hd := hr h d w (List.suffix_refl _)
      have hp := ResInv.erase_perm hd (hnd h (List.suffix_cons _ _))
      have hpn := (hp.map (·.1)).nodup_iff.1 (hnd h (List.suffix_cons _ _))
      rw [List.map_cons, List.nodup_cons] at hpn
      simp only [resMap, resContents]
      split
      · rename_i hh
        subst hh
        constructor
        · intro hh; cases hh
        · intro hh; exact absurd (List.mem_map.2 ⟨_, hh, rfl⟩) hpn.1
      · rename_i hh
        rw [ih, hp.mem_iff, List.mem_cons]; simp [hh]
    | assigned d o n =>
      have hd := hm h d o n (List.suffix_refl _)
      have hp := ResInv.erase_perm hd (hnd h (List.suffix_cons _ _))
      have hpn := (hp.map (·.1)).nodup_iff.1 (hnd h (List.suffix_cons _ _))
      rw [List.map_cons, List.nodup_cons] at hpn
      simp only [resMap, resContents, List.mem_cons, Prod.mk.injEq]
      split
      · rename_i hh
        subst hh
        constructor
        · intro hw; exact Or.inl ⟨rfl, (Option.some.inj hw).symm⟩
        · rintro (⟨_, rfl⟩ | hh)
          · rfl
          · exact absurd (List.mem_map.2 ⟨_, hh, rfl⟩) hpn.1
      · rename_i hh
        rw [ih, hp.mem_iff, List.mem_cons]; simp [hh]

/-- Main invariant of executions. -/
theorem res_exec_inv {dbg : Bool} {cap : Nat} {h : List (ResEvent α)} {r : ResStore α}
    (hx : ResExec dbg cap h r) (hb : dbg = true ∨ (resIssued h).length < u32Size) :
    ResInv r (resIssued h) (resContents h) ∧ (∀ e v, resMap h e = some v ↔ (e, v) ∈ resContents h) ∧
    (valuesIn h).Perm (valuesOut h ++ (resContents h).map (·.2)) := by
  have main : ResInv r (resIssued h) (resContents h) ∧
      (∀ e v, resMap h e = some v ↔ (e, v) ∈ resContents h) ∧
      ((∀ t, t <:+ h → ((resContents t).map (·.1)).Nodup) ∧
       (∀ t e o n, .assigned e o n :: t <:+ h → (e, o) ∈ resContents t) ∧
       (∀ t e v, .released e v :: t <:+ h → (e, v) ∈ resContents t)) ∧
      (valuesIn h).Perm (valuesOut h ++ (resContents h).map (·.2)) := by
    have suf : ∀ {t h : List (ResEvent α)} {ev : ResEvent α}, t <:+ ev :: h → t = ev :: h ∨ t <:+ h :=
      fun ht => List.suffix_cons_iff.1 ht
    induction hx with
    | init =>
      refine ⟨⟨EntInv.new cap, by simp [ResStore.withCapacity, Raw.alloc, Ents.new], by simp [resContents]⟩,
        by simp [resMap, resContents], ⟨?_, ?_, ?_⟩, by simp [valuesIn, valuesOut, resContents]⟩
      · intro t ht; rw [List.suffix_nil.1 ht]; simp [resContents]
      · intro t e o n ht; simp at ht
      · intro t e v ht; simp at ht
    | @create h r r' e v hx hr ih =>
      have hb' : dbg = true ∨ (resIssued h).length + 1 < u32Size := hb
      obtain ⟨hi, hmap, ⟨g1, g2, g3⟩, hp⟩ := ih (hb'.imp id (fun h => by omega))
      obtain ⟨hi', _⟩ := hi.create hr hb'
      have g1' : ∀ t, t <:+ (.created e v :: h) → ((resContents t).map (·.1)).Nodup := by
        intro t ht
        rcases suf ht with rfl | ht
        · exact hi'.ents.nodup_live
        · exact g1 t ht
      have g2' : ∀ t d o n, .assigned d o n :: t <:+ (.created e v :: h) → (d, o) ∈ resContents t := by
        intro t d o n ht
        rcases suf ht with ht | ht
        · cases ht
        · exact g2 _ _ _ _ ht
      have g3' : ∀ t d w, .released d w :: t <:+ (.created e v :: h) → (d, w) ∈ resContents t := by
        intro t d w ht
        rcases suf ht with ht | ht
        · cases ht
        · exact g3 _ _ _ ht
      refine ⟨hi', resMap_iff g1' g2' g3', ⟨g1', g2', g3'⟩, ?_⟩
      simp only [valuesIn, valuesOut, resContents, List.map_cons]
      exact (hp.cons v).trans List.perm_middle.symm
    | @release h r r' v e hx hr he ih =>
      obtain ⟨hi, hmap, ⟨g1, g2, g3⟩, hp⟩ := ih hb
      have he' : dbg = true ∨ e ∈ (resContents h).map (·.1) := by
        refine he.imp id (fun hs => ?_)
        obtain ⟨w, hw⟩ := Option.isSome_iff_exists.1 hs
        exact List.mem_map.2 ⟨_, (hmap _ _).1 hw, rfl⟩
      obtain ⟨hm, hi'⟩ := hi.release hr he'
      have g1' : ∀ t, t <:+ (.released e v :: h) → ((resContents t).map (·.1)).Nodup := by
        intro t ht
        rcases suf ht with rfl | ht
        · exact hi'.ents.nodup_live
        · exact g1 t ht
      have g2' : ∀ t d o n, .assigned d o n :: t <:+ (.released e v :: h) → (d, o) ∈ resContents t := by
        intro t d o n ht
        rcases suf ht with ht | ht
        · cases ht
        · exact g2 _ _ _ _ ht
      have g3' : ∀ t d w, .released d w :: t <:+ (.released e v :: h) → (d, w) ∈ resContents t := by
        intro t d w ht
        rcases suf ht with ht | ht
        · cases ht; exact hm
        · exact g3 _ _ _ ht
      refine ⟨hi', resMap_iff g1' g2' g3', ⟨g1', g2', g3'⟩, ?_⟩
      simp only [valuesIn, valuesOut, resContents]
      have := (ResInv.erase_perm hm hi.ents.nodup_live).map (·.2)
      exact hp.trans ((this.append_left _).trans List.perm_middle)
    | @assign h r r' old e new hx hr he ih =>
      obtain ⟨hi, hmap, ⟨g1, g2, g3⟩, hp⟩ := ih hb
      have he' : dbg = true ∨ e ∈ (resContents h).map (·.1) := by
        refine he.imp id (fun hs => ?_)
        obtain ⟨w, hw⟩ := Option.isSome_iff_exists.1 hs
        exact List.mem_map.2 ⟨_, (hmap _ _).1 hw, rfl⟩
      obtain ⟨hm, hi'⟩ := hi.assign hr he'
      have g1' : ∀ t, t <:+ (.assigned e old new :: h) → ((resContents t).map (·.1)).Nodup := by
        intro t ht
        rcases suf ht with rfl | ht
        · exact hi'.ents.nodup_live
        · exact g1 t ht
      have g2' : ∀ t d o n, .assigned d o n :: t <:+ (.assigned e old new :: h) →
          (d, o) ∈ resContents t := by
        intro t d o n ht
        rcases suf ht with ht | ht
        · cases ht; exact hm
        · exact g2 _ _ _ _ ht
      have g3' : ∀ t d w, .released d w :: t <:+ (.assigned e old new :: h) → (d, w) ∈ resContents t := by
        intro t d w ht
        rcases suf ht with ht | ht
        · cases ht
        · exact g3 _ _ _ ht
      refine ⟨hi', resMap_iff g1' g2' g3', ⟨g1', g2', g3'⟩, ?_⟩
      simp only [valuesIn, valuesOut, resContents, List.map_cons]
      have := (ResInv.erase_perm hm hi.ents.nodup_live).map (·.2)
      have h2 := hp.trans ((this.append_left _).trans List.perm_middle)
      exact (h2.cons new).trans (by
        simpa using (List.perm_middle (a := new) (l₁ := old :: valuesOut h)
          (l₂ := ((resContents h).eraseP (fun p => p.1 = e)).map (·.2))).symm)
  exact ⟨main.1, main.2.1, main.2.2.2⟩

theorem ResInv.dropLoop {r : ResStore α} {I : List Entity} {m : List (Entity × α)} (h : ResInv r I m)
    (is : List Nat) (his : ∀ i ∈ is, i < r.ents.capacity) :
    ∃ vs, r.dropLoop is = .ok vs ∧
      vs.map some = (is.filter (fun i => r.ents.aliveBits.bit i)).map (fun i => (r.elements[i]?).join) := by
  induction is with
  | nil => exact ⟨[], rfl, rfl⟩
  | cons i is ih =>
    obtain ⟨vs, h1, h2⟩ := ih (fun j hj => his j (List.mem_cons_of_mem _ hj))
    have hi := his i (List.mem_cons_self)
    have hb : i / 32 < r.ents.aliveBits.length := by rw [h.ents.blen]; exact Words.div_lt_getLen hi
    unfold ResStore.dropLoop Ents.isAliveAtIndex
    rw [Words.isOn_of_lt hb]
    simp only [ok_bind]
    cases hbit : r.ents.aliveBits.bit i
    · exact ⟨vs, by simp [h1], by simp [hbit, h2]⟩
    · obtain ⟨e, he, hid⟩ := List.mem_map.1 ((h.ents.bits i).1 hbit)
      obtain ⟨p, hp, hpe⟩ := List.mem_map.1 he
      have hv := h.vals p hp
      rw [hpe, hid] at hv
      refine ⟨p.2 :: vs, by simp [h1, Raw.read_of_some hv], ?_⟩
      simp [hbit, h2, hv]

theorem ResInv.drop {r : ResStore α} {I : List Entity} {m : List (Entity × α)} (h : ResInv r I m) :
    ∃ vs, r.drop = .ok vs ∧ vs.Perm (m.map (·.2)) := by
  obtain ⟨vs, h1, h2⟩ := h.dropLoop (List.range r.ents.capacity) (by simp)
  refine ⟨vs, ?_, ?_⟩
  · unfold ResStore.drop Ents.drop Words.dealloc Raw.dealloc
    rw [h1]; simp [h.ents.blen, h.ents.vlen]
  · have hp : ((List.range r.ents.capacity).filter (fun i => r.ents.aliveBits.bit i)).Perm
        ((m.map (·.1)).map (·.id)) := by
      rw [List.perm_ext_iff_of_nodup (List.nodup_range.filter _) h.ents.nodup_live_ids]
      intro i
      rw [List.mem_filter, List.mem_range, h.ents.bits i]
      constructor
      · exact fun hh => hh.2
      · intro hh
        obtain ⟨e, he, rfl⟩ := List.mem_map.1 hh
        exact ⟨h.ents.id_lt he, hh⟩
    have hp2 := hp.map (fun i => (r.elements[i]?).join)
    rw [← h2] at hp2
    have he : ((m.map (·.1)).map (·.id)).map (fun i => (r.elements[i]?).join) =
        (m.map (·.2)).map some := by
      rw [List.map_map, List.map_map, List.map_map]
      apply List.map_congr_left
      intro p hp
      simp [h.vals p hp]
    rw [he] at hp2
    exact (List.map_perm_map_iff (fun _ _ h => Option.some.inj h)).1 hp2

end Ecs
