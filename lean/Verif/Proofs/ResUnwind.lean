import Verif.Model.ResUnwind
import Verif.Proofs.HeapCalls
import Verif.Proofs.ResourceStale

/-! What a panic leaves behind in a resource store. -/

namespace Ecs
open Spec
variable {α : Type}

namespace ResStore

theorem createU_result (dbg : Bool) (v : α) (r : ResStore α) : (createU dbg v).result r = r.create dbg v := by
  unfold createU create onEnts
  simp only [Unw.result_bind, Unw.result_get, res_ok_bind, Unw.result_on, Ents.createU_result, res_bind_assoc]
  cases r.ents.create dbg with
  | error e => rfl
  | ok p =>
    obtain ⟨c, cr⟩ := p
    simp only [res_ok_bind]
    split <;>
    simp only [Unw.result_bind, Unw.result_step, Unw.result_pure, res_bind_assoc, res_pure_bind, res_ok_bind] <;> rfl

theorem releaseU_result (dbg : Bool) (e : Entity) (r : ResStore α) :
    (releaseU dbg e).result r = r.release dbg e := by
  unfold releaseU release onEnts
  cases dbg <;>
  simp only [Unw.result_bind, Unw.result_get, Unw.result_lift, Unw.result_on, Ents.destroyU_result,
    res_bind_assoc, res_ok_bind, if_true, Bool.false_eq_true, if_false] <;> rfl

theorem assignU_result (dbg : Bool) (bad : α → Bool) (e : Entity) (v : α) (r : ResStore α) :
    (assignU dbg bad e v).result r = r.assign dbg e v >>= fun p => .ok (p.1, (p.2, bad p.2)) := by
  unfold assignU assign
  cases dbg <;>
  simp only [Unw.result_bind, Unw.result_get, Unw.result_lift, Unw.result_step, Unw.result_pure,
    res_bind_assoc, res_pure_bind, res_ok_bind, if_true, Bool.false_eq_true, if_false]

end ResStore

/-- Dropping stops after the first value with property `bad`. -/
theorem ResStore.dropLoopU_of (bad : α → Bool) {r : ResStore α} {is : List Nat} {vs : List α}
    (h : r.dropLoop is = .ok vs) : ∃ dropped forgotten panicked, r.dropLoopU bad is = .ok (dropped, panicked) ∧
      vs = dropped ++ forgotten ∧ (panicked = false → forgotten = [] ∧ ∀ v ∈ dropped, bad v = false) ∧
      (panicked = true → ∃ l v, dropped = l ++ [v] ∧ bad v = true ∧ ∀ w ∈ l, bad w = false) := by
  induction is generalizing vs with
  | nil => cases h; exact ⟨[], [], false, rfl, rfl, fun _ => ⟨rfl, by simp⟩, nofun⟩
  | cons i is ih =>
    unfold ResStore.dropLoop at h
    unfold ResStore.dropLoopU
    obtain ⟨b, hb, h⟩ := bind_eq_ok.1 h
    rw [hb]
    simp only [ok_bind]
    cases b with
    | false => exact ih h
    | true =>
      simp only [Bool.not_true, Bool.false_eq_true, if_false] at h ⊢
      obtain ⟨v, hv, h⟩ := bind_eq_ok.1 h
      obtain ⟨rest, hr, h⟩ := bind_eq_ok.1 h
      cases h
      rw [hv]
      simp only [ok_bind]
      cases hbad : bad v with
      | true => exact ⟨[v], rest, true, by simp, rfl, nofun, fun _ => ⟨[], v, rfl, hbad, by simp⟩⟩
      | false =>
        obtain ⟨d, f, p, h1, rfl, h3, h4⟩ := ih hr
        refine ⟨v :: d, f, p, by simp [h1], rfl, fun hp => ⟨(h3 hp).1, ?_⟩, fun hp => ?_⟩
        · exact List.forall_mem_cons.2 ⟨hbad, (h3 hp).2⟩
        · obtain ⟨l, w, rfl, hw, hl⟩ := h4 hp
          exact ⟨v :: l, w, rfl, hw, List.forall_mem_cons.2 ⟨hbad, hl⟩⟩

/-- An id whose version is not 0 was issued. -/
theorem res_issued {dbg : Bool} {cap : Nat} {h : List (ResEvent α)} {r : ResStore α}
    (hx : ResExec dbg cap h r) (hb : dbg = true ∨ (resIssued h).length < u32Size) :
    ∀ i v, r.ents.versions[i]? = some (some v) → v ≠ 0 → ∃ e ∈ resIssued h, e.id = i := by
  induction hx with
  | init =>
    intro i v hv hne
    simp only [ResStore.withCapacity, Ents.new, Raw.allocZeroed, List.getElem?_replicate] at hv
    split at hv
    · cases hv; exact absurd rfl hne
    · cases hv
  | @create h r r' e v hx hr ih =>
    have hb' : dbg = true ∨ (resIssued h).length + 1 < u32Size := hb
    have hb0 : dbg = true ∨ (resIssued h).length < u32Size := hb'.imp id (fun h => by omega)
    have hi := (res_exec_inv hx hb0).1
    intro i w hv hne
    by_cases hie : e.id = i
    · exact ⟨e, List.mem_cons_self, hie⟩
    have hold : r.ents.versions[i]? = some (some w) := by
      unfold ResStore.create at hr
      obtain ⟨⟨c', cr⟩, hc, hr⟩ := bind_eq_ok.1 hr
      have he : r'.ents = c' ∧ e = cr.entity := by
        dsimp only at hr
        split at hr
        · obtain ⟨_, _, hr⟩ := bind_eq_ok.1 hr
          obtain ⟨_, _, hr⟩ := bind_eq_ok.1 hr
          cases hr; exact ⟨rfl, rfl⟩
        · obtain ⟨_, _, hr⟩ := bind_eq_ok.1 hr
          obtain ⟨_, _, hr⟩ := bind_eq_ok.1 hr
          cases hr; exact ⟨rfl, rfl⟩
      obtain ⟨he1, rfl⟩ := he
      rw [he1] at hv
      unfold Ents.create at hc
      obtain ⟨⟨id, c1⟩, ht, hc⟩ := bind_eq_ok.1 hc
      obtain ⟨t1, t2, t3, t4, t5, _⟩ := hi.ents.takeId_spec ht hb'
      obtain ⟨bits, _, hc⟩ := bind_eq_ok.1 hc
      obtain ⟨v0, _, hc⟩ := bind_eq_ok.1 hc
      obtain ⟨v1, _, hc⟩ := bind_eq_ok.1 hc
      obtain ⟨vs, hw, hc⟩ := bind_eq_ok.1 hc
      obtain ⟨_, rfl⟩ := Raw.write_ok.1 hw
      cases hc
      simp only at hv hie
      rw [List.getElem?_set_ne hie] at hv
      have hlt : i < c1.capacity := t1 ▸ (List.getElem?_eq_some_iff.1 hv).1
      by_cases hcap : i < r.ents.capacity
      · rw [← t4 i hcap]; exact hv
      · rw [t5 i hlt hcap] at hv; cases hv; exact absurd rfl hne
    obtain ⟨d, hd, hid⟩ := ih hb0 i w hold hne
    exact ⟨d, List.mem_cons_of_mem _ hd, hid⟩
  | @release h r r' v e hx hr he ih =>
    obtain ⟨hi, hmap, _⟩ := res_exec_inv hx hb
    have he' : dbg = true ∨ e ∈ (resContents h).map (·.1) := by
      refine he.imp id (fun hs => ?_)
      obtain ⟨w, hw⟩ := Option.isSome_iff_exists.1 hs
      exact List.mem_map.2 ⟨_, (hmap _ _).1 hw, rfl⟩
    unfold ResStore.release at hr
    extract_lets k at hr
    obtain ⟨ha, hr⟩ := guard_ok (k := k) hr
    simp only [k] at hr
    obtain ⟨c', hc, hr⟩ := bind_eq_ok.1 hr
    obtain ⟨_, _, _, hver⟩ := hi.ents.destroy_spec hc he'
    obtain ⟨w, hw, hr⟩ := bind_eq_ok.1 hr
    cases hr
    intro i v hv
    rw [show c'.versions = r.ents.versions from hver] at hv
    exact ih hb i v hv
  | @assign h r r' old e new hx hr he ih =>
    unfold ResStore.assign at hr
    extract_lets k at hr
    obtain ⟨ha, hr⟩ := guard_ok (k := k) hr
    simp only [k] at hr
    obtain ⟨w, hw, hr⟩ := bind_eq_ok.1 hr
    obtain ⟨el, hel, hr⟩ := bind_eq_ok.1 hr
    cases hr
    exact ih hb

/-- A store whose alive bit `id` was switched on while no live handle has this id drops the value in that
cell in addition to the values of the live handles. -/
theorem ResInv.drop_extra {r : ResStore α} {I : List Entity} {m : List (Entity × α)}
    (h : ResInv r I m) {id : Nat} {v : α} (hlt : id < r.ents.capacity) (hfree : ∀ p ∈ m, p.1.id ≠ id)
    (hv : r.elements[id]? = some (some v)) {c' : Ents} (hcap : r.ents.capacity ≤ c'.capacity)
    (hver : c'.versions.length = c'.capacity) (hbl : c'.aliveBits.length = Words.getLen c'.capacity)
    (hbits : ∀ i, c'.aliveBits.bit i = if i = id then !r.ents.aliveBits.bit i else r.ents.aliveBits.bit i) :
    ∃ vs, ({ r with ents := c' } : ResStore α).drop = .ok vs ∧ vs.Perm (v :: m.map (·.2)) := by
  have hoff : r.ents.aliveBits.bit id = false := by
    cases hb : r.ents.aliveBits.bit id with
    | false => rfl
    | true =>
      obtain ⟨d, hd, hid⟩ := List.mem_map.1 ((h.ents.bits id).1 hb)
      obtain ⟨p, hp, rfl⟩ := List.mem_map.1 hd
      exact absurd hid (hfree p hp)
  have hcell : ∀ i, c'.aliveBits.bit i = true → ∃ v, r.elements[i]? = some (some v) := by
    intro i hi
    rw [hbits i] at hi
    split at hi
    · subst i; exact ⟨v, hv⟩
    · obtain ⟨d, hd, hid⟩ := List.mem_map.1 ((h.ents.bits i).1 hi)
      obtain ⟨p, hp, rfl⟩ := List.mem_map.1 hd
      exact ⟨p.2, hid ▸ h.vals p hp⟩
  obtain ⟨vs, h1, h2⟩ := ResStore.dropLoop_of (r := { r with ents := c' }) (List.range c'.capacity)
    (fun i hi => by
      simp only
      rw [hbl]; exact Words.div_lt_getLen (List.mem_range.1 hi)) hcell
  refine ⟨vs, ?_, ?_⟩
  · unfold ResStore.drop Ents.drop Words.dealloc Raw.dealloc
    simp only [h1, ok_bind]
    simp [hbl, hver]
  · have hp : ((List.range c'.capacity).filter (fun i => c'.aliveBits.bit i)).Perm
        (id :: (m.map (·.1)).map (·.id)) := by
      have hnd : (id :: (m.map (·.1)).map (·.id)).Nodup := by
        refine List.nodup_cons.2 ⟨fun hm => ?_, h.ents.nodup_live_ids⟩
        obtain ⟨d, hd, hid⟩ := List.mem_map.1 hm
        obtain ⟨p, hp, rfl⟩ := List.mem_map.1 hd
        exact hfree p hp hid
      rw [List.perm_ext_iff_of_nodup (List.nodup_range.filter _) hnd]
      intro i
      rw [List.mem_filter, List.mem_range, hbits i, List.mem_cons, ← h.ents.bits i]
      constructor
      · rintro ⟨_, hh⟩
        by_cases hi : i = id
        · exact Or.inl hi
        · rw [if_neg hi] at hh; exact Or.inr hh
      · rintro (rfl | hh)
        · exact ⟨by omega, by simp [hoff]⟩
        · have hi : i ≠ id := fun hi => by rw [hi, hoff] at hh; cases hh
          refine ⟨?_, by rw [if_neg hi]; exact hh⟩
          obtain ⟨d, hd, hid⟩ := List.mem_map.1 ((h.ents.bits i).1 hh)
          have := h.ents.id_lt hd
          omega
    have hp2 := hp.map (fun i => (r.elements[i]?).join)
    have h2' : vs.map some = ((List.range c'.capacity).filter (fun i => c'.aliveBits.bit i)).map
        (fun i => (r.elements[i]?).join) := h2
    rw [← h2', List.map_cons] at hp2
    have he : ((m.map (·.1)).map (·.id)).map (fun i => (r.elements[i]?).join) =
        (m.map (·.2)).map some := by
      rw [List.map_map, List.map_map, List.map_map]
      apply List.map_congr_left
      intro p hp
      simp [h.vals p hp]
    rw [he, hv] at hp2
    exact (List.map_perm_map_iff (fun _ _ h => Option.some.inj h)).1 hp2

/-- What a panic of `create_entity` leaves: the container as it was, or one whose used-up id is marked
alive. -/
theorem EntInv.createU_onPanic {c : Ents} {I L : List Entity} (h : EntInv c I L) :
    (Ents.createU true).OnPanic c fun c' => c' = c ∨
      ∃ id, id < c.capacity ∧ id ∉ L.map (·.id) ∧ c.versions[id]? = some (some (u32Size - 1)) ∧
        c.capacity ≤ c'.capacity ∧ c'.versions.length = c'.capacity ∧
        c'.aliveBits.length = Words.getLen c'.capacity ∧
        ∀ i, c'.aliveBits.bit i = if i = id then !c.aliveBits.bit i else c.aliveBits.bit i := by
  unfold Ents.createU
  refine .get (.bind (.step' (.inr (.inl rfl))) fun c1 id hr => ?_)
  rw [Unw.result_step'] at hr
  obtain ⟨⟨id', c1'⟩, ht, hr⟩ := bind_eq_ok.1 hr
  cases hr
  obtain ⟨t1, t2, t3, t4, t5, t6, t7, t8, t9, t10, t11, t12, t13⟩ := h.takeId_spec ht (Or.inl rfl)
  obtain ⟨w, hw, hwl, hwb⟩ := Words.toggle_of_lt (w := c1.aliveBits) (i := id)
    (by rw [t6]; exact Words.div_lt_getLen t3)
  have htog : (do let bits ← c1.aliveBits.toggle id; return { c1 with aliveBits := bits } : Res Ents) =
      .ok { c1 with aliveBits := w } := by rw [hw]; rfl
  refine .bind (.step (.inl (.of_ok htog))) fun c2 _ hr => ?_
  rw [Unw.result_step, htog] at hr
  cases hr
  refine .get (.bind (.lift (.inl (.read _ _))) fun c3 v hr => ?_)
  rw [Unw.result_lift] at hr
  obtain ⟨v', hv, hr⟩ := bind_eq_ok.1 hr
  cases hr
  have hv := Raw.read_ok.1 hv
  simp only at hv
  refine .bind ?_ fun c4 v1 hr => ?_
  · unfold addU32
    split
    · exact .lift (.inl (.ok _))
    · rename_i hov
      refine .lift (.inr (.inr ⟨id, ?_⟩))
      have hid : id < c.capacity := by
        by_contra hn
        rw [t5 id t3 hn] at hv
        cases hv
        exact hov (by decide)
      obtain ⟨u, hu, _, hlt⟩ := h.vinit id hid
      have hv' := hv
      rw [t4 id hid, hu] at hv'
      cases hv'
      have : v = u32Size - 1 := by omega
      subst this
      refine ⟨hid, t11, hu, t2, t1, by rw [show _ = c1.aliveBits.length from hwl, t6], fun i => ?_⟩
      show w.bit i = _
      rw [hwb i, t7 i]
      by_cases hi : i = id <;> simp [hi]
  · rw [Unw.result_lift] at hr
    obtain ⟨v', _, hr⟩ := bind_eq_ok.1 hr
    cases hr
    exact .bind (.step (.inl ((Calm.write _ _ _).bind fun _ _ => .pure _))) fun _ _ _ => .get (.pure _)

theorem Unw.bind_fault {σ β γ : Type} {m : Unw σ β} {f : β → Unw σ γ} {s s' : σ} {e : Fault} (h : m s = (.error e, s')) :
    (m >>= f).run s = (.error e, s') := by
  show Unw.bind m f s = _
  unfold Unw.bind
  rw [h]

theorem Unw.Panics.not_calm {σ β : Type} {m : Unw σ β} {s s' : σ} (h : m.Panics s s') : ¬ Calm (m.result s) := by
  obtain ⟨p, hp⟩ := h
  change m s = _ at hp
  intro hc
  refine hc p ?_
  unfold Unw.result
  rw [hp]

theorem Calm.reallocZeroing (z : α) (a : Raw α) (m n : Nat) : Calm (Raw.reallocZeroing z a m n) := by
  unfold Raw.reallocZeroing Raw.dealloc
  dsimp only
  repeat' split
  all_goals first
    | exact .pure _
    | exact .ub _

theorem Calm.grow (c : Ents) (n : Nat) : Calm (c.grow n) := by
  unfold Ents.grow
  split
  · exact .pure _
  · exact (Calm.reallocZeroing _ _ _ _).bind fun _ _ => (Calm.wordsRealloc _ _ _).bind fun _ _ => .pure _

theorem Calm.addU32 (a b : Nat) : Calm (addU32 false a b) := by
  unfold Ecs.addU32; split
  · exact .ok _
  · exact .ok _

theorem Calm.subU32 (a b : Nat) : Calm (subU32 false a b) := by
  unfold Ecs.subU32; split
  · exact .ok _
  · exact .ok _

theorem Calm.takeId (c : Ents) : Calm (c.takeId false) := by
  unfold Ents.takeId
  split
  · exact .ok _
  · refine (Calm.addU32 _ _).bind fun _ _ => ?_
    dsimp only
    split
    · exact (Calm.grow _ _).bind fun _ _ => .pure _
    · exact .pure _

theorem Calm.entsCreate (c : Ents) : Calm (c.create false) := by
  unfold Ents.create
  exact (Calm.takeId _).bind fun _ _ => (Calm.toggle _ _).bind fun _ _ => (Calm.read _ _).bind fun _ _ =>
    (Calm.addU32 _ _).bind fun _ _ => (Calm.write _ _ _).bind fun _ _ => .pure _

theorem Calm.entsDestroy (c : Ents) (e : Entity) : Calm (c.destroy false e) := by
  unfold Ents.destroy Ents.validateVersionWithPanic
  simp only [Bool.false_eq_true, if_false, pure_ok, ok_bind]
  refine (Calm.toggle _ _).bind fun _ _ => (Calm.subU32 _ _).bind fun _ _ => ?_
  split
  · exact .ok _
  · exact .ok _

namespace ResStore

theorem calm_create (r : ResStore α) (v : α) : Calm (r.create false v) := by
  unfold create
  refine (Calm.entsCreate _).bind fun p _ => ?_
  dsimp only
  split
  · exact (Calm.realloc _ _ _).bind fun _ _ => (Calm.write _ _ _).bind fun _ _ => .pure _
  · exact (Calm.pure _).bind fun _ _ => (Calm.write _ _ _).bind fun _ _ => .pure _

theorem calm_release (r : ResStore α) (e : Entity) : Calm (r.release false e) := by
  unfold release
  simp only [Bool.false_eq_true, if_false]
  exact (Calm.entsDestroy _ _).bind fun _ _ => (Calm.read _ _).bind fun _ _ => .pure _

theorem calm_assign (r : ResStore α) (e : Entity) (v : α) : Calm (r.assign false e v) := by
  unfold assign
  simp only [Bool.false_eq_true, if_false]
  exact (Calm.read _ _).bind fun _ _ => (Calm.write _ _ _).bind fun _ _ => .pure _

end ResStore

end Ecs
