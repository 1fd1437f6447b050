import Verif.Proofs.StoreStep

/-! Adding, removing and assigning components preserves the relation between store and world. -/

namespace Ecs
open Spec

namespace Rel

open Core (at'_self at'_ne at'_at' at'_eq)

variable {U : Universe} {dbg : Bool} {s : Store} {w : World}

/-- `w` with the types and component values of `e` replaced. -/
def retype (w : World) (e : Entity) (T : List TypeId) (v : TypeId → List Cell) : World :=
  { w.setTypes e T with value := at' w.value e v }

/-- Changing the places, archetypes and row records only. -/
theorem relocate (h : Rel U dbg s w) {s' : Store} {e : Entity} {T : List TypeId} {v : TypeId → List Cell}
    (he : s'.ents = s.ents) (ht : s'.tags = s.tags) (ho : s'.orders = s.orders)
    (hp : Places U s'.archs s'.toPage s'.toIndex s'.hasArch s.ents.capacity w.live (at' w.types e T) (at' w.value e v) none)
    (hr : Regs U dbg s'.archs (if T = [] then w.used else T :: w.used)
      (if w.types e = [] then w.left else w.types e :: w.left)) :
    Rel U dbg s' (retype w e T v) :=
  ⟨by rw [he]; exact h.ents, by rw [he]; exact hp, hr, by rw [ht]; exact h.tags, by rw [ht, he]; exact h.tcap,
    by rw [ht]; exact h.tagOn, by rw [ho]; exact h.orders, by rw [ho, he]; exact h.ocap, h.ordLive⟩

/-- `move_entity_to_other_archetype`. -/
theorem move (h : Rel U dbg s w) {e : Entity} (he : e ∈ w.live) (hT : w.types e ≠ []) {a : Archetype} (hw : a.WF U)
    {T : List TypeId} (hs : HasSet a T) (ht : s.archs.CanHold U dbg T) :
    ∃ s' q v, s.moveEntityToOtherArchetype dbg e a = .ok (s', q) ∧ Rel U dbg s' (retype w e T v) ∧
      (∀ t ∈ w.types e, t ∈ T → v t = w.value e t) ∧
      (¬ sameSet T (w.types e) → Pos s'.toPage s'.toIndex e.id q) := by
  have hlt := h.ents.id_lt he
  obtain ⟨⟨l, t1, t2⟩, t3, t4⟩ := ht.fits hw hs
  obtain ⟨prev, ai, pa, pl, ps, pg, h1, h2, hat, hpw, hpg, h5, h6, h7, h8⟩ := h.row he hT
  obtain ⟨c', q, m1, m2, m3⟩ := Archs.moveEntity_spec (id := e.id) h.places.inv t3 t4 hw t1 t2 hat (by rw [h2]; simp)
  obtain ⟨v, hv⟩ := exists_vals m2.inv (q := q) (a := a) (by rw [m2.row]; simp) m2.archNew
  have hplen : e.id < s.toPage.length := by rw [h.places.plen]; exact hlt
  have hilen : e.id < s.toIndex.length := by rw [h.places.ilen]; exact hlt
  let s1 : Store := { s with archs := c', toPage := s.toPage.set e.id (some q.page), toIndex := s.toIndex.set e.id (some q.index) }
  have hP : Places U s1.archs s1.toPage s1.toIndex s1.hasArch s.ents.capacity w.live (at' w.types e T) (at' w.value e v)
      (some prev) := by
    refine h.places.place (e := e) (a := a) (q := q) he m2 (set_get hplen _) (set_get hilen _) List.length_set List.length_set
      rfl ?_ (fun x hx => at'_ne _ _ hx) ?_ (fun x hx => at'_ne _ _ hx) ?_ ?_
    · intro i
      show s.hasArch.bit i = _
      by_cases hi : i = e.id
      · subst hi; rw [(h.places.on e he hT).1]; simp
      · simp [hi]
    · intro t; rw [at'_self]; exact (hs t).symm
    · intro t ht
      rw [at'_self] at ht ⊢
      exact hv t ((hs t).2 ht)
    · exact fun p => ⟨fun hp => by cases hp; exact ⟨hT, h1⟩, fun hp => by rw [h1.unique hp.2]⟩
  obtain ⟨s', g1, g2, g3, g4, g5, g6, g7, g8, g9, g10⟩ := hP.swapRemove
  refine ⟨s', q, v, ?_, ?_, ?_, ?_⟩
  · unfold Store.moveEntityToOtherArchetype
    simp only [h7, ok_bind, idx_of_some hat.hto, m1, Raw.write_of_lt _ hplen, Raw.write_of_lt _ hilen, pure_ok]
    rw [g1]; rfl
  · refine h.relocate g3 g4 g5 g2 ?_
    rw [if_neg ht.ne, if_neg hT]
    exact (h.regs.added m2 hs).removedRow hpw ((m2.archOld prev (by rw [h2]; simp)).trans hat.archAt) h5 g6 g7 g8
  · intro t ht1 ht2
    have e1 := hv t ((hs t).2 ht2)
    rw [m3 t ((hs t).2 ht2) ((h5 t).2 ht1), h6 t ht1] at e1
    exact (Option.some.inj e1).symm
  · intro hns
    refine g10 e he q ⟨?_, ?_⟩ ?_
    · exact (set_get hplen _ _).trans (by simp)
    · exact (set_get hilen _ _).trans (by simp)
    · intro hpq
      have e1 := m2.archOld prev (by rw [h2]; simp)
      rw [← hpq, m2.archNew, hpq, hat.archAt] at e1
      cases e1
      exact hns ⟨fun t ht => (h5 t).1 ((hs t).2 ht), fun t ht => (hs t).1 ((h5 t).2 ht)⟩

/-- Writing components through the references of a row. -/
theorem assign (h : Rel U dbg s w) {e : Entity} (he : e ∈ w.live) (hT : w.types e ≠ []) {vals : TupleVal}
    (hok : TupleOk U vals) (hin : ∀ p ∈ vals, p.1 ∈ w.types e) {q : Loc} (hq : Pos s.toPage s.toIndex e.id q)
    {ai : Nat} {a : Archetype} {l : Layout} {ps : List Nat} {pg : Page} (hat : s.archs.At q.page ai a l ps pg)
    {offs : List Nat}
    (hf : List.Forall₂ (fun t o => ∃ k : Nat, a.ids[k]? = some t ∧ l.offsets[k]? = some o) (vals.map (·.1)) offs) :
    ∃ pages', assignToRefs (getRefs U q.page q.index (vals.map (·.1)) offs) (vals.map (·.2)) s.archs.pages = .ok pages' ∧
      Rel U dbg { s with archs := { s.archs with pages := pages' } }
        { w with value := at' w.value e (store vals (w.value e)) } := by
  obtain ⟨hr, _, a', h4, h5, h6⟩ := h.places.rowOf he hT hq
  obtain ⟨pages', p1, p2, p3, p4, p5⟩ := assign_spec vals h.places.inv hat (by rw [hr]; simp) hok.1 hok.2 hf
  refine ⟨pages', p1, ⟨h.ents, ?_, h.regs.same rfl rfl p5, h.tags, h.tcap, h.tagOn, h.orders, h.ocap, h.ordLive⟩⟩
  refine h.places.revalue p2 p3 (fun _ => rfl) ?_
  intro x hx hxT r hxr t ht
  obtain ⟨hr', _, _, _, _, k6⟩ := h.places.rowOf hx hxT hxr
  rw [p4 r t (by rw [hr']; simp)]
  by_cases hrq : r = q
  · subst hrq
    rw [hr] at hr'
    have hxe : x = e := h.places.inj x hx e he (Option.some.inj hr').symm
    subst hxe
    rw [if_pos rfl]
    show _ = some (at' w.value x (store vals (w.value x)) x t)
    rw [at'_self]
    unfold store
    cases hfd : TupleVal.find vals t with
    | none => exact k6 t ht
    | some bs => rfl
  · rw [if_neg hrq]
    have hxe : x ≠ e := fun hxe => hrq (by subst hxe; exact hxr.unique hq)
    show _ = some (at' w.value e (store vals (w.value e)) x t)
    rw [at'_ne _ _ hxe]
    exact k6 t ht

theorem find_none {vals : TupleVal} {t : TypeId} (h : t ∉ vals.map (·.1)) : TupleVal.find vals t = none := by
  unfold TupleVal.find
  rw [Option.map_eq_none_iff, List.find?_eq_none]
  intro p hp
  simp only [decide_eq_true_eq]
  exact fun hpt => h (List.mem_map.2 ⟨p, hp, hpt⟩)

theorem store_nil (f : TypeId → List Cell) : store [] f = f := rfl

theorem assigned (h : Rel U dbg s w) {e : Entity} {vals : TupleVal} (he : e ∈ w.issued) (hok : TupleOk U vals) :
    ∃ s', s.setComponents U dbg e vals =
        .ok (s', decide (e ∈ w.live ∧ w.types e ≠ [] ∧ ∀ p ∈ vals, p.1 ∈ w.types e)) ∧
      Rel U dbg s' (w.apply (.assigned e vals)) := by
  have hiff : (∀ t ∈ vals.map (·.1), t ∈ w.types e) ↔ ∀ p ∈ vals, p.1 ∈ w.types e := by simp
  unfold Store.setComponents
  by_cases hc : e ∈ w.live ∧ w.types e ≠ [] ∧ ∀ p ∈ vals, p.1 ∈ w.types e
  · obtain ⟨q, ai, a, l, ps, pg, offs, h1, h2, hat, h5, h6, h7, h8⟩ := h.getRefs_some hc.1 hc.2.1 (hiff.2 hc.2.2)
    obtain ⟨pages', p1, p2⟩ := h.assign hc.1 hc.2.1 hok hc.2.2 h1 hat h8
    refine ⟨{ s with archs := { s.archs with pages := pages' } }, ?_, ?_⟩
    · simp only [h7, ok_bind, p1, pure_ok]
      rw [decide_eq_true hc]
    · simp only [World.apply]
      rw [if_pos ⟨hc.1, hc.2.2⟩]
      exact p2
  · refine ⟨s, ?_, ?_⟩
    · rw [h.getRefs_none (h.ents.issued_id_lt he) (by rw [hiff]; exact hc), decide_eq_false hc]; rfl
    · simp only [World.apply]
      split
      · rename_i hc'
        have hT : w.types e = [] := by
          by_contra hT; exact hc ⟨hc'.1, hT, hc'.2⟩
        have hv : vals = [] := by
          cases vals with
          | nil => rfl
          | cons p ps => have := hc'.2 p (by simp); rw [hT] at this; cases this
        rw [hv, store_nil, at'_eq]
        exact h
      · exact h

theorem assigned_world {e : Entity} {T : List TypeId} {v : TypeId → List Cell} {vals : TupleVal}
    {s1 : Store} {w' : World} (hw' : w'.types e = T)
    (h : Rel U dbg s1 { w' with value := at' (at' w.value e v) e (store vals (at' w.value e v e)) })
    (hv : ∀ t ∈ T, t ∉ vals.map (·.1) → v t = w.value e t) :
    Rel U dbg s1 { w' with value := at' w.value e (store vals (w.value e)) } := by
  refine h.value_congr (V := at' w.value e (store vals (w.value e))) ?_
  intro x _ t ht
  by_cases hxe : x = e
  · subst hxe
    have htT : t ∈ T := by rw [← hw']; exact ht
    simp only [at'_self]
    unfold store
    by_cases hm : t ∈ vals.map (·.1)
    · cases hfd : TupleVal.find vals t with
      | some bs => rfl
      | none =>
        exfalso
        obtain ⟨p, hp, hpt⟩ := List.mem_map.1 hm
        unfold TupleVal.find at hfd
        rw [Option.map_eq_none_iff, List.find?_eq_none] at hfd
        exact hfd p hp (by simpa using hpt)
    · rw [find_none hm]
      exact (hv t htT hm).symm
  · simp only [at'_ne _ _ hxe]

/-- The type set after adding. -/
def addedTypes (T : List TypeId) (vals : TupleVal) : List TypeId := T ++ (vals.map (·.1)).filter (· ∉ T)

theorem mem_addedTypes {T : List TypeId} {vals : TupleVal} {t : TypeId} :
    t ∈ addedTypes T vals ↔ t ∈ T ∨ t ∈ vals.map (·.1) := by
  unfold addedTypes
  rw [List.mem_append, List.mem_filter]
  by_cases h : t ∈ T <;> simp [h]

/-- The world after the first part of `add_components`. -/
def extended (w : World) (e : Entity) (vals : TupleVal) (v : TypeId → List Cell) : World :=
  { (if ∀ p ∈ vals, p.1 ∈ w.types e then w else w.setTypes e (addedTypes (w.types e) vals)) with
    value := at' w.value e v }

theorem addedTypes_eq {T : List TypeId} {vals : TupleVal} (h : ∀ p ∈ vals, p.1 ∈ T) : addedTypes T vals = T := by
  unfold addedTypes
  rw [List.filter_eq_nil_iff.2, List.append_nil]
  intro t ht
  obtain ⟨p, hp, hpt⟩ := List.mem_map.1 ht
  rw [← hpt]; simpa using h p hp

theorem extended_types (w : World) (e : Entity) (vals : TupleVal) (v : TypeId → List Cell) :
    (extended w e vals v).types e = addedTypes (w.types e) vals := by
  unfold extended
  dsimp only
  split
  · rename_i h; rw [addedTypes_eq h]
  · simp [World.setTypes]

theorem extended_live (w : World) (e : Entity) (vals : TupleVal) (v : TypeId → List Cell) :
    (extended w e vals v).live = w.live := by
  unfold extended
  dsimp only
  split <;> rfl

/-- The first part of `add_components`. -/
theorem ensure (h : Rel U dbg s w) {e : Entity} {vals : TupleVal} (he : e ∈ w.live) (hne : vals ≠ []) (hok : TupleOk U vals)
    (ht : (¬ ∀ p ∈ vals, p.1 ∈ w.types e) → s.archs.CanHold U dbg (addedTypes (w.types e) vals)) :
    ∃ s' q v, s.ensureComponents U dbg e (vals.map (·.1)) = .ok (s', q) ∧
      Rel U dbg s' (extended w e vals v) ∧ (∀ t ∈ w.types e, v t = w.value e t) ∧
      Pos s'.toPage s'.toIndex e.id q := by
  have hlt := h.ents.id_lt he
  have hne' : vals.map (·.1) ≠ [] := by simpa using hne
  unfold Store.ensureComponents
  rw [Words.isOn_of_lt (by rw [h.places.blen]; exact Words.div_lt_getLen hlt)]
  by_cases hT : w.types e = []
  · have hTa : addedTypes (w.types e) vals = vals.map (·.1) := by
      unfold addedTypes; rw [hT]; simp
    have hnall : ¬ ∀ p ∈ vals, p.1 ∈ w.types e := by
      obtain ⟨p, hp⟩ := List.exists_mem_of_ne_nil _ hne
      intro hall
      have := hall p hp
      rw [hT] at this
      cases this
    have htg := ht hnall
    obtain ⟨a, a1, hw, a3⟩ := Archetype.withComponents_spec (U := U) hok.1 hne'
    have hs : HasSet a (addedTypes (w.types e) vals) := fun t => by rw [hTa]; exact a3.mem_iff
    obtain ⟨⟨l, t1, t2⟩, t3, t4⟩ := htg.fits hw hs
    obtain ⟨c', q, m1, m2⟩ := Archs.addEntity_spec (id := e.id) h.places.inv t3 t4 hw t1 t2
    obtain ⟨v, hv⟩ := exists_vals m2.inv (q := q) (a := a) (by rw [m2.row]; simp) m2.archNew
    have hplen : e.id < s.toPage.length := by rw [h.places.plen]; exact hlt
    have hilen : e.id < s.toIndex.length := by rw [h.places.ilen]; exact hlt
    obtain ⟨hon, r1, r2, r3⟩ := recordRow_spec (s := { s with archs := c' }) (id := e.id) (q := q) hplen hilen
      (by rw [h.places.blen]; exact Words.div_lt_getLen hlt)
    refine ⟨{ s with archs := c', toPage := s.toPage.set e.id (some q.page),
                     toIndex := s.toIndex.set e.id (some q.index), hasArch := hon }, q, v, ?_, ?_, ?_, ?_⟩
    · simp only [h.places.off e he hT, ok_bind, Bool.false_eq_true, if_false, a1, m1, r1, pure_ok]
    · unfold extended
      rw [if_neg hnall]
      refine h.relocate rfl rfl rfl ?_ ?_
      · refine h.places.place (e := e) (a := a) (q := q) he m2 (set_get hplen _) (set_get hilen _) List.length_set
          List.length_set r2 r3 (fun x hx => at'_ne _ _ hx) ?_ (fun x hx => at'_ne _ _ hx) ?_ ?_
        · intro t; rw [at'_self]; exact (hs t).symm
        · intro t ht
          rw [at'_self] at ht ⊢
          exact hv t ((hs t).2 ht)
        · intro p; simp [hT]
      · rw [if_neg htg.ne, if_pos hT]
        exact h.regs.added m2 hs
    · intro t ht; rw [hT] at ht; cases ht
    · exact ⟨(set_get hplen _ _).trans (by simp), (set_get hilen _ _).trans (by simp)⟩
  · obtain ⟨q, ai, a, l, ps, pg, h1, h2, hat, hw, hg, h5, h6, h7, h8⟩ := h.row he hT
    have hTa : addedTypes (w.types e) vals ≠ [] := by
      unfold addedTypes; intro hn; exact hT (List.append_eq_nil_iff.1 hn).1
    simp only [(h.places.on e he hT).1, ok_bind, if_true, h7, idx_of_some hat.hto, idxUnchecked_of_some hat.ha]
    have hiff := Archetype.isIncludeIds_iff hw.incr hok.1
    by_cases hin : ∀ p ∈ vals, p.1 ∈ w.types e
    · have hti : tupleIncluded (vals.map (·.1)) a = true := by
        unfold tupleIncluded
        rw [hiff]
        intro t ht
        obtain ⟨p, hp, hpt⟩ := List.mem_map.1 ht
        rw [← hpt]
        exact (h5 _).2 (hin p hp)
      refine ⟨s, q, w.value e, ?_, ?_, fun _ _ => rfl, h1⟩
      · simp only [hti, if_true, pure_ok]
      · unfold extended
        rw [if_pos hin, at'_eq]
        exact h
    · have hti : ¬ tupleIncluded (vals.map (·.1)) a = true := by
        unfold tupleIncluded
        rw [hiff]
        intro hall
        apply hin
        intro p hp
        exact (h5 _).1 (hall _ (List.mem_map.2 ⟨p, hp, rfl⟩))
      have hex : ∃ p ∈ vals, p.1 ∉ w.types e := by
        by_contra hc
        apply hin
        intro p hp
        by_contra hp'
        exact hc ⟨p, hp, hp'⟩
      have htg := ht hin
      obtain ⟨r1, b1, b2⟩ := (BuilderRep.new U).includeArchetype hw
      obtain ⟨r2, b3, b4⟩ := b1.includeComponents (vals.map (·.1))
      have hr2 : r2 ≠ [] := by
        obtain ⟨t, ht⟩ := List.exists_mem_of_ne_nil _ hne'
        exact List.ne_nil_of_mem ((b4 t).2 (Or.inr ht))
      obtain ⟨na, b', b5, b6, b7, _⟩ := b3.build hr2
      have hs : HasSet na (addedTypes (w.types e) vals) := by
        intro t
        rw [b7.mem_iff, b4, b2, mem_addedTypes, ← h5 t]
        simp
      obtain ⟨s', q', v, g1, g2, g3, g4⟩ := h.move he hT b6 hs htg
      refine ⟨s', q', v, ?_, by unfold extended; rw [if_neg hin]; exact g2, ?_, ?_⟩
      · simp only [hti, b5, ok_bind, g1]
        rfl
      · intro t htt
        exact g3 t htt (mem_addedTypes.2 (Or.inl htt))
      · apply g4
        rintro ⟨k1, _⟩
        obtain ⟨p, hp, hpn⟩ := hex
        exact hpn (k1 _ (mem_addedTypes.2 (Or.inr (List.mem_map.2 ⟨p, hp, rfl⟩))))

theorem added (h : Rel U dbg s w) {e : Entity} {vals : TupleVal} (hi : e ∈ w.issued) (hne : vals ≠ []) (hok : TupleOk U vals)
    (ht : e ∈ w.live → (¬ ∀ p ∈ vals, p.1 ∈ w.types e) → s.archs.CanHold U dbg (addedTypes (w.types e) vals)) :
    ∃ s', s.addComponents U dbg e vals = .ok s' ∧ Rel U dbg s' (w.apply (.added e vals)) := by
  unfold Store.addComponents
  simp only [h.isAlive (h.ents.issued_id_lt hi), ok_bind]
  by_cases he : e ∈ w.live
  · obtain ⟨s1, q, v, g1, g2, g3, g4⟩ := h.ensure he hne hok (ht he)
    have hT1 := extended_types w e vals v
    have hl1 : e ∈ (extended w e vals v).live := by rw [extended_live]; exact he
    have hT2 : addedTypes (w.types e) vals ≠ [] := by
      obtain ⟨p, hp⟩ := List.exists_mem_of_ne_nil _ hne
      exact List.ne_nil_of_mem (mem_addedTypes.2 (Or.inr (List.mem_map.2 ⟨p, hp, rfl⟩)))
    obtain ⟨q', ai, a, l, ps, pg, h1, h2, hat, hw, hg, h5, h6, h7, h8⟩ := g2.row (e := e) hl1 (by rw [hT1]; exact hT2)
    cases g4.unique h1
    have hin : ∀ p ∈ vals, p.1 ∈ (extended w e vals v).types e := fun p hp => by
      rw [hT1]; exact mem_addedTypes.2 (Or.inr (List.mem_map.2 ⟨p, hp, rfl⟩))
    obtain ⟨offs, _, f2, f3⟩ := getOffsets_present hw hg (vals.map (·.1)) (fun t htt => by
      obtain ⟨p, hp, hpt⟩ := List.mem_map.1 htt
      rw [← hpt]; exact (h5 _).2 (hin p hp))
    obtain ⟨pages', p1, p2⟩ := g2.assign (e := e) hl1 (by rw [hT1]; exact hT2) hok hin h1 hat f3
    refine ⟨{ s1 with archs := { s1.archs with pages := pages' } }, ?_, ?_⟩
    · simp only [he, decide_true, Bool.not_true, Bool.false_eq_true, if_false, g1, ok_bind, h8, f2, p1, pure_ok]
    · have := assigned_world (w := w) (e := e) (v := v)
        (w' := if ∀ p ∈ vals, p.1 ∈ w.types e then w else w.setTypes e (addedTypes (w.types e) vals)) hT1 p2 (fun t htT htn => g3 t ((mem_addedTypes.1 htT).resolve_right htn))
      simp only [World.apply]
      rw [if_pos he]
      exact this
  · refine ⟨s, by simp [he], ?_⟩
    simp only [World.apply]
    rw [if_neg he]
    exact h

theorem removed (h : Rel U dbg s w) {e : Entity} {ts : List TypeId} (hi : e ∈ w.issued)
    (ht : e ∈ w.live → w.types e ≠ [] → s.archs.CanHold U dbg ((w.types e).filter (· ∉ ts))) :
    ∃ s', s.removeComponents U dbg e ts = .ok s' ∧ Rel U dbg s' (w.apply (.removed e ts)) := by
  unfold Store.removeComponents
  simp only [h.isValid (h.ents.issued_id_lt hi), ok_bind]
  by_cases he : e ∈ w.live
  · by_cases hT : w.types e = []
    · refine ⟨s, by simp [hT], ?_⟩
      simp only [World.apply]
      rw [if_pos he, hT]
      simp only [World.setTypes, List.filter_nil, if_true]
      have : at' w.types e [] = w.types := by rw [← hT, at'_eq]
      rw [this, if_pos hT]
      exact h
    · have htg := ht he hT
      obtain ⟨q, ai, a, l, ps, pg, h1, h2, hat, hw, hg, h5, h6, h7, h8⟩ := h.row he hT
      obtain ⟨r1, b1, b2⟩ := (BuilderRep.new U).includeArchetype hw
      obtain ⟨r2, b3, b4⟩ := b1.excludeComponents ts
      have hmem : ∀ t, t ∈ r2 ↔ t ∈ (w.types e).filter (· ∉ ts) := by
        intro t
        rw [b4, b2, List.mem_filter, ← h5 t]
        simp
      have hr2 : r2 ≠ [] := by
        obtain ⟨t, ht⟩ := List.exists_mem_of_ne_nil _ htg.ne
        exact List.ne_nil_of_mem ((hmem t).2 ht)
      obtain ⟨na, b', b5, b6, b7, _⟩ := b3.build hr2
      obtain ⟨s', q', v, g1, g2, g3, _⟩ := h.move he hT b6 (T := (w.types e).filter (· ∉ ts))
        (fun t => by rw [b7.mem_iff, hmem]) htg
      refine ⟨s', ?_, ?_⟩
      · simp only [he, hT, ne_eq, not_false_eq_true, and_self, decide_true, Bool.not_true, Bool.false_eq_true, if_false,
          h7, ok_bind, idx_of_some hat.hto, idxUnchecked_of_some hat.ha, b5, g1, pure_ok]
      · simp only [World.apply]
        rw [if_pos he]
        refine g2.value_congr (V := w.value) ?_
        intro x _ t htt
        by_cases hxe : x = e
        · subst hxe
          have htf : t ∈ (w.types x).filter (· ∉ ts) := by simpa [retype, World.setTypes] using htt
          simp only [retype, at'_self]
          exact (g3 t (List.mem_filter.1 htf).1 htf).symm
        · simp only [retype, at'_ne _ _ hxe]
  · refine ⟨s, by simp [he], ?_⟩
    simp only [World.apply]
    rw [if_neg he]
    exact h

end Rel
end Ecs
