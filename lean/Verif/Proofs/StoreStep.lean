import Verif.Proofs.StoreRel

/-! Every call preserves the relation between store and world. -/

namespace Ecs
open Spec

namespace Rel

open Core (at'_self at'_ne at'_at' at'_eq mem_erase erase_map)

variable {U : Universe} {dbg : Bool} {s : Store} {w : World}

/-- Values matter only for live entities and their types. -/
theorem value_congr (h : Rel U dbg s w) {V : Entity → TypeId → List Cell}
    (hV : ∀ e ∈ w.live, ∀ t ∈ w.types e, V e t = w.value e t) : Rel U dbg s { w with value := V } := by
  refine ⟨h.ents, ?_, h.regs, h.tags, h.tcap, h.tagOn, h.orders, h.ocap, h.ordLive⟩
  refine h.places.revalue h.places.inv (fun _ => rfl) (fun _ => rfl) ?_
  intro e he hT q hq t ht
  obtain ⟨_, _, a, _, _, h6⟩ := h.places.rowOf he hT hq
  rw [h6 t ht]
  exact congrArg _ (hV e he t ht).symm

/-! ### Creation -/

/-- The places after a birth, given any has-archetype bit vector with the new bit off. -/
theorem birth_places (h : Rel U dbg s w) {s1 : Store} {e : Entity} {hb : Words} (hE : EntInv s1.ents (e :: w.issued) (e :: w.live))
    (hid : ∀ x ∈ w.live, x.id ≠ e.id)
    (hcap : s.ents.capacity ≤ s1.ents.capacity)
    (hpl : s1.toPage.length = s1.ents.capacity) (hil : s1.toIndex.length = s1.ents.capacity)
    (hbl : hb.length = Words.getLen s1.ents.capacity)
    (hp : ∀ i, i < s.ents.capacity → s1.toPage[i]? = s.toPage[i]?)
    (hi : ∀ i, i < s.ents.capacity → s1.toIndex[i]? = s.toIndex[i]?)
    (hbt : ∀ i, hb.bit i = (!decide (i = e.id) && s.hasArch.bit i)) :
    Places U s.archs s1.toPage s1.toIndex hb s1.ents.capacity (w.birth e).live (w.birth e).types w.value none := by
  refine h.places.extend (e := e) (hE.id_lt (by simp)) hid (fun x hx => Nat.lt_of_lt_of_le (h.ents.id_lt hx) hcap)
    (by simp [World.birth]) ?_ (by simp [World.birth]) (fun x hx => hp _ (h.ents.id_lt hx))
    (fun x hx => hi _ (h.ents.id_lt hx)) hpl hil hbl ?_ ?_
  · intro x hx
    exact at'_ne _ _ (fun hxe => hid x hx (by rw [hxe]))
  · intro x hx
    rw [hbt]; simp [hid x hx]
  · rw [hbt]; simp

theorem created (h : Rel U dbg s w) (hb : w.issued.length + 1 < u32Size) :
    ∃ s' e, s.createEntity dbg = .ok (s', e) ∧ e ∉ w.issued ∧ Rel U dbg s' (w.apply (.created e)) := by
  obtain ⟨s1, e, h1, h2, h3, h4, h5, h6, h7, h8, h9, h10, h11, h12, h13, h14, h15, h16, h17⟩ := h.core.register (dbg := dbg) hb
  have hlt : e.id < s1.ents.capacity := h2.id_lt (by simp)
  obtain ⟨hw', k1, k2, k3⟩ := Words.setOff_of_lt (w := s1.hasArch) (i := e.id) (by rw [h9]; exact Words.div_lt_getLen hlt)
  refine ⟨{ s1 with hasArch := hw' }, e, ?_, h3, ?_⟩
  · unfold Store.createEntity
    simp only [h1, k1, ok_bind, pure_ok]
  · refine ⟨h2, ?_, ?_, h13, h14, ?_, h16, h17, ?_⟩
    · have := h.birth_places (hb := hw') h2 h4 h6 h7 h8 (by rw [k2, h9]) h10 h11 (fun i => by rw [k3, h12])
      simp only [h5]
      exact this
    · simp only [h5]; exact h.regs
    · intro tag i
      simp only [h15]
      exact h.core.birth_tagOn h4 tag i
    · intro g x hx
      exact List.mem_cons_of_mem _ (h.ordLive g x hx)

/-- Some value for each component of a row. -/
theorem exists_vals {c : Archs} (hI : c.Inv U) {q : Loc} {a : Archetype} (hr : c.row q ≠ none) (ha : c.archAt q.page = some a) :
    ∃ v : TypeId → List Cell, ∀ t ∈ a.ids, c.val U q t = some (v t) := by
  obtain ⟨i, hi⟩ := Option.ne_none_iff_exists'.1 hr
  obtain ⟨ai, a', l, ps, pg, hat, _⟩ := hI.at_of_row hi
  have := hat.archAt
  rw [ha] at this
  cases this
  refine ⟨fun t => (c.val U q t).getD [], fun t ht => ?_⟩
  obtain ⟨hw, hg, _⟩ := hI.at_wf hat
  obtain ⟨k, o, h1, h2, h3⟩ := Archs.offset_of_mem hw hg ht
  have hv : c.val U q t = rowVal U a l pg q.index t := hat.val q.index t
  simp only [hv]
  unfold rowVal
  rw [h1]
  simp [h3]

theorem recordRow_spec {s : Store} {id : Nat} {q : Loc} (hp : id < s.toPage.length) (hi : id < s.toIndex.length)
    (hb : id / 32 < s.hasArch.length) : ∃ hw', s.recordRow id q =
      .ok { s with toPage := s.toPage.set id (some q.page), toIndex := s.toIndex.set id (some q.index), hasArch := hw' } ∧
      hw'.length = s.hasArch.length ∧ ∀ j, hw'.bit j = (decide (j = id) || s.hasArch.bit j) := by
  obtain ⟨hw', k1, k2, k3⟩ := Words.setOn_of_lt hb
  refine ⟨hw', ?_, k2, k3⟩
  unfold Store.recordRow
  simp only [Raw.write_of_lt _ hp, Raw.write_of_lt _ hi, k1, ok_bind, pure_ok]

theorem set_get {a : Raw Nat} {i : Nat} (hi : i < a.length) (v : Nat) (j : Nat) :
    (a.set i (some v))[j]? = if j = i then some (some v) else a[j]? := by
  rw [List.getElem?_set]
  by_cases h : i = j
  · subst h; simp [hi]
  · simp [h, Ne.symm h]

theorem createdWith (h : Rel U dbg s w) (hb : w.issued.length + 1 < u32Size) {a : Archetype} (hw : a.WF U)
    (ht : s.archs.Fits dbg a) :
    ∃ s' e v, s.createEntityWithArchetype dbg a = .ok (s', e) ∧ e ∉ w.issued ∧
      Rel U dbg s' (w.apply (.createdWith e a.ids v)) := by
  obtain ⟨⟨l, t1, t2⟩, t3, t4⟩ := ht
  obtain ⟨s1, e, h1, h2, h3, h4, h5, h6, h7, h8, h9, h10, h11, h12, h13, h14, h15, h16, h17⟩ := h.core.register (dbg := dbg) hb
  have hlt : e.id < s1.ents.capacity := h2.id_lt (by simp)
  have hbit : e.id / 32 < s1.hasArch.length := by rw [h9]; exact Words.div_lt_getLen hlt
  obtain ⟨c', q, a1, a2⟩ := Archs.addEntity_spec (id := e.id) h.places.inv t3 t4 hw t1 t2
  obtain ⟨hof, k1, k2, k3⟩ := Words.setOff_of_lt hbit
  have hP := h.birth_places (hb := hof) h2 h4 h6 h7 h8 (by rw [k2, h9]) h10 h11 (fun i => by rw [k3, h12])
  obtain ⟨hon, m1, m2, m3⟩ := recordRow_spec (s := { s1 with archs := c' }) (id := e.id) (q := q) (by rw [h7]; exact hlt)
    (by rw [h8]; exact hlt) hbit
  obtain ⟨v, hv⟩ := exists_vals a2.inv (q := q) (a := a) (by rw [a2.row]; simp) a2.archNew
  refine ⟨{ s1 with archs := c', toPage := s1.toPage.set e.id (some q.page),
                    toIndex := s1.toIndex.set e.id (some q.index), hasArch := hon }, e, v, ?_, h3, ?_⟩
  · unfold Store.createEntityWithArchetype
    simp only [h1, ok_bind, h5, a1, m1, pure_ok]
  · refine ⟨h2, ?_, ?_, h13, h14, ?_, h16, h17, ?_⟩
    · refine hP.place (e := e) (a := a) (q := q) List.mem_cons_self a2
        (set_get (by rw [h7]; exact hlt) _) (set_get (by rw [h8]; exact hlt) _) List.length_set List.length_set (by rw [m2, k2]) ?_ ?_ ?_ ?_ ?_ ?_
      · intro i
        rw [m3, k3]
        by_cases hi : i = e.id <;> simp [hi]
      · intro x hx
        simp only [World.apply, World.setTypes, World.birth]
        rw [at'_ne _ _ hx]
      · intro t
        simp [World.apply, World.setTypes]
      · intro x hx
        simp only [World.apply]
        rw [at'_ne _ _ hx]
      · intro t htt
        simp only [World.apply, World.setTypes, at'_self] at htt ⊢
        exact hv t htt
      · intro p
        simp [World.birth]
    · have := h.regs.added a2 (fun _ => Iff.rfl)
      simp only [World.apply, World.setTypes, World.birth, at'_self, if_true]
      rw [if_neg hw.ne]
      exact this
    · intro tag i
      simp only [h15]
      exact h.core.birth_tagOn h4 tag i
    · intro g x hx
      exact List.mem_cons_of_mem _ (h.ordLive g x hx)

/-! ### Destruction -/

theorem destroyed (h : Rel U dbg s w) {e : Entity} (he : e ∈ w.live) :
    ∃ s', s.destroyEntity dbg e = .ok s' ∧ Rel U dbg s' (w.apply (.destroyed e)) := by
  have hlt := h.ents.id_lt he
  have hn := h.ents.nodup_live
  have hrow : ∃ s1, s.destroyRow e = .ok s1 ∧
      Places U s1.archs s1.toPage s1.toIndex s1.hasArch s.ents.capacity (w.live.erase e) (at' w.types e []) w.value none ∧
      s1.ents = s.ents ∧ s1.tags = s.tags ∧ s1.orders = s.orders ∧ s1.archs.archetypes = s.archs.archetypes ∧
      s1.archs.layouts = s.archs.layouts ∧
      Regs U dbg s1.archs w.used (if w.types e = [] then w.left else w.types e :: w.left) := by
    unfold Store.destroyRow
    rw [Words.isOn_of_lt (by rw [h.places.blen]; exact Words.div_lt_getLen hlt)]
    by_cases hT : w.types e = []
    · rw [h.places.off e he hT]
      refine ⟨s, rfl, ?_, rfl, rfl, rfl, rfl, rfl, by rw [if_pos hT]; exact h.regs⟩
      exact h.places.forget he (mem_erase hn e) (fun x hx => at'_ne _ _ hx) (by simp [hT])
    · obtain ⟨q, ai, a, l, ps, pg, h1, h2, hat, hw, hg, h5, h6, h7, h8⟩ := h.row he hT
      rw [(h.places.on e he hT).1]
      simp only [ok_bind, if_true, h7]
      have hF := h.places.forget (extra' := some q) (T' := at' w.types e []) he (mem_erase hn e) (fun x hx => at'_ne _ _ hx)
        (fun p => ⟨fun hp => by cases hp; exact ⟨hT, h1⟩, fun hp => by rw [h1.unique hp.2]⟩)
      obtain ⟨s', g1, g2, g3, g4, g5, g6, g7, g8, _⟩ := hF.swapRemove
      refine ⟨s', g1, g2, g3, g4, g5, g6, g7, ?_⟩
      rw [if_neg hT]
      exact h.regs.removedRow hw hat.archAt h5 g6 g7 g8
  obtain ⟨s1, r1, r2, r3, r4, r5, r6, r7, r8⟩ := hrow
  obtain ⟨ents, e1, e2, e3, _⟩ := h.ents.destroy_live (dbg := dbg) he
  obtain ⟨tg, t1, t2, t3, t4⟩ := Tags.removeAll_spec h.tags (id := e.id) (by rw [h.tcap]; exact hlt)
  obtain ⟨od, o1, o2, o3⟩ := h.orders.removeAll (e := e.id) (by rw [h.ocap]; exact hlt) (h.ne_null he)
  refine ⟨{ s1 with ents := ents, tags := tg, orders := od }, ?_, ?_⟩
  · unfold Store.destroyEntity
    simp only [r1, ok_bind, r3, e1, r4, t1, r5, o1, pure_ok]
  · refine ⟨e2, ?_, ?_, t2, ?_, ?_, ?_, ?_, ?_⟩
    · simp only [e3]; exact r2
    · exact r8
    · simp only [t3, e3, h.tcap]
    · intro tag i
      simp only [t4, World.apply]
      constructor
      · intro hi
        simp only [Bool.and_eq_true, Bool.not_eq_true', decide_eq_false_iff_not] at hi
        obtain ⟨x, hx, hxi, hxt⟩ := (h.tagOn tag i).1 hi.2
        have hxe : x ≠ e := fun hxe => hi.1 (by rw [← hxi, hxe])
        exact ⟨x, (mem_erase hn e x).2 ⟨hx, hxe⟩, hxi, by rw [at'_ne _ _ hxe]; exact hxt⟩
      · rintro ⟨x, hx, hxi, hxt⟩
        obtain ⟨hx, hxe⟩ := (mem_erase hn e x).1 hx
        rw [at'_ne _ _ hxe] at hxt
        have h2 := (h.tagOn tag i).2 ⟨x, hx, hxi, hxt⟩
        have : i ≠ e.id := fun hi => hxe (h.ents.eq_of_id hx he (by rw [hxi, hi]))
        simp [h2, this]
    · have : (fun g => ((w.order g).map (·.id)).erase e.id) = fun g => ((w.order g).erase e).map (·.id) := by
        funext g
        exact erase_map h.places.inj (h.ordLive g) he
      rw [this] at o2
      exact o2
    · simp only [o3, e3, h.ocap]
    · intro g x hx
      have := (mem_erase (h.order_nodup g) e x).1 hx
      exact (mem_erase hn e x).2 ⟨h.ordLive g x this.1, this.2⟩

end Rel
end Ecs
