import Verif.Proofs.StoreAgrees

/-! What single calls do to a store that is in the relation `Rel` with a world. -/

namespace Ecs.Rel
open Spec

section
variable {U : Universe} {dbg : Bool} {s : Store} {w : World}

private theorem find_self {vals : TupleVal} (hn : (vals.map (·.1)).Nodup) {p : TypeId × List UInt8} (hp : p ∈ vals) :
    TupleVal.find vals p.1 = some p.2 := by
  induction vals with
  | nil => cases hp
  | cons q vals ih =>
    obtain ⟨h1, h2⟩ := List.nodup_cons.1 hn
    unfold TupleVal.find
    rcases List.mem_cons.1 hp with rfl | hp
    · simp
    · have : q.1 ≠ p.1 := fun h => h1 (by show q.1 ∈ _; rw [h]; exact List.mem_map_of_mem hp)
      rw [List.find?_cons_of_neg (by simpa using this)]
      exact ih h2 hp

private theorem store_self {vals : TupleVal} (hn : (vals.map (·.1)).Nodup) (f : TypeId → List Cell) :
    (vals.map (·.1)).map (store vals f) = vals.map (·.2.map some) := by
  rw [List.map_map]
  refine List.map_congr_left fun p hp => ?_
  simp only [Function.comp, store, find_self hn hp]

theorem add_then_get (hr : Rel U dbg s w) {e : Entity} (he : e ∈ w.live) {vals : TupleVal}
    (hne : vals ≠ []) (hok : TupleOk U vals)
    (hroom : ∀ T, needs w (.added e vals) = some T → s.archs.CanHold U dbg T) :
    ∃ s', s.addComponents U dbg e vals = .ok s' ∧
      s'.getComponents U dbg e (vals.map (·.1)) = .ok (some (vals.map (·.2.map some))) ∧
      ∀ p ∈ vals, s'.getComponents U dbg e [p.1] = .ok (some [p.2.map some]) := by
  have hi := hr.ents.sub e he
  obtain ⟨s', h1, h2⟩ := hr.added hi hne hok (fun h1 h2 => hroom _ (if_pos ⟨h1, h2⟩))
  have hT : ∀ p ∈ vals, p.1 ∈ (w.apply (.added e vals)).types e := by
    intro p hp
    simp only [World.apply, if_pos he]
    split
    · rename_i h3; exact h3 p hp
    · simp only [World.setTypes, Core.at'_self]
      by_cases h4 : p.1 ∈ w.types e
      · exact List.mem_append_left _ h4
      · exact List.mem_append_right _ (List.mem_filter.2 ⟨List.mem_map_of_mem hp, by simpa using h4⟩)
  have hV : (w.apply (.added e vals)).value e = store vals (w.value e) := by
    simp only [World.apply, if_pos he]
    exact Core.at'_self _ _ _
  have hl : e ∈ (w.apply (.added e vals)).live := by
    simp only [World.apply, if_pos he]
    split <;> exact he
  have hnil : (w.apply (.added e vals)).types e ≠ [] := by
    obtain ⟨p, hp⟩ := List.exists_mem_of_ne_nil _ hne
    exact List.ne_nil_of_mem (hT p hp)
  refine ⟨s', h1, ?_, fun p hp => ?_⟩
  · rw [h2.getComponents (h2.ents.id_lt hl), if_pos, hV, store_self hok.1]
    refine ⟨hl, hnil, fun t ht => ?_⟩
    obtain ⟨p, hp, rfl⟩ := List.mem_map.1 ht
    exact hT p hp
  · rw [h2.getComponents (h2.ents.id_lt hl), if_pos, hV]
    · simp [store, find_self hok.1 hp]
    · exact ⟨hl, hnil, fun t ht => by rw [List.mem_singleton.1 ht]; exact hT p hp⟩

theorem add_frame (hr : Rel U dbg s w) {e : Entity} (he : e ∈ w.live) {vals : TupleVal}
    (hne : vals ≠ []) (hok : TupleOk U vals)
    (hroom : ∀ T, needs w (.added e vals) = some T → s.archs.CanHold U dbg T)
    {s' : Store} (hs : s.addComponents U dbg e vals = .ok s') :
    (∀ x ∈ w.issued, x ≠ e → SameData U dbg s s' x) ∧
    (∀ t, t ∉ vals.map (·.1) → s'.getComponents U dbg e [t] = s.getComponents U dbg e [t]) ∧
    s'.isAlive dbg e = s.isAlive dbg e ∧ SameGroups s s' (w.live) := by
  have hi := hr.ents.sub e he
  obtain ⟨s1, h1, h2⟩ := hr.added hi hne hok (fun h1 h2 => hroom _ (if_pos ⟨h1, h2⟩))
  rw [hs] at h1
  cases h1
  have hiss : (w.apply (.added e vals)).issued = w.issued := by
    simp only [World.apply, if_pos he]; split <;> rfl
  have hliv : (w.apply (.added e vals)).live = w.live := by
    simp only [World.apply, if_pos he]; split <;> rfl
  have htag : (w.apply (.added e vals)).tags = w.tags := by
    simp only [World.apply, if_pos he]; split <;> rfl
  have hord : (w.apply (.added e vals)).order = w.order := by
    simp only [World.apply, if_pos he]; split <;> rfl
  have hval : (w.apply (.added e vals)).value = at' w.value e (store vals (w.value e)) := by
    simp only [World.apply, if_pos he]
  have htyp : ∀ x, x ≠ e → (w.apply (.added e vals)).types x = w.types x := by
    intro x hxe
    simp only [World.apply, if_pos he]
    split
    · rfl
    · exact Core.at'_ne _ _ hxe
  have htyp' : ∀ t, t ∉ vals.map (·.1) → (t ∈ (w.apply (.added e vals)).types e ↔ t ∈ w.types e) := by
    intro t ht
    simp only [World.apply, if_pos he]
    split
    · rfl
    · simp only [World.setTypes, Core.at'_self, List.mem_append, List.mem_filter]
      exact ⟨fun h3 => h3.resolve_right (fun h4 => ht h4.1), Or.inl⟩
  refine ⟨fun x hxi hxe => ?_, fun t ht => ?_, ?_, ?_⟩
  · refine hr.sameData h2 hxi (by rw [hiss]; exact hxi) (by rw [hliv]) ?_ ?_
    · rw [htyp x hxe]; exact Rel.sameSet_refl _
    · intro t _; rw [hval, Core.at'_ne _ _ hxe]
  · rw [hr.agrees.read e hi [t] (by simp), h2.agrees.read e (by rw [hiss]; exact hi) [t] (by simp)]
    have : (w.apply (.added e vals)).get e t = w.get e t := by
      unfold World.get
      simp only [hliv, htyp' t ht, hval, Core.at'_self, store, Rel.find_none ht]
    simp [this]
  · rw [hr.isAlive (hr.ents.issued_id_lt hi), h2.isAlive (h2.ents.issued_id_lt (by rw [hiss]; exact hi)), hliv]
  · exact hr.sameGroups h2 (fun _ h => h) (by rw [hliv]; exact fun _ h => h) (fun _ _ _ => by rw [htag]) hord

theorem remove_exact (hr : Rel U dbg s w) {e : Entity} (he : e ∈ w.live) {a : Archetype}
    (ha : s.getEntityArchetype dbg e = .ok (some a)) {ts : List TypeId} (hkeep : ∃ t ∈ a.ids, t ∉ ts)
    (hroom : ∀ T, needs w (.removed e ts) = some T → s.archs.CanHold U dbg T) :
    ∃ s', s.removeComponents U dbg e ts = .ok s' ∧
      (∃ a', s'.getEntityArchetype dbg e = .ok (some a') ∧ ∀ t, t ∈ a'.ids ↔ t ∈ a.ids ∧ t ∉ ts) ∧
      (∀ t, s'.getComponents U dbg e [t] = if t ∈ ts then .ok none else s.getComponents U dbg e [t]) ∧
      (∀ x ∈ w.issued, x ≠ e → SameData U dbg s s' x) ∧
      s'.isAlive dbg e = s.isAlive dbg e ∧ SameGroups s s' (w.live) := by
  have hi := hr.ents.sub e he
  have hT : w.types e ≠ [] := by
    intro h0
    rw [hr.getEntityArchetype_none (hr.ents.issued_id_lt hi) (fun h1 => h1.2 h0)] at ha
    cases ha
  obtain ⟨a0, h0, _, hset⟩ := hr.getEntityArchetype_some he hT
  rw [ha] at h0
  cases h0
  obtain ⟨s', h1, h2⟩ := hr.removed hi (fun h1 h2 => hroom _ (if_pos ⟨h1, h2⟩))
  simp only [World.apply, if_pos he, World.setTypes] at h2
  have hT' : (w.types e).filter (· ∉ ts) ≠ [] := by
    obtain ⟨t, h3, h4⟩ := hkeep
    exact List.ne_nil_of_mem (List.mem_filter.2 ⟨(hset t).1 h3, by simpa using h4⟩)
  refine ⟨s', h1, ?_, fun t => ?_, fun x hxi hxe => ?_, ?_, ?_⟩
  · obtain ⟨a', h3, _, h4⟩ := h2.getEntityArchetype_some (e := e) he (by simpa using hT')
    refine ⟨a', h3, fun t => ?_⟩
    rw [h4 t, hset t]
    simp
  · rw [hr.agrees.read e hi [t] (by simp), h2.agrees.read e hi [t] (by simp)]
    by_cases ht : t ∈ ts
    · simp [World.get, ht]
    · simp [World.get, ht]
  · refine hr.sameData h2 hxi hxi Iff.rfl ?_ ?_
    · simp only [Core.at'_ne _ _ hxe]; exact Rel.sameSet_refl _
    · intro t _; rfl
  · rw [hr.isAlive (hr.ents.issued_id_lt hi), h2.isAlive (h2.ents.issued_id_lt hi)]
  · exact hr.sameGroups h2 (fun _ h => h) (fun _ h => h) (fun _ _ _ => rfl) rfl

theorem destroy_exact (hr : Rel U dbg s w) {e : Entity} (he : e ∈ w.live) :
    ∃ s', s.destroyEntity dbg e = .ok s' ∧ s'.isAlive dbg e = .ok false ∧
      s'.getEntityArchetype dbg e = .ok none ∧
      (∀ ts, ts ≠ [] → s'.getComponents U dbg e ts = .ok none) ∧
      (∀ x ∈ w.issued, x ≠ e → SameData U dbg s s' x) ∧
      (∀ x ∈ w.live, x ≠ e → ∀ tag, s'.hasTag tag x = s.hasTag tag x) := by
  have hi := hr.ents.sub e he
  obtain ⟨s', h1, h2⟩ := hr.destroyed he
  have hdead : e ∉ (w.apply (.destroyed e)).live := by
    simp only [World.apply]
    rw [Core.mem_erase hr.ents.nodup_live]
    exact fun h => h.2 rfl
  have hi' : e ∈ (w.apply (.destroyed e)).issued := hi
  refine ⟨s', h1, ?_, ?_, fun ts hne => ?_, fun x hxi hxe => ?_, fun x hxl hxe tag => ?_⟩
  · rw [h2.isAlive (h2.ents.issued_id_lt hi')]; simp [hdead]
  · exact h2.getEntityArchetype_none (h2.ents.issued_id_lt hi') (fun h => hdead h.1)
  · rw [h2.getComponents (h2.ents.issued_id_lt hi'), if_neg (fun h => hdead h.1)]
  · refine hr.sameData h2 hxi hxi ?_ ?_ ?_
    · simp only [World.apply]
      rw [Core.mem_erase hr.ents.nodup_live]
      exact ⟨fun h => h.1, fun h => ⟨h, hxe⟩⟩
    · simp only [World.apply, Core.at'_ne _ _ hxe]; exact Rel.sameSet_refl _
    · intro t _; rfl
  · have hxl' : x ∈ (w.apply (.destroyed e)).live := by
      simp only [World.apply]
      rw [Core.mem_erase hr.ents.nodup_live]
      exact ⟨hxl, hxe⟩
    rw [hr.core.hasTag hxl, h2.core.hasTag hxl']
    exact congrArg _ (Core.at'_ne _ _ hxe)

theorem writes_local (hr : Rel U dbg s w) {e : Entity} (he : e ∈ w.issued) {vals : TupleVal}
    (hok : TupleOk U vals) :
    ∃ s' b, s.setComponents U dbg e vals = .ok (s', b) ∧
      (b = true ↔ ∃ refs, s.getComponentsRefs U dbg e (vals.map (·.1)) = .ok (some refs)) ∧
      (b = true → s'.getComponents U dbg e (vals.map (·.1)) = .ok (some (vals.map (·.2.map some)))) ∧
      (b = false → s' = s) ∧
      (∀ x ∈ w.issued, x ≠ e → SameData U dbg s s' x) ∧
      (∀ t, t ∉ vals.map (·.1) → s'.getComponents U dbg e [t] = s.getComponents U dbg e [t]) ∧
      s'.getEntityArchetype dbg e = s.getEntityArchetype dbg e ∧
      s'.isAlive dbg e = s.isAlive dbg e ∧ SameGroups s s' (w.live) := by
  obtain ⟨s', h1, h2⟩ := hr.assigned he hok
  have hlt := hr.ents.issued_id_lt he
  have hiff : (e ∈ w.live ∧ w.types e ≠ [] ∧ ∀ p ∈ vals, p.1 ∈ w.types e) ↔
      ∃ refs, s.getComponentsRefs U dbg e (vals.map (·.1)) = .ok (some refs) := by
    constructor
    · intro hc
      obtain ⟨_, _, _, _, _, _, _, _, _, _, _, _, h1, _⟩ := hr.getRefs_some (ts := vals.map (·.1)) hc.1 hc.2.1
        (fun t ht => by obtain ⟨p, hp, rfl⟩ := List.mem_map.1 ht; exact hc.2.2 p hp)
      exact ⟨_, h1⟩
    · rintro ⟨refs, h3⟩
      by_contra hc
      rw [hr.getRefs_none hlt (fun h4 => hc ⟨h4.1, h4.2.1, fun p hp => h4.2.2 _ (List.mem_map_of_mem hp)⟩)] at h3
      cases h3
  have hiss : (w.apply (.assigned e vals)).issued = w.issued := by
    simp only [World.apply]; split <;> rfl
  have hliv : (w.apply (.assigned e vals)).live = w.live := by
    simp only [World.apply]; split <;> rfl
  have htag : (w.apply (.assigned e vals)).tags = w.tags := by
    simp only [World.apply]; split <;> rfl
  have hord : (w.apply (.assigned e vals)).order = w.order := by
    simp only [World.apply]; split <;> rfl
  have htyp : (w.apply (.assigned e vals)).types = w.types := by
    simp only [World.apply]; split <;> rfl
  have hval : ∀ x, x ≠ e → (w.apply (.assigned e vals)).value x = w.value x := by
    intro x hxe
    simp only [World.apply]; split
    · exact Core.at'_ne _ _ hxe
    · rfl
  have hval' : ∀ t, t ∉ vals.map (·.1) → (w.apply (.assigned e vals)).value e t = w.value e t := by
    intro t ht
    simp only [World.apply]; split
    · simp only [Core.at'_self, store, Rel.find_none ht]
    · rfl
  refine ⟨s', _, h1, by rw [decide_eq_true_eq, hiff], fun hb => ?_, fun hb => ?_, fun x hxi hxe => ?_, fun t ht => ?_, ?_, ?_, ?_⟩
  · have hc := of_decide_eq_true hb
    rw [h2.getComponents (h2.ents.issued_id_lt (by rw [hiss]; exact he)), if_pos]
    · have : (w.apply (.assigned e vals)).value e = store vals (w.value e) := by
        simp only [World.apply, if_pos (show e ∈ w.live ∧ ∀ p ∈ vals, p.1 ∈ w.types e from ⟨hc.1, hc.2.2⟩)]
        exact Core.at'_self _ _ _
      rw [this, store_self hok.1]
    · rw [hliv, htyp]
      exact ⟨hc.1, hc.2.1, fun t ht => by obtain ⟨p, hp, rfl⟩ := List.mem_map.1 ht; exact hc.2.2 p hp⟩
  · have hc : ¬ _ := of_decide_eq_false hb
    have h3 := hr.getRefs_none (ts := vals.map (·.1)) hlt
      (fun h4 => hc ⟨h4.1, h4.2.1, fun p hp => h4.2.2 _ (List.mem_map_of_mem hp)⟩)
    unfold Store.setComponents at h1
    rw [h3] at h1
    exact (congrArg Prod.fst (Except.ok.inj h1)).symm
  · refine hr.sameData h2 hxi (by rw [hiss]; exact hxi) (by rw [hliv]) ?_ ?_
    · rw [htyp]; exact Rel.sameSet_refl _
    · intro t _; rw [hval x hxe]
  · rw [hr.agrees.read e he [t] (by simp), h2.agrees.read e (by rw [hiss]; exact he) [t] (by simp)]
    have : (w.apply (.assigned e vals)).get e t = w.get e t := by
      unfold World.get
      simp only [hliv, htyp, hval' t ht]
    simp [this]
  · by_cases h3 : e ∈ w.live ∧ w.types e ≠ []
    · obtain ⟨a, g1, g2, g3⟩ := hr.getEntityArchetype_some h3.1 h3.2
      obtain ⟨a', g1', g2', g3'⟩ := h2.getEntityArchetype_some (e := e) (by rw [hliv]; exact h3.1) (by rw [htyp]; exact h3.2)
      rw [htyp] at g3'
      rw [g1, g1', g2'.eq_of_set g2 g3' g3]
    · rw [hr.getEntityArchetype_none hlt h3,
        h2.getEntityArchetype_none (h2.ents.issued_id_lt (by rw [hiss]; exact he)) (by rw [hliv, htyp]; exact h3)]
  · rw [hr.isAlive hlt, h2.isAlive (h2.ents.issued_id_lt (by rw [hiss]; exact he)), hliv]
  · exact hr.sameGroups h2 (fun _ h => h) (by rw [hliv]; exact fun _ h => h) (fun _ _ _ => by rw [htag]) hord

theorem remove_last (hr : Rel U dbg s w) {e : Entity} (he : e ∈ w.issued) (ts : List TypeId) :
    (∀ a, s.getEntityArchetype dbg e = .ok (some a) → (∀ t ∈ a.ids, t ∈ ts) →
      s.removeComponents U dbg e ts = .error (.panic .assertFailed)) ∧
    (∀ a, s.getEntityArchetype dbg e = .ok (some a) → (∃ t ∈ a.ids, t ∉ ts) →
      s.archs.CanHold U dbg (a.ids.filter (· ∉ ts)) → ∃ s', s.removeComponents U dbg e ts = .ok s') ∧
    (s.getEntityArchetype dbg e = .ok none → s.removeComponents U dbg e ts = .ok s) := by
  have hlt := hr.ents.issued_id_lt he
  have key : ∀ a, s.getEntityArchetype dbg e = .ok (some a) → e ∈ w.live ∧ w.types e ≠ [] ∧
      a.WF U ∧ HasSet a (w.types e) := by
    intro a ha
    by_cases hc : e ∈ w.live ∧ w.types e ≠ []
    · obtain ⟨a0, h0, h1, hset⟩ := hr.getEntityArchetype_some hc.1 hc.2
      rw [ha] at h0
      cases h0
      exact ⟨hc.1, hc.2, h1, hset⟩
    · rw [hr.getEntityArchetype_none hlt hc] at ha
      cases ha
  refine ⟨fun a ha hall => ?_, fun a ha hk hroom => ?_, fun hnone => ?_⟩
  · obtain ⟨h1, h2, _, h3⟩ := key a ha
    exact hr.removed_all h1 h2 (fun t ht => hall t ((h3 t).2 ht))
  · obtain ⟨h1, h2, h4, h3⟩ := key a ha
    obtain ⟨b, h5, h6⟩ := hroom
    obtain ⟨b', h7, h8, h9⟩ := Archetype.withComponents_spec (U := U) (List.nodup_dedup (a.ids.filter (· ∉ ts)))
      (fun h0 => by
        obtain ⟨t, h10, h11⟩ := hk
        have : t ∈ (a.ids.filter (· ∉ ts)).dedup := List.mem_dedup.2 (List.mem_filter.2 ⟨h10, by simpa using h11⟩)
        rw [h0] at this; cases this)
    rw [h5] at h7
    cases h7
    have hs : HasSet b ((w.types e).filter (· ∉ ts)) := by
      intro t
      rw [h9.mem_iff, List.mem_dedup, List.mem_filter, List.mem_filter, h3 t]
    obtain ⟨s', h10, _⟩ := hr.removed (ts := ts) he (fun _ _ => Archs.CanHold.of_fits h8 hs h6)
    exact ⟨s', h10⟩
  · have hc : ¬ (e ∈ w.live ∧ w.types e ≠ []) := by
      intro hc
      obtain ⟨a, h0, _⟩ := hr.getEntityArchetype_some hc.1 hc.2
      rw [hnone] at h0; cases h0
    unfold Store.removeComponents
    simp only [hr.isValid hlt, hc, decide_false, ok_bind, Bool.not_false, if_true]
    rfl

end

end Ecs.Rel
