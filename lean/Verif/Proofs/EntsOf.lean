import Verif.Proofs.StoreLoose
import Verif.Proofs.EntsExec
import Verif.Proofs.History
import Verif.Spec.Alloc

/-! The entities container inside a store, and what its state depends on. -/

namespace Ecs
open Spec

theorem issued_entHistory (h : List Event) : issued (entHistory h) = handles h := by
  induction h with
  | nil => rfl
  | cons ev h ih => cases ev <;> simp [entHistory, handles, issued, ih]

theorem live_entHistory (h : List Event) : live (entHistory h) = alive h := by
  induction h with
  | nil => rfl
  | cons ev h ih => cases ev <;> simp [entHistory, alive, live, ih]

theorem registerNewEntity_ents {s s' : Store} {dbg : Bool} {e : Entity} (h : s.registerNewEntity dbg = .ok (s', e)) :
    ∃ cr, s.ents.create dbg = .ok (s'.ents, cr) ∧ cr.entity = e := by
  unfold Store.registerNewEntity at h
  obtain ⟨⟨en, cr⟩, h1, h⟩ := bind_eq_ok.1 h
  dsimp only at h
  split at h
  · obtain ⟨s2, h2, h⟩ := bind_eq_ok.1 h
    unfold Store.growEntitiesInternal at h2
    obtain ⟨_, _, h2⟩ := bind_eq_ok.1 h2
    obtain ⟨_, _, h2⟩ := bind_eq_ok.1 h2
    obtain ⟨_, _, h2⟩ := bind_eq_ok.1 h2
    obtain ⟨_, _, h2⟩ := bind_eq_ok.1 h2
    obtain ⟨_, _, h2⟩ := bind_eq_ok.1 h2
    cases h2; cases h
    exact ⟨cr, h1, rfl⟩
  · cases h
    exact ⟨cr, h1, rfl⟩

theorem createEntity_ents {s s' : Store} {dbg : Bool} {e : Entity} (h : s.createEntity dbg = .ok (s', e)) :
    ∃ cr, s.ents.create dbg = .ok (s'.ents, cr) ∧ cr.entity = e := by
  unfold Store.createEntity at h
  obtain ⟨⟨s1, e1⟩, h1, h⟩ := bind_eq_ok.1 h
  obtain ⟨_, _, h⟩ := bind_eq_ok.1 h
  cases h
  exact (registerNewEntity_ents h1 :)

theorem createEntityWithArchetype_ents {s s' : Store} {dbg : Bool} {e : Entity} {a : Archetype}
    (h : s.createEntityWithArchetype dbg a = .ok (s', e)) :
    ∃ cr, s.ents.create dbg = .ok (s'.ents, cr) ∧ cr.entity = e := by
  unfold Store.createEntityWithArchetype at h
  obtain ⟨⟨s1, e1⟩, h1, h⟩ := bind_eq_ok.1 h
  obtain ⟨⟨c, q⟩, _, h⟩ := bind_eq_ok.1 h
  obtain ⟨s2, h2, h⟩ := bind_eq_ok.1 h
  cases h
  rw [(SameCore.recordRow h2).ents]
  exact (registerNewEntity_ents h1 :)

theorem destroyEntity_ents {s s' : Store} {dbg : Bool} {e : Entity} (h : s.destroyEntity dbg e = .ok s') :
    s.ents.destroy dbg e = .ok s'.ents := by
  unfold Store.destroyEntity at h
  obtain ⟨s1, h1, h⟩ := bind_eq_ok.1 h
  have := (SameCore.destroyRow h1).ents
  obtain ⟨en, h2, h⟩ := bind_eq_ok.1 h
  obtain ⟨_, _, h⟩ := bind_eq_ok.1 h
  obtain ⟨_, _, h⟩ := bind_eq_ok.1 h
  cases h
  rw [← this]; exact h2

/-- The container of a store goes through the creations and destructions of the history. -/
theorem loose_ents {U : Universe} {dbg : Bool} {cap : Nat} {h : List Event} {s : Store} (hx : LooseExec U dbg cap h s) :
    EntsExec dbg cap (entHistory h) s.ents := by
  induction hx with
  | init hs =>
    unfold Store.withCapacity at hs
    obtain ⟨_, _, hs⟩ := bind_eq_ok.1 hs
    cases hs
    exact .init
  | @step h s s' ev _ hl hr ih =>
    cases ev with
    | created e =>
      obtain ⟨cr, h1, rfl⟩ := createEntity_ents hr
      exact .create ih h1
    | createdWith e ts init =>
      obtain ⟨a, _, _, hr⟩ := hr
      obtain ⟨cr, h1, rfl⟩ := createEntityWithArchetype_ents hr
      exact .create ih h1
    | destroyed e =>
      refine .destroy e ih (destroyEntity_ents hr) (Or.inr ?_)
      rw [live_entHistory, alive_eq]; exact hl
    | added e vals => rw [(SameCore.added hr).ents]; exact ih
    | removed e ts => rw [(SameCore.removed hr).ents]; exact ih
    | assigned e vals => obtain ⟨b, hr⟩ := hr; rw [(SameCore.assigned hr).ents]; exact ih
    | tagged tag e => obtain ⟨_, _, hr⟩ := bind_eq_ok.1 hr; cases hr; exact ih
    | untagged tag e => obtain ⟨_, _, hr⟩ := bind_eq_ok.1 hr; cases hr; exact ih
    | orderedLast g e => obtain ⟨_, _, hr⟩ := bind_eq_ok.1 hr; cases hr; exact ih
    | orderedAfter g e x => obtain ⟨_, _, hr⟩ := bind_eq_ok.1 hr; cases hr; exact ih
    | orderedBefore g e x => obtain ⟨_, _, hr⟩ := bind_eq_ok.1 hr; cases hr; exact ih
    | unordered g e => obtain ⟨_, _, hr⟩ := bind_eq_ok.1 hr; cases hr; exact ih

theorem issued_lt {U : Universe} {dbg : Bool} {cap : Nat} {h : List Event} {s : Store} (hx : LooseExec U dbg cap h s) :
    (handles h).length < u32Size := by
  induction hx with
  | init _ => simp [handles]
  | @step h s s' ev _ hl hr ih =>
    have e := handles_eq h
    cases ev <;> simp only [handles, List.length_cons] <;> first | exact ih | (rw [e]; exact hl)

theorem live_le_issued (h : History) : (live h).length ≤ (issued h).length := by
  induction h with
  | nil => simp [live, issued]
  | cons ev h ih =>
    cases ev with
    | created e => simp [live, issued, ih]
    | destroyed e =>
      have := List.length_erase_le (a := e) (l := live h)
      simp only [live, issued]; omega

theorem peak_le_issued (h : History) : peak h ≤ (issued h).length := by
  induction h with
  | nil => simp [peak]
  | cons ev h ih =>
    have h1 := live_le_issued (ev :: h)
    have h2 : (issued h).length ≤ (issued (ev :: h)).length := by cases ev <;> simp [issued]
    simp only [peak]; omega

theorem EntInv.isAlive_release_oob {c : Ents} {I L : List Entity} (h : EntInv c I L) {e : Entity} (hid : ¬ e.id < c.capacity) :
    c.isAlive false e = .error (.ub .oob) := by
  have hr : Raw.read c.versions e.id = .error (.ub .oob) := by
    unfold Raw.read
    rw [List.getElem?_eq_none (by rw [h.vlen]; omega)]
  unfold Ents.isAlive Ents.validateVersion
  rw [hr]
  rfl

/-- How often id `i` was used so far. -/
def Ents.ver (c : Ents) (i : Nat) : Nat := (c.versions[i]?.join).getD 0

theorem create_exact {c c' : Ents} {I L : List Entity} {dbg : Bool} {cr : EntityCreation} (h : EntInv c I L)
    (hr : c.create dbg = .ok (c', cr)) (hb : dbg = true ∨ I.length + 1 < u32Size) :
    cr.entity = ⟨c.gapIds.getLast?.getD c.nextFreeId, c.ver (c.gapIds.getLast?.getD c.nextFreeId) + 1⟩ ∧
    c'.gapIds = c.gapIds.dropLast ∧ c'.nextFreeId = (if c.gapIds = [] then c.nextFreeId + 1 else c.nextFreeId) ∧
    ∀ i, c'.ver i = if i = cr.entity.id then c.ver i + 1 else c.ver i := by
  unfold Ents.create at hr
  obtain ⟨⟨id, c1⟩, ht, hr⟩ := bind_eq_ok.1 hr
  obtain ⟨t1, t2, t3, t4, t5, t6, t7, t8, t9, t10, t11, t12, t13⟩ := h.takeId_spec ht hb
  have hid : id = c.gapIds.getLast?.getD c.nextFreeId ∧ c1.gapIds = c.gapIds.dropLast ∧
      c1.nextFreeId = (if c.gapIds = [] then c.nextFreeId + 1 else c.nextFreeId) := by
    unfold Ents.takeId at ht
    split at ht
    · rename_i g hg
      cases ht
      rw [hg, if_neg (by intro h0; simp [h0] at hg)]
      exact ⟨rfl, rfl, rfl⟩
    · rename_i hg
      have hge : c.gapIds = [] := by simpa using hg
      obtain ⟨nx, hn, ht⟩ := bind_eq_ok.1 ht
      have hnx : nx = c.nextFreeId + 1 := by
        unfold addU32 at hn
        split at hn
        · cases hn; rfl
        · split at hn
          · cases hn
          · have := h.next_le_issued
            rcases hb with hb | hb
            · contradiction
            · omega
      subst hnx
      dsimp only at ht
      split at ht
      · obtain ⟨c2, h2, ht⟩ := bind_eq_ok.1 ht
        unfold Ents.grow at h2
        split at h2
        · cases h2; cases ht; simp [hge]
        · obtain ⟨_, _, h2⟩ := bind_eq_ok.1 h2
          obtain ⟨_, _, h2⟩ := bind_eq_ok.1 h2
          cases h2; cases ht; simp [hge]
      · cases ht; simp [hge]
  have hv1 : ∀ i, c1.ver i = c.ver i := by
    intro i
    unfold Ents.ver
    by_cases hi : i < c.capacity
    · rw [t4 i hi]
    · rw [List.getElem?_eq_none (l := c.versions) (by rw [h.vlen]; omega)]
      by_cases hi' : i < c1.capacity
      · rw [t5 i hi' hi]; rfl
      · rw [List.getElem?_eq_none (by rw [t1]; omega)]
  dsimp only at hr
  obtain ⟨w, _, hr⟩ := bind_eq_ok.1 hr
  obtain ⟨v, hv, hr⟩ := bind_eq_ok.1 hr
  obtain ⟨v', ha, hr⟩ := bind_eq_ok.1 hr
  obtain ⟨vs, hw, hr⟩ := bind_eq_ok.1 hr
  have hvs : c1.versions[id]? = some (some v) := Raw.read_ok.1 hv
  have hvv : c.ver id = v := by rw [← hv1]; unfold Ents.ver; rw [hvs]; rfl
  have hadd : v' = v + 1 := by
    unfold addU32 at ha
    split at ha
    · cases ha; rfl
    · split at ha
      · cases ha
      · rcases hb with hb | hb
        · contradiction
        · have : v ≤ I.length := by
            by_cases hi : id < c.capacity
            · obtain ⟨v0, hv0, hl, _⟩ := h.vinit id hi
              rw [← t4 id hi, hvs] at hv0
              cases hv0; exact hl
            · rw [t5 id t3 hi] at hvs
              cases hvs; omega
          omega
  rw [Raw.write_of_lt v' (by rw [t1]; exact t3)] at hw
  cases hw
  cases hr
  obtain ⟨h1, h2, h3⟩ := hid
  refine ⟨?_, h2, h3, fun i => ?_⟩
  · rw [← h1, hvv, hadd]
  · rw [← hv1 i]
    show ((c1.versions.set id (some v'))[i]?.join).getD 0 = if i = id then _ else _
    rw [List.getElem?_set]
    by_cases hi : id = i
    · subst hi
      rw [if_pos rfl, if_pos rfl, if_pos (by rw [t1]; exact t3), hadd, hv1, hvv]; rfl
    · rw [if_neg hi, if_neg (fun h => hi h.symm)]; rfl

theorem destroy_exact {c c' : Ents} {I L : List Entity} {dbg : Bool} {e : Entity} (h : EntInv c I L)
    (hr : c.destroy dbg e = .ok c') (he : e ∈ L) :
    c'.versions = c.versions ∧ (e.id + 1 = c.nextFreeId → c'.nextFreeId = e.id ∧ c'.gapIds = c.gapIds) ∧
    (e.id + 1 ≠ c.nextFreeId → c'.nextFreeId = c.nextFreeId ∧ c'.gapIds = c.gapIds ++ [e.id]) := by
  have hlt : e.id < c.nextFreeId := (h.ids e.id).1 (Or.inl (List.mem_map.2 ⟨e, he, rfl⟩))
  have key : ∀ b, ((do
      let lastId ← subU32 dbg c.nextFreeId 1
      if e.id = lastId then return { c with aliveBits := b, nextFreeId := e.id }
      else return { c with aliveBits := b, gapIds := c.gapIds ++ [e.id] } : Res Ents)) = .ok c' →
      c'.versions = c.versions ∧ (e.id + 1 = c.nextFreeId → c'.nextFreeId = e.id ∧ c'.gapIds = c.gapIds) ∧
      (e.id + 1 ≠ c.nextFreeId → c'.nextFreeId = c.nextFreeId ∧ c'.gapIds = c.gapIds ++ [e.id]) := by
    intro b hh
    have hsub : subU32 dbg c.nextFreeId 1 = .ok (c.nextFreeId - 1) := by unfold subU32; rw [if_pos (by omega)]
    simp only [hsub, ok_bind] at hh
    split at hh
    · cases hh; exact ⟨rfl, fun _ => ⟨rfl, rfl⟩, fun hne => absurd (by omega) hne⟩
    · rename_i hne
      cases hh; exact ⟨rfl, fun heq => absurd (by omega) hne, fun _ => ⟨rfl, rfl⟩⟩
  unfold Ents.destroy at hr
  obtain ⟨_, _, hr⟩ := bind_eq_ok.1 hr
  cases dbg
  · simp only [Bool.false_eq_true, if_false] at hr
    obtain ⟨b, _, hr⟩ := bind_eq_ok.1 hr
    exact key b hr
  · simp only [if_true] at hr
    obtain ⟨_, _, hr⟩ := bind_eq_ok.1 hr
    obtain ⟨_, _, hr⟩ := bind_eq_ok.1 hr
    obtain ⟨b, _, hr⟩ := bind_eq_ok.1 hr
    exact key b hr

/-- The container holds exactly the ids the history says are free, and counts the uses of all ids. -/
theorem exec_free {dbg : Bool} {cap : Nat} {h : History} {c : Ents} (hx : EntsExec dbg cap h c)
    (hb : dbg = true ∨ (issued h).length < u32Size) :
    c.nextFreeId = (freeIds h).next ∧ c.gapIds = (freeIds h).gaps.reverse ∧ ∀ i, c.ver i = uses h i := by
  induction hx with
  | init =>
    refine ⟨rfl, rfl, fun i => ?_⟩
    unfold Ents.ver Ents.new Raw.allocZeroed
    by_cases hi : i < cap <;> simp [hi, uses, issued]
  | @create h c c' cr hx hr ih =>
    have hb' : dbg = true ∨ (issued h).length + 1 < u32Size := hb
    have hb0 : dbg = true ∨ (issued h).length < u32Size := hb'.imp id (fun h => by omega)
    obtain ⟨i1, i2, i3⟩ := ih hb0
    obtain ⟨h1, h2, h3, h4⟩ := create_exact (exec_inv hx hb0) hr hb'
    refine ⟨?_, ?_, fun i => ?_⟩
    · rw [h3, i1, i2]
      simp only [freeIds]
      cases (freeIds h).gaps <;> simp
    · rw [h2, i2]
      simp only [freeIds]
      cases (freeIds h).gaps <;> simp
    · rw [h4, i3]
      simp only [uses, issued]
      by_cases hi : i = cr.entity.id
      · subst hi; simp
      · have : ¬ cr.entity.id = i := fun h => hi h.symm
        simp [hi, this]
  | @destroy h c c' e hx hr he ih =>
    obtain ⟨i1, i2, i3⟩ := ih hb
    have hi := exec_inv hx hb
    obtain ⟨hm, _, _, _⟩ := hi.destroy_spec hr he
    obtain ⟨h1, h2, h3⟩ := destroy_exact hi hr hm
    unfold freeIds
    rw [i1] at h2 h3
    by_cases hl : e.id + 1 = (freeIds h).next
    · rw [if_pos hl]
      obtain ⟨h4, h5⟩ := h2 hl
      exact ⟨h4, by rw [h5, i2], fun i => (show c'.ver i = c.ver i by unfold Ents.ver; rw [h1]).trans (i3 i)⟩
    · rw [if_neg hl]
      obtain ⟨h4, h5⟩ := h3 hl
      exact ⟨h4, by rw [h5, i2]; simp, fun i => (show c'.ver i = c.ver i by unfold Ents.ver; rw [h1]).trans (i3 i)⟩

/-- The handle returned by a creation. -/
theorem create_next {dbg : Bool} {cap : Nat} {h : History} {c c' : Ents} {cr : EntityCreation} (hx : EntsExec dbg cap h c)
    (hr : c.create dbg = .ok (c', cr)) (hb : dbg = true ∨ (issued h).length + 1 < u32Size) :
    cr.entity = nextHandle h := by
  have hb0 : dbg = true ∨ (issued h).length < u32Size := hb.imp id (fun h => by omega)
  obtain ⟨i1, i2, i3⟩ := exec_free hx hb0
  rw [(create_exact (exec_inv hx hb0) hr hb).1, i1, i2, i3, List.getLast?_reverse]
  rfl

end Ecs
