import Verif.Proofs.Entities
import Verif.Spec.Unchecked

/-! The entities container when `destroy_entity` gets any handles. -/

namespace Ecs
open Spec

/-- What holds of the entities container whatever handles are destroyed. -/
structure EntAny (c : Ents) (h : History) : Prop where
  vlen : c.versions.length = c.capacity
  vers : ∀ i, i < c.capacity → c.versions[i]? = some (some (births i h))
  blen : c.aliveBits.length = Words.getLen c.capacity
  bits : ∀ i, c.aliveBits.bit i = decide (flips i h % 2 = 1)
  next_le : c.nextFreeId ≤ c.capacity
  next_issued : c.nextFreeId ≤ (issued h).length
  gaps : ∀ i ∈ c.gapIds, i < c.capacity ∧ i < (issued h).length
  ids : ∀ e ∈ issued h, (e.id < c.capacity ∧ e.id < (issued h).length) ∧ 1 ≤ e.version ∧ e.version ≤ births e.id h
  newest : ∀ i e, lastWithId i h = some e → e.version = births i h
  nodup : (issued h).Nodup

namespace EntAny
variable {c c' : Ents} {h : History}

theorem new (cap : Nat) : EntAny (Ents.new cap) [] where
  vlen := by simp [Ents.new, Raw.allocZeroed]
  vers := by
    intro i hi
    simp only [Ents.new, Raw.allocZeroed] at *
    rw [List.getElem?_replicate]; simp [hi, births, issued]
  blen := by simp [Ents.new, Words.length_alloc]
  bits := by intro i; simp [Ents.new, Words.bit_alloc, flips]
  next_le := by simp [Ents.new]
  next_issued := by simp [Ents.new]
  gaps := by simp [Ents.new]
  ids := by simp [issued]
  newest := by simp [lastWithId, issued]
  nodup := by simp [issued]

theorem takeId (hi : EntAny c h) (hb : (issued h).length + 1 < u32Size) :
    ∃ id c', c.takeId false = .ok (id, c') ∧ c'.versions.length = c'.capacity ∧ c.capacity ≤ c'.capacity ∧ id < c'.capacity ∧
    (∀ i, i < c'.capacity → c'.versions[i]? = some (some (births i h))) ∧
    c'.aliveBits.length = Words.getLen c'.capacity ∧ (∀ i, c'.aliveBits.bit i = c.aliveBits.bit i) ∧
    c'.nextFreeId ≤ c'.capacity ∧ c'.nextFreeId ≤ (issued h).length + 1 ∧ (∀ i ∈ c'.gapIds, i < c'.capacity ∧ i < (issued h).length) ∧
    id ≤ (issued h).length := by
  unfold Ents.takeId
  have hli := hi.next_issued
  have hle := hi.next_le
  split
  · rename_i id hg
    exact ⟨id, _, rfl, hi.vlen, Nat.le_refl _, (hi.gaps id (List.mem_of_getLast? hg)).1, hi.vers, hi.blen, fun _ => rfl,
      hle, by show c.nextFreeId ≤ _; omega, fun i hm => hi.gaps i (List.dropLast_subset _ hm),
      Nat.le_of_lt (hi.gaps id (List.mem_of_getLast? hg)).2⟩
  · rename_i hg
    have ha : addU32 false c.nextFreeId 1 = .ok (c.nextFreeId + 1) := by unfold addU32; rw [if_pos (by omega)]
    simp only [ha, ok_bind]
    have hge : c.gapIds = [] := by simpa using hg
    split
    · unfold Ents.grow
      have hcap : c.capacity < max c.capacity 1 * 2 := by omega
      have hz := Raw.reallocZeroing_of 0 hi.vlen (Nat.le_of_lt hcap)
      obtain ⟨w', hw', hwl, hwb⟩ := Words.realloc_of hi.blen (Nat.le_of_lt hcap)
      rw [if_neg (by show ¬ max c.capacity 1 * 2 ≤ c.capacity; omega)]
      simp only [hz, hw', ok_bind, pure_ok]
      refine ⟨_, _, rfl, ?_, Nat.le_of_lt hcap, ?_, fun i hlt => ?_, hwl, hwb, ?_, ?_, ?_, hli⟩
      · simp [hi.vlen]; omega
      · show c.nextFreeId < max c.capacity 1 * 2; omega
      · show (c.versions ++ _)[i]? = _
        by_cases hc : i < c.capacity
        · rw [List.getElem?_append_left (by rw [hi.vlen]; exact hc), hi.vers i hc]
        · rw [List.getElem?_append_right (by rw [hi.vlen]; omega), List.getElem?_replicate, hi.vlen]
          simp only at hlt
          rw [if_pos (by omega)]
          have : births i h = 0 := by
            unfold births
            rw [List.length_eq_zero_iff, List.filter_eq_nil_iff]
            intro e he hid
            have := (hi.ids e he).1.1
            simp only [decide_eq_true_eq] at hid
            omega
          rw [this]
      · show c.nextFreeId + 1 ≤ max c.capacity 1 * 2; omega
      · show c.nextFreeId + 1 ≤ _; omega
      · intro i hm
        dsimp only at hm
        rw [hge] at hm; cases hm
    · rename_i hw
      have hlt2 : c.nextFreeId < c.capacity := by
        simp only [Ents.willGrowWithId, ge_iff_le, decide_eq_true_eq, Nat.not_le] at hw
        have := Nat.mod_le c.capacity u32Size
        omega
      exact ⟨_, _, rfl, hi.vlen, Nat.le_refl _, hlt2, hi.vers, hi.blen, fun _ => rfl, by show c.nextFreeId + 1 ≤ c.capacity; omega,
        by show c.nextFreeId + 1 ≤ _; omega, hi.gaps, hli⟩

theorem births_le (i : Nat) (h : History) : births i h ≤ (issued h).length := List.length_filter_le _ _

theorem births_cons (i : Nat) (e : Entity) (h : History) :
    births i (.created e :: h) = births i h + if e.id = i then 1 else 0 := by
  unfold births
  simp only [issued, List.filter_cons]
  split <;> rename_i hh <;> simp at hh <;> simp [hh]

theorem create (hi : EntAny c h) (hb : (issued h).length + 1 < u32Size) :
    ∃ c' cr, c.create false = .ok (c', cr) ∧ EntAny c' (.created cr.entity :: h) := by
  unfold Ents.create
  obtain ⟨id, c1, ht, t1, t2, t3, t4, t5, t6, t7, t8, t9, t10⟩ := hi.takeId hb
  obtain ⟨w, hw, hwl, hwb⟩ := Words.toggle_of_lt (w := c1.aliveBits) (i := id) (by rw [t5]; exact Words.div_lt_getLen t3)
  have hbi := births_le id h
  have ha : addU32 false (births id h) 1 = .ok (births id h + 1) := by unfold addU32; rw [if_pos (by omega)]
  have hwr := Raw.write_of_lt (a := c1.versions) (i := id) (births id h + 1) (by rw [t1]; exact t3)
  simp only [ht, hw, Raw.read_of_some (t4 id t3), ha, hwr, ok_bind, pure_ok]
  refine ⟨_, _, rfl, ?_⟩
  constructor
  · simp [t1]
  · intro i hlt
    show (c1.versions.set id (some (births id h + 1)))[i]? = _
    rw [births_cons, List.getElem?_set]
    by_cases hii : id = i
    · subst hii; simp [t1, t3]
    · simp only [if_neg hii, Nat.add_zero]; exact t4 i hlt
  · exact hwl.trans t5
  · intro i
    show w.bit i = _
    rw [hwb, t6, hi.bits]
    simp only [flips]
    by_cases hii : i = id
    · subst hii
      simp only [decide_true, Bool.true_xor, if_true]
      rw [Bool.eq_iff_iff]
      simp only [Bool.not_eq_true', decide_eq_false_iff_not, decide_eq_true_eq]
      omega
    · have : ¬ id = i := fun e => hii e.symm
      simp [hii, this]
  · exact t7
  · exact t8
  · exact fun i hm => ⟨(t9 i hm).1, Nat.lt_succ_of_lt (t9 i hm).2⟩
  · intro e he
    rcases List.mem_cons.1 he with rfl | he
    · refine ⟨⟨t3, Nat.lt_succ_of_le t10⟩, by show 1 ≤ births id h + 1; omega, ?_⟩
      rw [births_cons, if_pos rfl]
      exact Nat.le_refl _
    · obtain ⟨h1, h2, h3⟩ := hi.ids e he
      refine ⟨⟨Nat.lt_of_lt_of_le h1.1 t2, Nat.lt_succ_of_lt h1.2⟩, h2, ?_⟩
      rw [births_cons]
      omega
  · intro i e he
    rw [births_cons]
    simp only [lastWithId, issued, List.find?_cons] at he
    split at he
    · rename_i hid
      cases he
      simp only [decide_eq_true_eq] at hid
      simp [← hid]
    · rename_i hid
      have hne : ¬ id = i := by simpa using hid
      simp only [if_neg hne, Nat.add_zero]
      exact hi.newest i e he
  · refine List.nodup_cons.2 ⟨fun hm => ?_, hi.nodup⟩
    have := (hi.ids _ hm).2.2
    simp only at this
    omega

theorem destroy (hi : EntAny c h) {e : Entity} (he : e ∈ issued h) :
    ∃ c', c.destroy false e = .ok c' ∧ EntAny c' (.destroyed e :: h) := by
  have hlt := (hi.ids e he).1.1
  have hlt2 := (hi.ids e he).1.2
  obtain ⟨w, hw, hwl, hwb⟩ := Words.toggle_of_lt (w := c.aliveBits) (i := e.id) (by rw [hi.blen]; exact Words.div_lt_getLen hlt)
  have hbits : ∀ i, w.bit i = decide (flips i (.destroyed e :: h) % 2 = 1) := by
    intro i
    rw [hwb, hi.bits]
    simp only [flips]
    by_cases hii : i = e.id
    · subst hii
      simp only [decide_true, Bool.true_xor, if_true]
      rw [Bool.eq_iff_iff]
      simp only [Bool.not_eq_true', decide_eq_false_iff_not, decide_eq_true_eq]
      omega
    · have : ¬ e.id = i := fun h => hii h.symm
      simp [hii, this]
  unfold Ents.destroy Ents.validateVersionWithPanic
  simp only [Bool.false_eq_true, if_false, hw, ok_bind, pure_ok]
  obtain ⟨l, hl⟩ : ∃ l, subU32 false c.nextFreeId 1 = .ok l := by
    unfold subU32
    split
    · exact ⟨_, rfl⟩
    · exact ⟨_, rfl⟩
  rw [hl]
  simp only [ok_bind]
  have hle := hi.next_le
  have hni := hi.next_issued
  split
  · rename_i heq
    refine ⟨_, rfl, hi.vlen, hi.vers, hwl.trans hi.blen, hbits, Nat.le_of_lt hlt, ?_, hi.gaps, hi.ids, hi.newest, hi.nodup⟩
    exact Nat.le_of_lt hlt2
  · refine ⟨_, rfl, hi.vlen, hi.vers, hwl.trans hi.blen, hbits, hle, hni, fun i hm => ?_, hi.ids, hi.newest, hi.nodup⟩
    rcases List.mem_append.1 hm with hm | hm
    · exact hi.gaps i hm
    · rw [List.mem_singleton.1 hm]; exact ⟨hlt, hlt2⟩

theorem newest_iff (hi : EntAny c h) {e : Entity} (he : e ∈ issued h) :
    lastWithId e.id h = some e ↔ e.version = births e.id h := by
  refine ⟨hi.newest _ _, fun hv => ?_⟩
  cases hf : lastWithId e.id h with
  | none => exact absurd (List.find?_eq_none.1 hf e he) (by simp)
  | some x =>
    have h1 := hi.newest _ _ hf
    have h2 : x.id = e.id := by simpa using List.find?_some hf
    have : x = e := by
      cases x; cases e
      simp only at h1 h2 hv
      simp [h1, h2, hv]
    rw [this]

theorem isAlive (hi : EntAny c h) {e : Entity} (he : e ∈ issued h) (dbg : Bool) :
    c.isAlive dbg e = .ok (decide (lastWithId e.id h = some e ∧ flips e.id h % 2 = 1)) := by
  have hlt := (hi.ids e he).1.1
  have hb : e.id / 32 < c.aliveBits.length := by rw [hi.blen]; exact Words.div_lt_getLen hlt
  unfold Ents.isAlive Ents.validateVersion Ents.validateId
  simp only [hlt, decide_true, dassert_true, ok_bind, Raw.read_of_some (hi.vers _ hlt), Words.isOn_of_lt hb, pure_ok, hi.bits]
  congr 1
  rw [Bool.eq_iff_iff, Bool.and_eq_true, beq_iff_eq, decide_eq_true_eq, decide_eq_true_eq, hi.newest_iff he, eq_comm]

end EntAny

theorem any_inv {cap : Nat} {h : History} {c : Ents} (hx : AnyExec cap h c) (hb : (issued h).length < u32Size) : EntAny c h := by
  induction hx with
  | init => exact .new cap
  | @create h c c' cr hx hr ih =>
    have hb' : (issued h).length + 1 < u32Size := hb
    obtain ⟨c2, cr2, h1, h2⟩ := (ih (by omega)).create hb'
    rw [hr] at h1
    cases h1
    exact h2
  | @destroy h c c' e hx hr he ih =>
    obtain ⟨c2, h1, h2⟩ := (ih hb).destroy he
    rw [hr] at h1
    cases h1
    exact h2

/-! The calls of the store change the entities container only by creating and destroying. -/

namespace Store
variable {U : Universe} {dbg : Bool} {s s' : Store}

theorem registerNewEntity_ents {e : Entity} (hr : s.registerNewEntity dbg = .ok (s', e)) :
    ∃ cr, s.ents.create dbg = .ok (s'.ents, cr) ∧ cr.entity = e := by
  unfold Store.registerNewEntity at hr
  obtain ⟨⟨en, cr⟩, h1, hr⟩ := bind_eq_ok.1 hr
  dsimp only at hr
  split at hr
  · obtain ⟨s1, h2, hr⟩ := bind_eq_ok.1 hr
    cases hr
    unfold Store.growEntitiesInternal at h2
    obtain ⟨_, _, h2⟩ := bind_eq_ok.1 h2
    obtain ⟨_, _, h2⟩ := bind_eq_ok.1 h2
    obtain ⟨_, _, h2⟩ := bind_eq_ok.1 h2
    obtain ⟨_, _, h2⟩ := bind_eq_ok.1 h2
    obtain ⟨_, _, h2⟩ := bind_eq_ok.1 h2
    cases h2
    exact ⟨cr, h1, rfl⟩
  · cases hr
    exact ⟨cr, h1, rfl⟩

theorem recordRow_ents {id : Nat} {q : Loc} (hr : s.recordRow id q = .ok s') : s'.ents = s.ents := by
  unfold Store.recordRow at hr
  obtain ⟨_, _, hr⟩ := bind_eq_ok.1 hr
  obtain ⟨_, _, hr⟩ := bind_eq_ok.1 hr
  obtain ⟨_, _, hr⟩ := bind_eq_ok.1 hr
  cases hr; rfl

theorem swapRemoveInternal_ents {q : Loc} (hr : s.swapRemoveInternal q = .ok s') : s'.ents = s.ents := by
  unfold Store.swapRemoveInternal at hr
  obtain ⟨⟨c, o⟩, _, hr⟩ := bind_eq_ok.1 hr
  dsimp only at hr
  split at hr
  · obtain ⟨_, _, hr⟩ := bind_eq_ok.1 hr; cases hr; rfl
  · cases hr; rfl

theorem destroyRow_ents {e : Entity} (hr : s.destroyRow e = .ok s') : s'.ents = s.ents := by
  unfold Store.destroyRow at hr
  obtain ⟨b, _, hr⟩ := bind_eq_ok.1 hr
  split at hr
  · obtain ⟨q, _, hr⟩ := bind_eq_ok.1 hr
    exact swapRemoveInternal_ents hr
  · cases hr; rfl

theorem moveEntityToOtherArchetype_ents {e : Entity} {a : Archetype} {q : Loc}
    (hr : s.moveEntityToOtherArchetype dbg e a = .ok (s', q)) : s'.ents = s.ents := by
  unfold Store.moveEntityToOtherArchetype at hr
  obtain ⟨p, _, hr⟩ := bind_eq_ok.1 hr
  obtain ⟨ai, _, hr⟩ := bind_eq_ok.1 hr
  obtain ⟨⟨c, q'⟩, _, hr⟩ := bind_eq_ok.1 hr
  dsimp only at hr
  obtain ⟨x, _, hr⟩ := bind_eq_ok.1 hr
  obtain ⟨y, _, hr⟩ := bind_eq_ok.1 hr
  obtain ⟨s1, h6, hr⟩ := bind_eq_ok.1 hr
  cases hr
  have := swapRemoveInternal_ents h6
  exact this

theorem ensureComponents_ents {e : Entity} {ts : List TypeId} {q : Loc}
    (h2 : s.ensureComponents U dbg e ts = .ok (s', q)) : s'.ents = s.ents := by
  unfold Store.ensureComponents at h2
  obtain ⟨b, k1, h2⟩ := bind_eq_ok.1 h2
  split at h2
  · obtain ⟨p, k2, h2⟩ := bind_eq_ok.1 h2
    obtain ⟨ai, k3, h2⟩ := bind_eq_ok.1 h2
    obtain ⟨a, k4, h2⟩ := bind_eq_ok.1 h2
    split at h2
    · cases h2; rfl
    · obtain ⟨⟨na, bb⟩, k5, h2⟩ := bind_eq_ok.1 h2
      exact moveEntityToOtherArchetype_ents h2
  · obtain ⟨a, k2, h2⟩ := bind_eq_ok.1 h2
    obtain ⟨⟨c, q'⟩, k3, h2⟩ := bind_eq_ok.1 h2
    dsimp only at h2
    obtain ⟨s1, k4, h2⟩ := bind_eq_ok.1 h2
    cases h2
    have := recordRow_ents k4
    exact this

/-- What a call does to the entities container. -/
theorem returns_ents {ev : Event} (hr : Returns U dbg s ev s') :
    match ev with
    | .created e => ∃ cr, s.ents.create dbg = .ok (s'.ents, cr) ∧ cr.entity = e
    | .createdWith e _ _ => ∃ cr, s.ents.create dbg = .ok (s'.ents, cr) ∧ cr.entity = e
    | .destroyed e => s.ents.destroy dbg e = .ok s'.ents
    | _ => s'.ents = s.ents := by
  cases ev with
  | created e =>
    simp only [Returns, Store.createEntity] at hr
    obtain ⟨⟨s1, e1⟩, h1, hr⟩ := bind_eq_ok.1 hr
    obtain ⟨b, h2, hr⟩ := bind_eq_ok.1 hr
    cases hr
    have := registerNewEntity_ents h1
    exact this
  | createdWith e ts init =>
    obtain ⟨a, _, _, hr⟩ := hr
    unfold Store.createEntityWithArchetype at hr
    obtain ⟨⟨s1, e1⟩, h1, hr⟩ := bind_eq_ok.1 hr
    obtain ⟨⟨c, q⟩, h3, hr⟩ := bind_eq_ok.1 hr
    dsimp only at hr h3
    obtain ⟨s2, h2, hr⟩ := bind_eq_ok.1 hr
    cases hr
    have := recordRow_ents h2
    dsimp only
    rw [this]
    have := registerNewEntity_ents h1
    exact this
  | destroyed e =>
    simp only [Returns, Store.destroyEntity] at hr
    obtain ⟨s1, h1, hr⟩ := bind_eq_ok.1 hr
    obtain ⟨en, h2, hr⟩ := bind_eq_ok.1 hr
    obtain ⟨_, _, hr⟩ := bind_eq_ok.1 hr
    obtain ⟨_, _, hr⟩ := bind_eq_ok.1 hr
    cases hr
    rw [destroyRow_ents h1] at h2
    exact h2
  | added e vals =>
    simp only [Returns, Store.addComponents] at hr
    obtain ⟨b, h1, hr⟩ := bind_eq_ok.1 hr
    split at hr
    · cases hr; rfl
    · obtain ⟨⟨s1, q⟩, h2, hr⟩ := bind_eq_ok.1 hr
      dsimp only at hr
      obtain ⟨v, _, hr⟩ := bind_eq_ok.1 hr
      obtain ⟨o, _, hr⟩ := bind_eq_ok.1 hr
      obtain ⟨pg, _, hr⟩ := bind_eq_ok.1 hr
      cases hr
      have := ensureComponents_ents h2
      exact this
  | removed e ts =>
    simp only [Returns, Store.removeComponents] at hr
    obtain ⟨b, h1, hr⟩ := bind_eq_ok.1 hr
    split at hr
    · cases hr; rfl
    · obtain ⟨p, _, hr⟩ := bind_eq_ok.1 hr
      obtain ⟨ai, _, hr⟩ := bind_eq_ok.1 hr
      obtain ⟨a, _, hr⟩ := bind_eq_ok.1 hr
      obtain ⟨⟨na, bb⟩, _, hr⟩ := bind_eq_ok.1 hr
      obtain ⟨⟨s1, q⟩, h6, hr⟩ := bind_eq_ok.1 hr
      cases hr
      exact moveEntityToOtherArchetype_ents h6
  | assigned e vals =>
    obtain ⟨b, hr⟩ := hr
    unfold Store.setComponents at hr
    obtain ⟨o, _, hr⟩ := bind_eq_ok.1 hr
    split at hr
    · cases hr; rfl
    · obtain ⟨pg, _, hr⟩ := bind_eq_ok.1 hr
      cases hr
      rfl
  | tagged t e => obtain ⟨_, _, hr⟩ := bind_eq_ok.1 hr; cases hr; rfl
  | untagged t e => obtain ⟨_, _, hr⟩ := bind_eq_ok.1 hr; cases hr; rfl
  | orderedLast g e => obtain ⟨_, _, hr⟩ := bind_eq_ok.1 hr; cases hr; rfl
  | orderedAfter g e x => obtain ⟨_, _, hr⟩ := bind_eq_ok.1 hr; cases hr; rfl
  | orderedBefore g e x => obtain ⟨_, _, hr⟩ := bind_eq_ok.1 hr; cases hr; rfl
  | unordered g e => obtain ⟨_, _, hr⟩ := bind_eq_ok.1 hr; cases hr; rfl

end Store

theorem issued_lifecycle (h : List Event) : issued (lifecycle h) = handles h := by
  induction h with
  | nil => rfl
  | cons ev h ih => cases ev <;> simp [lifecycle, issued, handles, ih]

/-- The entities container of a store, in a release and a debug build. -/
theorem free_ents {U : Universe} {dbg : Bool} {cap : Nat} {h : List Event} {s : Store} (hx : FreeExec U dbg cap h s) :
    if dbg then EntsExec true cap (lifecycle h) s.ents else AnyExec cap (lifecycle h) s.ents := by
  induction hx with
  | init hs =>
    unfold Store.withCapacity at hs
    obtain ⟨_, _, hs⟩ := bind_eq_ok.1 hs
    cases hs
    cases dbg
    · exact .init
    · exact .init
  | @step h s s' ev hx hd hr ih =>
    have hn := Store.returns_ents hr
    cases dbg
    · simp only [Bool.false_eq_true, if_false] at ih ⊢
      cases ev with
      | created e => obtain ⟨cr, h1, rfl⟩ := hn; exact .create ih h1
      | createdWith e ts init => obtain ⟨cr, h1, rfl⟩ := hn; exact .create ih h1
      | destroyed e => exact .destroy e ih hn (by rw [issued_lifecycle]; exact hd e rfl)
      | _ => dsimp only at hn; rw [hn]; exact ih
    · simp only [if_true] at ih ⊢
      cases ev with
      | created e => obtain ⟨cr, h1, rfl⟩ := hn; exact .create ih h1
      | createdWith e ts init => obtain ⟨cr, h1, rfl⟩ := hn; exact .create ih h1
      | destroyed e => exact .destroy e ih hn (.inl rfl)
      | _ => dsimp only at hn; rw [hn]; exact ih

end Ecs
