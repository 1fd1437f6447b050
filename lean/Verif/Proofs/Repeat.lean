import Verif.Proofs.StoreExec
import Verif.Proofs.Reassign
import Verif.Spec.Repeat

/-! Adding a tuple that names a type more than once. -/

namespace Ecs
open Spec

theorem lastNamed_cons (t : TypeId) (bs : List UInt8) (vals : TupleVal) (t' : TypeId) :
    lastNamed ((t, bs) :: vals) t' = (lastNamed vals t').or (if t = t' then some bs else none) := by
  unfold lastNamed
  by_cases h : t = t'
  · rw [List.filter_cons_of_pos (by simpa using h), List.getLast?_cons, if_pos h]
    cases (vals.filter (·.1 = t')).getLast? <;> rfl
  · rw [List.filter_cons_of_neg (by simpa using h), if_neg h, Option.or_none]

theorem overwritten_cons (t : TypeId) (bs : List UInt8) (vals : TupleVal) (f : TypeId → List Cell) :
    overwritten ((t, bs) :: vals) f = overwritten vals (fun t' => if t' = t then bs.map some else f t') := by
  funext t'
  unfold overwritten
  rw [lastNamed_cons]
  by_cases h : t = t'
  · subst h
    cases lastNamed vals t <;> simp
  · have h' : ¬ t' = t := fun h0 => h h0.symm
    simp [h, h']

namespace Archs

variable {U : Universe} {c : Archs}

/-- Writing to a slot that need not belong to a row. -/
theorem Inv.val_patch_any (h : c.Inv U) {p ai : Nat} {a : Archetype} {l : Layout} {ps : List Nat} {pg : Page}
    (hat : c.At p ai a l ps pg) {i k t o : Nat} (hi : i < l.entitiesCapacity) (hk : a.ids[k]? = some t)
    (ho : l.offsets[k]? = some o) {bs : List Cell} (hbs : bs.length = U.size t) {q : Loc} {t' : Nat}
    (hq : c.row q ≠ none) :
    (c.setData p pg (patch pg.data (o + i * U.size t) bs)).val U q t' =
      if q = ⟨p, i⟩ ∧ t' = t then some bs else c.val U q t' := by
  obtain ⟨hw, hg, _, hcap⟩ := h.at_wf hat
  by_cases hrow : c.row ⟨p, i⟩ = none
  · have hne : q ≠ ⟨p, i⟩ := fun h0 => hq (h0 ▸ hrow)
    rw [if_neg fun h0 => hne h0.1]
    by_cases hqp : q.page = p
    · obtain ⟨qp, qi⟩ := q
      simp only at hqp
      subst hqp
      have hqi := at_index_lt hat hq
      rw [(hat.setData _).val, hat.val]
      by_cases ht' : t' ∈ a.ids
      · obtain ⟨k', o', h1, h2, h3⟩ := offset_of_mem hw hg ht'
        rw [rowVal_of h1 h3, rowVal_of h1 h3]
        unfold Page.cells
        simp only
        rw [patch_disj]
        rw [hbs]
        exact slot_disj hw hg h2 h3 (Nat.lt_of_lt_of_le hqi hcap) hk ho hi (fun h0 => hne (by rw [h0.1]))
      · rw [rowVal_none hw ht', rowVal_none hw ht']
    · rw [val_setData_ne hat.hpg _ hqp]
  · exact h.val_patch hat (at_index_lt hat hrow) hk ho hbs hq

/-- The rows of a page have no gap. -/
theorem row_below {p i j : Nat} (h : c.row ⟨p, i⟩ ≠ none) (hj : j ≤ i) : c.row ⟨p, j⟩ ≠ none := by
  unfold row at h ⊢
  simp only at h ⊢
  cases hp : c.pages[p]? with
  | none => rw [hp] at h; exact absurd rfl h
  | some pg =>
    rw [hp] at h
    intro h0
    apply h
    show pg.ids.items[i]? = none
    have h1 : pg.ids.items[j]? = none := h0
    rw [List.getElem?_eq_none_iff] at h1 ⊢
    omega

theorem findFreePage_find {pages : List Page} : ∀ {cand : List Nat} {o : Option Nat}, findFreePage pages cand = .ok o →
    o = cand.find? fun p => (pages[p]?).any Page.hasFreeSpace
  | [], o, h => by cases h; rfl
  | p :: rest, o, h => by
    unfold findFreePage at h
    obtain ⟨pg, h1, h2⟩ := bind_eq_ok.1 h
    have h3 : pages[p]? = some pg := by
      unfold idx at h1
      split at h1
      · rename_i h0; cases h1; exact h0
      · cases h1
    rw [List.find?_cons]
    split at h2
    · rename_i hf
      cases h2
      simp [h3, hf]
    · rename_i hf
      simp only [h3, Option.any_some, hf]
      exact findFreePage_find h2

/-- Which page a move within an archetype finds. -/
theorem move_page {dbg : Bool} {a pa : Archetype} {pl : Layout} {pps : List Nat} {ppg : Page} {id pai : Nat} {prev q : Loc} {c' : Archs}
    (h : c.Inv U) (hat : c.At prev.page pai pa pl pps ppg) (hids : pa.ids = a.ids)
    (hm : c.moveEntityToOtherArchetype dbg id prev pai a = .ok (c', q)) :
    q.page = prev.page ↔ (pps.filter fun p => (c.pages[p]?).any Page.hasFreeSpace).getLast? = some prev.page := by
  unfold moveEntityToOtherArchetype at hm
  obtain ⟨⟨c1, i⟩, h1, hm⟩ := bind_eq_ok.1 hm
  obtain ⟨⟨c2, r⟩, h2, hm⟩ := bind_eq_ok.1 hm
  have hrq : r = q := by
    obtain ⟨_, -, hm⟩ := bind_eq_ok.1 hm
    obtain ⟨_, -, hm⟩ := bind_eq_ok.1 hm
    obtain ⟨_, -, hm⟩ := bind_eq_ok.1 hm
    obtain ⟨_, -, hm⟩ := bind_eq_ok.1 hm
    obtain ⟨_, -, hm⟩ := bind_eq_ok.1 hm
    obtain ⟨_, -, hm⟩ := bind_eq_ok.1 hm
    cases hm
    rfl
  subst hrq
  have hc1 : i = pai ∧ c1.pages = c.pages ∧ c1.archPages = c.archPages ∧ c1.freePages = c.freePages := by
    unfold reserveArchetype at h1
    cases hf : findSame a 0 c.archetypes with
    | none => exact absurd hids (findSame_none _ hf pa (List.mem_of_getElem? hat.ha))
    | some k =>
      obtain ⟨-, b, hb, hbi⟩ := findSame_some _ hf
      have hk : k = pai := h.distinct _ _ _ _ hb hat.ha (hbi.trans hids.symm)
      rw [hf] at h1
      dsimp only at h1
      split at h1 <;> cases h1 <;> exact ⟨hk, rfl, rfl, rfl⟩
  obtain ⟨rfl, e1, e2, e3⟩ := hc1
  unfold reservePage at h2
  obtain ⟨pl', g1, h2⟩ := bind_eq_ok.1 h2
  rw [e2, idx_of_some hat.hps] at g1
  cases g1
  obtain ⟨o, g2, h2⟩ := bind_eq_ok.1 h2
  rw [e1] at g2
  have ho := findFreePage_find g2
  rw [← List.head?_filter, List.filter_reverse, List.head?_reverse] at ho
  rw [← ho]
  cases o with
  | some p0 =>
    dsimp only at h2
    obtain ⟨_, -, h2⟩ := bind_eq_ok.1 h2
    obtain ⟨⟨_, _⟩, -, h2⟩ := bind_eq_ok.1 h2
    cases h2
    exact ⟨fun h0 => by rw [← h0], fun h0 => Option.some.inj h0⟩
  | none =>
    refine ⟨fun h0 => ?_, fun h0 => by cases h0⟩
    dsimp only at h2
    obtain ⟨⟨c3, p3⟩, g3, h2⟩ := bind_eq_ok.1 h2
    have hp3 : r.page = p3 := by
      obtain ⟨_, -, h2⟩ := bind_eq_ok.1 h2
      obtain ⟨_, -, h2⟩ := bind_eq_ok.1 h2
      obtain ⟨_, -, h2⟩ := bind_eq_ok.1 h2
      obtain ⟨_, -, h2⟩ := bind_eq_ok.1 h2
      obtain ⟨⟨_, _⟩, -, h2⟩ := bind_eq_ok.1 h2
      cases h2
      rfl
    exfalso
    split at g3
    · rename_i p hp
      cases g3
      rw [e3] at hp
      exact h.freeDisj _ (List.mem_of_getLast? hp) pps (List.mem_of_getElem? hat.hps) (by rw [← hp3, h0]; exact hat.mem)
    · obtain ⟨_, -, g3⟩ := bind_eq_ok.1 g3
      obtain ⟨_, -, g3⟩ := bind_eq_ok.1 g3
      cases g3
      have := (List.getElem?_eq_some_iff.1 hat.hpg).1
      rw [← h0, hp3, e1] at this
      exact Nat.lt_irrefl _ this

end Archs

variable {U : Universe} {dbg : Bool}

/-- Assigning through references to a slot that need not belong to a row, with repetitions. -/
theorem assign_any {q : Loc} {ai : Nat} {a : Archetype} {l : Layout} {ps : List Nat} (hi : q.index < l.entitiesCapacity)
    (vals : TupleVal) :
    ∀ {c : Archs} {pg : Page} {offs : List Nat}, c.Inv U → c.At q.page ai a l ps pg → Sized U vals →
    List.Forall₂ (fun t o => ∃ k : Nat, a.ids[k]? = some t ∧ l.offsets[k]? = some o) (vals.map (·.1)) offs →
    ∃ pages', assignToRefs (getRefs U q.page q.index (vals.map (·.1)) offs) (vals.map (·.2)) c.pages = .ok pages' ∧
      ({ c with pages := pages' } : Archs).Inv U ∧
      (∀ x, ({ c with pages := pages' } : Archs).row x = c.row x) ∧
      (∀ x f, c.row x ≠ none → (∀ t ∈ a.ids, c.val U x t = some (f t)) → ∀ t ∈ a.ids,
        ({ c with pages := pages' } : Archs).val U x t = some (if x = q then overwritten vals f t else f t)) ∧
      (∀ x t, c.row x ≠ none → x ≠ q → ({ c with pages := pages' } : Archs).val U x t = c.val U x t) ∧
      (∀ F G, c.Caps F G → ({ c with pages := pages' } : Archs).Caps F G) := by
  induction vals with
  | nil =>
    intro c pg offs h hat _ hf
    refine ⟨c.pages, ?_, h, fun _ => rfl, ?_, fun _ _ _ _ => rfl, fun _ _ h => h⟩
    · simp [getRefs, assignToRefs]
    · intro x f _ hv t ht
      rw [show overwritten [] f t = f t from rfl, ite_self]
      exact hv t ht
  | cons p vals ih =>
    intro c pg offs h hat hl hf
    obtain ⟨t, bs⟩ := p
    simp only [List.map_cons] at hf ⊢
    cases hf with
    | cons hto hf =>
    rename_i o offs
    obtain ⟨k, hk, ho⟩ := hto
    obtain ⟨hw, hg, _, _⟩ := h.at_wf hat
    have hbs : (bs.map some).length = U.size t := by rw [List.length_map]; exact hl (t, bs) (by simp)
    have hwr : writeBytes pg.data (o + q.index * U.size t) (bs.map some) =
        .ok (Archs.patch pg.data (o + q.index * U.size t) (bs.map some)) :=
      Archs.writeBytes_of (by rw [hbs]; exact Archs.slot_inPage hg hk ho hi)
    have hI := h.setData hat.hpg (Archs.patch pg.data (o + q.index * U.size t) (bs.map some))
    have hrow := Archs.row_setData (c := c) hat.hpg (Archs.patch pg.data (o + q.index * U.size t) (bs.map some))
    obtain ⟨pages', h1, h2, h3, h4, h6, h5⟩ := ih hI (hat.setData _) (fun p hp => hl p (List.mem_cons_of_mem _ hp)) hf
    refine ⟨pages', ?_, h2, fun x => by rw [← hrow x]; exact h3 x, ?_, ?_, fun F G hP => h5 F G (Archs.caps_setData hat.hpg _ hP)⟩
    · unfold getRefs at h1 ⊢
      simp only [List.zip_cons_cons, List.map_cons, assignToRefs, writeRef, idxUnchecked_of_some hat.hpg, ok_bind,
        Page.dataPtr, hwr, pure_ok]
      exact h1
    · intro x f hx hv t' ht'
      refine (h4 x (fun t' => if x = q ∧ t' = t then bs.map some else f t') (by rw [hrow]; exact hx) ?_ t' ht').trans ?_
      · intro t' ht'
        rw [h.val_patch_any hat hi hk ho hbs hx]
        by_cases hc : x = q ∧ t' = t
        · rw [if_pos hc, if_pos hc]
        · rw [if_neg hc, if_neg hc]; exact hv t' ht'
      · rw [overwritten_cons]
        by_cases hxq : x = q
        · simp [hxq]
        · simp [hxq]
    · intro x t' hx hxq
      refine (h6 x t' (by rw [hrow]; exact hx) hxq).trans ?_
      rw [h.val_patch_any hat hi hk ho hbs hx, if_neg fun h0 => hxq h0.1]

namespace Rel

open Core (at'_self at'_ne at'_at' at'_eq)

variable {s : Store} {w : World}

/-- Where `move_entity_to_other_archetype` puts an entity, and which row it returns. -/
theorem move_place (h : Rel U dbg s w) {e : Entity} (he : e ∈ w.live) (hT : w.types e ≠ []) {a : Archetype} (hw : a.WF U)
    {T : List TypeId} (hs : HasSet a T) (ht : s.archs.CanHold U dbg T) {prev : Loc} (hprev : Pos s.toPage s.toIndex e.id prev)
    {s' : Store} {q : Loc} (hm : s.moveEntityToOtherArchetype dbg e a = .ok (s', q)) :
    (Pos s'.toPage s'.toIndex e.id q ∧ q.page ≠ prev.page) ∨
      (Pos s'.toPage s'.toIndex e.id prev ∧ q.page = prev.page ∧ s'.archs.row q = none ∧
        ∀ ai a l ps pg, s'.archs.At q.page ai a l ps pg → q.index < l.entitiesCapacity) := by
  have hlt := h.ents.id_lt he
  obtain ⟨⟨l, t1, t2⟩, t3, t4⟩ := ht.fits hw hs
  obtain ⟨prev', ai, pa, pl, ps, pg, h1, h2, hat, hpw, hpg, h5, h6, h7, h8⟩ := h.row he hT
  cases hprev.unique h1
  obtain ⟨c', q', m1, m2, m3⟩ := Archs.moveEntity_spec (id := e.id) h.places.inv t3 t4 hw t1 t2 hat (by rw [h2]; simp)
  obtain ⟨v, hv⟩ := exists_vals m2.inv (q := q') (a := a) (by rw [m2.row]; simp) m2.archNew
  have hplen : e.id < s.toPage.length := by rw [h.places.plen]; exact hlt
  have hilen : e.id < s.toIndex.length := by rw [h.places.ilen]; exact hlt
  let s1 : Store := { s with archs := c', toPage := s.toPage.set e.id (some q'.page), toIndex := s.toIndex.set e.id (some q'.index) }
  have hP : Places U s1.archs s1.toPage s1.toIndex s1.hasArch s.ents.capacity w.live (at' w.types e T) (at' w.value e v)
      (some prev) := by
    refine h.places.place (e := e) (a := a) (q := q') he m2 (set_get hplen _) (set_get hilen _) List.length_set List.length_set
      rfl ?_ (fun x hx => at'_ne _ _ hx) ?_ (fun x hx => at'_ne _ _ hx) ?_ ?_
    · intro i
      show s.hasArch.bit i = _
      by_cases hi : i = e.id
      · subst hi; rw [(h.places.on e he hT).1]; simp
      · simp [hi]
    · intro t; rw [at'_self]; exact (hs t).symm
    · intro t ht
      rw [at'_self] at ht ⊢
      exact hv t ((hs t).2 ht)
    · exact fun p => ⟨fun hp => by cases hp; exact ⟨hT, h1⟩, fun hp => by rw [h1.unique hp.2]⟩
  obtain ⟨s'', g1, g2, g3, g4, g5, g6, g7, g8, g9, g10⟩ := hP.swapRemove
  have hmove : s.moveEntityToOtherArchetype dbg e a = .ok (s'', q') := by
    unfold Store.moveEntityToOtherArchetype
    simp only [h7, ok_bind, idx_of_some hat.hto, m1, Raw.write_of_lt _ hplen, Raw.write_of_lt _ hilen, pure_ok]
    rw [g1]; rfl
  rw [hmove] at hm
  cases hm
  have hne : prev ≠ q := fun h0 => by
    have := m2.fresh
    rw [← h0, h2] at this
    cases this
  by_cases hp : q.page = prev.page
  · right
    obtain ⟨c'', info, last, k1, kI, kp, kl, -, krow, -, karch, kA, kL, -⟩ := m2.inv.swapRemove_spec (q := prev)
      (by rw [m2.row, if_neg hne, h2]; simp)
    have harchs : s'.archs = c'' := by
      unfold Store.swapRemoveInternal at g1
      rw [show s1.archs = c' from rfl, k1] at g1
      simp only [ok_bind] at g1
      cases info with
      | none => cases g1; rfl
      | some i =>
        obtain ⟨ti, -, g1⟩ := bind_eq_ok.1 g1
        cases g1; rfl
    have hlast : q = last := by
      by_contra hc
      have hold : s.archs.row last ≠ none := by
        have := kl
        rwa [m2.row, if_neg fun h0 => hc h0.symm] at this
      obtain ⟨qp, qi⟩ := q
      obtain ⟨lp, li⟩ := last
      obtain ⟨pp, pi⟩ := prev
      simp only at kp hp
      subst kp hp
      have hli : li < qi := by
        by_contra hcon
        exact Archs.row_below hold (Nat.le_of_not_lt hcon) m2.fresh
      have hqr : c''.row ⟨qp, qi⟩ ≠ none := by
        rw [krow, if_neg hc, if_neg (fun h0 => hne h0.symm), m2.row, if_pos rfl]
        simp
      exact Archs.row_below hqr (Nat.le_of_lt hli) (by rw [krow, if_pos rfl])
    have hnone : s'.archs.row q = none := by rw [harchs, krow, if_pos hlast]
    refine ⟨?_, hp, hnone, ?_⟩
    · have hrp : s'.archs.row prev = some e.id := by
        rw [harchs, krow, if_neg (fun h0 => hne (h0.trans hlast.symm)), if_pos rfl, ← hlast, m2.row, if_pos rfl]
      rcases g2.rows prev e.id hrp with h0 | ⟨x, _, _, _, h0⟩
      · cases h0
      · exact h0
    · intro ai' a' l' ps' pg' hat'
      obtain ⟨bi, b, bl, bps, bpg, hatb, hidx⟩ := m2.inv.at_of_row (q := q) (id := e.id) (by rw [m2.row, if_pos rfl])
      have hb := (m2.inv.at_wf hatb).2.2.2
      have hlen := (List.getElem?_eq_some_iff.1 hidx).1
      rw [harchs] at hat'
      have e1 := hat'.archAt
      rw [karch, hatb.archAt] at e1
      cases e1
      have e2 := hat'.ha
      rw [kA] at e2
      cases m2.inv.distinct _ _ _ _ e2 hatb.ha rfl
      have e3 := hat'.hl
      rw [kL, hatb.hl] at e3
      cases e3
      omega
  · left
    refine ⟨g10 e he q ⟨?_, ?_⟩ hp, hp⟩
    · exact (set_get hplen _ _).trans (by simp)
    · exact (set_get hilen _ _).trans (by simp)

theorem mem_widened {T : List TypeId} {vals : TupleVal} {t : TypeId} :
    t ∈ widened T vals ↔ t ∈ T ∨ t ∈ typesOf vals := mem_addedTypes

/-- What the first part of `add_components` returns for an entity with components. -/
theorem ensure_any (h : Rel U dbg s w) {e : Entity} {vals : TupleVal} (he : e ∈ w.live) (hT : w.types e ≠ [])
    (hc : (¬ (∀ x ∈ vals, x.1 ∈ w.types e) ∨ TooLong (w.types e) vals) → s.archs.CanHold U dbg (widened (w.types e) vals))
    {prev : Loc} (hprev : Pos s.toPage s.toIndex e.id prev) :
    ∃ s1 q w1, s.ensureComponents U dbg e (vals.map (·.1)) = .ok (s1, q) ∧ Rel U dbg s1 w1 ∧ w1.live = w.live ∧
      s1.ents = s.ents ∧ (∀ x, x ≠ e → w1.types x = w.types x ∧ w1.value x = w.value x) ∧
      w1.types e = widened (w.types e) vals ∧ (∀ t ∈ w.types e, w1.value e t = w.value e t) ∧
      ((Pos s1.toPage s1.toIndex e.id q ∧ (TooLong (w.types e) vals → q.page ≠ prev.page)) ∨
        (TooLong (w.types e) vals ∧ Pos s1.toPage s1.toIndex e.id prev ∧ q.page = prev.page ∧ s1.archs.row q = none ∧
          ∀ ai a l ps pg, s1.archs.At q.page ai a l ps pg → q.index < l.entitiesCapacity)) ∧
      (TooLong (w.types e) vals → ∀ (ai : Nat) ps, s.archs.pageToArch[prev.page]? = some ai → s.archs.archPages[ai]? = some ps →
        (q.page = prev.page ↔ roomIn s ps = some prev.page)) := by
  have hlt := h.ents.id_lt he
  unfold Store.ensureComponents
  rw [Words.isOn_of_lt (by rw [h.places.blen]; exact Words.div_lt_getLen hlt)]
  obtain ⟨q, ai, a, l, ps, pg, h1, h2, hat, hw, hg, h5, h6, h7, h8⟩ := h.row he hT
  cases hprev.unique h1
  simp only [(h.places.on e he hT).1, ok_bind, if_true, h7, idx_of_some hat.hto, idxUnchecked_of_some hat.ha]
  have hlen : a.ids.length = (w.types e).dedup.length := by
    have hp : a.ids.Perm (w.types e).dedup := by
      rw [List.perm_ext_iff_of_nodup hw.incr.nodup (List.nodup_dedup _)]
      intro t
      rw [List.mem_dedup]
      exact h5 t
    exact hp.length_eq
  have hti : tupleIncluded (vals.map (·.1)) a = true ↔ (∀ x ∈ vals, x.1 ∈ w.types e) ∧ ¬ TooLong (w.types e) vals := by
    unfold tupleIncluded Archetype.isIncludeIds TooLong
    rw [hlen, List.length_map]
    split
    · rename_i h0
      simp only [Bool.false_eq_true, false_iff]
      exact fun h3 => h3.2 ⟨h3.1, h0⟩
    · rename_i h0
      rw [Archetype.allFound_iff hw.incr]
      constructor
      · intro h3
        exact ⟨fun x hx => (h5 _).1 (h3 _ (List.mem_map_of_mem hx)), fun h4 => h0 h4.2⟩
      · rintro ⟨h3, -⟩ t ht
        obtain ⟨x, hx, rfl⟩ := List.mem_map.1 ht
        exact (h5 _).2 (h3 x hx)
  by_cases hin : tupleIncluded (vals.map (·.1)) a = true
  · have hin' := hti.1 hin
    refine ⟨s, prev, w, ?_, h, rfl, rfl, fun _ _ => ⟨rfl, rfl⟩, (addedTypes_eq hin'.1).symm, fun _ _ => rfl,
      Or.inl ⟨h1, fun h0 => absurd h0 hin'.2⟩, fun h0 => absurd h0 hin'.2⟩
    simp only [hin, if_true, pure_ok]
  · have hnot : ¬ (∀ x ∈ vals, x.1 ∈ w.types e) ∨ TooLong (w.types e) vals := by
      by_contra h0
      rw [not_or, not_not] at h0
      exact hin (hti.2 h0)
    have htg := hc hnot
    obtain ⟨r1, b1, b2⟩ := (BuilderRep.new U).includeArchetype hw
    obtain ⟨r2, b3, b4⟩ := b1.includeComponents (vals.map (·.1))
    have hr2 : r2 ≠ [] := by
      obtain ⟨t, ht⟩ := List.exists_mem_of_ne_nil _ hT
      exact List.ne_nil_of_mem ((b4 t).2 (Or.inl ((b2 t).2 (Or.inr ((h5 t).2 ht)))))
    obtain ⟨na, b', b5, b6, b7, _⟩ := b3.build hr2
    have hs : HasSet na (widened (w.types e) vals) := by
      intro t
      rw [b7.mem_iff, b4, b2, mem_widened, ← h5 t]
      simp [typesOf]
    obtain ⟨s', q', v, g1, g2, g3, g4⟩ := h.move he hT b6 hs htg
    have hpl := h.move_place he hT b6 hs htg h1 g1
    have hents : s'.ents = s.ents := by
      have g1' := g1
      unfold Store.moveEntityToOtherArchetype at g1'
      obtain ⟨_, -, g1'⟩ := bind_eq_ok.1 g1'
      obtain ⟨_, -, g1'⟩ := bind_eq_ok.1 g1'
      obtain ⟨⟨_, _⟩, -, g1'⟩ := bind_eq_ok.1 g1'
      obtain ⟨_, -, g1'⟩ := bind_eq_ok.1 g1'
      obtain ⟨_, -, g1'⟩ := bind_eq_ok.1 g1'
      obtain ⟨_, g0, g1'⟩ := bind_eq_ok.1 g1'
      cases g1'
      unfold Store.swapRemoveInternal at g0
      obtain ⟨⟨_, info⟩, -, g0⟩ := bind_eq_ok.1 g0
      cases info with
      | none => cases g0; rfl
      | some i =>
        obtain ⟨_, -, g0⟩ := bind_eq_ok.1 g0
        cases g0; rfl
    have hty : (retype w e (widened (w.types e) vals) v).types e = widened (w.types e) vals := at'_self _ _ _
    have hva : (retype w e (widened (w.types e) vals) v).value e = v := at'_self _ _ _
    refine ⟨s', q', _, ?_, g2, rfl, hents, fun x hx => ⟨at'_ne _ _ hx, at'_ne _ _ hx⟩, hty, ?_, ?_, ?_⟩
    · simp only [hin, b5, ok_bind, g1]
      rfl
    · intro t ht
      rw [hva]
      exact g3 t ht (mem_widened.2 (Or.inl ht))
    · rcases hpl with ⟨k1, k2⟩ | ⟨k1, k2, k3, k4⟩
      · exact Or.inl ⟨k1, fun _ => k2⟩
      · refine Or.inr ⟨?_, k1, k2, k3, k4⟩
        refine hnot.resolve_left fun hall => ?_
        have k5 := g4 (by
          rintro ⟨k1, _⟩
          apply hall
          intro x hx
          exact k1 _ (mem_widened.2 (Or.inr (List.mem_map_of_mem hx))))
        have k6 := (g2.places.rowOf (e := e) he (by
          show at' _ _ _ e ≠ []
          rw [at'_self]; exact htg.ne) k5).1
        rw [k3] at k6
        cases k6
    · intro hlong ai' ps' hai hps
      rw [hat.hto] at hai
      cases hai
      rw [hat.hps] at hps
      cases hps
      have g1' := g1
      unfold Store.moveEntityToOtherArchetype at g1'
      simp only [h7, ok_bind, idx_of_some hat.hto] at g1'
      obtain ⟨⟨c2, r⟩, g0, g1'⟩ := bind_eq_ok.1 g1'
      obtain ⟨_, -, g1'⟩ := bind_eq_ok.1 g1'
      obtain ⟨_, -, g1'⟩ := bind_eq_ok.1 g1'
      obtain ⟨_, -, g1'⟩ := bind_eq_ok.1 g1'
      cases g1'
      refine Archs.move_page h.places.inv hat ?_ g0
      refine Incr.ext hw.incr b6.incr fun t => ?_
      rw [h5 t, hs t, mem_widened]
      refine ⟨Or.inl, fun h0 => h0.elim id fun h0 => ?_⟩
      obtain ⟨x, hx, rfl⟩ := List.mem_map.1 h0
      exact hlong.1 x hx

theorem overwritten_congr {vals : TupleVal} {f g : TypeId → List Cell} {t : TypeId} (h : t ∉ typesOf vals → f t = g t) :
    overwritten vals f t = overwritten vals g t := by
  unfold overwritten
  cases hl : lastNamed vals t with
  | some bs => rfl
  | none =>
    refine h fun ht => ?_
    obtain ⟨x, hx, hxt⟩ := List.mem_map.1 ht
    unfold lastNamed at hl
    rw [Option.map_eq_none_iff, List.getLast?_eq_none_iff, List.filter_eq_nil_iff] at hl
    exact hl x hx (by simpa using hxt)

/-- `add_components` for an entity with components. -/
theorem added_any (h : Rel U dbg s w) {e : Entity} {vals : TupleVal} (he : e ∈ w.live) (hT : w.types e ≠ []) (hv : Sized U vals)
    (hc : (¬ (∀ x ∈ vals, x.1 ∈ w.types e) ∨ TooLong (w.types e) vals) → s.archs.CanHold U dbg (widened (w.types e) vals))
    {prev : Loc} (hprev : Pos s.toPage s.toIndex e.id prev) :
    ∃ s' w', s.addComponents U dbg e vals = .ok s' ∧ Rel U dbg s' w' ∧ w'.live = w.live ∧ s'.ents = s.ents ∧
      (∀ x, x ≠ e → w'.types x = w.types x ∧ w'.value x = w.value x) ∧ w'.types e = widened (w.types e) vals ∧
      (TooLong (w.types e) vals → ∀ (ai : Nat) ps, s.archs.pageToArch[prev.page]? = some ai → s.archs.archPages[ai]? = some ps →
        (Pos s'.toPage s'.toIndex e.id prev ↔ roomIn s ps = some prev.page)) ∧
      ((TooLong (w.types e) vals ∧ Pos s'.toPage s'.toIndex e.id prev ∧ ∀ t ∈ w.types e, w'.value e t = w.value e t) ∨
        ((∃ q, Pos s'.toPage s'.toIndex e.id q ∧ (TooLong (w.types e) vals → q.page ≠ prev.page)) ∧
          ∀ t ∈ widened (w.types e) vals, w'.value e t = overwritten vals (w.value e) t)) := by
  obtain ⟨s1, q, w1, g1, g2, g3, g4, g5, g6, g7, g8, g9⟩ := h.ensure_any he hT hc hprev
  have hne : w1.types e ≠ [] := by
    rw [g6]
    obtain ⟨t, ht⟩ := List.exists_mem_of_ne_nil _ hT
    exact List.ne_nil_of_mem (mem_widened.2 (Or.inl ht))
  have hl1 : e ∈ w1.live := by rw [g3]; exact he
  obtain ⟨p, ai, a, l, ps, pg, h1, h2, hat, hw, hg, h5, h6, h7, h8⟩ := g2.row hl1 hne
  have hpage : q.page = p.page := by
    rcases g8 with ⟨k1, -⟩ | ⟨-, k1, k2, -⟩
    · rw [k1.unique h1]
    · rw [k2, k1.unique h1]
  rw [← hpage] at hat h8
  have hi : q.index < l.entitiesCapacity := by
    rcases g8 with ⟨k1, -⟩ | ⟨-, -, -, -, k⟩
    · cases k1.unique h1
      exact Nat.lt_of_lt_of_le (Archs.at_index_lt hat (by rw [h2]; simp)) (g2.places.inv.at_wf hat).2.2.2
    · exact k _ _ _ _ _ hat
  obtain ⟨offs, _, f2, f3⟩ := getOffsets_present hw hg (vals.map (·.1)) (fun t ht => by
    refine (h5 t).2 ?_
    rw [g6]
    exact mem_widened.2 (Or.inr ht))
  obtain ⟨pages', p1, p2, p3, p4, p6, p5⟩ := assign_any hi vals g2.places.inv hat hv f3
  have hadd : s.addComponents U dbg e vals = .ok { s1 with archs := { s1.archs with pages := pages' } } := by
    unfold Store.addComponents
    simp only [h.isAlive (h.ents.id_lt he), ok_bind, he, decide_true, Bool.not_true, Bool.false_eq_true, if_false, g1, h8, f2, p1,
      pure_ok]
  have build : ∀ f : TypeId → List Cell,
      (∀ t ∈ w1.types e, ({ s1.archs with pages := pages' } : Archs).val U p t = some (f t)) →
      (∀ r, r ≠ p → s1.archs.row r ≠ none → r ≠ q) →
      Rel U dbg { s1 with archs := { s1.archs with pages := pages' } } { w1 with value := at' w1.value e f } := by
    intro f hf hrq
    refine ⟨g2.ents, ?_, g2.regs.same rfl rfl p5, g2.tags, g2.tcap, g2.tagOn, g2.orders, g2.ocap, g2.ordLive⟩
    refine g2.places.revalue p2 p3 (fun _ => rfl) ?_
    intro x hx hxT r hxr t ht
    show _ = some (at' w1.value e f x t)
    obtain ⟨hr', _, _, _, _, k6⟩ := g2.places.rowOf hx hxT hxr
    by_cases hxe : x = e
    · subst hxe
      cases hxr.unique h1
      rw [at'_self]
      exact hf t ht
    · rw [at'_ne _ _ hxe]
      refine (p6 r t (by rw [hr']; simp) (hrq r ?_ (by rw [hr']; simp))).trans (k6 t ht)
      intro hrp
      subst hrp
      rw [h2] at hr'
      exact hxe (g2.places.inj x hx e hl1 (Option.some.inj hr').symm)
  have hval : ∀ t ∈ w1.types e, ({ s1.archs with pages := pages' } : Archs).val U p t =
      some (if p = q then overwritten vals (w1.value e) t else w1.value e t) := by
    intro t ht
    exact p4 p (w1.value e) (by rw [h2]; simp) (fun t ht => h6 t ((h5 t).1 ht)) t ((h5 t).2 ht)
  rcases g8 with ⟨k1, k2⟩ | ⟨k0, k1, k2, k3, -⟩
  · cases k1.unique h1
    refine ⟨_, _, hadd, build (overwritten vals (w1.value e)) ?_ (fun r hr _ => hr), g3, g4, ?_, g6, ?_, Or.inr ⟨⟨q, h1, k2⟩, ?_⟩⟩
    · intro t ht
      rw [hval t ht, if_pos rfl]
    · intro x hx
      exact ⟨(g5 x hx).1, (at'_ne _ _ hx).trans (g5 x hx).2⟩
    · intro h0 ai ps hai hps
      rw [← g9 h0 ai ps hai hps]
      exact ⟨fun h3 => by rw [h1.unique h3], fun h3 => absurd h3 (k2 h0)⟩
    · intro t ht
      show at' w1.value e _ e t = _
      rw [at'_self]
      refine overwritten_congr fun hn => ?_
      exact g7 t ((mem_widened.1 ht).resolve_right hn)
  · cases k1.unique h1
    have hpq : prev ≠ q := fun h0 => by rw [← h0, h2] at k3; cases k3
    refine ⟨_, _, hadd, build (w1.value e) ?_ (fun r _ hr h0 => hr (h0 ▸ k3)), g3, g4, ?_, g6, ?_, Or.inl ⟨k0, h1, ?_⟩⟩
    · intro t ht
      rw [hval t ht, if_neg hpq]
    · intro x hx
      exact ⟨(g5 x hx).1, (at'_ne _ _ hx).trans (g5 x hx).2⟩
    · intro h0 ai ps hai hps
      exact ⟨fun _ => (g9 h0 ai ps hai hps).1 k2, fun _ => h1⟩
    · intro t ht
      show at' w1.value e _ e t = _
      rw [at'_self]
      exact g7 t ht

/-- Assigning to components of an entity. -/
theorem assigned_any (h : Rel U dbg s w) {e : Entity} {vals : TupleVal} (he : e ∈ w.live) (hT : w.types e ≠ []) (hv : Sized U vals)
    (hin : ∀ x ∈ vals, x.1 ∈ w.types e) :
    ∃ s', s.setComponents U dbg e vals = .ok (s', true) ∧ s'.ents = s.ents ∧
      Rel U dbg s' { w with value := at' w.value e (overwritten vals (w.value e)) } := by
  obtain ⟨q, ai, a, l, ps, pg, offs, h1, h2, hat, h5, h6, h7, h8⟩ := h.getRefs_some he hT (ts := vals.map (·.1)) (by
    intro t ht
    obtain ⟨x, hx, rfl⟩ := List.mem_map.1 ht
    exact hin x hx)
  have hi : q.index < l.entitiesCapacity :=
    Nat.lt_of_lt_of_le (Archs.at_index_lt hat (by rw [h2]; simp)) (h.places.inv.at_wf hat).2.2.2
  obtain ⟨pages', p1, p2, p3, p4, p6, p5⟩ := assign_any hi vals h.places.inv hat hv h8
  refine ⟨{ s with archs := { s.archs with pages := pages' } }, ?_, rfl,
    ⟨h.ents, ?_, h.regs.same rfl rfl p5, h.tags, h.tcap, h.tagOn, h.orders, h.ocap, h.ordLive⟩⟩
  · unfold Store.setComponents
    simp only [h7, ok_bind, p1, pure_ok]
  · refine h.places.revalue p2 p3 (fun _ => rfl) ?_
    intro x hx hxT r hxr t ht
    show _ = some (at' w.value e (overwritten vals (w.value e)) x t)
    obtain ⟨hr', _, _, _, _, k6⟩ := h.places.rowOf hx hxT hxr
    by_cases hxe : x = e
    · subst hxe
      cases hxr.unique h1
      rw [at'_self]
      refine (p4 q (w.value x) (by rw [h2]; simp) (fun t ht => h6 t ((h5 t).1 ht)) t ((h5 t).2 ht)).trans ?_
      rw [if_pos rfl]
    · rw [at'_ne _ _ hxe]
      refine (p6 r t (by rw [hr']; simp) ?_).trans (k6 t ht)
      rintro rfl
      rw [h2] at hr'
      exact hxe (h.places.inj x hx e he (Option.some.inj hr').symm)

/-- The page of an entity. -/
theorem inPage (h : Rel U dbg s w) {e : Entity} (he : e ∈ w.live) (hT : w.types e ≠ []) {q : Loc}
    (hq : Pos s.toPage s.toIndex e.id q) : InPage U dbg s e q.page := by
  intro ts refs hr r hrm
  by_cases ht : ∀ t ∈ ts, t ∈ w.types e
  · obtain ⟨q', ai, a, l, ps, pg, offs, h1, -, -, -, -, h7, -⟩ := h.getRefs_some he hT ht
    cases hq.unique h1
    rw [h7] at hr
    cases hr
    unfold getRefs at hrm
    obtain ⟨x, -, rfl⟩ := List.mem_map.1 hrm
    rfl
  · rw [h.getRefs_none (h.ents.id_lt he) (fun h0 => ht h0.2.2)] at hr
    cases hr

end Rel

end Ecs
