import Verif.Proofs.PanicExact
import Verif.Proofs.Healthy
import Verif.Proofs.Leftovers
import Verif.Proofs.QueryRows
import Verif.Spec.Observe

/-! What `create_entity_with_archetype` does in any state reached by calls that returned. -/

namespace Ecs
open Spec

namespace Archs
variable {dbg : Bool} {c c' : Archs}

/-- A slot keeps its archetype unless it is free and reused. -/
theorem reserveArchetype_keeps {a : Archetype} {i : Nat} (hr : c.reserveArchetype dbg a = .ok (c', i)) :
    c'.pageToArch = c.pageToArch ∧ c'.pages = c.pages ∧ c'.freePages = c.freePages ∧
    ∀ (j : Nat) b l, c.archetypes[j]? = some b → c.layouts[j]? = some l →
      (c'.archetypes[j]? = some b ∧ c'.layouts[j]? = some l) ∨ (j = i ∧ c.freeArchetypes.getLast? = some j ∧ b.ids ≠ a.ids) := by
  unfold reserveArchetype at hr
  split at hr
  · split at hr <;> cases hr <;> exact ⟨rfl, rfl, rfl, fun j b l h1 h2 => .inl ⟨h1, h2⟩⟩
  · next hf =>
    obtain ⟨layout, -, hr⟩ := bind_eq_ok.1 hr
    split at hr
    · next k hk =>
      obtain ⟨as, h1, hr⟩ := bind_eq_ok.1 hr
      obtain ⟨ls, h2, hr⟩ := bind_eq_ok.1 hr
      cases hr
      obtain ⟨_, rfl⟩ := idxSet_ok h1
      obtain ⟨_, rfl⟩ := idxSet_ok h2
      refine ⟨rfl, rfl, rfl, fun j b l h3 h4 => ?_⟩
      by_cases hj : j = i
      · subst hj; exact .inr ⟨rfl, hk, findSame_none _ hf b (List.mem_of_getElem? h3)⟩
      · left
        dsimp only
        rw [List.getElem?_set_ne (Ne.symm hj), List.getElem?_set_ne (Ne.symm hj)]
        exact ⟨h3, h4⟩
    · cases hr
      refine ⟨rfl, rfl, rfl, fun j b l h3 h4 => .inl ⟨?_, ?_⟩⟩
      · dsimp only; rw [List.getElem?_append_left (List.getElem?_eq_some_iff.1 h3).1]; exact h3
      · dsimp only; rw [List.getElem?_append_left (List.getElem?_eq_some_iff.1 h4).1]; exact h4

/-- A page with rows stays with its archetype slot. -/
theorem reservePage_keeps (hu : c.Use) (hs : c.Shape) {id i : Nat} {q : Loc} (hr : c.reservePage dbg id i = .ok (c', q)) :
    c'.pageToArch[q.page]? = some i ∧ ∀ r y, c.row r = some y → c'.pageToArch[r.page]? = c.pageToArch[r.page]? := by
  unfold reservePage at hr
  obtain ⟨ps, h1, hr⟩ := bind_eq_ok.1 hr
  rw [idx_ok] at h1
  obtain ⟨o, h2, hr⟩ := bind_eq_ok.1 hr
  cases o with
  | some p =>
    obtain ⟨pg0, h3, hr⟩ := bind_eq_ok.1 hr
    obtain ⟨⟨pg, k⟩, h4, hr⟩ := bind_eq_ok.1 hr
    cases hr
    exact ⟨hu.owner i ps p h1 (List.mem_reverse.1 (mem_of_findFreePage h2).1), fun _ _ _ => rfl⟩
  | none =>
    obtain ⟨⟨c1, p⟩, h3, hr⟩ := bind_eq_ok.1 hr
    dsimp only at hr
    obtain ⟨l, h4, hr⟩ := bind_eq_ok.1 hr
    obtain ⟨pg0, h5, hr⟩ := bind_eq_ok.1 hr
    obtain ⟨ps', h6, hr⟩ := bind_eq_ok.1 hr
    obtain ⟨ta, h7, hr⟩ := bind_eq_ok.1 hr
    obtain ⟨⟨pg, k⟩, h8, hr⟩ := bind_eq_ok.1 hr
    cases hr
    obtain ⟨h71, rfl⟩ := idxSet_ok h7
    refine ⟨List.getElem?_set_self h71, fun r y hy => ?_⟩
    have hne : p ≠ r.page ∧ c1.pageToArch[r.page]? = c.pageToArch[r.page]? := by
      unfold Archs.row at hy
      obtain ⟨pg1, hpg1, hy⟩ := Option.bind_eq_some_iff.1 hy
      have hrl := (List.getElem?_eq_some_iff.1 hpg1).1
      split at h3
      · rename_i p' hp
        cases h3
        refine ⟨?_, rfl⟩
        rintro rfl
        rw [hu.freeEmpty _ (List.mem_of_getLast? hp) _ hpg1] at hy
        cases hy
      · obtain ⟨_, _, h3⟩ := bind_eq_ok.1 h3
        obtain ⟨ta1, h9, h3⟩ := bind_eq_ok.1 h3
        cases h3
        refine ⟨by omega, ?_⟩
        unfold vecInsert at h9
        rw [if_pos (by rw [hs.tlen]; exact Nat.le_refl _), ← hs.tlen, List.insertIdx_length_self] at h9
        cases h9
        dsimp only
        rw [List.getElem?_append_left (by rw [hs.tlen]; exact hrl)]
    dsimp only
    rw [List.getElem?_set_ne hne.1, hne.2]

theorem addEntity_keeps (hu : c.Use) (hs : c.Shape) {a : Archetype} (ha : a.Even) {id : Nat} {q : Loc}
    (hr : c.addEntity dbg id a = .ok (c', q)) :
    ∃ i, c'.pageToArch[q.page]? = some i ∧ (∃ b, c'.archetypes[i]? = some b ∧ b.ids = a.ids) ∧
      (∀ r y, c.row r = some y → c'.pageToArch[r.page]? = c.pageToArch[r.page]?) ∧
      ∀ (j : Nat) b l, c.archetypes[j]? = some b → c.layouts[j]? = some l →
        (c'.archetypes[j]? = some b ∧ c'.layouts[j]? = some l) ∨ (j = i ∧ c.freeArchetypes.getLast? = some j ∧ b.ids ≠ a.ids) := by
  unfold addEntity at hr
  obtain ⟨⟨c1, i⟩, h1, hr⟩ := bind_eq_ok.1 hr
  dsimp only at hr
  obtain ⟨k1, k2, k3, k4⟩ := reserveArchetype_keeps h1
  obtain ⟨m1, m2⟩ := reservePage_keeps (hu.reserveArchetype h1) (hs.reserveArchetype ha h1).1 hr
  obtain ⟨n1, n2⟩ := reservePage_regs hr
  refine ⟨i, m1, by rw [n1]; exact reserveArchetype_at h1, fun r y hy => ?_, fun j b l hb hl => by
    rw [n1, n2]; exact k4 j b l hb hl⟩
  rw [m2 r y (by unfold Archs.row at hy ⊢; rw [k2]; exact hy), k1]

end Archs

section
variable {U : Universe} {dbg : Bool} {cap : Nat} {h : List Event} {s s' : Store}

private theorem mapM_congr {α β : Type} {l : List α} {f g : α → Res β} (h : ∀ x ∈ l, f x = g x) : l.mapM f = l.mapM g := by
  induction l with
  | nil => rfl
  | cons x l ih =>
    rw [List.mapM_cons, List.mapM_cons, h x List.mem_cons_self, ih fun y hy => h y (List.mem_cons_of_mem _ hy)]

theorem loose_createWith (hx : LooseExec U dbg cap h s) (hb : (handles h).length + 1 < u32Size) {a : Archetype} (ha : Built U a)
    {e : Entity} (hr : s.createEntityWithArchetype dbg a = .ok (s', e)) :
    (∃ a', s'.getEntityArchetype dbg e = .ok (some a') ∧ a'.ids = a.ids) ∧
    ∀ x ∈ handles h, SameComponents U dbg s s' x ∨
      (x ∈ alive h ∧ ¬ UsedNotFree s ∧ s'.isAlive dbg x = s.isAlive dbg x ∧
        ∃ b b', s.getEntityArchetype dbg x = .ok (some b) ∧ s'.getEntityArchetype dbg x = .ok (some b') ∧
          b.ids ≠ a.ids ∧ b'.ids = a.ids) := by
  have hc := loose_core hx
  have hsh := loose_shape hx
  have hrow := loose_rows hx
  rw [handles_eq] at hb
  have hx' : LooseExec U dbg cap (.createdWith e a.ids (fun _ => []) :: h) s' :=
    .step (.createdWith e a.ids _) hx hb ⟨a, ha, rfl, hr⟩
  have hc' := loose_core hx'
  have hmem := createWith_memory hr
  unfold Store.createEntityWithArchetype at hr
  obtain ⟨⟨s1, e1⟩, h1, hr⟩ := bind_eq_ok.1 hr
  obtain ⟨⟨c, q⟩, h3, hr⟩ := bind_eq_ok.1 hr
  dsimp only at hr h3
  obtain ⟨s2, h2, hr⟩ := bind_eq_ok.1 hr
  cases hr
  obtain ⟨s3, e3, k1, j1, k3, k4, k5, k6, k7, k8, k9, k10, k11, k12, _⟩ := hc.register (dbg := dbg) hb
  rw [h1] at k1
  cases k1
  rw [k5] at h3
  obtain ⟨i, m1, ⟨b, m2, m3⟩, m4, m5⟩ := Archs.addEntity_keeps hrow.use hsh.archs ha.wf.even h3
  have hlt : e.id < s1.ents.capacity := j1.id_lt List.mem_cons_self
  obtain ⟨hon, w1, w2, w3⟩ := Rel.recordRow_spec (s := { s1 with archs := c }) (id := e.id) (q := q) (by rw [k7]; exact hlt)
    (by rw [k8]; exact hlt) (by rw [k9]; exact Words.div_lt_getLen hlt)
  rw [h2] at w1
  have hs' := Except.ok.inj w1
  have eA : s'.archs = c := by rw [hs']
  have eP : s'.toPage = s1.toPage.set e.id (some q.page) := by rw [hs']
  have eI : s'.toIndex = s1.toIndex.set e.id (some q.index) := by rw [hs']
  have eB : s'.hasArch = hon := by rw [hs']
  have eE : s'.ents = s1.ents := by rw [hs']
  clear hs' w1
  rw [eA] at hmem
  have hlive : e ∈ (world (.createdWith e a.ids (fun _ => []) :: h)).live := List.mem_cons_self
  have hbl : ∀ y : Nat, y < s1.ents.capacity → hon.isOn y = .ok (hon.bit y) := fun y hy =>
    Words.isOn_of_lt (by rw [w2, k9]; exact Words.div_lt_getLen hy)
  refine ⟨⟨b, ?_, m3⟩, fun x hxi => ?_⟩
  · have hal := hc'.isAlive (dbg := dbg) (hc'.ents.issued_id_lt (hc'.ents.sub e hlive))
    simp only [hlive, decide_true] at hal
    unfold Store.getEntityArchetype Store.isValidEntityWithArchetype
    rw [hal]
    simp only [ok_bind, if_true, eA, eP, eB, hbl _ hlt, w3, decide_true, Bool.true_or, Bool.not_true, Bool.false_eq_true, if_false,
      Raw.read_of_some (List.getElem?_set_self (by rw [k7]; exact hlt) : (s1.toPage.set e.id (some q.page))[e.id]? = _), idx_of_some m1, idx_of_some m2]
    rfl
  · rw [handles_eq] at hxi
    have hxcap : x.id < s.ents.capacity := hc.ents.issued_id_lt hxi
    have hxcap' : x.id < s1.ents.capacity := Nat.lt_of_lt_of_le hxcap k6
    have hne : x ≠ e := by rintro rfl; exact k3 hxi
    have hal : s'.isAlive dbg x = s.isAlive dbg x := by
      rw [hc.isAlive hxcap, hc'.isAlive (dbg := dbg) (e := x) (by rw [eE]; exact hxcap')]
      simp [world, World.apply, World.birth, World.setTypes, hne]
    by_cases hl : x ∈ (world h).live
    · have hidne : x.id ≠ e.id := k4 x hl
      have hal0 : s.isAlive dbg x = .ok true := by rw [hc.isAlive hxcap]; simp [hl]
      have hon0 : s.hasArch.isOn x.id = .ok (s.hasArch.bit x.id) :=
        Words.isOn_of_lt (by rw [hc.blen]; exact Words.div_lt_getLen hxcap)
      have hon1 : hon.isOn x.id = .ok (s.hasArch.bit x.id) := by
        rw [hbl _ hxcap', w3, k12]; simp [hidne]
      have hp : Raw.read (s1.toPage.set e.id (some q.page)) x.id = Raw.read s.toPage x.id := by
        unfold Raw.read; rw [List.getElem?_set_ne (Ne.symm hidne), k10 _ hxcap]
      have hi : Raw.read (s1.toIndex.set e.id (some q.index)) x.id = Raw.read s.toIndex x.id := by
        unfold Raw.read; rw [List.getElem?_set_ne (Ne.symm hidne), k11 _ hxcap]
      by_cases hbit : s.hasArch.bit x.id = true
      · obtain ⟨p, n, ai, a0, l, pg, f1, f2, f3, f4, f5, f6, f7, f8⟩ := hsh.found hbit ((hasRow hx).2 _ hbit)
        have hq : s.getLocUnchecked x.id = .ok ⟨p, n⟩ := by
          unfold Store.getLocUnchecked; simp [f1, f2]
        have hla : x ∈ alive h := by rw [alive_eq]; exact hl
        have hold : Holder h x.id := ⟨x, hla, ((given_bit hx).2 x hla).1 hbit, rfl⟩
        have hr0 := (hrow.forget hold (Store.Rows.getLoc hq)).2
        have hta : c.pageToArch[p]? = some ai := by rw [m4 _ _ hr0]; exact f3
        rcases m5 ai a0 l f4 f5 with ⟨g1, g2⟩ | ⟨rfl, g1, gne⟩
        · left
          obtain ⟨pg', g3, g4⟩ : ∃ pg', c.pages[p]? = some pg' ∧ pg'.data = pg.data := by
            rcases hmem p with hm | ⟨hm, _⟩
            · unfold Archs.memory at hm
              rw [f6] at hm
              exact Option.map_eq_some_iff.1 hm
            · unfold Archs.memory at hm
              rw [f6] at hm; cases hm
          have hrefs : ∀ ts, s'.getComponentsRefs U dbg x ts = s.getComponentsRefs U dbg x ts := by
            intro ts
            unfold Store.getComponentsRefs Store.isValidEntityWithArchetype Store.getPageViewUnchecked
            rw [hal, hal0]
            simp only [eA, eP, eI, eB, hon0, hon1, hbit, ok_bind, if_true, hp, hi, f1, f2, idxUnchecked_of_some hta, idxUnchecked_of_some f3,
              idxUnchecked_of_some g1, idxUnchecked_of_some g2, idxUnchecked_of_some f4, idxUnchecked_of_some f5,
              idxUnchecked_of_some f6, idxUnchecked_of_some g3]
          refine ⟨hal, ?_, hrefs, fun ts => ?_⟩
          · unfold Store.getEntityArchetype Store.isValidEntityWithArchetype
            rw [hal, hal0]
            simp only [eA, eP, eB, hon0, hon1, hbit, ok_bind, if_true, hp, f1, idx_of_some hta, idx_of_some f3, idx_of_some g1, idx_of_some f4]
          · unfold Store.getComponents
            obtain ⟨o, u1, _⟩ := getOffsets_even f7 f8 ts
            have hgr : s.getComponentsRefs U dbg x ts = .ok (o.map (getRefs U p n ts)) := by
              unfold Store.getComponentsRefs Store.isValidEntityWithArchetype Store.getPageViewUnchecked
              simp only [hal0, hon0, hbit, f1, f2, idxUnchecked_of_some f3, idxUnchecked_of_some f4,
                idxUnchecked_of_some f5, idxUnchecked_of_some f6, ok_bind, pure_ok, if_true]
              rw [u1]
              cases o <;> rfl
            rw [hrefs, hgr]
            cases o with
            | none => rfl
            | some os =>
              have hread : ∀ r ∈ getRefs U p n ts os, readRef s'.archs.pages r = readRef s.archs.pages r := by
                intro r hr
                obtain ⟨y, _, rfl⟩ := List.mem_map.1 hr
                unfold readRef
                rw [eA]
                simp only [idxUnchecked_of_some g3, idxUnchecked_of_some f6, ok_bind, g4]
              simp only [Option.map_some, ok_bind]
              rw [mapM_congr hread]
        · right
          refine ⟨hla, fun hun => ?_, hal, a0, b, ?_, ?_, gne, m3⟩
          · refine hun p ai pg f6 f3 ?_ (List.mem_of_getLast? g1)
            intro h0
            unfold Archs.row at hr0
            simp [f6, h0] at hr0
          · unfold Store.getEntityArchetype Store.isValidEntityWithArchetype
            rw [hal0]
            simp only [hon0, hbit, ok_bind, if_true, f1, idx_of_some f3, idx_of_some f4]
            rfl
          · unfold Store.getEntityArchetype Store.isValidEntityWithArchetype
            rw [hal, hal0]
            simp only [eA, eP, eB, hon1, hbit, ok_bind, if_true, hp, f1, idx_of_some hta, idx_of_some m2]
            rfl
      · have hbit : s.hasArch.bit x.id = false := by simpa using hbit
        left
        have hrefs : ∀ ts, s'.getComponentsRefs U dbg x ts = .ok none ∧
              s.getComponentsRefs U dbg x ts = .ok none := by
          intro ts
          unfold Store.getComponentsRefs Store.isValidEntityWithArchetype
          rw [hal, hal0]
          simp [eB, hon0, hon1, hbit]
        refine ⟨hal, ?_, fun ts => by rw [(hrefs ts).1, (hrefs ts).2], fun ts => ?_⟩
        · unfold Store.getEntityArchetype Store.isValidEntityWithArchetype
          rw [hal, hal0]
          simp [eB, hon0, hon1, hbit]
        · unfold Store.getComponents
          rw [(hrefs ts).1, (hrefs ts).2]
          rfl
    · have hal0 : s.isAlive dbg x = .ok false := by rw [hc.isAlive hxcap]; simp [hl]
      left
      have hrefs : ∀ ts, s'.getComponentsRefs U dbg x ts = .ok none ∧
            s.getComponentsRefs U dbg x ts = .ok none := by
        intro ts
        unfold Store.getComponentsRefs Store.isValidEntityWithArchetype
        rw [hal, hal0]
        simp
      refine ⟨hal, ?_, fun ts => by rw [(hrefs ts).1, (hrefs ts).2], fun ts => ?_⟩
      · unfold Store.getEntityArchetype Store.isValidEntityWithArchetype
        rw [hal, hal0]
        simp
      · unfold Store.getComponents
        rw [(hrefs ts).1, (hrefs ts).2]
        rfl
end

end Ecs
