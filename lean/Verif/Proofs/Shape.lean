import Verif.Proofs.Records
import Verif.Proofs.Archetype
import Verif.Proofs.Layout

/-! A structural invariant of the store that survives everything, including the defects of the code:
in every execution in which calls return (`LooseExec`), the indices kept by the store are in range and
every archetype is sorted with as many offsets as components. -/

namespace Ecs
open Spec

/-- Parallel arrays of the same length, ids in (weakly) ascending order. -/
structure Archetype.Even (a : Archetype) : Prop where
  sorted : a.ids.Pairwise (· ≤ ·)
  sizes : a.sizes.length = a.ids.length
  aligns : a.aligns.length = a.ids.length

theorem Archetype.new_even {l : List ComponentType} {a : Archetype}
    (h : Archetype.new (sortByKey (·.id) l) = .ok a) : a.Even := by
  unfold Archetype.new at h
  obtain ⟨_, _, h⟩ := bind_eq_ok.1 h
  cases h
  exact ⟨List.pairwise_map.2 (sortByKey_sorted _ l), by simp, by simp⟩

theorem Archetype.withComponents_even {U : Universe} {ts : List TypeId} {a : Archetype}
    (h : Archetype.withComponents U ts = .ok a) : a.Even := Archetype.new_even h

theorem ArchetypeBuilder.build_even {b b' : ArchetypeBuilder} {a : Archetype} (h : b.build = .ok (a, b')) : a.Even := by
  unfold ArchetypeBuilder.build at h
  obtain ⟨_, h1, h⟩ := bind_eq_ok.1 h
  cases h
  exact Archetype.new_even h1

theorem Archetype.WF.even {U : Universe} {a : Archetype} (h : a.WF U) : a.Even :=
  ⟨h.incr.le, by rw [h.sizes]; simp, by rw [h.aligns]; simp⟩

theorem Layout.new_even {dbg : Bool} {a : Archetype} {l : Layout} (ha : a.Even) (h : Layout.new dbg a = .ok l) :
    l.offsets.length = a.ids.length := by
  unfold Layout.new at h
  obtain ⟨_, _, h⟩ := bind_eq_ok.1 h
  obtain ⟨_, h1, h⟩ := bind_eq_ok.1 h
  cases h
  unfold Layout.calcOffsets at h1
  obtain ⟨_, _, h1⟩ := bind_eq_ok.1 h1
  cases h1
  show (Layout.offsetsLoop _ _ _).1.length = _
  rw [Layout.offsetsLoop_length, List.length_zip, ha.sizes, ha.aligns, Nat.min_self]

/-- The indices kept by the archetype container are in range. -/
structure Archs.Shape (c : Archs) : Prop where
  llen : c.layouts.length = c.archetypes.length
  plen : c.archPages.length = c.archetypes.length
  tlen : c.pageToArch.length = c.pages.length
  pos : 0 < c.pages.length
  arch : ∀ ai ∈ c.pageToArch, ai = 0 ∨ ai < c.archetypes.length
  even : ∀ (i : Nat) a l, c.archetypes[i]? = some a → c.layouts[i]? = some l →
    a.Even ∧ l.offsets.length = a.ids.length
  listed : ∀ ps ∈ c.archPages, ∀ p ∈ ps, p < c.pages.length

theorem idxSet_ok {α : Type} {v v' : List α} {i : Nat} {x : α} (h : idxSet v i x = .ok v') :
    i < v.length ∧ v' = v.set i x := by
  unfold idxSet at h
  split at h
  · cases h; exact ⟨by assumption, rfl⟩
  · cases h

namespace Archs.Shape
variable {dbg : Bool} {c c' : Archs}

theorem new : Archs.new.Shape where
  llen := rfl
  plen := rfl
  tlen := by simp [Archs.new]
  pos := by simp [Archs.new]
  arch := by intro ai h; exact .inl (List.eq_of_mem_replicate h)
  even := by intro i a l h; simp [Archs.new] at h
  listed := by intro ps h; simp [Archs.new] at h

theorem reserveArchetype {a : Archetype} {i : Nat} (h : c.Shape) (ha : a.Even)
    (hr : c.reserveArchetype dbg a = .ok (c', i)) : c'.Shape ∧ i < c'.archetypes.length ∧ c'.pages = c.pages ∧
      c'.pageToArch = c.pageToArch := by
  unfold Archs.reserveArchetype at hr
  split at hr
  · next j hf =>
    have hj : j < c.archetypes.length := by
      have key : ∀ (l : List Archetype) k j, Archs.findSame a k l = some j → j < k + l.length := by
        intro l
        induction l with
        | nil => intro k j h; cases h
        | cons b l ih =>
          intro k j h
          unfold Archs.findSame at h
          split at h
          · cases h; simp
          · have := ih _ _ h; simp only [List.length_cons]; omega
      have := key _ _ _ hf
      omega
    split at hr <;> cases hr
    · exact ⟨⟨h.llen, h.plen, h.tlen, h.pos, h.arch, h.even, h.listed⟩, hj, rfl, rfl⟩
    · exact ⟨h, hj, rfl, rfl⟩
  · obtain ⟨layout, hl, hr⟩ := bind_eq_ok.1 hr
    have hlen := Layout.new_even ha hl
    split at hr
    · next k hk =>
      obtain ⟨as, h1, hr⟩ := bind_eq_ok.1 hr
      obtain ⟨ls, h2, hr⟩ := bind_eq_ok.1 hr
      cases hr
      obtain ⟨hk1, rfl⟩ := idxSet_ok h1
      obtain ⟨hk2, rfl⟩ := idxSet_ok h2
      refine ⟨⟨?_, ?_, h.tlen, h.pos, ?_, ?_, h.listed⟩, ?_, rfl, rfl⟩
      · simp [h.llen]
      · simp [h.plen]
      · simpa using h.arch
      · intro j b l hb hl'
        dsimp only at hb hl'
        rw [List.getElem?_set] at hb hl'
        by_cases hkj : i = j
        · subst hkj
          simp only [hk1, hk2, if_true, Option.some.injEq] at hb hl'
          subst hb; subst hl'
          exact ⟨ha, hlen⟩
        · rw [if_neg hkj] at hb hl'
          exact h.even j b l hb hl'
      · simpa using hk1
    · cases hr
      refine ⟨⟨?_, ?_, h.tlen, h.pos, ?_, ?_, ?_⟩, ?_, rfl, rfl⟩
      · simp [h.llen]
      · simp [h.plen]
      · intro ai hai
        have := h.arch ai hai
        simp only [List.length_append, List.length_singleton]
        omega
      · intro j b l hb hl'
        dsimp only at hb hl'
        by_cases hj : j < c.archetypes.length
        · rw [List.getElem?_append_left hj] at hb
          rw [List.getElem?_append_left (by rw [h.llen]; exact hj)] at hl'
          exact h.even j b l hb hl'
        · have hjl : j < (c.archetypes ++ [a]).length := (List.getElem?_eq_some_iff.1 hb).1
          have hj' : j = c.archetypes.length := by simp at hjl; omega
          subst hj'
          rw [List.getElem?_append_right (Nat.le_refl _)] at hb
          rw [List.getElem?_append_right (by rw [h.llen]; exact Nat.le_refl _), h.llen] at hl'
          simp only [Nat.sub_self, List.getElem?_cons_zero, Option.some.injEq] at hb hl'
          subst hb; subst hl'
          exact ⟨ha, hlen⟩
      · intro ps hps
        simp only [List.mem_append, List.mem_singleton] at hps
        rcases hps with hps | rfl
        · exact h.listed ps hps
        · simp
      · simp

/-- Only the contents of pages change. -/
theorem setPages (h : c.Shape) {ps : List Page} (hp : ps.length = c.pages.length) : { c with pages := ps }.Shape :=
  ⟨h.llen, h.plen, by rw [hp]; exact h.tlen, by rw [hp]; exact h.pos, h.arch, h.even, by rw [hp]; exact h.listed⟩

theorem reservePage {id i : Nat} {q : Loc} (h : c.Shape) (hi : i < c.archetypes.length)
    (hr : c.reservePage dbg id i = .ok (c', q)) : c'.Shape ∧ q.page < c'.pages.length ∧
      c.pages.length ≤ c'.pages.length ∧ c'.archetypes = c.archetypes ∧ c'.layouts = c.layouts := by
  unfold Archs.reservePage at hr
  obtain ⟨pl, h1, hr⟩ := bind_eq_ok.1 hr
  obtain ⟨o, h2, hr⟩ := bind_eq_ok.1 hr
  split at hr
  · next p =>
    obtain ⟨page, h3, hr⟩ := bind_eq_ok.1 hr
    obtain ⟨⟨page', ix⟩, h4, hr⟩ := bind_eq_ok.1 hr
    cases hr
    have := (List.getElem?_eq_some_iff.1 (idx_ok.1 h3)).1
    exact ⟨h.setPages (by simp), by simpa using this, by simp, rfl, rfl⟩
  · obtain ⟨⟨c1, p⟩, h3, hr⟩ := bind_eq_ok.1 hr
    have hc1 : c1.Shape ∧ c.pages.length ≤ c1.pages.length ∧ c1.archetypes = c.archetypes ∧ c1.layouts = c.layouts := by
      split at h3
      · cases h3
        exact ⟨⟨h.llen, h.plen, h.tlen, h.pos, h.arch, h.even, h.listed⟩, Nat.le_refl _, rfl, rfl⟩
      · obtain ⟨ps, h4, h3⟩ := bind_eq_ok.1 h3
        obtain ⟨pa, h5, h3⟩ := bind_eq_ok.1 h3
        cases h3
        unfold vecInsert at h4 h5
        rw [if_pos (Nat.le_refl _)] at h4
        rw [if_pos (by rw [h.tlen]; exact Nat.le_refl _)] at h5
        cases h4; cases h5
        have e1 : (c.pages.insertIdx c.pages.length Page.new).length = c.pages.length + 1 := by
          rw [List.length_insertIdx_of_le_length (Nat.le_refl _)]
        have e2 : (c.pageToArch.insertIdx c.pages.length i).length = c.pages.length + 1 := by
          rw [List.length_insertIdx_of_le_length (by rw [h.tlen]; exact Nat.le_refl _), h.tlen]
        refine ⟨⟨h.llen, h.plen, by rw [e1, e2], by rw [e1]; omega, ?_, h.even, ?_⟩, by rw [e1]; omega, rfl, rfl⟩
        · intro ai hai
          rcases List.eq_or_mem_of_mem_insertIdx hai with rfl | hm
          · exact .inr hi
          · exact h.arch ai hm
        · intro ps hps p hp
          have := h.listed ps hps p hp
          rw [e1]; omega
    obtain ⟨h0, hle, ha, hl⟩ := hc1
    obtain ⟨layout, h4, hr⟩ := bind_eq_ok.1 hr
    obtain ⟨page, h5, hr⟩ := bind_eq_ok.1 hr
    obtain ⟨pl', h6, hr⟩ := bind_eq_ok.1 hr
    obtain ⟨pa, h7, hr⟩ := bind_eq_ok.1 hr
    obtain ⟨⟨page', ix⟩, h8, hr⟩ := bind_eq_ok.1 hr
    cases hr
    have hp := (List.getElem?_eq_some_iff.1 (idx_ok.1 h5)).1
    unfold idxSet at h7
    split at h7 <;> cases h7
    refine ⟨⟨h0.llen, ?_, ?_, ?_, ?_, h0.even, ?_⟩, ?_, ?_, ha, hl⟩
    · simp [h0.plen]
    · simp [h0.tlen]
    · simpa using h0.pos
    · intro ai hai
      rcases List.mem_or_eq_of_mem_set hai with hm | rfl
      · exact h0.arch ai hm
      · dsimp only; rw [ha]; exact .inr hi
    · intro ps hps p' hp'
      simp only [List.length_set]
      rcases List.mem_or_eq_of_mem_set hps with hm | rfl
      · exact h0.listed ps hm p' hp'
      · rcases List.mem_append.1 hp' with hm | hm
        · exact h0.listed pl' (List.mem_of_getElem? (idx_ok.1 h6)) p' hm
        · rw [List.mem_singleton.1 hm]; exact hp
    · simpa using hp
    · simpa using hle

theorem addEntity {id : Nat} {a : Archetype} {q : Loc} (h : c.Shape) (ha : a.Even)
    (hr : c.addEntity dbg id a = .ok (c', q)) : c'.Shape ∧ q.page < c'.pages.length ∧
      c.pages.length ≤ c'.pages.length ∧ 0 < c'.archetypes.length := by
  unfold Archs.addEntity at hr
  obtain ⟨⟨c1, i⟩, h1, hr⟩ := bind_eq_ok.1 hr
  obtain ⟨k1, k2, k3, _⟩ := h.reserveArchetype ha h1
  obtain ⟨j1, j2, j3, j4, _⟩ := k1.reservePage k2 hr
  exact ⟨j1, j2, by rw [← k3]; exact j3, by rw [j4]; omega⟩

theorem freePage {p : Nat} (h : c.Shape) (hr : c.freePage p = .ok c') :
    c'.Shape ∧ c'.pages = c.pages ∧ c'.archetypes = c.archetypes := by
  unfold Archs.freePage at hr
  obtain ⟨ai, h1, hr⟩ := bind_eq_ok.1 hr
  split at hr
  · cases hr; exact ⟨h, rfl, rfl⟩
  · obtain ⟨pl, h2, hr⟩ := bind_eq_ok.1 hr
    cases hr
    split
    · refine ⟨⟨h.llen, ?_, h.tlen, h.pos, h.arch, h.even, ?_⟩, rfl, rfl⟩
      · simp [h.plen]
      · intro ps hps p' hp'
        rcases List.mem_or_eq_of_mem_set hps with hm | rfl
        · exact h.listed ps hm p' hp'
        · exact h.listed pl (List.mem_of_getElem? (idx_ok.1 h2)) p' (List.mem_of_mem_erase hp')
    · exact ⟨⟨h.llen, h.plen, h.tlen, h.pos, h.arch, h.even, h.listed⟩, rfl, rfl⟩

theorem swapRemoveEntity {q : Loc} {o : Option Nat} (h : c.Shape) (hr : c.swapRemoveEntity q = .ok (c', o)) :
    c'.Shape ∧ c'.pages.length = c.pages.length ∧ c'.archetypes = c.archetypes := by
  unfold Archs.swapRemoveEntity at hr
  obtain ⟨ai, h1, hr⟩ := bind_eq_ok.1 hr
  obtain ⟨pg, h2, hr⟩ := bind_eq_ok.1 hr
  obtain ⟨a, h3, hr⟩ := bind_eq_ok.1 hr
  obtain ⟨l, h4, hr⟩ := bind_eq_ok.1 hr
  obtain ⟨⟨pg', o'⟩, h5, hr⟩ := bind_eq_ok.1 hr
  have h0 : { c with pages := c.pages.set q.page pg' }.Shape := h.setPages (by simp)
  dsimp only at hr
  split at hr
  · obtain ⟨c1, h6, hr⟩ := bind_eq_ok.1 hr
    cases hr
    obtain ⟨k1, k2, k3⟩ := h0.freePage h6
    exact ⟨k1, by rw [k2]; simp, k3⟩
  · cases hr
    exact ⟨h0, by simp, rfl⟩

end Archs.Shape

theorem Archs.copyBetween_length {ps ps' : List Page} {sp so dp d n : Nat}
    (h : Archs.copyBetween ps sp so dp d n = .ok ps') : ps'.length = ps.length := by
  unfold Archs.copyBetween at h
  obtain ⟨_, _, h⟩ := bind_eq_ok.1 h
  obtain ⟨_, _, h⟩ := bind_eq_ok.1 h
  split at h
  · cases h
  · obtain ⟨_, _, h⟩ := bind_eq_ok.1 h
    obtain ⟨_, _, h⟩ := bind_eq_ok.1 h
    cases h; simp

theorem Archs.copyLoop_length {src dst : Loc} {sa da : Archetype} {sl dl : Layout} (l : List (Nat × Nat))
    {ps ps' : List Page} (h : Archs.copyLoop src dst sa da sl dl l ps = .ok ps') : ps'.length = ps.length := by
  induction l generalizing ps with
  | nil => cases h; rfl
  | cons p l ih =>
    unfold Archs.copyLoop at h
    obtain ⟨_, _, h⟩ := bind_eq_ok.1 h
    obtain ⟨_, _, h⟩ := bind_eq_ok.1 h
    obtain ⟨_, _, h⟩ := bind_eq_ok.1 h
    obtain ⟨_, _, h⟩ := bind_eq_ok.1 h
    obtain ⟨_, h1, h⟩ := bind_eq_ok.1 h
    rw [ih h, Archs.copyBetween_length h1]

theorem Archs.Shape.move {dbg : Bool} {c c' : Archs} {id pi : Nat} {prev q : Loc} {a : Archetype} (h : c.Shape)
    (ha : a.Even) (hr : c.moveEntityToOtherArchetype dbg id prev pi a = .ok (c', q)) : c'.Shape ∧
      q.page < c'.pages.length ∧ c.pages.length ≤ c'.pages.length ∧ 0 < c'.archetypes.length := by
  unfold Archs.moveEntityToOtherArchetype at hr
  obtain ⟨⟨c1, i⟩, h1, hr⟩ := bind_eq_ok.1 hr
  dsimp only at hr
  obtain ⟨⟨c2, q'⟩, h2, hr⟩ := bind_eq_ok.1 hr
  dsimp only at hr
  obtain ⟨_, _, hr⟩ := bind_eq_ok.1 hr
  obtain ⟨_, _, hr⟩ := bind_eq_ok.1 hr
  obtain ⟨_, _, hr⟩ := bind_eq_ok.1 hr
  obtain ⟨_, _, hr⟩ := bind_eq_ok.1 hr
  obtain ⟨_, _, hr⟩ := bind_eq_ok.1 hr
  obtain ⟨ps, h3, hr⟩ := bind_eq_ok.1 hr
  cases hr
  obtain ⟨k1, k2, k3, _⟩ := h.reserveArchetype ha h1
  obtain ⟨j1, j2, j3, j4, _⟩ := k1.reservePage k2 h2
  have hlen := Archs.copyLoop_length _ h3
  refine ⟨j1.setPages hlen, ?_, ?_, ?_⟩
  · simpa [hlen] using j2
  · simpa [hlen, ← k3] using j3
  · dsimp only; rw [j4]; omega

theorem assignToRefs_length (rs : List Ref) {vs : List (List UInt8)} {ps ps' : List Page}
    (h : assignToRefs rs vs ps = .ok ps') : ps'.length = ps.length := by
  induction rs generalizing vs ps with
  | nil => cases h; rfl
  | cons r rs ih =>
    cases vs with
    | nil => cases h; rfl
    | cons v vs =>
      unfold assignToRefs at h
      obtain ⟨p1, h1, h⟩ := bind_eq_ok.1 h
      rw [ih h]
      unfold writeRef at h1
      obtain ⟨_, _, h1⟩ := bind_eq_ok.1 h1
      obtain ⟨_, _, h1⟩ := bind_eq_ok.1 h1
      cases h1; simp

theorem Raw.realloc_some {α : Type} {a b : Raw α} {o n : Nat} (h : Raw.realloc a o n = .ok b) {i : Nat} {v : α}
    (hv : b[i]? = some (some v)) : a[i]? = some (some v) := by
  unfold Raw.realloc at h
  split at h
  · cases h; exact hv
  · split at h
    · cases h
    · obtain ⟨_, _, h⟩ := bind_eq_ok.1 h
      cases h
      rw [List.getElem?_append] at hv
      split at hv
      · rw [List.getElem?_take] at hv
        split at hv
        · exact hv
        · cases hv
      · rw [List.getElem?_replicate] at hv
        split at hv <;> cases hv

/-- The indices kept by the store are in range. -/
structure Store.Shape (s : Store) : Prop where
  archs : s.archs.Shape
  row : ∀ (i : Nat) v, s.toPage[i]? = some (some v) → v < s.archs.pages.length
  used : ∀ i, s.hasArch.bit i = true → 0 < s.archs.archetypes.length

namespace Store.Shape
variable {U : Universe} {dbg : Bool} {s s' : Store}

theorem write {a b : Raw Nat} {i v n : Nat} (h : Raw.write a i v = .ok b) (hv : v < n)
    (ha : ∀ (j : Nat) x, a[j]? = some (some x) → x < n) : ∀ (j : Nat) x, b[j]? = some (some x) → x < n := by
  obtain ⟨h1, rfl⟩ := Raw.write_ok.1 h
  intro j x hx
  rw [List.getElem?_set] at hx
  split at hx
  · simp only [Option.some.injEq] at hx
    omega
  · exact ha j x hx

theorem recordRow {id : Nat} {q : Loc} (h : s.Shape) (hq : q.page < s.archs.pages.length)
    (ha : 0 < s.archs.archetypes.length) (hr : s.recordRow id q = .ok s') : s'.Shape := by
  unfold Store.recordRow at hr
  obtain ⟨_, h1, hr⟩ := bind_eq_ok.1 hr
  obtain ⟨_, _, hr⟩ := bind_eq_ok.1 hr
  obtain ⟨_, _, hr⟩ := bind_eq_ok.1 hr
  cases hr
  exact ⟨h.archs, write h1 hq h.row, fun _ _ => ha⟩

theorem setArchs (h : s.Shape) {c : Archs} (hc : c.Shape) (hp : s.archs.pages.length ≤ c.pages.length)
    (ha : s.archs.archetypes.length ≤ c.archetypes.length ∨ 0 < c.archetypes.length) : { s with archs := c }.Shape :=
  ⟨hc, fun i v hv => Nat.lt_of_lt_of_le (h.row i v hv) hp, fun i hi => ha.elim
    (fun ha => Nat.lt_of_lt_of_le (h.used i hi) ha) id⟩

theorem swapRemove {q : Loc} (h : s.Shape) (hr : s.swapRemoveInternal q = .ok s') : s'.Shape := by
  unfold Store.swapRemoveInternal at hr
  obtain ⟨⟨c, info⟩, h1, hr⟩ := bind_eq_ok.1 hr
  obtain ⟨k1, k2, k3⟩ := h.archs.swapRemoveEntity h1
  have h0 : { s with archs := c }.Shape := h.setArchs k1 (by rw [k2]; exact Nat.le_refl _)
    (.inl (by rw [k3]; exact Nat.le_refl _))
  dsimp only at hr
  split at hr
  · obtain ⟨_, _, hr⟩ := bind_eq_ok.1 hr
    cases hr
    exact ⟨h0.archs, h0.row, h0.used⟩
  · cases hr; exact h0

theorem destroyRow {e : Entity} (h : s.Shape) (hr : s.destroyRow e = .ok s') : s'.Shape := by
  unfold Store.destroyRow at hr
  obtain ⟨b, _, hr⟩ := bind_eq_ok.1 hr
  split at hr
  · obtain ⟨q, _, hr⟩ := bind_eq_ok.1 hr
    exact h.swapRemove hr
  · cases hr; exact h

theorem move {e : Entity} {a : Archetype} {q : Loc} (h : s.Shape) (ha : a.Even)
    (hr : s.moveEntityToOtherArchetype dbg e a = .ok (s', q)) : s'.Shape := by
  unfold Store.moveEntityToOtherArchetype at hr
  obtain ⟨p, h1, hr⟩ := bind_eq_ok.1 hr
  obtain ⟨ai, h2, hr⟩ := bind_eq_ok.1 hr
  obtain ⟨⟨c, q'⟩, h3, hr⟩ := bind_eq_ok.1 hr
  dsimp only at hr
  obtain ⟨x, h4, hr⟩ := bind_eq_ok.1 hr
  obtain ⟨y, h5, hr⟩ := bind_eq_ok.1 hr
  obtain ⟨s1, h6, hr⟩ := bind_eq_ok.1 hr
  cases hr
  obtain ⟨k1, k2, k3, k4⟩ := h.archs.move ha h3
  refine swapRemove ?_ h6
  exact ⟨k1, write h4 k2 fun i v hv => Nat.lt_of_lt_of_le (h.row i v hv) k3, fun _ _ => k4⟩

theorem ensure {e : Entity} {ts : List TypeId} {q : Loc} (h : s.Shape)
    (hr : s.ensureComponents U dbg e ts = .ok (s', q)) : s'.Shape := by
  unfold Store.ensureComponents at hr
  obtain ⟨b, h1, hr⟩ := bind_eq_ok.1 hr
  split at hr
  · obtain ⟨p, h2, hr⟩ := bind_eq_ok.1 hr
    obtain ⟨ai, h3, hr⟩ := bind_eq_ok.1 hr
    obtain ⟨a, h4, hr⟩ := bind_eq_ok.1 hr
    split at hr
    · cases hr; exact h
    · obtain ⟨⟨na, bb⟩, h5, hr⟩ := bind_eq_ok.1 hr
      exact h.move (ArchetypeBuilder.build_even h5) hr
  · obtain ⟨a, h2, hr⟩ := bind_eq_ok.1 hr
    obtain ⟨⟨c, q'⟩, h3, hr⟩ := bind_eq_ok.1 hr
    dsimp only at hr
    obtain ⟨s1, h4, hr⟩ := bind_eq_ok.1 hr
    cases hr
    obtain ⟨k1, k2, k3, k4⟩ := h.archs.addEntity (Archetype.withComponents_even h2) h3
    exact (h.setArchs k1 k3 (.inr k4)).recordRow k2 k4 h4

theorem assign (h : s.Shape) {rs : List Ref} {vs : List (List UInt8)} {ps : List Page}
    (hr : assignToRefs rs vs s.archs.pages = .ok ps) : { s with archs := { s.archs with pages := ps } }.Shape := by
  have hl := assignToRefs_length _ hr
  exact ⟨h.archs.setPages hl, by dsimp only; rw [hl]; exact h.row, h.used⟩

theorem added {e : Entity} {vals : TupleVal} (h : s.Shape) (hr : s.addComponents U dbg e vals = .ok s') :
    s'.Shape := by
  unfold Store.addComponents at hr
  obtain ⟨b, h1, hr⟩ := bind_eq_ok.1 hr
  split at hr
  · cases hr; exact h
  · obtain ⟨⟨s1, q⟩, h2, hr⟩ := bind_eq_ok.1 hr
    dsimp only at hr
    obtain ⟨v, h3, hr⟩ := bind_eq_ok.1 hr
    obtain ⟨o, h4, hr⟩ := bind_eq_ok.1 hr
    obtain ⟨pg, h5, hr⟩ := bind_eq_ok.1 hr
    cases hr
    exact (h.ensure h2).assign h5

theorem removed {e : Entity} {ts : List TypeId} (h : s.Shape) (hr : s.removeComponents U dbg e ts = .ok s') :
    s'.Shape := by
  unfold Store.removeComponents at hr
  obtain ⟨b, h1, hr⟩ := bind_eq_ok.1 hr
  split at hr
  · cases hr; exact h
  · obtain ⟨p, h2, hr⟩ := bind_eq_ok.1 hr
    obtain ⟨ai, h3, hr⟩ := bind_eq_ok.1 hr
    obtain ⟨a, h4, hr⟩ := bind_eq_ok.1 hr
    obtain ⟨⟨na, bb⟩, h5, hr⟩ := bind_eq_ok.1 hr
    obtain ⟨⟨s1, q⟩, h6, hr⟩ := bind_eq_ok.1 hr
    cases hr
    exact h.move (ArchetypeBuilder.build_even h5) h6

theorem assigned {e : Entity} {vals : TupleVal} {b : Bool} (h : s.Shape)
    (hr : s.setComponents U dbg e vals = .ok (s', b)) : s'.Shape := by
  unfold Store.setComponents at hr
  obtain ⟨o, h1, hr⟩ := bind_eq_ok.1 hr
  split at hr
  · cases hr; exact h
  · obtain ⟨pg, h2, hr⟩ := bind_eq_ok.1 hr
    cases hr
    exact h.assign h2

theorem register {w : World} (hc : Core s w) (h : s.Shape) (hb : w.issued.length + 1 < u32Size) {e : Entity}
    (hr : s.registerNewEntity dbg = .ok (s', e)) : s'.Shape ∧ s'.archs = s.archs := by
  obtain ⟨s1, e1, h1, _, _, _, h5, _, _, _, _, h10, _, h12, _⟩ := hc.register (dbg := dbg) hb
  rw [h1] at hr
  cases hr
  refine ⟨⟨by rw [h5]; exact h.archs, ?_, fun i hi => ?_⟩, h5⟩
  · rw [h5]
    unfold Store.registerNewEntity at h1
    obtain ⟨⟨en, cr⟩, h2, h1⟩ := bind_eq_ok.1 h1
    dsimp only at h1
    split at h1
    · obtain ⟨s2, h3, h1⟩ := bind_eq_ok.1 h1
      cases h1
      unfold Store.growEntitiesInternal at h3
      obtain ⟨tp, h4, h3⟩ := bind_eq_ok.1 h3
      obtain ⟨_, _, h3⟩ := bind_eq_ok.1 h3
      obtain ⟨_, _, h3⟩ := bind_eq_ok.1 h3
      obtain ⟨_, _, h3⟩ := bind_eq_ok.1 h3
      obtain ⟨_, _, h3⟩ := bind_eq_ok.1 h3
      cases h3
      exact fun i v hv => h.row i v (Raw.realloc_some h4 hv)
    · cases h1
      exact h.row
  · rw [h12] at hi
    rw [h5]; exact h.used i hi

/-- Every returning call keeps the invariant. -/
theorem step {w : World} (hc : Core s w) (h : s.Shape) {ev : Event} (hl : Loose w ev) (hr : Returns U dbg s ev s') :
    s'.Shape := by
  cases ev with
  | created e =>
    simp only [Returns, Store.createEntity] at hr
    obtain ⟨⟨s1, e1⟩, h1, hr⟩ := bind_eq_ok.1 hr
    obtain ⟨b, h2, hr⟩ := bind_eq_ok.1 hr
    cases hr
    obtain ⟨k, _⟩ := register hc h hl h1
    refine ⟨k.archs, k.row, fun i hi => ?_⟩
    dsimp only at h2
    have hlt : e1.id / 32 < s1.hasArch.length := by
      unfold Words.setOff at h2
      split at h2
      · next h => exact (List.getElem?_eq_some_iff.1 h).1
      · cases h2
    obtain ⟨c', k1, _, k3⟩ := Words.setOff_of_lt hlt
    rw [k1] at h2
    cases h2
    simp only [k3, Bool.and_eq_true] at hi
    exact k.used i hi.2
  | createdWith e ts init =>
    obtain ⟨a, ha, _, hr⟩ := hr
    unfold Store.createEntityWithArchetype at hr
    obtain ⟨⟨s1, e1⟩, h1, hr⟩ := bind_eq_ok.1 hr
    obtain ⟨⟨c, q⟩, h3, hr⟩ := bind_eq_ok.1 hr
    dsimp only at hr h3
    obtain ⟨s2, h2, hr⟩ := bind_eq_ok.1 hr
    cases hr
    obtain ⟨k, _⟩ := register hc h hl h1
    obtain ⟨k1, k2, k3, k4⟩ := k.archs.addEntity ha.wf.even h3
    exact (k.setArchs k1 k3 (.inr k4)).recordRow k2 k4 h2
  | destroyed e =>
    simp only [Returns, Store.destroyEntity] at hr
    obtain ⟨s1, h1, hr⟩ := bind_eq_ok.1 hr
    obtain ⟨_, _, hr⟩ := bind_eq_ok.1 hr
    obtain ⟨tg, h2, hr⟩ := bind_eq_ok.1 hr
    obtain ⟨_, _, hr⟩ := bind_eq_ok.1 hr
    cases hr
    have k := h.destroyRow h1
    exact ⟨k.archs, k.row, k.used⟩
  | added e vals => exact h.added hr
  | removed e ts => exact h.removed hr
  | assigned e vals =>
    obtain ⟨b, hr⟩ := hr
    exact h.assigned hr
  | tagged t e => obtain ⟨_, _, hr⟩ := bind_eq_ok.1 hr; cases hr; exact ⟨h.archs, h.row, h.used⟩
  | untagged t e => obtain ⟨_, _, hr⟩ := bind_eq_ok.1 hr; cases hr; exact ⟨h.archs, h.row, h.used⟩
  | orderedLast g e => obtain ⟨_, _, hr⟩ := bind_eq_ok.1 hr; cases hr; exact ⟨h.archs, h.row, h.used⟩
  | orderedAfter g e x => obtain ⟨_, _, hr⟩ := bind_eq_ok.1 hr; cases hr; exact ⟨h.archs, h.row, h.used⟩
  | orderedBefore g e x => obtain ⟨_, _, hr⟩ := bind_eq_ok.1 hr; cases hr; exact ⟨h.archs, h.row, h.used⟩
  | unordered g e => obtain ⟨_, _, hr⟩ := bind_eq_ok.1 hr; cases hr; exact ⟨h.archs, h.row, h.used⟩

end Store.Shape

/-- The invariant holds in every state reached by calls that returned. -/
theorem loose_shape {U : Universe} {dbg : Bool} {cap : Nat} {h : List Event} {s : Store}
    (hx : LooseExec U dbg cap h s) : s.Shape := by
  induction hx with
  | init hs =>
    unfold Store.withCapacity at hs
    obtain ⟨_, _, hs⟩ := bind_eq_ok.1 hs
    cases hs
    refine ⟨.new, fun i v hv => ?_, fun i hi => ?_⟩
    · have : v = 0 := by
        simp only [Raw.allocZeroed, List.getElem?_replicate] at hv
        split at hv <;> cases hv
        rfl
      subst this
      exact Archs.Shape.new.pos
    · rw [Words.bit_alloc] at hi
      cases hi
  | step ev hx hl hr ih => exact ih.step (loose_core hx) hl hr

/-- `get_offsets` on an archetype of the right shape. -/
theorem getOffsets_even {a : Archetype} {l : Layout} (ha : a.Even) (hl : l.offsets.length = a.ids.length)
    (ts : List TypeId) : ∃ o, getOffsets a l ts = .ok o ∧ (o.isSome = true ↔ ∀ t ∈ ts, t ∈ a.ids) := by
  induction ts with
  | nil => exact ⟨_, rfl, by simp⟩
  | cons t ts ih =>
    obtain ⟨o, h1, h2⟩ := ih
    unfold getOffsets Archetype.findComponentIndex
    cases hb : binarySearch a.ids t with
    | notFound j =>
      refine ⟨none, rfl, ?_⟩
      have := binarySearch_notFound_not_mem ha.sorted hb
      simp [this]
    | found i =>
      have hi := binarySearch_found hb
      have hlt := (List.getElem?_eq_some_iff.1 hi).1
      have hm := List.mem_of_getElem? hi
      obtain ⟨x, hx⟩ : ∃ x, l.offsets[i]? = some x := ⟨_, List.getElem?_eq_getElem (by omega)⟩
      simp only [idxUnchecked_of_some hx, h1, ok_bind]
      cases o with
      | none => exact ⟨none, rfl, by simpa [hm] using h2⟩
      | some os => exact ⟨_, rfl, by simpa [hm] using h2⟩

/-- What the store finds for an id with a row, whatever happened before. -/
theorem Store.Shape.found {s : Store} (h : s.Shape) {i : Nat} (hb : s.hasArch.bit i = true) (hr : s.HasRow i) :
    ∃ p x ai a l pg, Raw.read s.toPage i = .ok p ∧ Raw.read s.toIndex i = .ok x ∧ s.archs.pageToArch[p]? = some ai ∧
      s.archs.archetypes[ai]? = some a ∧ s.archs.layouts[ai]? = some l ∧ s.archs.pages[p]? = some pg ∧
      a.Even ∧ l.offsets.length = a.ids.length := by
  obtain ⟨⟨p, hp⟩, ⟨x, hx⟩⟩ := hr
  have hpl := h.row i p hp
  obtain ⟨ai, hai⟩ : ∃ ai, s.archs.pageToArch[p]? = some ai :=
    ⟨_, List.getElem?_eq_getElem (by rw [h.archs.tlen]; exact hpl)⟩
  have hal : ai < s.archs.archetypes.length := by
    have := h.archs.arch ai (List.mem_of_getElem? hai)
    have := h.used i hb
    omega
  obtain ⟨a, ha⟩ : ∃ a, s.archs.archetypes[ai]? = some a := ⟨_, List.getElem?_eq_getElem hal⟩
  obtain ⟨l, hl⟩ : ∃ l, s.archs.layouts[ai]? = some l :=
    ⟨_, List.getElem?_eq_getElem (by rw [h.archs.llen]; exact hal)⟩
  obtain ⟨pg, hpg⟩ : ∃ pg, s.archs.pages[p]? = some pg := ⟨_, List.getElem?_eq_getElem hpl⟩
  obtain ⟨k1, k2⟩ := h.archs.even ai a l ha hl
  exact ⟨p, x, ai, a, l, pg, Raw.read_of_some hp, Raw.read_of_some hx, hai, ha, hl, hpg, k1, k2⟩

/-- `get_entity_archetype` and `get_components_refs` in every state reached by calls that returned. -/
theorem loose_get {U : Universe} {dbg : Bool} {cap : Nat} {h : List Event} {s : Store}
    (hx : LooseExec U dbg cap h s) {e : Entity} (he : e ∈ (world h).issued) :
    (∃ o, s.getEntityArchetype dbg e = .ok o ∧
      (o.isSome = true ↔ e ∈ (world h).live ∧ s.hasArch.bit e.id = true)) ∧
    ∀ ts, ∃ o, s.getComponentsRefs U dbg e ts = .ok o ∧
      (o.isSome = true ↔ e ∈ (world h).live ∧
        ∃ a, s.getEntityArchetype dbg e = .ok (some a) ∧ ∀ t ∈ ts, t ∈ a.ids) := by
  have hc := loose_core hx
  have hlt := hc.ents.issued_id_lt he
  have hal := hc.isAlive (dbg := dbg) hlt
  have hon : s.hasArch.isOn e.id = .ok (s.hasArch.bit e.id) :=
    Words.isOn_of_lt (by rw [hc.blen]; exact Words.div_lt_getLen hlt)
  by_cases hlive : e ∈ (world h).live ∧ s.hasArch.bit e.id = true
  · obtain ⟨p, x, ai, a, l, pg, h1, h2, h3, h4, h5, h6, h7, h8⟩ := (loose_shape hx).found hlive.2 ((hasRow hx).2 _ hlive.2)
    have hga : s.getEntityArchetype dbg e = .ok (some a) := by
      unfold Store.getEntityArchetype Store.isValidEntityWithArchetype
      simp [hal, hlive.1, hon, hlive.2, h1, idx_of_some h3, idx_of_some h4]
    refine ⟨⟨_, hga, by simp [hlive]⟩, fun ts => ?_⟩
    obtain ⟨o, k1, k2⟩ := getOffsets_even h7 h8 ts
    have hgr : s.getComponentsRefs U dbg e ts = .ok (o.map (getRefs U p x ts)) := by
      unfold Store.getComponentsRefs Store.isValidEntityWithArchetype Store.getPageViewUnchecked
      simp only [hal, hlive.1, hon, hlive.2, h1, h2, idxUnchecked_of_some h3, idxUnchecked_of_some h4,
        idxUnchecked_of_some h5, idxUnchecked_of_some h6, ok_bind, pure_ok, decide_true, if_true]
      rw [k1]
      cases o <;> rfl
    refine ⟨_, hgr, ?_⟩
    rw [Option.isSome_map, k2, hga]
    simp [hlive.1]
  · have hga : s.getEntityArchetype dbg e = .ok none := by
      unfold Store.getEntityArchetype Store.isValidEntityWithArchetype
      by_cases h0 : e ∈ (world h).live
      · have : s.hasArch.bit e.id = false := by simpa [h0] using hlive
        simp [hal, h0, hon, this]
      · simp [hal, h0]
    have hgr : ∀ ts, s.getComponentsRefs U dbg e ts = .ok none := by
      intro ts
      unfold Store.getComponentsRefs Store.isValidEntityWithArchetype
      by_cases h0 : e ∈ (world h).live
      · have : s.hasArch.bit e.id = false := by simpa [h0] using hlive
        simp [hal, h0, hon, this]
      · simp [hal, h0]
    refine ⟨⟨_, hga, by simp [hlive]⟩, fun ts => ⟨_, hgr ts, by simp [hga]⟩⟩

/-! ### Which entities have a row -/

theorem hasArch_swapRemove {s s' : Store} {q : Loc} (h : s.swapRemoveInternal q = .ok s') : s'.hasArch = s.hasArch := by
  unfold Store.swapRemoveInternal at h
  obtain ⟨⟨c, info⟩, h1, h⟩ := bind_eq_ok.1 h
  dsimp only at h
  split at h
  · obtain ⟨b, h2, h⟩ := bind_eq_ok.1 h
    cases h; rfl
  · cases h; rfl

theorem hasArch_destroyRow {s s' : Store} {e : Entity} (h : s.destroyRow e = .ok s') : s'.hasArch = s.hasArch := by
  unfold Store.destroyRow at h
  obtain ⟨b, h1, h⟩ := bind_eq_ok.1 h
  split at h
  · obtain ⟨q, h2, h⟩ := bind_eq_ok.1 h
    exact hasArch_swapRemove h
  · cases h; rfl

theorem hasArch_move {dbg : Bool} {s s' : Store} {e : Entity} {a : Archetype} {q : Loc}
    (h : s.moveEntityToOtherArchetype dbg e a = .ok (s', q)) : s'.hasArch = s.hasArch := by
  unfold Store.moveEntityToOtherArchetype at h
  obtain ⟨p, h1, h⟩ := bind_eq_ok.1 h
  obtain ⟨ai, h2, h⟩ := bind_eq_ok.1 h
  obtain ⟨⟨c, q'⟩, h3, h⟩ := bind_eq_ok.1 h
  dsimp only at h
  obtain ⟨x, h4, h⟩ := bind_eq_ok.1 h
  obtain ⟨y, h5, h⟩ := bind_eq_ok.1 h
  obtain ⟨s1, h6, h⟩ := bind_eq_ok.1 h
  cases h
  have := hasArch_swapRemove h6
  exact this

theorem hasArch_recordRow {s s' : Store} {id : Nat} {q : Loc} (h : s.recordRow id q = .ok s') (i : Nat) :
    s'.hasArch.bit i = (decide (i = id) || s.hasArch.bit i) := by
  unfold Store.recordRow at h
  obtain ⟨a, h1, h⟩ := bind_eq_ok.1 h
  obtain ⟨b, h2, h⟩ := bind_eq_ok.1 h
  obtain ⟨c, h3, h⟩ := bind_eq_ok.1 h
  cases h
  have hlt : id / 32 < s.hasArch.length := by
    unfold Words.setOn at h3
    split at h3
    · next h => exact (List.getElem?_eq_some_iff.1 h).1
    · cases h3
  obtain ⟨c', k1, _, k3⟩ := Words.setOn_of_lt hlt
  rw [k1] at h3
  cases h3
  exact k3 i

theorem hasArch_ensure {U : Universe} {dbg : Bool} {s s' : Store} {e : Entity} {ts : List TypeId} {q : Loc}
    (h : s.ensureComponents U dbg e ts = .ok (s', q)) (i : Nat) :
    s'.hasArch.bit i = (decide (i = e.id) || s.hasArch.bit i) := by
  unfold Store.ensureComponents at h
  obtain ⟨b, h1, h⟩ := bind_eq_ok.1 h
  split at h
  · next hb =>
    subst hb
    have hbit := (Words.isOn_ok.1 h1).2.symm
    have hs : s'.hasArch = s.hasArch := by
      obtain ⟨p, h2, h⟩ := bind_eq_ok.1 h
      obtain ⟨ai, h3, h⟩ := bind_eq_ok.1 h
      obtain ⟨a, h4, h⟩ := bind_eq_ok.1 h
      split at h
      · cases h; rfl
      · obtain ⟨⟨na, bb⟩, h5, h⟩ := bind_eq_ok.1 h
        exact hasArch_move h
    rw [hs]
    by_cases hi : i = e.id
    · subst hi; simp [hbit]
    · simp [hi]
  · obtain ⟨a, h2, h⟩ := bind_eq_ok.1 h
    obtain ⟨⟨c, q'⟩, h3, h⟩ := bind_eq_ok.1 h
    dsimp only at h
    obtain ⟨s1, h4, h⟩ := bind_eq_ok.1 h
    cases h
    have := hasArch_recordRow h4 i
    exact this

theorem hasArch_removed {U : Universe} {dbg : Bool} {s s' : Store} {e : Entity} {ts : List TypeId}
    (h : s.removeComponents U dbg e ts = .ok s') : s'.hasArch = s.hasArch := by
  unfold Store.removeComponents at h
  obtain ⟨b, h1, h⟩ := bind_eq_ok.1 h
  split at h
  · cases h; rfl
  · obtain ⟨p, h2, h⟩ := bind_eq_ok.1 h
    obtain ⟨ai, h3, h⟩ := bind_eq_ok.1 h
    obtain ⟨a, h4, h⟩ := bind_eq_ok.1 h
    obtain ⟨⟨na, bb⟩, h5, h⟩ := bind_eq_ok.1 h
    obtain ⟨⟨s1, q⟩, h6, h⟩ := bind_eq_ok.1 h
    cases h
    exact hasArch_move h6

theorem hasArch_assigned {U : Universe} {dbg : Bool} {s s' : Store} {e : Entity} {vals : TupleVal} {b : Bool}
    (h : s.setComponents U dbg e vals = .ok (s', b)) : s'.hasArch = s.hasArch := by
  unfold Store.setComponents at h
  obtain ⟨o, h1, h⟩ := bind_eq_ok.1 h
  split at h
  · cases h; rfl
  · obtain ⟨pg, h2, h⟩ := bind_eq_ok.1 h
    cases h; rfl

/-- `is_alive` only returns for ids within the capacity. -/
theorem Core.isAlive_lt {dbg : Bool} {s : Store} {w : World} (hc : Core s w) {e : Entity} {b : Bool}
    (h : s.isAlive dbg e = .ok b) : e.id < s.ents.capacity := by
  unfold Store.isAlive Ents.isAlive at h
  obtain ⟨_, _, h⟩ := bind_eq_ok.1 h
  obtain ⟨v, h1, h⟩ := bind_eq_ok.1 h
  unfold Ents.validateVersion at h1
  obtain ⟨x, h2, h1⟩ := bind_eq_ok.1 h1
  rw [← hc.ents.vlen]
  exact (List.getElem?_eq_some_iff.1 (Raw.read_ok.1 h2)).1

/-- Only issued entities were given components, and the archetype bit of a live entity tells whether it was. -/
theorem given_bit {U : Universe} {dbg : Bool} {cap : Nat} {h : List Event} {s : Store} (hx : LooseExec U dbg cap h s) :
    (∀ e ∈ given h, e ∈ handles h) ∧ ∀ e ∈ alive h, (s.hasArch.bit e.id = true ↔ e ∈ given h) := by
  induction hx with
  | init hs => exact ⟨by simp [given], by simp [alive]⟩
  | @step h s s' ev hx hl hr ih =>
    obtain ⟨ih1, ih2⟩ := ih
    have hc := loose_core hx
    cases ev with
    | created e =>
      simp only [Returns, Store.createEntity] at hr
      obtain ⟨⟨s1, e1⟩, h1, hr⟩ := bind_eq_ok.1 hr
      obtain ⟨b, h2, hr⟩ := bind_eq_ok.1 hr
      cases hr
      obtain ⟨s2, e2, k1, _, k3, k4, _, _, _, _, k9, _, _, k12, _⟩ := hc.register (dbg := dbg) hl
      rw [h1] at k1
      cases k1
      rw [← handles_eq] at k3
      rw [← alive_eq] at k4
      have hlt : e1.id / 32 < s1.hasArch.length := by
        dsimp only at h2
        unfold Words.setOff at h2
        split at h2
        · next h => exact (List.getElem?_eq_some_iff.1 h).1
        · cases h2
      obtain ⟨c', j1, _, j3⟩ := Words.setOff_of_lt hlt
      dsimp only at h2
      rw [j1] at h2
      cases h2
      refine ⟨fun x hx => List.mem_cons_of_mem _ (ih1 x hx), fun x hx => ?_⟩
      show _ ↔ x ∈ given h
      rcases List.mem_cons.1 hx with rfl | hx
      · simp only [j3, Bool.false_and, Bool.false_eq_true, false_iff, decide_true, Bool.not_true]
        exact fun hg => k3 (ih1 _ hg)
      · simp only [j3, k12, k4 x hx, Bool.true_and, decide_false, Bool.not_false]
        exact ih2 x hx
    | createdWith e ts init =>
      obtain ⟨a, _, _, hr⟩ := hr
      unfold Store.createEntityWithArchetype at hr
      obtain ⟨⟨s1, e1⟩, h1, hr⟩ := bind_eq_ok.1 hr
      obtain ⟨⟨c, q⟩, _, hr⟩ := bind_eq_ok.1 hr
      dsimp only at hr
      obtain ⟨s2, h2, hr⟩ := bind_eq_ok.1 hr
      cases hr
      obtain ⟨s3, e3, k1, _, k3, k4, _, _, _, _, k9, _, _, k12, _⟩ := hc.register (dbg := dbg) hl
      rw [h1] at k1
      cases k1
      rw [← handles_eq] at k3
      rw [← alive_eq] at k4
      have hb := hasArch_recordRow h2
      refine ⟨fun x hx => ?_, fun x hx => ?_⟩
      · rcases List.mem_cons.1 hx with rfl | hx
        · exact List.mem_cons_self
        · exact List.mem_cons_of_mem _ (ih1 x hx)
      · rw [hb]
        dsimp only
        rw [k12]
        rcases List.mem_cons.1 hx with rfl | hx
        · simp [given]
        · have hne : x ≠ e := fun h => k4 x hx (by rw [h])
          simp only [k4 x hx, decide_false, Bool.false_or, given, List.mem_cons, hne, false_or]
          exact ih2 x hx
    | destroyed e =>
      simp only [Returns, Store.destroyEntity] at hr
      obtain ⟨s1, h1, hr⟩ := bind_eq_ok.1 hr
      obtain ⟨_, _, hr⟩ := bind_eq_ok.1 hr
      obtain ⟨tg, h2, hr⟩ := bind_eq_ok.1 hr
      obtain ⟨_, _, hr⟩ := bind_eq_ok.1 hr
      cases hr
      refine ⟨ih1, fun x hx => ?_⟩
      dsimp only
      rw [hasArch_destroyRow h1]
      exact ih2 x (List.mem_of_mem_erase hx)
    | added e vals =>
      have hi : ∀ x, x ∈ alive h → x ∈ handles h := fun x hx => by
        rw [alive_eq] at hx; rw [handles_eq]; exact hc.ents.sub x hx
      have hal := fun (hlt : e.id < s.ents.capacity) => hc.isAlive (dbg := dbg) hlt
      unfold Returns Store.addComponents at hr
      obtain ⟨b, h1, hr⟩ := bind_eq_ok.1 hr
      split at hr
      · next hb =>
        cases hr
        have hd : e ∉ alive h := by
          intro he
          rw [alive_eq] at he
          rw [hal (hc.ents.id_lt he)] at h1
          cases h1
          simp [he] at hb
        have hg : given (.added e vals :: h) = given h := by simp [given, hd]
        rw [hg]
        exact ⟨ih1, ih2⟩
      · next hb =>
        obtain ⟨⟨s1, q⟩, h2, hr⟩ := bind_eq_ok.1 hr
        dsimp only at hr
        obtain ⟨v, h3, hr⟩ := bind_eq_ok.1 hr
        obtain ⟨o, h4, hr⟩ := bind_eq_ok.1 hr
        obtain ⟨pg, h5, hr⟩ := bind_eq_ok.1 hr
        cases hr
        have hbit := hasArch_ensure h2
        have hd : e ∈ alive h := by
          have hlt := hc.isAlive_lt h1
          rw [hal hlt] at h1
          cases h1
          rw [alive_eq]
          simpa using hb
        refine ⟨fun x hx => ?_, fun x hx => ?_⟩
        · simp only [given, hd, if_true, List.mem_cons] at hx
          rcases hx with rfl | hx
          · exact hi _ hd
          · exact ih1 x hx
        · dsimp only
          rw [hbit]
          have hxe : x.id = e.id ↔ x = e := by
            have hx' : x ∈ alive h := hx
            rw [alive_eq] at hx' hd
            exact ⟨hc.inj x hx' e hd, fun h => by rw [h]⟩
          simp only [given, hd, if_true, List.mem_cons, Bool.or_eq_true, decide_eq_true_eq, hxe]
          exact or_congr Iff.rfl (ih2 x hx)
    | removed e ts => have := hasArch_removed hr; exact ⟨ih1, by rw [this]; exact ih2⟩
    | assigned e vals =>
      obtain ⟨b, hr⟩ := hr
      have := hasArch_assigned hr
      exact ⟨ih1, by rw [this]; exact ih2⟩
    | tagged t e => obtain ⟨_, _, hr⟩ := bind_eq_ok.1 hr; cases hr; exact ⟨ih1, ih2⟩
    | untagged t e => obtain ⟨_, _, hr⟩ := bind_eq_ok.1 hr; cases hr; exact ⟨ih1, ih2⟩
    | orderedLast g e => obtain ⟨_, _, hr⟩ := bind_eq_ok.1 hr; cases hr; exact ⟨ih1, ih2⟩
    | orderedAfter g e x => obtain ⟨_, _, hr⟩ := bind_eq_ok.1 hr; cases hr; exact ⟨ih1, ih2⟩
    | orderedBefore g e x => obtain ⟨_, _, hr⟩ := bind_eq_ok.1 hr; cases hr; exact ⟨ih1, ih2⟩
    | unordered g e => obtain ⟨_, _, hr⟩ := bind_eq_ok.1 hr; cases hr; exact ⟨ih1, ih2⟩

end Ecs
