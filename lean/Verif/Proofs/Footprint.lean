import Verif.Proofs.BuildUp
import Verif.Proofs.Leftovers
import Verif.Spec.Footprint

/-! Which bytes of the pages the functions of the store write. -/

namespace Ecs
open Spec

/-- The contents of a byte. -/
def byteIn (ps : List Page) (p x : Nat) : Cell :=
  match ps[p]? with
  | some pg => pg.data x
  | none => none

/-- At most the bytes in `W` differ. -/
def Only (W : Nat → Nat → Prop) (ps ps' : List Page) : Prop := ∀ p x, byteIn ps' p x ≠ byteIn ps p x → W p x

namespace Only
variable {W W' : Nat → Nat → Prop} {ps ps' ps'' : List Page}

theorem refl (W : Nat → Nat → Prop) (ps : List Page) : Only W ps ps := fun _ _ h => absurd rfl h

theorem trans (h : Only W ps ps') (h' : Only W ps' ps'') : Only W ps ps'' := fun p x hne => by
  by_cases he : byteIn ps' p x = byteIn ps p x
  · exact h' p x (by rw [he]; exact hne)
  · exact h p x he

theorem mono (h : Only W ps ps') (hw : ∀ p x, W p x → W' p x) : Only W' ps ps' := fun p x hne => hw p x (h p x hne)

/-- One page gets other contents. -/
theorem set {p : Nat} {pg pg' : Page} (hp : ps[p]? = some pg) :
    Only (fun p' x => p' = p ∧ pg'.data x ≠ pg.data x) ps (ps.set p pg') := by
  intro p' x hne
  unfold byteIn at hne
  by_cases he : p = p'
  · subst he
    rw [List.getElem?_set_self (List.getElem?_eq_some_iff.1 hp).1, hp] at hne
    exact ⟨rfl, hne⟩
  · rw [List.getElem?_set_ne he] at hne
    exact absurd rfl hne

theorem ofMemory {c c' : Archs} (h : SameMemory c c') : Only (fun _ _ => False) c.pages c'.pages := by
  intro p x hne
  have := h p
  unfold Archs.memory at this
  unfold byteIn at hne
  cases h1 : c.pages[p]? <;> cases h2 : c'.pages[p]? <;> simp [h1, h2] at this hne
  · exact hne (by rw [this])
  · exact hne (by rw [this])

end Only

theorem writeBytes_only {d d' : Bytes} {a : Nat} {bs : List Cell} (h : writeBytes d a bs = .ok d') {x : Nat} (hne : d' x ≠ d x) :
    a ≤ x ∧ x < a + bs.length := by
  unfold writeBytes at h
  split at h
  · cases h
    dsimp only at hne
    split at hne
    · assumption
    · exact absurd rfl hne
  · cases h

theorem readBytes_length {d : Bytes} {a n : Nat} {bs : List Cell} (h : readBytes d a n = .ok bs) : bs.length = n := by
  unfold readBytes at h
  split at h
  · cases h; simp
  · cases h

/-- Byte `x` belongs to component `t` in row `n`, of pages with archetype `a` and layout `l`. -/
def Slot (U : Universe) (a : Archetype) (l : Layout) (n : Nat) (t : TypeId) (x : Nat) : Prop :=
  ∃ k o : Nat, a.ids[k]? = some t ∧ l.offsets[k]? = some o ∧ o + n * U.size t ≤ x ∧ x < o + n * U.size t + U.size t

theorem size_at {U : Universe} {a : Archetype} (hw : a.WF U) {k z : Nat} (h : a.sizes[k]? = some z) :
    ∃ t, a.ids[k]? = some t ∧ U.size t = z := by
  rw [hw.sizes, List.getElem?_map] at h
  cases hk : a.ids[k]? with
  | none => simp [hk] at h
  | some t => exact ⟨t, rfl, by simpa [hk] using h⟩

theorem moveLoop_only {U : Universe} {a : Archetype} {l : Layout} (hw : a.WF U) {src dst : Nat} :
    ∀ {is : List Nat} {d d' : Bytes}, Page.moveLoop a l src dst is d = .ok d' → ∀ x, d' x ≠ d x → ∃ t, Slot U a l dst t x
  | [], d, d', h, x, hne => by
    cases h
    exact absurd rfl hne
  | i :: is, d, d', h, x, hne => by
    unfold Page.moveLoop at h
    obtain ⟨z, h1, h⟩ := bind_eq_ok.1 h
    obtain ⟨o, h2, h⟩ := bind_eq_ok.1 h
    obtain ⟨d1, h3, h⟩ := bind_eq_ok.1 h
    by_cases he : d1 x = d x
    · exact moveLoop_only hw h x (by rw [he]; exact hne)
    · obtain ⟨t, k1, rfl⟩ := size_at hw (idxUnchecked_ok.1 h1)
      unfold Page.copyWithin at h3
      obtain ⟨bs, h4, h3⟩ := bind_eq_ok.1 h3
      split at h3
      · cases h3
      · have := writeBytes_only h3 he
        rw [readBytes_length h4] at this
        exact ⟨t, i, o, k1, idxUnchecked_ok.1 h2, this⟩

theorem copyLoop_only {U : Universe} {sa da : Archetype} {sl dl : Layout} (hw : da.WF U) {src dst : Loc} :
    ∀ {l : List (Nat × Nat)} {ps ps' : List Page}, Archs.copyLoop src dst sa da sl dl l ps = .ok ps' →
      Only (fun p x => p = dst.page ∧ ∃ t, Slot U da dl dst.index t x) ps ps'
  | [], ps, ps', h => by
    cases h
    exact .refl _ _
  | (si, di) :: l, ps, ps', h => by
    unfold Archs.copyLoop at h
    obtain ⟨_, _, h⟩ := bind_eq_ok.1 h
    obtain ⟨_, _, h⟩ := bind_eq_ok.1 h
    obtain ⟨o, h1, h⟩ := bind_eq_ok.1 h
    obtain ⟨z, h2, h⟩ := bind_eq_ok.1 h
    obtain ⟨ps1, h3, h⟩ := bind_eq_ok.1 h
    refine Only.trans ?_ (copyLoop_only hw h)
    obtain ⟨t, k1, rfl⟩ := size_at hw (idxUnchecked_ok.1 h2)
    unfold Archs.copyBetween at h3
    obtain ⟨_, _, h3⟩ := bind_eq_ok.1 h3
    obtain ⟨bs, h4, h3⟩ := bind_eq_ok.1 h3
    split at h3
    · cases h3
    · obtain ⟨dp, h5, h3⟩ := bind_eq_ok.1 h3
      obtain ⟨d, h6, h3⟩ := bind_eq_ok.1 h3
      cases h3
      refine (Only.set (idx_ok.1 h5)).mono ?_
      rintro p x ⟨rfl, hne⟩
      have := writeBytes_only h6 hne
      rw [readBytes_length h4] at this
      exact ⟨rfl, t, di, o, k1, idxUnchecked_ok.1 h1, this⟩

theorem offsetsUnchecked_at {a : Archetype} {l : Layout} (hw : Incr a.ids) :
    ∀ {ts os : List Nat}, getOffsetsUnchecked a l ts = .ok os →
      List.Forall₂ (fun t o => ∃ k : Nat, a.ids[k]? = some t ∧ l.offsets[k]? = some o) ts os
  | [], os, h => by cases h; exact .nil
  | t :: ts, os, h => by
    unfold getOffsetsUnchecked at h
    split at h
    · cases h
    · next i hi =>
      obtain ⟨o, h1, h⟩ := bind_eq_ok.1 h
      obtain ⟨os', h2, h⟩ := bind_eq_ok.1 h
      cases h
      exact .cons ⟨i, (Archetype.findComponentIndex_iff hw).1 hi, idxUnchecked_ok.1 h1⟩ (offsetsUnchecked_at hw h2)

theorem offsets_at {a : Archetype} {l : Layout} (hw : Incr a.ids) :
    ∀ {ts os : List Nat}, getOffsets a l ts = .ok (some os) →
      List.Forall₂ (fun t o => ∃ k : Nat, a.ids[k]? = some t ∧ l.offsets[k]? = some o) ts os
  | [], os, h => by cases h; exact .nil
  | t :: ts, os, h => by
    unfold getOffsets at h
    split at h
    · cases h
    · next i hi =>
      obtain ⟨o, h1, h⟩ := bind_eq_ok.1 h
      obtain ⟨r, h2, h⟩ := bind_eq_ok.1 h
      cases r with
      | none => cases h
      | some os' =>
        cases h
        exact .cons ⟨i, (Archetype.findComponentIndex_iff hw).1 hi, idxUnchecked_ok.1 h1⟩ (offsets_at hw h2)

theorem assign_only {W : Nat → Nat → Prop} : ∀ {rs : List Ref} {vs : List (List UInt8)} {ps ps' : List Page},
    assignToRefs rs vs ps = .ok ps' →
    List.Forall₂ (fun (r : Ref) (v : List UInt8) => ∀ x, r.off ≤ x → x < r.off + v.length → W r.page x) rs vs → Only W ps ps'
  | [], _, ps, ps', h, _ => by
    unfold assignToRefs at h
    cases h
    exact .refl _ _
  | r :: rs, v :: vs, ps, ps', h, hw => by
    unfold assignToRefs at h
    obtain ⟨ps1, h1, h⟩ := bind_eq_ok.1 h
    cases hw with
    | cons hr hw =>
      refine Only.trans ?_ (assign_only h hw)
      unfold writeRef at h1
      obtain ⟨pg, h2, h1⟩ := bind_eq_ok.1 h1
      obtain ⟨d, h3, h1⟩ := bind_eq_ok.1 h1
      cases h1
      refine (Only.set (idxUnchecked_ok.1 h2)).mono ?_
      rintro p x ⟨rfl, hne⟩
      have := writeBytes_only h3 hne
      rw [List.length_map] at this
      exact hr x this.1 this.2

/-- Assigning values of the right sizes to the components of a row. -/
theorem assign_row {U : Universe} {a : Archetype} {l : Layout} {p n : Nat} {vals : TupleVal} (hok : TupleOk U vals) {os : List Nat}
    (ho : List.Forall₂ (fun t o => ∃ k : Nat, a.ids[k]? = some t ∧ l.offsets[k]? = some o) (vals.map (·.1)) os)
    {ps ps' : List Page} (h : assignToRefs (getRefs U p n (vals.map (·.1)) os) (vals.map (·.2)) ps = .ok ps') :
    Only (fun p' x => p' = p ∧ ∃ t ∈ vals.map (·.1), Slot U a l n t x) ps ps' := by
  refine assign_only h ?_
  have key : ∀ (vs : TupleVal) (os : List Nat), (∀ v ∈ vs, v ∈ vals) →
      List.Forall₂ (fun t o => ∃ k : Nat, a.ids[k]? = some t ∧ l.offsets[k]? = some o) (vs.map (·.1)) os →
      List.Forall₂ (fun (r : Ref) (v : List UInt8) => ∀ x, r.off ≤ x → x < r.off + v.length →
        r.page = p ∧ ∃ t ∈ vals.map (·.1), Slot U a l n t x) (getRefs U p n (vs.map (·.1)) os) (vs.map (·.2)) := by
    intro vs
    induction vs with
    | nil => intro os _ hf; cases hf; exact .nil
    | cons v vs ih =>
      intro os hm hf
      cases hf with
      | cons h0 hf =>
        obtain ⟨k, k1, k2⟩ := h0
        refine .cons ?_ (ih _ (fun v hv => hm v (List.mem_cons_of_mem _ hv)) hf)
        intro x hx1 hx2
        have hv := hm v List.mem_cons_self
        rw [hok.2 v hv] at hx2
        exact ⟨rfl, v.1, List.mem_map_of_mem hv, k, _, k1, k2, hx1, hx2⟩
  exact key vals os (fun v hv => hv) ho

/-- The rows of a page. -/
def rowCount (ps : List Page) (p : Nat) : Nat :=
  match ps[p]? with
  | some pg => pg.ids.items.length
  | none => 0

theorem rowCount_same {ps ps' : List Page} (h : SameIds ps ps') (p : Nat) : rowCount ps' p = rowCount ps p := by
  have := h.items p
  unfold rowCount
  cases h1 : ps[p]? <;> cases h2 : ps'[p]? <;> simp [h1, h2] at this ⊢
  rw [this]

/-- The two containers say the same about which components are in which bytes. -/
structure SameTables (c c' : Archs) : Prop where
  owner : c'.pageToArch = c.pageToArch
  archetypes : c'.archetypes = c.archetypes
  layouts : c'.layouts = c.layouts

/-- Byte `x` of page `p` belongs to component `t` in row `n`. -/
def Col (U : Universe) (c : Archs) (p n : Nat) (t : TypeId) (x : Nat) : Prop :=
  ∃ (ai : Nat) (a : Archetype) (l : Layout), c.pageToArch[p]? = some ai ∧ c.archetypes[ai]? = some a ∧
    c.layouts[ai]? = some l ∧ Slot U a l n t x

theorem SameTables.col {U : Universe} {c c' : Archs} (h : SameTables c c') {p n : Nat} {t : TypeId} {x : Nat} :
    Col U c' p n t x ↔ Col U c p n t x := by
  unfold Col
  rw [h.owner, h.archetypes, h.layouts]

theorem SameTables.trans {c c' c'' : Archs} (h : SameTables c c') (h' : SameTables c' c'') : SameTables c c'' :=
  ⟨h'.owner.trans h.owner, h'.archetypes.trans h.archetypes, h'.layouts.trans h.layouts⟩

theorem col_iff {U : Universe} {s : Store} {p n : Nat} {t : TypeId} {x : Nat} :
    Col U s.archs p n t x ↔ InColumn U s p n t x := by
  constructor
  · rintro ⟨ai, a, l, h1, h2, h3, k, o, h4⟩
    exact ⟨ai, a, l, k, o, h1, h2, h3, h4⟩
  · rintro ⟨ai, a, l, k, o, h1, h2, h3, h4⟩
    exact ⟨ai, a, l, h1, h2, h3, k, o, h4⟩

theorem freePage_tables {c c' : Archs} {p : Nat} (h : c.freePage p = .ok c') : SameTables c c' ∧ c'.pages = c.pages := by
  unfold Archs.freePage at h
  obtain ⟨ai, _, h⟩ := bind_eq_ok.1 h
  split at h
  · cases h; exact ⟨⟨rfl, rfl, rfl⟩, rfl⟩
  · obtain ⟨ps, _, h⟩ := bind_eq_ok.1 h
    cases h
    dsimp only
    split <;> exact ⟨⟨rfl, rfl, rfl⟩, rfl⟩

theorem swapRemoveEntity_only {U : Universe} {c c' : Archs} (hw : ∀ a ∈ c.archetypes, a.WF U) {q : Loc} {o : Option Nat}
    (h : c.swapRemoveEntity q = .ok (c', o)) : SameTables c c' ∧
      Only (fun p x => p = q.page ∧ q.index < rowCount c'.pages p ∧ ∃ t, Col U c p q.index t x) c.pages c'.pages := by
  unfold Archs.swapRemoveEntity at h
  obtain ⟨ai, h1, h⟩ := bind_eq_ok.1 h
  obtain ⟨pg, h2, h⟩ := bind_eq_ok.1 h
  obtain ⟨a, h3, h⟩ := bind_eq_ok.1 h
  obtain ⟨l, h4, h⟩ := bind_eq_ok.1 h
  obtain ⟨⟨pg', o'⟩, h5, h⟩ := bind_eq_ok.1 h
  dsimp only at h
  have ht : SameTables c c' ∧ c'.pages = c.pages.set q.page pg' := by
    split at h
    · obtain ⟨c1, h6, h⟩ := bind_eq_ok.1 h
      cases h
      obtain ⟨k1, k2⟩ := freePage_tables h6
      exact ⟨⟨k1.owner, k1.archetypes, k1.layouts⟩, k2⟩
    · cases h
      exact ⟨⟨rfl, rfl, rfl⟩, rfl⟩
  refine ⟨ht.1, ?_⟩
  rw [ht.2]
  refine (Only.set (idx_ok.1 h2)).mono ?_
  rintro p x ⟨rfl, hne⟩
  have hlt := (List.getElem?_eq_some_iff.1 (idx_ok.1 h2)).1
  refine ⟨rfl, ?_⟩
  unfold Page.swapRemoveEntityAtIndex at h5
  obtain ⟨ids, h7, h5⟩ := bind_eq_ok.1 h5
  dsimp only at h5
  split at h5
  · next hi =>
    obtain ⟨pg1, h8, h5⟩ := bind_eq_ok.1 h5
    obtain ⟨_, _, h5⟩ := bind_eq_ok.1 h5
    cases h5
    unfold Page.moveComponentData at h8
    obtain ⟨d, h9, h8⟩ := bind_eq_ok.1 h8
    cases h8
    refine ⟨?_, ?_⟩
    · unfold rowCount
      rw [List.getElem?_set_self hlt]
      exact hi
    · obtain ⟨t, ht⟩ := moveLoop_only (hw a (List.mem_of_getElem? (idx_ok.1 h3))) h9 x hne
      exact ⟨t, ai, a, l, idx_ok.1 h1, idx_ok.1 h3, idx_ok.1 h4, ht⟩
  · cases h5
    exact absurd rfl hne

theorem rowCount_zero {c : Archs} {p : Nat} (h : c.row ⟨p, 0⟩ = none) : rowCount c.pages p = 0 := by
  unfold Archs.row at h
  unfold rowCount
  cases hp : c.pages[p]? with
  | none => rfl
  | some pg => simpa [hp] using h

/-- Where `reserve_page` puts a new row. -/
theorem reservePage_lands {dbg : Bool} {c c' : Archs} {id i : Nat} {q : Loc} (hu : c.Use) (hs : c.Shape)
    (h : c.reservePage dbg id i = .ok (c', q)) :
    c'.pageToArch[q.page]? = some i ∧ c'.archetypes = c.archetypes ∧ c'.layouts = c.layouts ∧
      q.index = rowCount c.pages q.page := by
  unfold Archs.reservePage at h
  obtain ⟨pl, h1, h⟩ := bind_eq_ok.1 h
  obtain ⟨o, h2, h⟩ := bind_eq_ok.1 h
  have hpl := idx_ok.1 h1
  split at h
  · next p =>
    obtain ⟨page, h3, h⟩ := bind_eq_ok.1 h
    obtain ⟨⟨page', ix⟩, h4, h⟩ := bind_eq_ok.1 h
    cases h
    obtain ⟨hm, _⟩ := Archs.mem_of_findFreePage h2
    obtain ⟨_, rfl⟩ := Archs.Use.addEntityId_items h4
    refine ⟨hu.owner i pl p hpl (List.mem_reverse.1 hm), rfl, rfl, ?_⟩
    unfold rowCount
    rw [idx_ok.1 h3]
  · obtain ⟨⟨c1, p⟩, h3, h⟩ := bind_eq_ok.1 h
    dsimp only at h
    obtain ⟨layout, h4, h⟩ := bind_eq_ok.1 h
    obtain ⟨page, h5, h⟩ := bind_eq_ok.1 h
    obtain ⟨pl', h6, h⟩ := bind_eq_ok.1 h
    obtain ⟨pa, h7, h⟩ := bind_eq_ok.1 h
    obtain ⟨⟨page', ix⟩, h8, h⟩ := bind_eq_ok.1 h
    cases h
    obtain ⟨_, _, k3, _, k5⟩ := hu.take hs hpl h3
    obtain ⟨m1, rfl⟩ := idxSet_ok h7
    obtain ⟨_, rfl⟩ := Archs.Use.addEntityId_items h8
    have hem := k5 page (idx_ok.1 h5)
    have ht : c1.archetypes = c.archetypes ∧ c1.layouts = c.layouts := by
      cases hl : c.freePages.getLast? with
      | some p' =>
        rw [hl] at h3
        cases h3
        exact ⟨rfl, rfl⟩
      | none =>
        rw [hl] at h3
        obtain ⟨_, _, h3⟩ := bind_eq_ok.1 h3
        obtain ⟨_, _, h3⟩ := bind_eq_ok.1 h3
        cases h3
        exact ⟨rfl, rfl⟩
    refine ⟨List.getElem?_set_self m1, ht.1, ht.2, ?_⟩
    rw [Archs.Use.setLayout_items, hem]
    refine (rowCount_zero ?_).symm
    rw [← k3]
    unfold Archs.row
    rw [idx_ok.1 h5]
    simp [hem]

/-- `move_entity_to_other_archetype` of the container writes the new row. -/
theorem archsMove_only {U : Universe} {dbg : Bool} {c c' : Archs} {id pi : Nat} {prev q : Loc} {a : Archetype} (hu : c.Use)
    (hs : c.Shape) (ha : a.WF U) (hk : c.Known U dbg) (h : c.moveEntityToOtherArchetype dbg id prev pi a = .ok (c', q)) :
    Only (fun p x => p = q.page ∧ ∃ t, Col U c' p q.index t x) c.pages c'.pages ∧ q.index = rowCount c.pages q.page ∧
      ∀ b ∈ c'.archetypes, b.WF U := by
  unfold Archs.moveEntityToOtherArchetype at h
  obtain ⟨⟨c1, i⟩, h1, h⟩ := bind_eq_ok.1 h
  dsimp only at h
  obtain ⟨⟨c2, q'⟩, h2, h⟩ := bind_eq_ok.1 h
  dsimp only at h
  obtain ⟨_, _, h⟩ := bind_eq_ok.1 h
  obtain ⟨_, _, h⟩ := bind_eq_ok.1 h
  obtain ⟨pa, h3, h⟩ := bind_eq_ok.1 h
  obtain ⟨ply, h4, h⟩ := bind_eq_ok.1 h
  obtain ⟨nl, h5, h⟩ := bind_eq_ok.1 h
  obtain ⟨ps, h6, h⟩ := bind_eq_ok.1 h
  cases h
  obtain ⟨k1, k2, k3, k4⟩ := reservePage_lands (hu.reserveArchetype h1) (hs.reserveArchetype ha.even h1).1 h2
  have hp1 : c1.pages = c.pages := (hs.reserveArchetype ha.even h1).2.2.1
  have hk1 := hk.reserveArchetype ha h1
  rw [hp1] at k4
  refine ⟨?_, k4, ?_⟩
  · have e1 : Only (fun p x => p = q.page ∧ ∃ t, Col U { c2 with pages := ps } p q.index t x) c.pages c2.pages := by
      rw [← hp1]
      exact (Only.ofMemory (reservePage_memory h2)).mono fun _ _ h => h.elim
    refine e1.trans ((copyLoop_only ha h6).mono ?_)
    rintro p x ⟨rfl, t, ht⟩
    refine ⟨rfl, t, i, a, nl, k1, ?_, idx_ok.1 h5, ht⟩
    show c2.archetypes[i]? = some a
    rw [k2]
    exact hk1.2
  · show ∀ b ∈ c2.archetypes, b.WF U
    rw [k2]
    exact hk1.1.wf

section
variable {U : Universe} {dbg : Bool} {s s' : Store}

/-- The bytes of the row at which the entity arrives, and of the row that it leaves if the last row takes its place. -/
def Moved (U : Universe) (s s' : Store) (id : Nat) (p x : Nat) : Prop :=
  (∃ n t, s'.toPage[id]? = some (some p) ∧ n = rowCount s.archs.pages p ∧ Col U s'.archs p n t x) ∨
    ∃ n t, Pos s.toPage s.toIndex id ⟨p, n⟩ ∧ s.hasArch.bit id = true ∧ n < rowCount s'.archs.pages p ∧ Col U s'.archs p n t x

theorem swapRemove_only (hw : ∀ a ∈ s.archs.archetypes, a.WF U) {q : Loc} (h : s.swapRemoveInternal q = .ok s') :
    s'.toPage = s.toPage ∧ SameTables s.archs s'.archs ∧
      Only (fun p x => p = q.page ∧ q.index < rowCount s'.archs.pages p ∧ ∃ t, Col U s'.archs p q.index t x) s.archs.pages
        s'.archs.pages := by
  unfold Store.swapRemoveInternal at h
  obtain ⟨⟨c, o⟩, h1, h⟩ := bind_eq_ok.1 h
  obtain ⟨k1, k2⟩ := swapRemoveEntity_only hw h1
  have key : s'.archs = c ∧ s'.toPage = s.toPage := by
    dsimp only at h
    cases o with
    | none => cases h; exact ⟨rfl, rfl⟩
    | some i =>
      obtain ⟨_, _, h⟩ := bind_eq_ok.1 h
      cases h; exact ⟨rfl, rfl⟩
  obtain ⟨rfl, e2⟩ := key
  exact ⟨e2, k1, k2.mono fun p x ⟨j1, j2, t, j3⟩ => ⟨j1, j2, t, k1.col.2 j3⟩⟩

theorem storeMove_only (hu : s.archs.Use) (hs : s.archs.Shape) (hk : s.archs.Known U dbg) {e : Entity} {a : Archetype} (ha : a.WF U)
    {q : Loc} (hb : s.hasArch.bit e.id = true) (h : s.moveEntityToOtherArchetype dbg e a = .ok (s', q)) :
    s'.toPage[e.id]? = some (some q.page) ∧ q.index = rowCount s.archs.pages q.page ∧
      Only (Moved U s s' e.id) s.archs.pages s'.archs.pages := by
  unfold Store.moveEntityToOtherArchetype at h
  obtain ⟨prev, h1, h⟩ := bind_eq_ok.1 h
  obtain ⟨ai, h2, h⟩ := bind_eq_ok.1 h
  obtain ⟨⟨c, q'⟩, h3, h⟩ := bind_eq_ok.1 h
  dsimp only at h
  obtain ⟨tp, h4, h⟩ := bind_eq_ok.1 h
  obtain ⟨ti, h5, h⟩ := bind_eq_ok.1 h
  obtain ⟨s1, h6, h⟩ := bind_eq_ok.1 h
  cases h
  obtain ⟨k1, k2, k3⟩ := archsMove_only hu hs ha hk h3
  obtain ⟨m1, m2, m3⟩ := swapRemove_only (s := { s with archs := c, toPage := tp, toIndex := ti }) k3 h6
  have hp : s'.toPage[e.id]? = some (some q.page) := by
    rw [m1]
    obtain ⟨j1, rfl⟩ := Raw.write_ok.1 h4
    exact List.getElem?_set_self j1
  refine ⟨hp, k2, Only.trans (k1.mono ?_) (m3.mono ?_)⟩
  · rintro p x ⟨rfl, t, ht⟩
    exact .inl ⟨q.index, t, hp, k2, m2.col.2 ht⟩
  · rintro p x ⟨rfl, hlt, t, ht⟩
    exact .inr ⟨prev.index, t, Store.Rows.getLoc h1, hb, hlt, ht⟩

theorem ensure_only (hs : s.archs.Shape) (hk : s.archs.Known U dbg) (hu : s.archs.Use) {e : Entity} {ts : List TypeId}
    (hn : ts.Nodup) {q : Loc} (h : s.ensureComponents U dbg e ts = .ok (s', q)) :
    (s' = s ∧ Pos s.toPage s.toIndex e.id q ∧ s.hasArch.bit e.id = true) ∨
      (s'.toPage[e.id]? = some (some q.page) ∧ q.index = rowCount s.archs.pages q.page ∧
        Only (Moved U s s' e.id) s.archs.pages s'.archs.pages) := by
  unfold Store.ensureComponents at h
  obtain ⟨b, h1, h⟩ := bind_eq_ok.1 h
  have hb := (Words.isOn_ok.1 h1).2
  split at h
  · next hbt =>
    have hb := hb.symm.trans hbt
    obtain ⟨p, h2, h⟩ := bind_eq_ok.1 h
    obtain ⟨ai, h3, h⟩ := bind_eq_ok.1 h
    obtain ⟨a, h4, h⟩ := bind_eq_ok.1 h
    split at h
    · cases h
      exact .inl ⟨rfl, Store.Rows.getLoc h2, hb⟩
    · obtain ⟨⟨na, bb⟩, h5, h⟩ := bind_eq_ok.1 h
      obtain ⟨a', bb', k1, k2, _⟩ := built_union (hk.wf a (List.mem_of_getElem? (idxUnchecked_ok.1 h4))) ts
      rw [k1] at h5
      cases h5
      exact .inr (storeMove_only hu hs hk k2 hb h)
  · obtain ⟨a, h2, h⟩ := bind_eq_ok.1 h
    obtain ⟨⟨c, q'⟩, h3, h⟩ := bind_eq_ok.1 h
    dsimp only at h
    obtain ⟨s1, h4, h⟩ := bind_eq_ok.1 h
    cases h
    right
    have hwf : a.WF U := Built.wf (.tuple _ hn h2)
    unfold Archs.addEntity at h3
    obtain ⟨⟨c1, i⟩, h5, h3⟩ := bind_eq_ok.1 h3
    obtain ⟨_, _, _, k4⟩ := reservePage_lands (hu.reserveArchetype h5) (hs.reserveArchetype hwf.even h5).1 h3
    have hp1 : c1.pages = s.archs.pages := (hs.reserveArchetype hwf.even h5).2.2.1
    rw [hp1] at k4
    unfold Store.recordRow at h4
    obtain ⟨tp, h6, h4⟩ := bind_eq_ok.1 h4
    obtain ⟨_, _, h4⟩ := bind_eq_ok.1 h4
    obtain ⟨_, _, h4⟩ := bind_eq_ok.1 h4
    cases h4
    obtain ⟨j1, rfl⟩ := Raw.write_ok.1 h6
    refine ⟨List.getElem?_set_self j1, k4, ?_⟩
    rw [← hp1]
    exact (Only.ofMemory (reservePage_memory h3)).mono fun _ _ h => h.elim

theorem atRow {c : Archs} {q : Loc} {id : Nat} (h : c.row q = some id) :
    ∃ pg, c.pages[q.page]? = some pg ∧ pg.ids.items[q.index]? = some id := by
  unfold Archs.row at h
  cases hp : c.pages[q.page]? with
  | none => simp [hp] at h
  | some pg => exact ⟨pg, rfl, by simpa [hp] using h⟩

/-- What `Moved` says of a live entity. -/
theorem moved_mayWrite {e : Entity} {p x : Nat} (hrow : ∀ q, Pos s.toPage s.toIndex e.id q → s.hasArch.bit e.id = true →
      s.archs.row q = some e.id)
    (hm : Moved U s s' e.id p x) : ∃ n t, InColumn U s' p n t x ∧ (Arrives s s' e p n ∨ Vacates s s' e p n) := by
  rcases hm with ⟨n, t, h1, h2, h3⟩ | ⟨n, t, h1, h2, h3, h4⟩
  · exact ⟨n, t, col_iff.1 h3, .inl ⟨h1, h2⟩⟩
  · refine ⟨n, t, col_iff.1 h4, .inr ⟨⟨h1.page, h1.index, ?_⟩, h3⟩⟩
    exact atRow (hrow _ h1 h2)

/-- The rows that a call may write are at most two. -/
theorem mayWrite_rows (s s' : Store) (ev : Event) : ∃ rows : List (Nat × Nat), rows.length ≤ 2 ∧
    ∀ p n t, MayWrite s s' p n t ev → (p, n) ∈ rows := by
  have at' : ∀ (s : Store) (e : Entity), ∃ l : List (Nat × Nat), l.length ≤ 1 ∧ ∀ p n, RowOf s e p n → (p, n) ∈ l := by
    intro s e
    by_cases hr : ∃ p n, RowOf s e p n
    · obtain ⟨p, n, h1, h2, _⟩ := hr
      refine ⟨[(p, n)], by simp, ?_⟩
      rintro p' n' ⟨k1, k2, _⟩
      rw [h1] at k1; rw [h2] at k2
      cases k1; cases k2
      simp
    · exact ⟨[], by simp, fun p n h => absurd ⟨p, n, h⟩ hr⟩
  have arr : ∀ (e : Entity), ∃ l : List (Nat × Nat), l.length ≤ 1 ∧ ∀ p n, Arrives s s' e p n → (p, n) ∈ l := by
    intro e
    by_cases hr : ∃ p n, Arrives s s' e p n
    · obtain ⟨p, n, h1, rfl⟩ := hr
      refine ⟨[(p, rowsOn s p)], by simp, ?_⟩
      rintro p' n' ⟨k1, rfl⟩
      rw [h1] at k1
      cases k1
      simp
    · exact ⟨[], by simp, fun p n h => absurd ⟨p, n, h⟩ hr⟩
  obtain ⟨l, h1, h2⟩ := at' s (match ev with
    | .added e _ => e | .removed e _ => e | .destroyed e => e | .assigned e _ => e | _ => ⟨0, 0⟩)
  obtain ⟨l', h3, h4⟩ := arr (match ev with
    | .added e _ => e | .removed e _ => e | _ => ⟨0, 0⟩)
  refine ⟨l ++ l', by simp; omega, ?_⟩
  intro p n t hm
  rw [List.mem_append]
  cases ev with
  | added e vals =>
    rcases hm with hm | hm | hm
    · exact .inr (h4 p n hm)
    · exact .inl (h2 p n hm.1)
    · exact .inl (h2 p n hm.1)
  | removed e ts =>
    rcases hm with hm | hm
    · exact .inr (h4 p n hm)
    · exact .inl (h2 p n hm.1)
  | destroyed e => exact .inl (h2 p n hm.1)
  | assigned e vals => exact .inl (h2 p n hm.1)
  | _ => exact hm.elim

/-- References have the sizes of their types. -/
theorem refs_sizes {e : Entity} {ts : List TypeId} {refs : List Ref} (h : s.getComponentsRefs U dbg e ts = .ok (some refs)) :
    List.Forall₂ (fun t (r : Ref) => r.size = U.size t) ts refs := by
  unfold Store.getComponentsRefs at h
  obtain ⟨b, _, h⟩ := bind_eq_ok.1 h
  split at h
  · obtain ⟨p, _, h⟩ := bind_eq_ok.1 h
    obtain ⟨v, _, h⟩ := bind_eq_ok.1 h
    obtain ⟨n, _, h⟩ := bind_eq_ok.1 h
    obtain ⟨o, h1, h⟩ := bind_eq_ok.1 h
    cases o with
    | none => cases h
    | some os =>
      cases h
      have key : ∀ (ts os : List Nat), getOffsets v.archetype v.layout ts = .ok (some os) →
          List.Forall₂ (fun t (r : Ref) => r.size = U.size t) ts (getRefs U p n ts os) := by
        intro ts
        induction ts with
        | nil => intro os h; cases h; exact .nil
        | cons t ts ih =>
          intro os h
          unfold getOffsets at h
          split at h
          · cases h
          · obtain ⟨o, _, h⟩ := bind_eq_ok.1 h
            obtain ⟨r, h2, h⟩ := bind_eq_ok.1 h
            cases r with
            | none => cases h
            | some os' =>
              cases h
              exact .cons rfl (ih os' h2)
      exact key ts os h1
  · cases h

/-- Assigning values of the right sizes through references. -/
theorem set_only {vals : TupleVal} (hok : TupleOk U vals) {refs : List Ref}
    (hs : List.Forall₂ (fun t (r : Ref) => r.size = U.size t) (vals.map (·.1)) refs) {ps ps' : List Page}
    (h : assignToRefs refs (vals.map (·.2)) ps = .ok ps') :
    Only (fun p x => ∃ r ∈ refs, r.page = p ∧ r.off ≤ x ∧ x < r.off + r.size) ps ps' := by
  refine assign_only h ?_
  have key : ∀ (vs : TupleVal) (rs : List Ref), (∀ v ∈ vs, v ∈ vals) → (∀ r ∈ rs, r ∈ refs) →
      List.Forall₂ (fun t (r : Ref) => r.size = U.size t) (vs.map (·.1)) rs →
      List.Forall₂ (fun (r : Ref) (v : List UInt8) => ∀ x, r.off ≤ x → x < r.off + v.length →
        ∃ r' ∈ refs, r'.page = r.page ∧ r'.off ≤ x ∧ x < r'.off + r'.size) rs (vs.map (·.2)) := by
    intro vs
    induction vs with
    | nil => intro rs _ _ hf; cases hf; exact .nil
    | cons v vs ih =>
      intro rs hm hm' hf
      cases hf with
      | @cons _ r _ rs h0 hf =>
        refine .cons ?_ (ih _ (fun v hv => hm v (List.mem_cons_of_mem _ hv)) (fun r hr => hm' r (List.mem_cons_of_mem _ hr)) hf)
        intro x hx1 hx2
        rw [hok.2 v (hm v List.mem_cons_self), ← h0] at hx2
        exact ⟨r, hm' r List.mem_cons_self, rfl, hx1, hx2⟩
  exact key vals refs (fun _ h => h) (fun _ h => h) hs

end
end Ecs
