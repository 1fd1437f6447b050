import Verif.Spec.Reassign
import Verif.Proofs.Together
import Mathlib.Data.List.Perm.Subperm

/-! Assigning components again: equalities of stores. -/

namespace Ecs
open Spec Archs

/-! ### Assignments of any length -/

/-- The reference is in one of `n` pages, and the value ends within it. -/
def Lands (n : Nat) (x : Ref × List UInt8) : Prop := x.1.page < n ∧ x.1.off + x.2.length ≤ PAGE_SIZE

theorem writeRef_iff {pages pages' : List Page} {x : Ref × List UInt8} :
    writeRef pages x.1 x.2 = .ok pages' ↔ Lands pages.length x ∧ pages' = patchRef pages x := by
  unfold writeRef patchRef Lands
  constructor
  · intro h
    obtain ⟨p, h1, h⟩ := bind_eq_ok.1 h
    obtain ⟨d, h2, h⟩ := bind_eq_ok.1 h
    cases h
    rw [idxUnchecked_ok] at h1
    unfold writeBytes at h2
    split at h2
    · rename_i hle
      cases h2
      rw [List.length_map] at hle
      exact ⟨⟨(List.getElem?_eq_some_iff.1 h1).1, hle⟩, by rw [h1]; rfl⟩
    · cases h2
  · rintro ⟨⟨h1, h2⟩, rfl⟩
    have hp := List.getElem?_eq_getElem h1
    rw [idxUnchecked_of_some hp, ok_bind, writeBytes_of (by rw [List.length_map]; exact h2), hp]
    rfl

theorem assignToRefs_iff {rs : List Ref} {vs : List (List UInt8)} {pages pages' : List Page} :
    assignToRefs rs vs pages = .ok pages' ↔ (∀ x ∈ rs.zip vs, Lands pages.length x) ∧ pages' = patchAll (rs.zip vs) pages := by
  induction rs generalizing vs pages with
  | nil => cases vs <;> simp [assignToRefs, patchAll, eq_comm]
  | cons r rs ih =>
    cases vs with
    | nil => simp [assignToRefs, patchAll, eq_comm]
    | cons v vs =>
      rw [List.zip_cons_cons]
      show (writeRef pages r v >>= fun p => assignToRefs rs vs p) = _ ↔ _ ∧ _ = patchAll (rs.zip vs) (patchRef pages (r, v))
      constructor
      · intro h
        obtain ⟨p, h1, h2⟩ := bind_eq_ok.1 h
        obtain ⟨h3, rfl⟩ := (writeRef_iff (x := (r, v))).1 h1
        obtain ⟨h4, h5⟩ := ih.1 h2
        rw [patchRef_length] at h4
        exact ⟨List.forall_mem_cons.2 ⟨h3, h4⟩, h5⟩
      · rintro ⟨h1, h2⟩
        obtain ⟨h3, h4⟩ := List.forall_mem_cons.1 h1
        rw [(writeRef_iff (x := (r, v))).2 ⟨h3, rfl⟩, ok_bind]
        exact ih.2 ⟨by rw [patchRef_length]; exact h4, h2⟩

/-! ### Overwriting -/

/-- The address is among those that the assignment writes. -/
def Covers' (x : Ref × List UInt8) (p z : Nat) : Prop := p = x.1.page ∧ x.1.off ≤ z ∧ z < x.1.off + x.2.length

/-- The pages differ only in bytes of `C`. -/
def AgreeOff (C : Nat → Nat → Prop) (pages pages' : List Page) : Prop :=
  List.Forall₂ (fun q q' : Page => q.ids = q'.ids) pages pages' ∧ ∀ p z, ¬ C p z → byteAt pages p z = byteAt pages' p z

theorem AgreeOff.eq {C : Nat → Nat → Prop} {pages pages' : List Page} (h : AgreeOff C pages pages') (hc : ∀ p z, ¬ C p z) :
    pages = pages' := by
  obtain ⟨h1, h2⟩ := h
  apply List.ext_getElem h1.length_eq
  intro i hi hi'
  have h3 := (List.forall₂_iff_get.1 h1).2 i hi hi'
  simp only [List.get_eq_getElem] at h3
  have h4 : (pages[i]).data = (pages'[i]).data := by
    funext z
    have := h2 i z (hc i z)
    unfold byteAt at this
    rwa [List.getElem?_eq_getElem hi, List.getElem?_eq_getElem hi'] at this
  generalize pages[i] = q at h3 h4 ⊢
  generalize pages'[i] = q' at h3 h4 ⊢
  cases q; cases q'; cases h3; cases h4; rfl

theorem ids_patchRef (pages : List Page) (x : Ref × List UInt8) :
    List.Forall₂ (fun q q' : Page => q.ids = q'.ids) (patchRef pages x) pages := by
  unfold patchRef
  split
  · rename_i p hp
    rw [List.forall₂_iff_get]
    refine ⟨List.length_set, fun i h1 h2 => ?_⟩
    simp only [List.get_eq_getElem]
    rw [List.getElem_set]
    split
    · rename_i hi
      subst hi
      rw [(List.getElem?_eq_some_iff.1 hp).2]
    · rfl
  · exact List.forall₂_same.2 fun _ _ => rfl

theorem forall₂_ids_trans {a b c : List Page} (h : List.Forall₂ (fun q q' : Page => q.ids = q'.ids) a b)
    (h' : List.Forall₂ (fun q q' : Page => q.ids = q'.ids) b c) : List.Forall₂ (fun q q' : Page => q.ids = q'.ids) a c := by
  rw [List.forall₂_iff_get] at *
  exact ⟨h.1.trans h'.1, fun i h1 h2 => (h.2 i h1 (h.1 ▸ h1)).trans (h'.2 i _ h2)⟩

theorem forall₂_ids_symm {a b : List Page} (h : List.Forall₂ (fun q q' : Page => q.ids = q'.ids) a b) :
    List.Forall₂ (fun q q' : Page => q.ids = q'.ids) b a := by
  rw [List.forall₂_iff_get] at *
  exact ⟨h.1.symm, fun i h1 h2 => (h.2 i h2 h1).symm⟩

theorem AgreeOff.left {C : Nat → Nat → Prop} {pages pages' : List Page} (h : AgreeOff C pages pages') {x : Ref × List UInt8}
    (hx : x.1.page < pages.length) : AgreeOff (fun p z => C p z ∨ Covers' x p z) (patchRef pages x) pages' := by
  refine ⟨forall₂_ids_trans (ids_patchRef _ _) h.1, fun p z hc => ?_⟩
  rw [byteAt_patchRef hx, if_neg (show ¬ (p = x.1.page ∧ x.1.off ≤ z ∧ z < x.1.off + x.2.length) from fun hh => hc (.inr hh))]
  exact h.2 p z fun hh => hc (.inl hh)

theorem AgreeOff.both {C : Nat → Nat → Prop} {pages pages' : List Page} (h : AgreeOff C pages pages') {x : Ref × List UInt8}
    (hx : x.1.page < pages.length) : AgreeOff (fun p z => C p z ∧ ¬ Covers' x p z) (patchRef pages x) (patchRef pages' x) := by
  refine ⟨forall₂_ids_trans (ids_patchRef _ _) (forall₂_ids_trans h.1 (forall₂_ids_symm (ids_patchRef _ _))), fun p z hc => ?_⟩
  rw [byteAt_patchRef hx, byteAt_patchRef (h.1.length_eq ▸ hx)]
  split
  · rfl
  · rename_i hh
    exact h.2 p z fun h1 => hc ⟨h1, hh⟩

theorem AgreeOff.mono {C D : Nat → Nat → Prop} {pages pages' : List Page} (h : AgreeOff C pages pages') (hd : ∀ p z, C p z → D p z) :
    AgreeOff D pages pages' := ⟨h.1, fun p z hh => h.2 p z fun h1 => hh (hd p z h1)⟩

theorem AgreeOff.leftAll {C : Nat → Nat → Prop} {xs : List (Ref × List UInt8)} {pages pages' : List Page} (h : AgreeOff C pages pages')
    (hx : ∀ x ∈ xs, x.1.page < pages.length) : AgreeOff (fun p z => C p z ∨ ∃ x ∈ xs, Covers' x p z) (patchAll xs pages) pages' := by
  induction xs generalizing C pages with
  | nil => exact h.mono fun p z hh => .inl hh
  | cons x xs ih =>
    obtain ⟨h1, h2⟩ := List.forall_mem_cons.1 hx
    refine (ih (pages := patchRef pages x) (h.left h1) (by rw [patchRef_length]; exact h2)).mono ?_
    rintro p z ((hh | hh) | ⟨y, hy, hh⟩)
    · exact .inl hh
    · exact .inr ⟨x, List.mem_cons_self, hh⟩
    · exact .inr ⟨y, List.mem_cons_of_mem _ hy, hh⟩

theorem AgreeOff.bothAll {C : Nat → Nat → Prop} {xs : List (Ref × List UInt8)} {pages pages' : List Page} (h : AgreeOff C pages pages')
    (hx : ∀ x ∈ xs, x.1.page < pages.length) :
    AgreeOff (fun p z => C p z ∧ ¬ ∃ x ∈ xs, Covers' x p z) (patchAll xs pages) (patchAll xs pages') := by
  induction xs generalizing C pages pages' with
  | nil => exact h.mono fun p z hh => ⟨hh, fun ⟨_, h1, _⟩ => absurd h1 (List.not_mem_nil)⟩
  | cons x xs ih =>
    obtain ⟨h1, h2⟩ := List.forall_mem_cons.1 hx
    refine (ih (pages := patchRef pages x) (pages' := patchRef pages' x) (h.both h1) (by rw [patchRef_length]; exact h2)).mono ?_
    rintro p z ⟨⟨h3, h4⟩, h5⟩
    refine ⟨h3, ?_⟩
    rintro ⟨y, hy, hh⟩
    rcases List.mem_cons.1 hy with rfl | hy
    · exact h4 hh
    · exact h5 ⟨y, hy, hh⟩

/-- Patches at places that are all written again leave nothing. -/
theorem patchAll_overwrite {xs ys : List (Ref × List UInt8)} {pages : List Page} (hx : ∀ x ∈ xs, x.1.page < pages.length)
    (hxy : ∀ x ∈ xs, ∃ y ∈ ys, y.1 = x.1 ∧ y.2.length = x.2.length) (hy : ∀ y ∈ ys, y.1.page < pages.length) :
    patchAll ys (patchAll xs pages) = patchAll ys pages := by
  have h0 : AgreeOff (fun _ _ => False) pages pages :=
    ⟨List.forall₂_same.2 fun _ _ => rfl, fun _ _ _ => rfl⟩
  refine ((h0.leftAll hx).bothAll (xs := ys) (by rw [patchAll_length]; exact hy)).eq ?_
  rintro p z ⟨h1 | ⟨x, hxm, h1⟩, h2⟩
  · exact h1
  · obtain ⟨y, hym, h3, h4⟩ := hxy x hxm
    refine h2 ⟨y, hym, ?_⟩
    unfold Covers' at h1 ⊢
    rw [h3, h4]
    exact h1

theorem patchRef_same {pages : List Page} {r : Ref} {v : List UInt8} (h : readRef pages r = .ok (v.map some)) :
    Lands pages.length (r, v) ∧ v.length = r.size ∧ patchRef pages (r, v) = pages := by
  unfold readRef at h
  obtain ⟨p, h1, h2⟩ := bind_eq_ok.1 h
  rw [idxUnchecked_ok] at h1
  unfold readBytes at h2
  split at h2
  · rename_i hle
    have h3 := Except.ok.inj h2
    have hl : v.length = r.size := by
      have := congrArg List.length h3
      simpa using this.symm
    refine ⟨⟨(List.getElem?_eq_some_iff.1 h1).1, by rw [hl]; exact hle⟩, hl, ?_⟩
    unfold patchRef
    simp only [h1]
    have : patch p.data r.off (v.map some) = p.data := by
      funext z
      unfold patch
      split
      · rename_i hz
        rw [← h3, List.length_map, List.length_range] at hz
        have hlt : z - r.off < r.size := by omega
        rw [← h3, List.getD_eq_getElem?_getD, List.getElem?_map, List.getElem?_range hlt]
        show p.data (r.off + (z - r.off)) = _
        rw [Nat.add_sub_cancel' hz.1]
      · rfl
    rw [this]
    exact List.ext_getElem? fun i => by
      rw [List.getElem?_set]
      split
      · rename_i hi
        subst hi
        split
        · exact h1.symm
        · rename_i hh; exact absurd (List.getElem?_eq_some_iff.1 h1).1 hh
      · rfl
  · cases h2

/-! ### References as a function of the type -/

/-- The offset of the type in the layout. -/
def offsetOf (a : Archetype) (l : Layout) (t : TypeId) : Nat := ((a.findComponentIndex t).bind (l.offsets[·]?)).getD 0

theorem getOffsets_iff {a : Archetype} {l : Layout} {ts os : List Nat} :
    getOffsets a l ts = .ok (some os) ↔
      (∀ t ∈ ts, ∃ i, a.findComponentIndex t = some i ∧ i < l.offsets.length) ∧ os = ts.map (offsetOf a l) := by
  induction ts generalizing os with
  | nil => simp [getOffsets, eq_comm]
  | cons t ts ih =>
    unfold getOffsets
    constructor
    · intro h
      split at h
      · cases h
      · rename_i i hi
        obtain ⟨o, h1, h⟩ := bind_eq_ok.1 h
        obtain ⟨o2, h2, h⟩ := bind_eq_ok.1 h
        cases o2 with
        | none => cases h
        | some os' =>
          cases h
          obtain ⟨h3, h4⟩ := ih.1 h2
          rw [idxUnchecked_ok] at h1
          refine ⟨List.forall_mem_cons.2 ⟨⟨i, hi, (List.getElem?_eq_some_iff.1 h1).1⟩, h3⟩, ?_⟩
          rw [List.map_cons, ← h4]
          unfold offsetOf
          rw [hi, Option.bind_some, h1]
          rfl
    · rintro ⟨h1, rfl⟩
      obtain ⟨⟨i, h2, h3⟩, h4⟩ := List.forall_mem_cons.1 h1
      rw [h2]
      have h5 := List.getElem?_eq_getElem h3
      simp only [idxUnchecked_of_some h5, ok_bind, ih.2 ⟨h4, rfl⟩, List.map_cons]
      unfold offsetOf
      rw [h2, Option.bind_some, h5]
      rfl

theorem getOffsetsUnchecked_of {a : Archetype} {l : Layout} {ts os : List Nat} (h : getOffsets a l ts = .ok (some os)) :
    getOffsetsUnchecked a l ts = .ok os := by
  induction ts generalizing os with
  | nil => cases h; rfl
  | cons t ts ih =>
    unfold getOffsets at h
    unfold getOffsetsUnchecked
    split at h
    · cases h
    · rename_i i hi
      obtain ⟨o, h1, h⟩ := bind_eq_ok.1 h
      obtain ⟨o2, h2, h⟩ := bind_eq_ok.1 h
      cases o2 with
      | none => cases h
      | some os' =>
        cases h
        simp only [h1, ok_bind, ih h2]
        rfl

theorem getRefs_map (U : Universe) (page index : Nat) (ts : List TypeId) (f : TypeId → Nat) :
    getRefs U page index ts (ts.map f) = ts.map fun t => ⟨page, Page.dataPtr index (f t) (U.size t), U.size t⟩ := by
  unfold getRefs
  rw [List.zip_map_right, List.map_map]
  induction ts with
  | nil => rfl
  | cons t ts ih => simpa using ih

variable {U : Universe} {dbg : Bool} {s s' : Store} {e : Entity}

/-- References are a function of the type, and those to fewer types are there as well. -/
theorem refs_function {ts : List TypeId} {refs : List Ref} (h : s.getComponentsRefs U dbg e ts = .ok (some refs)) :
    ∃ F : TypeId → Ref, refs = ts.map F ∧ (∀ t, (F t).size = U.size t) ∧
      ∀ ts', (∀ os, s.getComponentsRefs U dbg e ts' = .ok (some os) → os = ts'.map F) ∧
        ((∀ t ∈ ts', t ∈ ts) → s.getComponentsRefs U dbg e ts' = .ok (some (ts'.map F))) ∧
        ∀ us, s.getComponentsRefs U dbg e ts' = .ok (some us) →
          s.getComponentsRefs U dbg e (ts ++ ts') = .ok (some ((ts ++ ts').map F)) := by
  unfold Store.getComponentsRefs at h ⊢
  obtain ⟨b, h1, h⟩ := bind_eq_ok.1 h
  cases b with
  | false => cases h
  | true =>
    simp only [if_true] at h
    obtain ⟨page, h2, h⟩ := bind_eq_ok.1 h
    obtain ⟨view, h3, h⟩ := bind_eq_ok.1 h
    obtain ⟨index, h4, h⟩ := bind_eq_ok.1 h
    obtain ⟨o, h5, h⟩ := bind_eq_ok.1 h
    simp only [h1, h2, h3, h4, ok_bind, if_true]
    cases o with
    | none => cases h
    | some os =>
      cases h
      obtain ⟨h6, rfl⟩ := getOffsets_iff.1 h5
      refine ⟨fun t => ⟨page, Page.dataPtr index (offsetOf view.archetype view.layout t) (U.size t), U.size t⟩,
        getRefs_map .., fun _ => rfl, fun ts' => ⟨?_, fun hs => ?_, ?_⟩⟩
      · intro os ho
        obtain ⟨o, h7, h8⟩ := bind_eq_ok.1 ho
        cases o with
        | none => cases h8
        | some os' =>
          cases h8
          obtain ⟨-, rfl⟩ := getOffsets_iff.1 h7
          exact getRefs_map ..
      · rw [getOffsets_iff.2 ⟨fun t ht => h6 t (hs t ht), rfl⟩, ok_bind]
        simp only [getRefs_map]
        rfl
      · intro us ho
        obtain ⟨o, h7, h8⟩ := bind_eq_ok.1 ho
        cases o with
        | none => cases h8
        | some os' =>
          obtain ⟨h9, -⟩ := getOffsets_iff.1 h7
          rw [getOffsets_iff.2 ⟨fun t ht => (List.mem_append.1 ht).elim (h6 t) (h9 t), rfl⟩, ok_bind]
          simp only [getRefs_map]
          rfl

theorem zip_tuple (F : TypeId → Ref) (vals : TupleVal) :
    ((vals.map (·.1)).map F).zip (vals.map (·.2)) = vals.map fun x => (F x.1, x.2) := by
  induction vals with
  | nil => rfl
  | cons x xs ih => simpa using ih

/-- What an assignment does. -/
theorem set_iff {vals : TupleVal} : s.setComponents U dbg e vals = .ok (s', true) ↔
    ∃ refs, s.getComponentsRefs U dbg e (vals.map (·.1)) = .ok (some refs) ∧
      (∀ x ∈ refs.zip (vals.map (·.2)), Lands s.archs.pages.length x) ∧
      s' = s.setPages (patchAll (refs.zip (vals.map (·.2))) s.archs.pages) := by
  unfold Store.setComponents
  constructor
  · intro h
    obtain ⟨o, h1, h⟩ := bind_eq_ok.1 h
    cases o with
    | none => cases h
    | some refs =>
      obtain ⟨pages, h2, h⟩ := bind_eq_ok.1 h
      cases h
      obtain ⟨h3, rfl⟩ := assignToRefs_iff.1 h2
      exact ⟨refs, h1, h3, rfl⟩
  · rintro ⟨refs, h1, h2, rfl⟩
    simp only [h1, ok_bind, assignToRefs_iff.2 ⟨h2, rfl⟩]
    rfl

theorem set_false_iff {vals : TupleVal} : s.setComponents U dbg e vals = .ok (s', false) ↔
    s.getComponentsRefs U dbg e (vals.map (·.1)) = .ok none ∧ s' = s := by
  unfold Store.setComponents
  constructor
  · intro h
    obtain ⟨o, h1, h⟩ := bind_eq_ok.1 h
    cases o with
    | none => cases h; exact ⟨h1, rfl⟩
    | some refs =>
      obtain ⟨pages, h2, h⟩ := bind_eq_ok.1 h
      cases h
  · rintro ⟨h1, rfl⟩
    simp only [h1, ok_bind]
    rfl

/-- The same in terms of a function from types to references. -/
theorem set_of_refs {F : TypeId → Ref} {vals : TupleVal}
    (h : s.getComponentsRefs U dbg e (vals.map (·.1)) = .ok (some ((vals.map (·.1)).map F)))
    (hl : ∀ x ∈ vals, Lands s.archs.pages.length (F x.1, x.2)) :
    s.setComponents U dbg e vals = .ok (s.setPages (patchAll (vals.map fun x => (F x.1, x.2)) s.archs.pages), true) := by
  refine set_iff.2 ⟨_, h, ?_, ?_⟩
  · rw [zip_tuple]
    intro x hx
    obtain ⟨y, hy, rfl⟩ := List.mem_map.1 hx
    exact hl y hy
  · rw [zip_tuple]

theorem set_refs {vals : TupleVal} (h : s.setComponents U dbg e vals = .ok (s', true)) :
    ∃ F : TypeId → Ref, s.getComponentsRefs U dbg e (vals.map (·.1)) = .ok (some ((vals.map (·.1)).map F)) ∧
      (∀ t, (F t).size = U.size t) ∧ (∀ x ∈ vals, Lands s.archs.pages.length (F x.1, x.2)) ∧
      s' = s.setPages (patchAll (vals.map fun x => (F x.1, x.2)) s.archs.pages) := by
  obtain ⟨refs, h1, h2, h3⟩ := set_iff.1 h
  obtain ⟨F, rfl, h4, _⟩ := refs_function h1
  rw [zip_tuple] at h2 h3
  exact ⟨F, h1, h4, fun x hx => h2 _ (List.mem_map_of_mem hx), h3⟩

/-! ### Adding components that are there -/

theorem allFound_of {ids ts : List TypeId} (h : ∀ t ∈ ts, ∃ i, binarySearch ids t = .found i) : Archetype.allFound ids ts = true := by
  induction ts with
  | nil => rfl
  | cons t ts ih =>
    obtain ⟨⟨i, h1⟩, h2⟩ := List.forall_mem_cons.1 h
    unfold Archetype.allFound
    rw [h1]
    exact ih h2

theorem included_of {a : Archetype} {ts : List TypeId} (hn : ts.Nodup) (h : ∀ t ∈ ts, ∃ i, a.findComponentIndex t = some i) :
    tupleIncluded ts a = true := by
  have h0 : ∀ t ∈ ts, ∃ i, binarySearch a.ids t = .found i := by
    intro t ht
    obtain ⟨i, hi⟩ := h t ht
    unfold Archetype.findComponentIndex at hi
    split at hi
    · rename_i j hj; exact ⟨j, hj⟩
    · cases hi
  unfold tupleIncluded Archetype.isIncludeIds
  rw [if_neg, allFound_of h0]
  have hsub : ts ⊆ a.ids := by
    intro t ht
    obtain ⟨i, hi⟩ := h0 t ht
    exact List.mem_of_getElem? (binarySearch_found hi)
  exact Nat.not_lt.2 (List.subperm_of_subset hn hsub).length_le

theorem add_is_set {vals : TupleVal} {refs : List Ref} (hn : (vals.map (·.1)).Nodup)
    (h : s.getComponentsRefs U dbg e (vals.map (·.1)) = .ok (some refs)) :
    s.addComponents U dbg e vals = (s.setComponents U dbg e vals).map (·.1) := by
  have hs : s.setComponents U dbg e vals = (do
      let pages ← assignToRefs refs (vals.map (·.2)) s.archs.pages
      return ({ s with archs := { s.archs with pages := pages } }, true)) := by
    unfold Store.setComponents
    simp only [h, ok_bind]
  rw [hs]
  unfold Store.getComponentsRefs at h
  obtain ⟨b, h1, h⟩ := bind_eq_ok.1 h
  cases b with
  | false => cases h
  | true =>
    simp only [if_true] at h
    obtain ⟨page, h2, h⟩ := bind_eq_ok.1 h
    obtain ⟨view, h3, h⟩ := bind_eq_ok.1 h
    obtain ⟨index, h4, h⟩ := bind_eq_ok.1 h
    obtain ⟨o, h5, h⟩ := bind_eq_ok.1 h
    cases o with
    | none => cases h
    | some os =>
      cases h
      unfold Store.isValidEntityWithArchetype at h1
      obtain ⟨al, h6, h1⟩ := bind_eq_ok.1 h1
      cases al with
      | false => cases h1
      | true =>
        simp only [if_true] at h1
        have hview := h3
        unfold Store.getPageViewUnchecked at hview
        obtain ⟨ai, g1, hview⟩ := bind_eq_ok.1 hview
        obtain ⟨a, g2, hview⟩ := bind_eq_ok.1 hview
        obtain ⟨l, g3, hview⟩ := bind_eq_ok.1 hview
        obtain ⟨pg, g4, hview⟩ := bind_eq_ok.1 hview
        cases hview
        have hloc : s.getLocUnchecked e.id = .ok ⟨page, index⟩ := by
          unfold Store.getLocUnchecked
          simp only [h2, h4, ok_bind]
          rfl
        have hens : s.ensureComponents U dbg e (vals.map (·.1)) = .ok (s, ⟨page, index⟩) := by
          unfold Store.ensureComponents
          simp only [h1, ok_bind, if_true, hloc, idx_of_some (idxUnchecked_ok.1 g1), g2]
          rw [included_of hn fun t ht => let ⟨i, hi, _⟩ := (getOffsets_iff.1 h5).1 t ht; ⟨i, hi⟩]
          rfl
        unfold Store.addComponents
        simp only [h6, ok_bind, hens, h3, getOffsetsUnchecked_of h5]
        cases hp : assignToRefs (getRefs U page index (vals.map (·.1)) os) (vals.map (·.2)) s.archs.pages <;> rfl

end Ecs
