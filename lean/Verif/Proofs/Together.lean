import Verif.Spec.Together
import Verif.Spec.Healthy
import Verif.Proofs.Update
import Verif.Proofs.OpaqueStore
import Verif.Proofs.RefsLoose
import Verif.Props.QueryAny

/-! Loops that run at the same time: turns of loops with compatible accesses commute. -/

namespace Ecs
open Spec Archs

/-! ### Reading and writing through references that share no byte -/

/-- The reference lies within one of `n` pages. -/
def InPages (n : Nat) (r : Ref) : Prop := r.page < n ∧ r.off + r.size ≤ PAGE_SIZE

/-- The bytes a reference points to. -/
def cells (pages : List Page) (r : Ref) : List Cell :=
  match pages[r.page]? with
  | some p => (List.range r.size).map fun j => p.data (r.off + j)
  | none => []

/-- The pages after an assignment. -/
def patchRef (pages : List Page) (x : Ref × List UInt8) : List Page :=
  match pages[x.1.page]? with
  | some p => pages.set x.1.page { p with data := patch p.data x.1.off (x.2.map some) }
  | none => pages

/-- A reference within the pages, and a value of its size. -/
def Fitting (n : Nat) (x : Ref × List UInt8) : Prop := InPages n x.1 ∧ x.2.length = x.1.size

theorem patchRef_length (pages : List Page) (x : Ref × List UInt8) : (patchRef pages x).length = pages.length := by
  unfold patchRef; split <;> simp

theorem readRef_of {pages : List Page} {r : Ref} (h : InPages pages.length r) : readRef pages r = .ok (cells pages r) := by
  have hp := List.getElem?_eq_getElem h.1
  unfold readRef cells
  rw [idxUnchecked_of_some hp, ok_bind, readBytes_of h.2, hp]

theorem writeRef_of {pages : List Page} {x : Ref × List UInt8} (h : Fitting pages.length x) :
    writeRef pages x.1 x.2 = .ok (patchRef pages x) := by
  have hp := List.getElem?_eq_getElem h.1.1
  unfold writeRef patchRef
  rw [idxUnchecked_of_some hp, ok_bind, writeBytes_of (by rw [List.length_map, h.2]; exact h.1.2), hp]
  rfl

theorem cells_patchRef {pages : List Page} {x : Ref × List UInt8} {r : Ref} (hl : x.2.length = x.1.size) (ha : Apart r x.1) :
    cells (patchRef pages x) r = cells pages r := by
  unfold patchRef
  split
  · rename_i p hp
    unfold cells
    by_cases hq : r.page = x.1.page
    · have hlt := (List.getElem?_eq_some_iff.1 hp).1
      rw [hq, hp, List.getElem?_set_self hlt]
      apply List.map_congr_left
      intro j hj
      have hj := List.mem_range.1 hj
      show patch p.data x.1.off (x.2.map some) (r.off + j) = p.data (r.off + j)
      unfold patch
      rw [if_neg]
      rw [List.length_map, hl]
      rcases ha with ha | ha | ha
      · exact absurd hq ha
      · omega
      · omega
    · rw [List.getElem?_set_ne (Ne.symm hq)]
  · rfl

theorem patchRef_comm (pages : List Page) {x y : Ref × List UInt8} (hx : x.2.length = x.1.size) (hy : y.2.length = y.1.size)
    (ha : Apart x.1 y.1) : patchRef (patchRef pages x) y = patchRef (patchRef pages y) x := by
  by_cases hq : x.1.page = y.1.page
  · unfold patchRef
    rw [← hq]
    cases hp : pages[x.1.page]? with
    | none => simp [hp]
    | some p =>
      have hlt := (List.getElem?_eq_some_iff.1 hp).1
      simp only [List.getElem?_set_self hlt, List.set_set]
      congr 2
      funext z
      unfold patch
      simp only [List.length_map, hx, hy]
      rcases ha with ha | ha | ha
      · exact absurd hq ha
      · by_cases h1 : x.1.off ≤ z ∧ z < x.1.off + x.1.size <;> by_cases h2 : y.1.off ≤ z ∧ z < y.1.off + y.1.size <;>
          simp only [h1, h2, and_self, if_true, if_false] <;> omega
      · by_cases h1 : x.1.off ≤ z ∧ z < x.1.off + x.1.size <;> by_cases h2 : y.1.off ≤ z ∧ z < y.1.off + y.1.size <;>
          simp only [h1, h2, and_self, if_true, if_false] <;> omega
  · have h1 : ∀ ps : List Page, (patchRef ps x)[y.1.page]? = ps[y.1.page]? := by
      intro ps
      unfold patchRef
      split
      · rw [List.getElem?_set_ne hq]
      · rfl
    have h2 : ∀ ps : List Page, (patchRef ps y)[x.1.page]? = ps[x.1.page]? := by
      intro ps
      unfold patchRef
      split
      · rw [List.getElem?_set_ne (Ne.symm hq)]
      · rfl
    rw [show patchRef (patchRef pages x) y = match pages[y.1.page]? with
        | some p => (patchRef pages x).set y.1.page { p with data := patch p.data y.1.off (y.2.map some) }
        | none => patchRef pages x by rw [← h1 pages]; rfl,
      show patchRef (patchRef pages y) x = match pages[x.1.page]? with
        | some p => (patchRef pages y).set x.1.page { p with data := patch p.data x.1.off (x.2.map some) }
        | none => patchRef pages y by rw [← h2 pages]; rfl]
    unfold patchRef
    cases hp : pages[x.1.page]? <;> cases hp' : pages[y.1.page]? <;> simp only
    rw [List.set_comm _ _ hq]

/-- The pages after several assignments. -/
def patchAll (xs : List (Ref × List UInt8)) (pages : List Page) : List Page := xs.foldl patchRef pages

theorem patchAll_length (xs : List (Ref × List UInt8)) (pages : List Page) : (patchAll xs pages).length = pages.length := by
  induction xs generalizing pages with
  | nil => rfl
  | cons x xs ih =>
    show (patchAll xs (patchRef pages x)).length = _
    rw [ih, patchRef_length]

theorem assignToRefs_of {rs : List Ref} {vs : List (List UInt8)} {pages : List Page}
    (h : ∀ x ∈ rs.zip vs, Fitting pages.length x) : assignToRefs rs vs pages = .ok (patchAll (rs.zip vs) pages) := by
  induction rs generalizing vs pages with
  | nil => cases vs <;> rfl
  | cons r rs ih =>
    cases vs with
    | nil => rfl
    | cons v vs =>
      rw [List.zip_cons_cons] at h
      show (writeRef pages r v >>= fun p => assignToRefs rs vs p) = .ok (patchAll (rs.zip vs) (patchRef pages (r, v)))
      rw [writeRef_of (x := (r, v)) (h _ List.mem_cons_self), ok_bind, ih]
      intro x hx
      rw [patchRef_length]
      exact h _ (List.mem_cons_of_mem _ hx)

theorem cells_patchAll {xs : List (Ref × List UInt8)} {pages : List Page} {r : Ref}
    (h : ∀ x ∈ xs, x.2.length = x.1.size ∧ Apart r x.1) : cells (patchAll xs pages) r = cells pages r := by
  induction xs generalizing pages with
  | nil => rfl
  | cons x xs ih =>
    show cells (patchAll xs (patchRef pages x)) r = _
    rw [ih fun y hy => h y (List.mem_cons_of_mem _ hy)]
    exact cells_patchRef (h x List.mem_cons_self).1 (h x List.mem_cons_self).2

theorem patchAll_patchRef (xs : List (Ref × List UInt8)) (pages : List Page) {y : Ref × List UInt8} (hy : y.2.length = y.1.size)
    (h : ∀ x ∈ xs, x.2.length = x.1.size ∧ Apart x.1 y.1) :
    patchAll xs (patchRef pages y) = patchRef (patchAll xs pages) y := by
  induction xs generalizing pages with
  | nil => rfl
  | cons x xs ih =>
    show patchAll xs (patchRef (patchRef pages y) x) = patchRef (patchAll xs (patchRef pages x)) y
    rw [← patchRef_comm pages (h x List.mem_cons_self).1 hy (h x List.mem_cons_self).2]
    exact ih _ fun z hz => h z (List.mem_cons_of_mem _ hz)

theorem patchAll_comm (xs ys : List (Ref × List UInt8)) (pages : List Page) (hx : ∀ x ∈ xs, x.2.length = x.1.size)
    (hy : ∀ y ∈ ys, y.2.length = y.1.size) (h : ∀ x ∈ xs, ∀ y ∈ ys, Apart x.1 y.1) :
    patchAll xs (patchAll ys pages) = patchAll ys (patchAll xs pages) := by
  induction ys generalizing pages with
  | nil => rfl
  | cons y ys ih =>
    show patchAll xs (patchAll ys (patchRef pages y)) = patchAll ys (patchRef (patchAll xs pages) y)
    rw [ih _ (fun z hz => hy z (List.mem_cons_of_mem _ hz)) fun x hxm z hz => h x hxm z (List.mem_cons_of_mem _ hz),
      patchAll_patchRef xs pages (hy y List.mem_cons_self) fun x hxm => ⟨hx x hxm, h x hxm y List.mem_cons_self⟩]

/-! ### The same patches on pages that agree -/

/-- The byte at an address. -/
def byteAt (pages : List Page) (p z : Nat) : Cell :=
  match pages[p]? with
  | some q => q.data z
  | none => none

/-- The pages have the same bytes where the references of `Own` point to. -/
def AgreeOn (Own : Ref → Prop) (pages pages' : List Page) : Prop :=
  ∀ r, Own r → ∀ z, r.off ≤ z → z < r.off + r.size → byteAt pages r.page z = byteAt pages' r.page z

theorem cells_of_agree {Own : Ref → Prop} {pages pages' : List Page} (h : AgreeOn Own pages pages')
    (hl : pages.length = pages'.length) {r : Ref} (hr : Own r) : cells pages r = cells pages' r := by
  have := h r hr
  unfold byteAt at this
  unfold cells
  cases hp : pages[r.page]? with
  | none =>
    have : pages'[r.page]? = none := by
      rw [List.getElem?_eq_none_iff] at hp ⊢
      omega
    rw [this]
  | some p =>
    have hlt := (List.getElem?_eq_some_iff.1 hp).1
    have hp' : pages'[r.page]? = some (pages'[r.page]'(by omega)) := List.getElem?_eq_getElem (by omega)
    simp only [hp, hp'] at this ⊢
    apply List.map_congr_left
    intro j hj
    have hj := List.mem_range.1 hj
    exact this _ (by omega) (by omega)

theorem byteAt_patchRef {pages : List Page} {x : Ref × List UInt8} {p z : Nat} (hl : x.1.page < pages.length) :
    byteAt (patchRef pages x) p z =
      if p = x.1.page ∧ x.1.off ≤ z ∧ z < x.1.off + x.2.length then (x.2.map some).getD (z - x.1.off) none
      else byteAt pages p z := by
  unfold patchRef
  rw [List.getElem?_eq_getElem hl]
  unfold byteAt
  by_cases hq : p = x.1.page
  · subst hq
    simp only [List.getElem?_set_self hl, List.getElem?_eq_getElem hl, true_and]
    unfold patch
    rw [List.length_map]
  · simp only [List.getElem?_set_ne (Ne.symm hq), hq, false_and, if_false]

theorem AgreeOn.patchAll {Own : Ref → Prop} {pages pages' : List Page} (h : AgreeOn Own pages pages')
    (hl : pages.length = pages'.length) {xs : List (Ref × List UInt8)} (hx : ∀ x ∈ xs, x.1.page < pages.length) :
    AgreeOn Own (patchAll xs pages) (Ecs.patchAll xs pages') := by
  induction xs generalizing pages pages' with
  | nil => exact h
  | cons x xs ih =>
    show AgreeOn Own (Ecs.patchAll xs (patchRef pages x)) (Ecs.patchAll xs (patchRef pages' x))
    refine ih ?_ (by rw [patchRef_length, patchRef_length, hl]) fun y hy => ?_
    · intro r hr z h1 h2
      have := hx x List.mem_cons_self
      rw [byteAt_patchRef this, byteAt_patchRef (hl ▸ this), h r hr z h1 h2]
    · rw [patchRef_length]
      exact hx y (List.mem_cons_of_mem _ hy)

theorem AgreeOn.away {Own : Ref → Prop} {pages pages' : List Page} (h : AgreeOn Own pages pages')
    {xs : List (Ref × List UInt8)} (hx : ∀ x ∈ xs, Fitting pages.length x ∧ ∀ r, Own r → Apart x.1 r) :
    AgreeOn Own (Ecs.patchAll xs pages) pages' := by
  induction xs generalizing pages with
  | nil => exact h
  | cons x xs ih =>
    refine ih (pages := patchRef pages x) ?_ fun y hy => ?_
    · intro r hr z h1 h2
      obtain ⟨h3, h4⟩ := hx x List.mem_cons_self
      rw [byteAt_patchRef h3.1.1, if_neg, h r hr z h1 h2]
      rw [h3.2]
      rcases h4 r hr with h5 | h5 | h5
      · exact fun h6 => h5 h6.1.symm
      · omega
      · omega
    · rw [patchRef_length]
      exact hx y (List.mem_cons_of_mem _ hy)

/-! ### Turns -/

theorem Iter.next_setPages (dbg : Bool) (s : Store) (pages : List Page) (it : Iter) :
    it.next dbg (s.setPages pages) = it.next dbg s := by
  have hf : ∀ bv fuel it, CompIter.nextFiltered dbg (s.setPages pages) bv fuel it = CompIter.nextFiltered dbg s bv fuel it := by
    intro bv fuel
    induction fuel with
    | zero => exact fun _ => rfl
    | succ n ih =>
      intro it
      unfold CompIter.nextFiltered
      simp only [ih]
      rfl
  cases it with
  | tagged bv fuel it => simp only [Iter.next, hf]
  | _ => rfl

/-- Other contents of the same pages. -/
abbrev Like (s : Store) (pages : List Page) : Prop := PagesLike (fun _ _ => True) s.archs.pages pages

theorem Like.len {s : Store} {pages : List Page} (h : Like s pages) : pages.length = s.archs.pages.length :=
  (List.Forall₂.length_eq h).symm

theorem Like.refl (s : Store) : Like s s.archs.pages := List.forall₂_same.2 fun _ _ => ⟨rfl, fun _ => trivial⟩

theorem Like.patchRef {s : Store} {pages : List Page} (h : Like s pages) (x : Ref × List UInt8) : Like s (patchRef pages x) := by
  unfold Ecs.patchRef
  split
  · rename_i p hp
    have hlt := (List.getElem?_eq_some_iff.1 hp).1
    have hp' : s.archs.pages[x.1.page]? = some (s.archs.pages[x.1.page]'(by rw [← h.len]; exact hlt)) := List.getElem?_eq_getElem _
    have := forall₂_set h (i := x.1.page) (a := s.archs.pages[x.1.page]'(by rw [← h.len]; exact hlt))
      (b := { p with data := patch p.data x.1.off (x.2.map some) }) ⟨?_, fun _ => trivial⟩
    · rwa [List.set_getElem_self] at this
    · have := (List.forall₂_iff_get.1 h).2 x.1.page (by rw [← h.len]; exact hlt) hlt
      have h2 := (List.getElem?_eq_some_iff.1 hp).2
      simp only [List.get_eq_getElem, h2] at this
      exact this.ids
  · exact h

theorem Like.patchAll {s : Store} {pages : List Page} (h : Like s pages) (xs : List (Ref × List UInt8)) : Like s (patchAll xs pages) := by
  induction xs generalizing pages with
  | nil => exact h
  | cons x xs ih => exact ih (pages := Ecs.patchRef pages x) (h.patchRef x)

theorem Query.start_like {U : Universe} {dbg : Bool} {s : Store} {pages : List Page} (h : Like s pages) (q : Query) (fuel : Nat) :
    q.start U dbg (s.setPages pages) fuel = q.start U dbg s fuel := by
  have hl : StoreLike (fun _ _ => True) s (s.setPages pages) := .withPages (s := s) h
  cases q with
  | component acc => simp only [start, ← hl.compIter]
  | componentWith acc => simp only [start, ← hl.compIter]
  | tagged t acc => simp only [start, ← hl.compIter]; rfl
  | entities L acc => simp only [start, ← hl.entIter]
  | entitiesWith L acc => simp only [start, ← hl.entIter]
  | ordered g acc => simp only [start, ← hl.ordIter]
  | orderedWith g acc => simp only [start, ← hl.ordIter]

/-- The iterator will return items with `P`. -/
def Yields (dbg : Bool) (s : Store) (P : Item → Prop) (it : Iter) : Prop :=
  ∃ fuel items, drain (Iter.next dbg s) fuel it = .ok items ∧ ∀ item ∈ items, P item

/-- What is left of the loop are items with `P`. -/
def Left {τ : Type} (U : Universe) (dbg : Bool) (fuel : Nat) (s : Store) (q : Query) (P : Item → Prop) (l : Loop τ) : Prop :=
  match l.phase with
  | .waiting => ∃ it, q.start U dbg s fuel = .ok it ∧ Yields dbg s P it
  | .running it => Yields dbg s P it
  | .ended => True

/-- Loops over items of references, none of which touches what another writes. -/
structure Split {ι τ : Type} (n : Nat) (query : ι → Query) (body : ι → Body τ) (P : ι → Item → Prop)
    (Own Wr : ι → Ref → Prop) : Prop where
  own : ∀ {i item}, P i item → ∀ r ∈ item.refs, Own i r
  wr : ∀ {i item}, P i item → ∀ r ∈ item.refs.drop (query i).access.reads.length, Wr i r
  fit : ∀ {i r}, Own i r → InPages n r
  size : ∀ {i item}, P i item → ∀ vs x, ∀ y ∈ (item.refs.drop (query i).access.reads.length).zip (body i item.entity vs x).1, y.2.length = y.1.size
  apart : ∀ {i j}, i ≠ j → ∀ {r r'}, Wr i r → Own j r' → Apart r r'

theorem apart_swap {r r' : Ref} (h : Apart r r') : Apart r' r := by
  rcases h with h | h | h
  · exact .inl (Ne.symm h)
  · exact .inr (.inr h)
  · exact .inr (.inl h)

/-- The assignments of one turn. -/
def patches {τ : Type} (q : Query) (body : Body τ) (item : Item) (pages : List Page) (x : τ) : List (Ref × List UInt8) :=
  (item.refs.drop q.access.reads.length).zip (body item.entity (item.refs.map (cells pages)) x).1

section
variable {ι τ : Type} {query : ι → Query} {body : ι → Body τ} {P : ι → Item → Prop} {Own Wr : ι → Ref → Prop}
  {U : Universe} {dbg : Bool} {fuel n : Nat} {s : Store}

theorem Split.fitting (hs : Split n query body P Own Wr) {i : ι} {item : Item} (hp : P i item)
    (pages : List Page) (x : τ) : ∀ y ∈ patches (query i) (body i) item pages x, Fitting n y := by
  intro y hy
  refine ⟨hs.fit (i := i) (hs.own hp _ ?_), hs.size hp _ _ y hy⟩
  exact List.mem_of_mem_drop (List.of_mem_zip (show (y.1, y.2) ∈ _ from hy)).1

theorem Split.written (hs : Split n query body P Own Wr) {i : ι} {item : Item} (hp : P i item)
    (pages : List Page) (x : τ) : ∀ y ∈ patches (query i) (body i) item pages x, Wr i y.1 :=
  fun y hy => hs.wr hp _ (List.of_mem_zip (show (y.1, y.2) ∈ _ from hy)).1

/-- A turn either does nothing to the store, or assigns to the references of one item. -/
theorem Split.turn (hs : Split s.archs.pages.length query body P Own Wr) {i : ι} {l : Loop τ}
    (hl : Left U dbg fuel s (query i) (P i) l) :
    (∃ l', Left U dbg fuel s (query i) (P i) l' ∧
      ∀ pages, Like s pages → turn U dbg fuel (query i) (body i) (s.setPages pages) l = .ok (s.setPages pages, l')) ∨
    ∃ item it', P i item ∧ (∀ x : τ, Left U dbg fuel s (query i) (P i) ⟨.running it', x⟩) ∧ ∀ pages, Like s pages →
      Ecs.turn U dbg fuel (query i) (body i) (s.setPages pages) l =
        .ok (s.setPages (patchAll (patches (query i) (body i) item pages l.vars) pages),
          ⟨.running it', (body i item.entity (item.refs.map (cells pages)) l.vars).2⟩) := by
  obtain ⟨phase, x⟩ := l
  cases phase with
  | ended => exact .inl ⟨_, hl, fun _ _ => rfl⟩
  | waiting =>
    obtain ⟨it, h1, h2⟩ := hl
    refine .inl ⟨⟨.running it, x⟩, h2, fun pages hp => ?_⟩
    unfold Ecs.turn
    simp only [Query.start_like hp, h1, ok_bind]
    rfl
  | running it =>
    obtain ⟨fuel', items, h1, h2⟩ := hl
    cases fuel' with
    | zero => cases h1
    | succ fuel' =>
      unfold drain at h1
      obtain ⟨⟨o, it'⟩, h3, h1⟩ := bind_eq_ok.1 h1
      cases o with
      | none =>
        refine .inl ⟨⟨.ended, x⟩, trivial, fun pages _ => ?_⟩
        unfold Ecs.turn
        simp only [Iter.next_setPages, h3, ok_bind]
        rfl
      | some item =>
        obtain ⟨rest, h4, h1⟩ := bind_eq_ok.1 h1
        cases h1
        have hp := h2 item List.mem_cons_self
        refine .inr ⟨item, it', hp, fun x => ?_, fun pages hlike => ?_⟩
        · exact ⟨fuel', rest, h4, fun r hr => h2 r (List.mem_cons_of_mem _ hr)⟩
        · have hlen := hlike.len
          unfold Ecs.turn
          simp only [Iter.next_setPages, h3, ok_bind]
          have h5 : item.refs.mapM (readRef pages) = .ok (item.refs.map (cells pages)) :=
            mapM_of_forall fun r hr => readRef_of (by rw [hlen]; exact hs.fit (hs.own hp r hr))
          have h6 := assignToRefs_of (rs := item.refs.drop (query i).access.reads.length) (vs := (body i item.entity (item.refs.map (cells pages)) x).1) (pages := pages)
            (by rw [hlen]; exact hs.fitting hp pages x)
          rw [show (s.setPages pages).archs.pages = pages from rfl, h5, ok_bind, h6, ok_bind]
          rfl

end

section
variable {ι τ : Type} [DecidableEq ι] {query : ι → Query} {body : ι → Body τ} {P : ι → Item → Prop}
  {Own Wr : ι → Ref → Prop} {U : Universe} {dbg : Bool} {fuel : Nat} {s : Store}

/-- A state in which all loops are in order. -/
def Fine (U : Universe) (dbg : Bool) (fuel : Nat) (query : ι → Query) (s : Store) (P : ι → Item → Prop) (s' : Store)
    (l : ι → Loop τ) : Prop :=
  (∃ pages, s' = s.setPages pages ∧ Like s pages) ∧ ∀ i, Left U dbg fuel s (query i) (P i) (l i)

theorem left_update {l : ι → Loop τ} (hl : ∀ i, Left U dbg fuel s (query i) (P i) (l i)) {i : ι} {r : Loop τ}
    (hr : Left U dbg fuel s (query i) (P i) r) (j : ι) : Left U dbg fuel s (query j) (P j) (if j = i then r else l j) := by
  by_cases hj : j = i
  · subst hj; rw [if_pos rfl]; exact hr
  · rw [if_neg hj]; exact hl j

theorem Split.step (hs : Split s.archs.pages.length query body P Own Wr) {s' : Store} {l : ι → Loop τ}
    (h : Fine U dbg fuel query s P s' l) (i : ι) :
    ∃ s'' r, Ecs.turn U dbg fuel (query i) (body i) s' (l i) = .ok (s'', r) ∧
      Fine U dbg fuel query s P s'' fun j => if j = i then r else l j := by
  obtain ⟨⟨pages, rfl, hp⟩, hl⟩ := h
  rcases hs.turn (hl i) with ⟨l', h1, h2⟩ | ⟨item, it', h1, h2, h3⟩
  · exact ⟨_, _, h2 pages hp, ⟨pages, rfl, hp⟩, left_update hl h1⟩
  · exact ⟨_, _, h3 pages hp, ⟨_, rfl, hp.patchAll _⟩, left_update hl (h2 _)⟩

theorem Split.together_ok (hs : Split s.archs.pages.length query body P Own Wr) (turns : List ι) {s' : Store}
    {l : ι → Loop τ} (h : Fine U dbg fuel query s P s' l) :
    ∃ s'' l', together U dbg fuel query body turns s' l = .ok (s'', l') ∧ Fine U dbg fuel query s P s'' l' := by
  induction turns generalizing s' l with
  | nil => exact ⟨_, _, rfl, h⟩
  | cons i turns ih =>
    obtain ⟨s1, r, h1, h2⟩ := hs.step h i
    obtain ⟨s2, l2, h3, h4⟩ := ih h2
    refine ⟨s2, l2, ?_, h4⟩
    unfold together
    rw [h1, ok_bind]
    exact h3

/-- Turns of two different loops commute. -/
theorem Split.swap (hs : Split s.archs.pages.length query body P Own Wr) {i j : ι} (hij : i ≠ j) {s' : Store}
    {l : ι → Loop τ} (h : Fine U dbg fuel query s P s' l) :
    together U dbg fuel query body [i, j] s' l = together U dbg fuel query body [j, i] s' l := by
  obtain ⟨⟨pages, rfl, hp⟩, hl⟩ := h
  have hcomm : ∀ (a b : Loop τ), (fun k => if k = j then b else if k = i then a else l k) =
      fun k => if k = i then a else if k = j then b else l k := by
    intro a b
    funext k
    by_cases h1 : k = j
    · have : k ≠ i := fun h => hij (h ▸ h1)
      simp [h1, hij.symm]
    · simp [h1]
  simp only [together, if_neg hij, if_neg hij.symm]
  rcases hs.turn (hl i) with ⟨li, _, i2⟩ | ⟨item, it, i1, _, i3⟩ <;>
  rcases hs.turn (hl j) with ⟨lj, _, j2⟩ | ⟨item', it', j1, _, j3⟩
  · simp only [i2 pages hp, j2 pages hp, ok_bind, hcomm]
  · simp only [i2 pages hp, j3 pages hp, ok_bind, hcomm]
    rw [i2 _ (hp.patchAll _)]
    simp only [ok_bind, hcomm]
  · simp only [j2 pages hp, i3 pages hp, ok_bind, hcomm]
    rw [j2 _ (hp.patchAll _)]
    simp only [ok_bind, hcomm]
  · have e1 : ∀ x : τ, item.refs.map (cells (patchAll (patches (query j) (body j) item' pages x) pages)) = item.refs.map (cells pages) := by
      intro x
      refine List.map_congr_left fun r hr => cells_patchAll fun y hy => ⟨(hs.fitting j1 pages x y hy).2, ?_⟩
      exact apart_swap (hs.apart hij.symm (hs.written j1 pages x y hy) (hs.own i1 r hr))
    have e2 : ∀ x : τ, item'.refs.map (cells (patchAll (patches (query i) (body i) item pages x) pages)) = item'.refs.map (cells pages) := by
      intro x
      refine List.map_congr_left fun r hr => cells_patchAll fun y hy => ⟨(hs.fitting i1 pages x y hy).2, ?_⟩
      exact apart_swap (hs.apart hij (hs.written i1 pages x y hy) (hs.own j1 r hr))
    have e3 : ∀ x y : τ, patches (query i) (body i) item (patchAll (patches (query j) (body j) item' pages x) pages) y =
          patches (query i) (body i) item pages y := by
      intro x y
      rw [patches, e1, ← patches]
    have e4 : ∀ x y : τ, patches (query j) (body j) item' (patchAll (patches (query i) (body i) item pages x) pages) y =
          patches (query j) (body j) item' pages y := by
      intro x y
      rw [patches, e2, ← patches]
    simp only [i3 pages hp, j3 pages hp, ok_bind]
    rw [j3 _ (hp.patchAll _), i3 _ (hp.patchAll _)]
    simp only [ok_bind, e1, e2, e3, e4, hcomm]
    rw [patchAll_comm]
    · exact fun y hy => (hs.fitting j1 pages _ y hy).2
    · exact fun y hy => (hs.fitting i1 pages _ y hy).2
    · intro y hy z hz
      exact hs.apart hij.symm (hs.written j1 pages _ y hy)
        (hs.own i1 _ (List.mem_of_mem_drop (List.of_mem_zip (show (z.1, z.2) ∈ _ from hz)).1))

theorem together_append (turns turns' : List ι) (s : Store) (l : ι → Loop τ) :
    together U dbg fuel query body (turns ++ turns') s l =
      together U dbg fuel query body turns s l >>= fun x => together U dbg fuel query body turns' x.1 x.2 := by
  induction turns generalizing s l with
  | nil => rfl
  | cons i turns ih =>
    simp only [List.cons_append, together]
    rw [bind_assoc]
    congr 1
    funext x
    exact ih _ _

theorem Split.perm (hs : Split s.archs.pages.length query body P Own Wr) {turns turns' : List ι}
    (hp : turns.Perm turns') {s' : Store} {l : ι → Loop τ} (h : Fine U dbg fuel query s P s' l) :
    together U dbg fuel query body turns s' l = together U dbg fuel query body turns' s' l := by
  induction hp generalizing s' l with
  | nil => rfl
  | cons i _ ih =>
    obtain ⟨s1, r, h1, h2⟩ := hs.step h i
    unfold together
    rw [h1, ok_bind, ok_bind]
    exact ih h2
  | swap i j turns =>
    by_cases hij : i = j
    · rw [hij]
    · rw [show j :: i :: turns = [j, i] ++ turns from rfl, show i :: j :: turns = [i, j] ++ turns from rfl,
        together_append, together_append, hs.swap hij h]
  | trans _ _ ih1 ih2 => rw [ih1 h, ih2 h]

/-- What no loop writes stays. -/
theorem Split.untouched (hs : Split s.archs.pages.length query body P Own Wr) {N : Ref → Prop}
    (hN : ∀ i r r', Wr i r → N r' → Apart r r') (turns : List ι) {pages : List Page} {l : ι → Loop τ}
    (h : ∀ i, Left U dbg fuel s (query i) (P i) (l i)) (hp : Like s pages) (ha : AgreeOn N pages s.archs.pages) :
    ∃ p k, together U dbg fuel query body turns (s.setPages pages) l = .ok (s.setPages p, k) ∧ Like s p ∧
      AgreeOn N p s.archs.pages := by
  induction turns generalizing pages l with
  | nil => exact ⟨_, _, rfl, hp, ha⟩
  | cons j turns ih =>
    simp only [together]
    rcases hs.turn (h j) with ⟨r, i1, i2⟩ | ⟨item, it, i1, i2, i3⟩
    · rw [i2 pages hp, ok_bind]
      exact ih (left_update h i1) hp ha
    · rw [i3 pages hp, ok_bind]
      exact ih (left_update h (i2 _)) (hp.patchAll _) (ha.away fun y hy => ⟨by rw [hp.len]; exact hs.fitting i1 pages _ y hy,
        fun r hr => hN j _ _ (hs.written i1 pages _ y hy) hr⟩)

/-- A loop is not influenced by the others. -/
theorem Split.alone (hs : Split s.archs.pages.length query body P Own Wr) (i : ι) (turns : List ι)
    {pages pages' : List Page} {l l' : ι → Loop τ} (h : ∀ i, Left U dbg fuel s (query i) (P i) (l i))
    (h' : ∀ i, Left U dbg fuel s (query i) (P i) (l' i)) (hp : Like s pages) (hp' : Like s pages')
    (hi : l i = l' i) (ha : AgreeOn (Own i) pages pages') :
    ∃ p p' k k', together U dbg fuel query body turns (s.setPages pages) l = .ok (s.setPages p, k) ∧
      together U dbg fuel query body (turns.filter (· = i)) (s.setPages pages') l' = .ok (s.setPages p', k') ∧
      Like s p ∧ Like s p' ∧ k i = k' i ∧ AgreeOn (Own i) p p' := by
  induction turns generalizing pages pages' l l' with
  | nil => exact ⟨_, _, _, _, rfl, rfl, hp, hp', hi, ha⟩
  | cons j turns ih =>
    by_cases hj : j = i
    · subst hj
      rw [List.filter_cons_of_pos (by simp)]
      simp only [together]
      rcases hs.turn (h j) with ⟨r, i1, i2⟩ | ⟨item, it, i1, i2, i3⟩
      · have i2' := i2 pages' hp'
        rw [hi] at i2'
        rw [i2 pages hp, i2', ok_bind, ok_bind]
        exact ih (left_update h i1) (left_update h' i1) hp hp' (by simp) ha
      · have i3' := i3 pages' hp'
        rw [hi] at i3'
        have hc : item.refs.map (cells pages) = item.refs.map (cells pages') :=
          List.map_congr_left fun r hr => cells_of_agree ha (by rw [hp.len, hp'.len]) (hs.own i1 r hr)
        rw [i3 pages hp, i3', ok_bind, ok_bind, ← hi]
        have hpe : patches (query j) (body j) item pages' (l j).vars = patches (query j) (body j) item pages (l j).vars := by
          unfold patches; rw [hc]
        simp only [hpe, ← hc]
        exact ih (left_update h (i2 _)) (left_update h' (i2 _)) (hp.patchAll _) (hp'.patchAll _) (by simp)
          (ha.patchAll (by rw [hp.len, hp'.len]) fun y hy => by rw [hp.len]; exact (hs.fitting i1 pages _ y hy).1.1)
    · rw [List.filter_cons_of_neg (by simpa using hj)]
      rw [show together U dbg fuel query body (j :: turns) (s.setPages pages) l = Ecs.turn U dbg fuel (query j) (body j)
        (s.setPages pages) (l j) >>= fun x => together U dbg fuel query body turns x.1 fun k => if k = j then x.2 else l k from rfl]
      rcases hs.turn (h j) with ⟨r, i1, i2⟩ | ⟨item, it, i1, i2, i3⟩
      · rw [i2 pages hp, ok_bind]
        exact ih (left_update h i1) h' hp hp' (by simp [Ne.symm hj, hi]) ha
      · rw [i3 pages hp, ok_bind]
        exact ih (left_update h (i2 _)) h' (hp.patchAll _) hp'
          (by simp [Ne.symm hj, hi]) (ha.away fun y hy => ⟨by rw [hp.len]; exact hs.fitting i1 pages _ y hy, fun r hr =>
            hs.apart hj (hs.written i1 pages _ y hy) hr⟩)

end

end Ecs
