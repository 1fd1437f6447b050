import Verif.Model.Update
import Verif.Proofs.Shape
import Verif.Proofs.QueryComp

/-! Loops that write through query references: interleaving, and one turn as an assignment. -/

namespace Ecs
open Spec

/-- The store with other page contents. -/
def Store.setPages (s : Store) (pages : List Page) : Store := { s with archs := { s.archs with pages := pages } }

theorem updateItem_pages {reads : Nat} {f : List (List Cell) → List (List UInt8)} {s s' : Store} {refs : List Ref}
    (h : updateItem reads f s refs = .ok s') : ∃ pages, s' = s.setPages pages ∧ pages.length = s.archs.pages.length := by
  unfold updateItem at h
  obtain ⟨vs, h1, h⟩ := bind_eq_ok.1 h
  obtain ⟨pages, h2, h⟩ := bind_eq_ok.1 h
  cases h
  exact ⟨pages, rfl, assignToRefs_length _ h2⟩

/-- If `next` does not look at the pages, interleaving it with assignments returns the same items. -/
theorem updateLoop_of {σ α : Type} {next : Store → σ → Res (Option α × σ)} {refs : α → List Ref} {reads : Nat}
    {f : α → List (List Cell) → List (List UInt8)} (hp : ∀ s pages it, next (s.setPages pages) it = next s it)
    {fuel : Nat} {it : σ} {s : Store} {items : List α} (h : drain (next s) fuel it = .ok items) :
    updateLoop next refs reads f fuel it s = items.foldlM (fun s a => updateItem reads (f a) s (refs a)) s := by
  induction fuel generalizing it s items with
  | zero => cases h
  | succ n ih =>
    unfold drain at h
    unfold updateLoop
    obtain ⟨⟨o, it'⟩, h1, h⟩ := bind_eq_ok.1 h
    cases o with
    | none => cases h; simp only [h1, ok_bind]; rfl
    | some a =>
      obtain ⟨rest, h2, h⟩ := bind_eq_ok.1 h
      cases h
      simp only [h1, ok_bind, List.foldlM_cons]
      cases h3 : updateItem reads (f a) s (refs a) with
      | error x => rfl
      | ok s' =>
        simp only [ok_bind]
        obtain ⟨pages, rfl, _⟩ := updateItem_pages h3
        refine ih ?_
        rw [← h2]
        congr 1
        exact funext fun it => hp s pages it

theorem CompIter.nextWithEntity_setPages (dbg : Bool) (s : Store) (pages : List Page) (it : CompIter) :
    CompIter.nextWithEntity dbg (s.setPages pages) it = CompIter.nextWithEntity dbg s it := rfl

theorem EntIter.nextWithEntity_setPages (dbg : Bool) (s : Store) (pages : List Page) (it : EntIter) :
    EntIter.nextWithEntity dbg (s.setPages pages) it = EntIter.nextWithEntity dbg s it := rfl

theorem getOffsets_append (a : Archetype) (l : Layout) (r w : List TypeId) {os : List Nat}
    (h : getOffsets a l (r ++ w) = .ok (some os)) :
    getOffsets a l w = .ok (some (os.drop r.length)) ∧ r.length ≤ os.length := by
  induction r generalizing os with
  | nil => exact ⟨by simpa using h, Nat.zero_le _⟩
  | cons t r ih =>
    rw [List.cons_append] at h
    unfold getOffsets at h
    split at h
    · cases h
    · obtain ⟨o, h1, h⟩ := bind_eq_ok.1 h
      obtain ⟨o2, h2, h⟩ := bind_eq_ok.1 h
      cases o2 with
      | none => cases h
      | some os' =>
        cases h
        obtain ⟨h3, h4⟩ := ih h2
        exact ⟨by simpa using h3, by simpa using h4⟩

theorem zip_drop {α β : Type} (r w : List α) (os : List β) :
    ((r ++ w).zip os).drop r.length = w.zip (os.drop r.length) := by
  induction r generalizing os with
  | nil => simp
  | cons a r ih =>
    cases os with
    | nil => simp
    | cons o os => simpa using ih os

theorem Store.getComponentsRefs_drop {U : Universe} {dbg : Bool} {s : Store} {e : Entity} {r w : List TypeId}
    {refs : List Ref} (h : s.getComponentsRefs U dbg e (r ++ w) = .ok (some refs)) :
    s.getComponentsRefs U dbg e w = .ok (some (refs.drop r.length)) := by
  unfold Store.getComponentsRefs at h ⊢
  obtain ⟨b, h1, h⟩ := bind_eq_ok.1 h
  simp only [h1, ok_bind]
  cases b with
  | false => cases h
  | true =>
    simp only [if_true] at h ⊢
    obtain ⟨page, h2, h⟩ := bind_eq_ok.1 h
    obtain ⟨view, h3, h⟩ := bind_eq_ok.1 h
    obtain ⟨index, h4, h⟩ := bind_eq_ok.1 h
    obtain ⟨o, h5, h⟩ := bind_eq_ok.1 h
    cases o with
    | none => cases h
    | some os =>
      cases h
      simp only [h2, h3, h4, ok_bind, (getOffsets_append _ _ r w h5).1, pure_ok]
      unfold getRefs
      rw [← List.map_drop, zip_drop]

/-- Where components are stored does not depend on the contents of the pages. -/
theorem Store.getComponentsRefs_setPages {U : Universe} {dbg : Bool} {s : Store} {pages : List Page}
    (hl : pages.length = s.archs.pages.length) (e : Entity) (ts : List TypeId) {o : Option (List Ref)}
    (h : s.getComponentsRefs U dbg e ts = .ok o) :
    (s.setPages pages).getComponentsRefs U dbg e ts = .ok o := by
  unfold Store.getComponentsRefs at h ⊢
  obtain ⟨b, h1, h⟩ := bind_eq_ok.1 h
  have h1' : (s.setPages pages).isValidEntityWithArchetype dbg e = .ok b := h1
  simp only [h1', ok_bind]
  cases b with
  | false => exact h
  | true =>
    simp only [if_true] at h ⊢
    obtain ⟨page, h2, h⟩ := bind_eq_ok.1 h
    obtain ⟨view, h3, h⟩ := bind_eq_ok.1 h
    have h2' : Raw.read (s.setPages pages).toPage e.id = .ok page := h2
    simp only [h2', ok_bind]
    have h3' : (s.setPages pages).getPageViewUnchecked page = .ok view := by
      unfold Store.getPageViewUnchecked at h3 ⊢
      obtain ⟨ai, g1, h3⟩ := bind_eq_ok.1 h3
      obtain ⟨a, g2, h3⟩ := bind_eq_ok.1 h3
      obtain ⟨l, g3, h3⟩ := bind_eq_ok.1 h3
      obtain ⟨pg, g4, h3⟩ := bind_eq_ok.1 h3
      have hlt : page < pages.length := by
        rw [hl]; exact (List.getElem?_eq_some_iff.1 (idxUnchecked_ok.1 g4)).1
      have g1' : idxUnchecked (s.setPages pages).archs.pageToArch page = .ok ai := g1
      have g2' : idxUnchecked (s.setPages pages).archs.archetypes ai = .ok a := g2
      have g3' : idxUnchecked (s.setPages pages).archs.layouts ai = .ok l := g3
      have g4' : idxUnchecked (s.setPages pages).archs.pages page = .ok pages[page] :=
        idxUnchecked_ok.2 (List.getElem?_eq_getElem hlt)
      simp only [g1', g2', g3', g4', ok_bind]
      exact h3
    simp only [h3', ok_bind]
    exact h

end Ecs
