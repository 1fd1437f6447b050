import Verif.Spec.Opaque
import Verif.Proofs.Basic
import Mathlib.Data.List.Forall2

/-! Two stores that differ in the contents of their pages only. -/

namespace Ecs
open Spec

namespace Spec.Both
variable {α β γ δ : Type} {R : α → β → Prop} {S : γ → δ → Prop}

theorem bind {r : Res α} {r' : Res β} {f : α → Res γ} {f' : β → Res δ} (h : Both R r r') (hf : ∀ a b, R a b → Both S (f a) (f' b)) :
    Both S (r >>= f) (r' >>= f') := by
  cases r with
  | error x =>
    cases r' with
    | error y => exact h
    | ok b => exact h.elim
  | ok a =>
    cases r' with
    | error y => exact h.elim
    | ok b => exact hf a b h

theorem same {r : Res α} {f : α → Res γ} {f' : α → Res δ} (hf : ∀ a, Both S (f a) (f' a)) : Both S (r >>= f) (r >>= f') := by
  cases r with
  | error x => exact rfl
  | ok a => exact hf a

theorem eq {r r' : Res α} (h : Both Eq r r') : r = r' := by
  cases r with
  | error x =>
    cases r' with
    | error y => rw [show x = y from h]
    | ok b => exact h.elim
  | ok a =>
    cases r' with
    | error y => exact h.elim
    | ok b => rw [show a = b from h]

theorem refl (r : Res α) : Both Eq r r := by
  cases r <;> exact rfl

theorem mono {R' : α → β → Prop} {r : Res α} {r' : Res β} (h : Both R r r') (hR : ∀ a b, R a b → R' a b) : Both R' r r' := by
  cases r <;> cases r' <;> first | exact h | exact h.elim | exact hR _ _ h

theorem error {r : Res α} {r' : Res β} (h : Both R r r') (x : Fault) : r = .error x ↔ r' = .error x := by
  cases r with
  | error y =>
    cases r' with
    | error z => rw [show y = z from h]; constructor <;> intro h <;> cases h <;> rfl
    | ok b => exact h.elim
  | ok a =>
    cases r' with
    | error y => exact h.elim
    | ok b => constructor <;> intro h <;> cases h

theorem ok {r : Res α} {r' : Res β} {a : α} (h : Both R r r') (hr : r = .ok a) : ∃ b, r' = .ok b ∧ R a b := by
  subst hr
  cases r' with
  | error y => exact h.elim
  | ok b => exact ⟨b, rfl, h⟩

theorem idx {l : List α} {l' : List β} (h : List.Forall₂ R l l') (i : Nat) : Both R (Ecs.idx l i) (Ecs.idx l' i) := by
  unfold Ecs.idx
  induction h generalizing i with
  | nil => exact rfl
  | cons ha _ ih =>
    cases i with
    | zero => exact ha
    | succ i => exact ih i

theorem idxUnchecked {l : List α} {l' : List β} (h : List.Forall₂ R l l') (i : Nat) :
    Both R (Ecs.idxUnchecked l i) (Ecs.idxUnchecked l' i) := by
  unfold Ecs.idxUnchecked
  induction h generalizing i with
  | nil => exact rfl
  | cons ha _ ih =>
    cases i with
    | zero => exact ha
    | succ i => exact ih i

theorem mapM {l : List γ} {f : γ → Res α} {f' : γ → Res β} (h : ∀ x ∈ l, Both R (f x) (f' x)) :
    Both (List.Forall₂ R) (l.mapM f) (l.mapM f') := by
  induction l with
  | nil => exact .nil
  | cons x l ih =>
    simp only [List.mapM_cons]
    refine bind (h x (by simp)) fun a b hab => ?_
    exact bind (ih fun y hy => h y (List.mem_cons_of_mem _ hy)) fun as bs hs => .cons hab hs

end Spec.Both

theorem forall₂_set {α β : Type} {R : α → β → Prop} {l : List α} {l' : List β} (h : List.Forall₂ R l l') {a : α} {b : β} (hab : R a b)
    (i : Nat) : List.Forall₂ R (l.set i a) (l'.set i b) := by
  induction h generalizing i with
  | nil => exact .nil
  | cons ha ht ih =>
    cases i with
    | zero => exact .cons hab ht
    | succ i => exact .cons ha (ih i)

section pages
variable {Q : Cell → Cell → Prop}

/-- The same rows, and related contents. -/
structure PageLike (Q : Cell → Cell → Prop) (p p' : Page) : Prop where
  ids : p'.ids = p.ids
  data : ∀ x, Q (p.data x) (p'.data x)

namespace PageLike
variable {p p' : Page}

theorem new (hn : Q none none) : PageLike Q Page.new Page.new := ⟨rfl, fun _ => hn⟩

theorem setLayout (h : PageLike Q p p') (l : Layout) : PageLike Q (p.setLayout l) (p'.setLayout l) :=
  ⟨by unfold Page.setLayout; rw [h.ids], h.data⟩

theorem count (h : PageLike Q p p') : p'.entityCount = p.entityCount := by unfold Page.entityCount; rw [h.ids]

theorem free (h : PageLike Q p p') : p'.hasFreeSpace = p.hasFreeSpace := by
  unfold Page.hasFreeSpace Page.entityCount Page.entityCapacity
  rw [h.ids]

theorem addEntityId (h : PageLike Q p p') (dbg : Bool) (id : Nat) :
    Both (fun a b => PageLike Q a.1 b.1 ∧ a.2 = b.2) (p.addEntityId dbg id) (p'.addEntityId dbg id) := by
  unfold Page.addEntityId
  rw [h.free, h.ids]
  exact .same fun _ => ⟨⟨rfl, h.data⟩, rfl⟩

end PageLike

theorem readBytes_both {d d' : Bytes} (h : ∀ x, Q (d x) (d' x)) (a n : Nat) :
    Both (List.Forall₂ Q) (readBytes d a n) (readBytes d' a n) := by
  unfold readBytes
  split
  · show List.Forall₂ Q _ _
    rw [List.forall₂_map_left_iff, List.forall₂_map_right_iff, List.forall₂_same]
    exact fun j _ => h _
  · exact rfl

theorem writeBytes_both {d d' : Bytes} (h : ∀ x, Q (d x) (d' x)) (a : Nat) {bs bs' : List Cell} (hb : List.Forall₂ Q bs bs') :
    Both (fun d d' => ∀ x, Q (d x) (d' x)) (writeBytes d a bs) (writeBytes d' a bs') := by
  unfold writeBytes
  rw [← hb.length_eq]
  split
  · intro x
    dsimp only
    split
    · rename_i hx
      have h1 : x - a < bs.length := by omega
      have h2 : x - a < bs'.length := by rw [← hb.length_eq]; exact h1
      have h3 := (List.forall₂_iff_get.1 hb).2 (x - a) h1 h2
      simpa [List.getD_eq_getElem?_getD, List.getElem?_eq_getElem h1, List.getElem?_eq_getElem h2] using h3
    · exact h x
  · exact rfl

theorem copyWithin_both {d d' : Bytes} (h : ∀ x, Q (d x) (d' x)) (src dst n : Nat) :
    Both (fun d d' => ∀ x, Q (d x) (d' x)) (Page.copyWithin d src dst n) (Page.copyWithin d' src dst n) := by
  unfold Page.copyWithin
  refine .bind (readBytes_both h src n) fun bs bs' hb => ?_
  split
  · exact rfl
  · exact writeBytes_both h dst hb

theorem moveLoop_both (a : Archetype) (l : Layout) (src dst : Nat) (is : List Nat) : ∀ {d d' : Bytes}, (∀ x, Q (d x) (d' x)) →
    Both (fun d d' => ∀ x, Q (d x) (d' x)) (Page.moveLoop a l src dst is d) (Page.moveLoop a l src dst is d') := by
  induction is with
  | nil => exact fun h => h
  | cons i is ih =>
    intro d d' h
    unfold Page.moveLoop
    refine .same fun size => .same fun offset => ?_
    exact .bind (copyWithin_both h _ _ _) fun d d' h => ih h

theorem PageLike.moveComponentData {p p' : Page} (h : PageLike Q p p') (src dst : Nat) (a : Archetype) (l : Layout) :
    Both (PageLike Q) (p.moveComponentData src dst a l) (p'.moveComponentData src dst a l) := by
  unfold Page.moveComponentData
  exact .bind (moveLoop_both a l src dst _ h.data) fun d d' hd => ⟨h.ids, hd⟩

theorem PageLike.swapRemove {p p' : Page} (h : PageLike Q p p') (index : Nat) (a : Archetype) (l : Layout) :
    Both (fun x y => PageLike Q x.1 y.1 ∧ x.2 = y.2) (p.swapRemoveEntityAtIndex index a l) (p'.swapRemoveEntityAtIndex index a l) := by
  unfold Page.swapRemoveEntityAtIndex
  rw [h.ids]
  refine .same fun ids => ?_
  dsimp only
  split
  · refine .bind (PageLike.moveComponentData (p := { p with ids := ids }) (p' := { p' with ids := ids }) ⟨rfl, h.data⟩ _ _ a l)
      fun q q' hq => ?_
    rw [hq.ids]
    exact .same fun i => ⟨hq, rfl⟩
  · exact ⟨⟨rfl, h.data⟩, rfl⟩

abbrev PagesLike (Q : Cell → Cell → Prop) : List Page → List Page → Prop := List.Forall₂ (PageLike Q)

/-- The same tables, and pages with related contents. -/
def ArchsLike (Q : Cell → Cell → Prop) (c c' : Archs) : Prop := ∃ ps, c' = { c with pages := ps } ∧ PagesLike Q c.pages ps

/-- The same pair of tables and something else. -/
abbrev With {α : Type} (Q : Cell → Cell → Prop) (x y : Archs × α) : Prop := ArchsLike Q x.1 y.1 ∧ x.2 = y.2

namespace ArchsLike
variable {c c' : Archs} {dbg : Bool}

theorem reserveArchetype (h : ArchsLike Q c c') (a : Archetype) : Both (With Q) (c.reserveArchetype dbg a) (c'.reserveArchetype dbg a) := by
  obtain ⟨ps, rfl, hp⟩ := h
  unfold Archs.reserveArchetype
  dsimp only
  split
  · split <;> exact ⟨⟨ps, rfl, hp⟩, rfl⟩
  · refine .same fun layout => ?_
    split
    · exact .same fun _ => .same fun _ => ⟨⟨ps, rfl, hp⟩, rfl⟩
    · exact ⟨⟨ps, rfl, hp⟩, rfl⟩

theorem findFreePage {ps ps' : List Page} (hp : PagesLike Q ps ps') (l : List Nat) :
    Archs.findFreePage ps l = Archs.findFreePage ps' l := by
  induction l with
  | nil => rfl
  | cons p l ih =>
    apply Both.eq
    unfold Archs.findFreePage
    refine .bind (.idx hp p) fun q q' hq => ?_
    rw [hq.free]
    split
    · exact rfl
    · rw [ih]
      exact .refl _

theorem vecInsert {α β : Type} {R : α → β → Prop} {l : List α} {l' : List β} (h : List.Forall₂ R l l') (i : Nat) {a : α} {b : β}
    (hab : R a b) : Both (List.Forall₂ R) (Ecs.vecInsert l i a) (Ecs.vecInsert l' i b) := by
  unfold Ecs.vecInsert
  rw [← h.length_eq]
  split
  · show List.Forall₂ R _ _
    rename_i hi
    clear hi
    induction h generalizing i with
    | nil => cases i <;> simp [hab]
    | cons ha ht ih =>
      cases i with
      | zero => exact .cons hab (.cons ha ht)
      | succ i => exact .cons ha (ih i)
  · exact rfl

theorem reservePage (hn : Q none none) (h : ArchsLike Q c c') (id ai : Nat) :
    Both (With Q) (c.reservePage dbg id ai) (c'.reservePage dbg id ai) := by
  obtain ⟨ps, rfl, hp⟩ := h
  unfold Archs.reservePage
  refine .same fun pageList => ?_
  dsimp only
  rw [← findFreePage hp]
  refine .same fun o => ?_
  cases o with
  | some p =>
    refine .bind (.idx hp p) fun q q' hq => ?_
    refine .bind (hq.addEntityId dbg id) fun x y hxy => ?_
    obtain ⟨x, i⟩ := x
    obtain ⟨y, j⟩ := y
    obtain ⟨hx, rfl⟩ := hxy
    exact ⟨⟨_, rfl, forall₂_set hp hx p⟩, rfl⟩
  | none =>
    have key : Both (With Q)
        (match c.freePages.getLast? with
          | some pageIndex => pure ({ c with freePages := c.freePages.dropLast }, pageIndex)
          | none => do
            let pageIndex := c.pages.length
            let pages ← Ecs.vecInsert c.pages pageIndex Page.new
            let pageToArch ← Ecs.vecInsert c.pageToArch pageIndex ai
            pure ({ c with pages := pages, pageToArch := pageToArch }, pageIndex) : Res (Archs × Nat))
        (match c.freePages.getLast? with
          | some pageIndex => pure ({ c with pages := ps, freePages := c.freePages.dropLast }, pageIndex)
          | none => do
            let pageIndex := ps.length
            let pages ← Ecs.vecInsert ps pageIndex Page.new
            let pageToArch ← Ecs.vecInsert c.pageToArch pageIndex ai
            pure ({ c with pages := pages, pageToArch := pageToArch }, pageIndex) : Res (Archs × Nat)) := by
      split
      · exact ⟨⟨ps, rfl, hp⟩, rfl⟩
      · dsimp only
        rw [← hp.length_eq]
        exact .bind (vecInsert hp _ (PageLike.new hn)) fun l l' hl => .same fun _ => ⟨⟨l', rfl, hl⟩, rfl⟩
    refine .bind key fun x y hxy => ?_
    obtain ⟨x, i⟩ := x
    obtain ⟨y, j⟩ := y
    obtain ⟨⟨qs, hy, hq⟩, rfl⟩ := hxy
    dsimp only at hy hq
    subst hy
    refine .same fun layout => ?_
    refine .bind (.idx hq i) fun q q' hqq => ?_
    refine .same fun pl => .same fun pa => ?_
    refine .bind ((hqq.setLayout layout).addEntityId dbg id) fun u v huv => ?_
    obtain ⟨u, k⟩ := u
    obtain ⟨v, m⟩ := v
    obtain ⟨hu, rfl⟩ := huv
    exact ⟨⟨_, rfl, forall₂_set hq hu i⟩, rfl⟩

theorem addEntity (hn : Q none none) (h : ArchsLike Q c c') (id : Nat) (a : Archetype) :
    Both (With Q) (c.addEntity dbg id a) (c'.addEntity dbg id a) := by
  unfold Archs.addEntity
  refine .bind (h.reserveArchetype a) fun x y hxy => ?_
  obtain ⟨x, i⟩ := x
  obtain ⟨y, j⟩ := y
  obtain ⟨hx, rfl⟩ := hxy
  exact hx.reservePage hn id i

theorem freePage (h : ArchsLike Q c c') (p : Nat) : Both (ArchsLike Q) (c.freePage p) (c'.freePage p) := by
  obtain ⟨ps, rfl, hp⟩ := h
  unfold Archs.freePage
  refine .same fun ai => ?_
  split
  · exact ⟨ps, rfl, hp⟩
  · refine .same fun pl => ?_
    dsimp only
    split <;> exact ⟨ps, rfl, hp⟩

theorem swapRemoveEntity (h : ArchsLike Q c c') (q : Loc) : Both (With Q) (c.swapRemoveEntity q) (c'.swapRemoveEntity q) := by
  obtain ⟨ps, rfl, hp⟩ := h
  unfold Archs.swapRemoveEntity
  refine .same fun ai => ?_
  refine .bind (.idx hp q.page) fun pg pg' hpg => ?_
  refine .same fun a => .same fun l => ?_
  refine .bind (hpg.swapRemove q.index a l) fun x y hxy => ?_
  obtain ⟨x, i⟩ := x
  obtain ⟨y, j⟩ := y
  obtain ⟨hx, rfl⟩ := hxy
  dsimp only
  rw [hpg.count]
  have hc : ArchsLike Q { c with pages := c.pages.set q.page x } { c with pages := ps.set q.page y } :=
    ⟨_, rfl, forall₂_set hp hx q.page⟩
  split
  · exact .bind (hc.freePage q.page) fun _ _ h => ⟨h, rfl⟩
  · exact ⟨hc, rfl⟩

theorem copyBetween {ps ps' : List Page} (h : PagesLike Q ps ps') (sp src dp dst n : Nat) :
    Both (PagesLike Q) (Archs.copyBetween ps sp src dp dst n) (Archs.copyBetween ps' sp src dp dst n) := by
  unfold Archs.copyBetween
  refine .bind (.idx h sp) fun p p' hp => ?_
  refine .bind (readBytes_both hp.data src n) fun bs bs' hb => ?_
  split
  · exact rfl
  · refine .bind (.idx h dp) fun q q' hq => ?_
    exact .bind (writeBytes_both hq.data dst hb) fun d d' hd =>
      forall₂_set h (show PageLike Q { q with data := d } { q' with data := d' } from ⟨hq.ids, hd⟩) dp

theorem copyLoop (src dst : Loc) (sa da : Archetype) (sl dl : Layout) (l : List (Nat × Nat)) : ∀ {ps ps' : List Page},
    PagesLike Q ps ps' → Both (PagesLike Q) (Archs.copyLoop src dst sa da sl dl l ps) (Archs.copyLoop src dst sa da sl dl l ps') := by
  induction l with
  | nil => exact fun h => h
  | cons x l ih =>
    intro ps ps' h
    obtain ⟨i, j⟩ := x
    unfold Archs.copyLoop
    refine .same fun _ => .same fun _ => .same fun _ => .same fun _ => ?_
    exact .bind (copyBetween h _ _ _ _ _) fun _ _ h => ih h

theorem move (hn : Q none none) (h : ArchsLike Q c c') (id : Nat) (prev : Loc) (pi : Nat) (a : Archetype) :
    Both (With Q) (c.moveEntityToOtherArchetype dbg id prev pi a) (c'.moveEntityToOtherArchetype dbg id prev pi a) := by
  unfold Archs.moveEntityToOtherArchetype
  refine .bind (h.reserveArchetype a) fun x y hxy => ?_
  obtain ⟨x, i⟩ := x
  obtain ⟨y, j⟩ := y
  obtain ⟨hx, rfl⟩ := hxy
  refine .bind (hx.reservePage hn id i) fun u v huv => ?_
  obtain ⟨u, q⟩ := u
  obtain ⟨v, r⟩ := v
  obtain ⟨⟨ps, hv, hp⟩, rfl⟩ := huv
  dsimp only at hv hp
  subst hv
  refine .bind (.idx hp _) fun _ _ _ => ?_
  refine .bind (.idx hp _) fun _ _ _ => ?_
  refine .same fun _ => .same fun _ => .same fun _ => ?_
  exact .bind (copyLoop _ _ _ _ _ _ _ hp) fun l l' hl => ⟨⟨l', rfl, hl⟩, rfl⟩

end ArchsLike
end pages
end Ecs
