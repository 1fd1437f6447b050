import Verif.Spec.VisitOrder
import Verif.Proofs.QueryRows

/-! The order in which queries visit the rows, and how calls change it. -/

namespace Ecs
open Spec

/-- All that `F` gives for the pages of the archetypes that satisfy `K`, in order. -/
def Archs.walk (c : Archs) (K : Archetype → Bool) (F : Nat → List Nat) : List Nat :=
  (c.archetypes.zip c.archPages).flatMap fun x => if K x.1 then x.2.flatMap F else []

/-- The ids on a page. -/
def Archs.idsOf (c : Archs) (p : Nat) : List Nat := (c.pages[p]?).elim [] (·.ids.items)

theorem Archs.idsOf_getElem (c : Archs) (p i : Nat) : (c.idsOf p)[i]? = c.row ⟨p, i⟩ := by
  unfold Archs.idsOf Archs.row
  cases c.pages[p]? <;> simp

/-- The ids on a page, without the rows of `id` other than the one at `q`. -/
def Archs.keep (c : Archs) (id : Nat) (q : Option Loc) (p : Nat) : List Nat :=
  ((c.idsOf p).zipIdx.filter fun x => decide (x.1 ≠ id ∨ some ⟨p, x.2⟩ = q)).map (·.1)

theorem Archs.keep_none (c : Archs) (id p : Nat) : c.keep id none p = (c.idsOf p).filter (· ≠ id) := by
  unfold Archs.keep
  simp only [reduceCtorEq, or_false]
  generalize c.idsOf p = l
  have h := List.filter_map (f := Prod.fst) (p := fun i => decide (i ≠ id)) (l := l.zipIdx)
  rw [List.zipIdx_map_fst] at h
  exact h.symm

theorem walk_congr {c : Archs} {K : Archetype → Bool} {F G : Nat → List Nat} (h : ∀ ps ∈ c.archPages, ∀ p ∈ ps, F p = G p) :
    c.walk K F = c.walk K G := by
  unfold Archs.walk
  refine List.flatMap_congr fun x hx => ?_
  have hm := (List.of_mem_zip hx).2
  split
  · exact List.flatMap_congr fun p hp => h _ hm p hp
  · rfl

section lists
variable {K : Archetype → Bool} {F : Nat → List Nat}

theorem walk_set_arch (a : Archetype) : ∀ (as : List Archetype) (ps : List (List Nat)) (i : Nat),
    (∀ pl, ps[i]? = some pl → ∀ p ∈ pl, F p = []) →
    ((as.set i a).zip ps).flatMap (fun x => if K x.1 then x.2.flatMap F else []) =
      (as.zip ps).flatMap (fun x => if K x.1 then x.2.flatMap F else [])
  | [], _, _, _ => by simp
  | _ :: _, [], _, _ => by simp
  | b :: as, pl :: ps, 0, h => by
    have : pl.flatMap F = [] := by rw [List.flatMap_eq_nil_iff]; exact h pl rfl
    simp [this]
  | b :: as, pl :: ps, i + 1, h => by
    have := walk_set_arch a as ps i (fun pl' hp => h pl' (by simpa using hp))
    simp only [List.set_cons_succ, List.zip_cons_cons, List.flatMap_cons, this]

theorem walk_set_pages (pl' : List Nat) : ∀ (as : List Archetype) (ps : List (List Nat)) (i : Nat),
    (∀ pl, ps[i]? = some pl → pl'.flatMap F = pl.flatMap F) →
    (as.zip (ps.set i pl')).flatMap (fun x => if K x.1 then x.2.flatMap F else []) =
      (as.zip ps).flatMap (fun x => if K x.1 then x.2.flatMap F else [])
  | [], _, _, _ => by simp
  | _ :: _, [], _, _ => by simp
  | b :: as, pl :: ps, 0, h => by
    have := h pl rfl
    simp [this]
  | b :: as, pl :: ps, i + 1, h => by
    have := walk_set_pages pl' as ps i (fun pl' hp => h pl' (by simpa using hp))
    simp only [List.set_cons_succ, List.zip_cons_cons, List.flatMap_cons, this]

end lists

/-- The pages of the archetypes that satisfy `K`. -/
def Archs.pagesOf (c : Archs) (K : Archetype → Bool) : List Nat :=
  (c.archetypes.zip c.archPages).flatMap fun x => if K x.1 then x.2 else []

theorem walk_pages (c : Archs) (K : Archetype → Bool) (F : Nat → List Nat) : c.walk K F = (c.pagesOf K).flatMap F := by
  unfold Archs.walk Archs.pagesOf
  rw [List.flatMap_assoc]
  refine List.flatMap_congr fun x _ => ?_
  split <;> rfl

theorem Archs.Use.flat_nodup {c : Archs} (h : c.Use) : c.archPages.flatten.Nodup := by
  rw [List.nodup_flatten]
  refine ⟨h.psNodup, ?_⟩
  rw [List.pairwise_iff_getElem]
  intro i j hi hj hij x hxi hxj
  have h1 := h.owner i _ x (List.getElem?_eq_getElem hi) hxi
  have h2 := h.owner j _ x (List.getElem?_eq_getElem hj) hxj
  rw [h1] at h2
  have := Option.some.inj h2
  omega

theorem Archs.Use.pagesOf_nodup {c : Archs} (h : c.Use) (K : Archetype → Bool) : (c.pagesOf K).Nodup := by
  refine List.Nodup.sublist ?_ h.flat_nodup
  unfold Archs.pagesOf
  generalize c.archetypes = as
  generalize c.archPages = ps
  induction as generalizing ps with
  | nil => simp
  | cons a as ih =>
    cases ps with
    | nil => simp
    | cons pl ps =>
      simp only [List.zip_cons_cons, List.flatMap_cons, List.flatten_cons]
      refine List.Sublist.append ?_ (ih ps)
      split
      · exact List.Sublist.refl _
      · exact List.nil_sublist _

/-- Free archetypes have no rows. -/
def Archs.FreeEmpty (c : Archs) : Prop :=
  ∀ i ∈ c.freeArchetypes, ∀ ps, c.archPages[i]? = some ps → ∀ p ∈ ps, c.idsOf p = []

theorem freeEmpty_of {s : Store} (hu : s.archs.Use) (h : UsedNotFree s) : s.archs.FreeEmpty := by
  intro i hi ps hps p hp
  unfold Archs.idsOf
  cases hpg : s.archs.pages[p]? with
  | none => rfl
  | some pg =>
    show pg.ids.items = []
    by_contra hne
    exact h p i pg hpg (hu.owner i ps p hps hp) hne hi

theorem walk_reserveArchetype {dbg : Bool} {c c' : Archs} {a : Archetype} {i : Nat} {K : Archetype → Bool} {F : Nat → List Nat}
    (hs : c.Shape) (hf : ∀ i ∈ c.freeArchetypes, ∀ ps, c.archPages[i]? = some ps → ∀ p ∈ ps, F p = [])
    (hr : c.reserveArchetype dbg a = .ok (c', i)) : c'.walk K F = c.walk K F := by
  unfold Archs.reserveArchetype at hr
  split at hr
  · split at hr <;> cases hr <;> rfl
  · obtain ⟨l, _, hr⟩ := bind_eq_ok.1 hr
    split at hr
    · next k hk =>
      obtain ⟨as, h1, hr⟩ := bind_eq_ok.1 hr
      obtain ⟨ls, h2, hr⟩ := bind_eq_ok.1 hr
      cases hr
      obtain ⟨_, rfl⟩ := idxSet_ok h1
      exact walk_set_arch a _ _ _ (fun pl hpl => hf i (List.mem_of_getLast? hk) pl hpl)
    · cases hr
      unfold Archs.walk
      dsimp only
      rw [List.zip_append (by rw [hs.plen])]
      simp

/-- Rows decide the ids of pages. -/
theorem idsOf_same {c c' : Archs} {p : Nat} (h : ∀ i, c'.row ⟨p, i⟩ = c.row ⟨p, i⟩) : c'.idsOf p = c.idsOf p :=
  List.ext_getElem? fun i => by rw [Archs.idsOf_getElem, Archs.idsOf_getElem, h]

theorem idsOf_push {c c' : Archs} {q : Loc} {id : Nat} (h0 : c.row q = none)
    (h : ∀ r, c'.row r = if r = q then some id else c.row r) : c'.idsOf q.page = c.idsOf q.page ++ [id] := by
  have h0' : (c.idsOf q.page)[q.index]? = none := by rw [Archs.idsOf_getElem]; exact h0
  have hge := List.getElem?_eq_none_iff.1 h0'
  have h1 : (c'.idsOf q.page)[q.index]? = some id := by
    rw [Archs.idsOf_getElem, h]; simp
  have hne : ∀ i, i ≠ q.index → (c'.idsOf q.page)[i]? = (c.idsOf q.page)[i]? := fun i hi => by
    rw [Archs.idsOf_getElem, Archs.idsOf_getElem, h, if_neg (fun he => hi (by rw [← he]))]
  have heq : q.index = (c.idsOf q.page).length := by
    by_contra hn
    have h2 := hne (c.idsOf q.page).length (fun h => hn h.symm)
    rw [List.getElem?_eq_none (Nat.le_refl _)] at h2
    have := List.getElem?_eq_none_iff.1 h2
    have := (List.getElem?_eq_some_iff.1 h1).1
    omega
  refine List.ext_getElem? fun i => ?_
  by_cases hi : i = q.index
  · rw [hi, h1, heq]; simp
  · rw [hne i hi, List.getElem?_append]
    split
    · rfl
    · rw [List.getElem?_eq_none (by omega), List.getElem?_eq_none (by simp; omega)]

/-- What is kept of a page does not change when a row for `id` is added. -/
theorem keep_push {c c' : Archs} {q : Loc} {r : Option Loc} {id : Nat} (h0 : c.row q = none) (hq : r ≠ some q)
    (h : ∀ r, c'.row r = if r = q then some id else c.row r) (p : Nat) : c'.keep id r p = c.keep id r p := by
  unfold Archs.keep
  by_cases hp : p = q.page
  · subst hp
    have h0' : (c.idsOf q.page)[q.index]? = none := by rw [Archs.idsOf_getElem]; exact h0
    have hpush := idsOf_push h0 h
    have h1 : (c'.idsOf q.page)[q.index]? = some id := by rw [Archs.idsOf_getElem, h]; simp
    have heq : q.index = (c.idsOf q.page).length := by
      have := (List.getElem?_eq_some_iff.1 h1).1
      rw [hpush] at this
      have := List.getElem?_eq_none_iff.1 h0'
      simp at *
      omega
    rw [hpush, List.zipIdx_append, List.filter_append, List.map_append]
    have : ¬ some (⟨q.page, (c.idsOf q.page).length⟩ : Loc) = r := by
      intro he
      apply hq
      rw [← he, ← heq]
    simp [this]
  · have hi : c'.idsOf p = c.idsOf p := idsOf_same (fun i => by rw [h, if_neg (fun he => hp (by rw [← he]))])
    rw [hi]

theorem walk_reservePage {dbg : Bool} {c c' : Archs} {id i : Nat} {q : Loc} {K : Archetype → Bool} {F : Nat → List Nat}
    (h : c.Use) (hs : c.Shape) (hr : c.reservePage dbg id i = .ok (c', q)) (hF : c.idsOf q.page = [] → F q.page = []) :
    c'.walk K F = c.walk K F := by
  unfold Archs.reservePage at hr
  obtain ⟨pl, h1, hr⟩ := bind_eq_ok.1 hr
  obtain ⟨o, h2, hr⟩ := bind_eq_ok.1 hr
  have hpl := idx_ok.1 h1
  split at hr
  · next p =>
    obtain ⟨page, h3, hr⟩ := bind_eq_ok.1 hr
    obtain ⟨⟨page', ix⟩, h4, hr⟩ := bind_eq_ok.1 hr
    cases hr
    rfl
  · obtain ⟨⟨c1, p⟩, h3, hr⟩ := bind_eq_ok.1 hr
    dsimp only at hr
    obtain ⟨layout, h4, hr⟩ := bind_eq_ok.1 hr
    obtain ⟨page, h5, hr⟩ := bind_eq_ok.1 hr
    obtain ⟨pl', h6, hr⟩ := bind_eq_ok.1 hr
    obtain ⟨pa, h7, hr⟩ := bind_eq_ok.1 hr
    obtain ⟨⟨page', ix⟩, h8, hr⟩ := bind_eq_ok.1 hr
    cases hr
    obtain ⟨k1, k2, k3, k4, k5⟩ := h.take hs hpl h3
    have h6' := idx_ok.1 h6
    rw [k4, hpl] at h6'
    cases h6'
    have hemp : c.idsOf p = [] := by
      refine List.ext_getElem? fun j => ?_
      rw [Archs.idsOf_getElem, ← k3, ← Archs.idsOf_getElem]
      unfold Archs.idsOf
      rw [idx_ok.1 h5]
      show page.ids.items[j]? = _
      rw [k5 page (idx_ok.1 h5)]
    have hFp : F p = [] := hF hemp
    have harch : c1.archetypes = c.archetypes := by
      split at h3
      · cases h3; rfl
      · obtain ⟨_, _, h3⟩ := bind_eq_ok.1 h3
        obtain ⟨_, _, h3⟩ := bind_eq_ok.1 h3
        cases h3; rfl
    show (c1.archetypes.zip (c1.archPages.set i (pl ++ [p]))).flatMap _ = _
    rw [harch, k4]
    refine walk_set_pages _ _ _ _ (fun pl0 h0 => ?_)
    rw [hpl] at h0
    cases h0
    simp [hFp]

theorem keep_nil {c : Archs} {id p : Nat} {q : Option Loc} (h : c.idsOf p = []) : c.keep id q p = [] := by
  unfold Archs.keep; simp [h]

/-- A new row for `id`: the other rows keep their order. -/
theorem walk_addEntity {dbg : Bool} {c c' : Archs} {id : Nat} {a : Archetype} {q : Loc} {r : Option Loc} {K : Archetype → Bool}
    (h : c.Use) (hs : c.Shape) (ha : a.Even) (hf : c.FreeEmpty) (hr : c.addEntity dbg id a = .ok (c', q))
    (hrow : ∀ x, r = some x → c.row x ≠ none) : c'.walk K (c'.keep id r) = c.walk K (c.keep id r) := by
  obtain ⟨_, k2, k3⟩ := h.addEntity hs ha hr
  unfold Archs.addEntity at hr
  obtain ⟨⟨c1, i⟩, h1, hr⟩ := bind_eq_ok.1 hr
  have hne : r ≠ some q := fun he => hrow q he k2
  have hk : c'.keep id r = c.keep id r := funext (keep_push k2 hne k3)
  obtain ⟨hs1, _, hp1, _⟩ := hs.reserveArchetype ha h1
  have hids : ∀ p, c1.idsOf p = c.idsOf p := fun p => by unfold Archs.idsOf; rw [hp1]
  rw [hk, walk_reservePage (h.reserveArchetype h1) hs1 hr (fun he => keep_nil (by rw [← hids]; exact he)),
    walk_reserveArchetype hs (fun i hi ps hps p hp => keep_nil (hf i hi ps hps p hp)) h1]

theorem vacated_middle {α : Type} {e : α} {l l' : List α} (u v : List α) (h : Vacated e l l') (he : e ∈ l) :
    Vacated e (u ++ l ++ v) (u ++ l' ++ v) := by
  rcases h with ⟨h, _⟩ | ⟨a, b, rfl, rfl⟩ | ⟨a, b, x, c, rfl, rfl⟩
  · exact absurd he h
  · exact .inr (.inl ⟨u ++ a, b ++ v, by simp, by simp⟩)
  · exact .inr (.inr ⟨u ++ a, b, x, c ++ v, by simp, by simp⟩)

/-- Removing a row of a page, as `swap_remove` does. -/
theorem vacated_page (l : List Nat) (id : Nat) (p i : Nat) (hi : l[i]? = some id) (last : Nat) (hl : l.getLast? = some last) :
    Vacated id ((l.zipIdx.filter fun x => decide (x.1 ≠ id ∨ some (⟨p, x.2⟩ : Loc) = some ⟨p, i⟩)).map (·.1))
      (((l.set i last).dropLast).filter (· ≠ id)) := by
  obtain ⟨hlt, hid⟩ := List.getElem?_eq_some_iff.1 hi
  have hsplit : l = l.take i ++ id :: l.drop (i + 1) := by
    rw [← hid, List.getElem_cons_drop, List.take_append_drop]
  obtain ⟨x, y, hx, hxl⟩ : ∃ x y, l = x ++ id :: y ∧ x.length = i := ⟨_, _, hsplit, by simp; omega⟩
  clear hsplit
  subst hx
  subst hxl
  have hfx : ∀ (z : List Nat) (k : Nat), (∀ n, k ≤ n → n < k + z.length → n ≠ x.length) →
      ((z.zipIdx k).filter fun w => decide (w.1 ≠ id ∨ some (⟨p, w.2⟩ : Loc) = some ⟨p, x.length⟩)).map (·.1) = z.filter (· ≠ id) := by
    intro z
    induction z with
    | nil => intro k _; rfl
    | cons w z ih =>
      intro k hk
      rw [List.zipIdx_cons, List.filter_cons, List.filter_cons]
      have hk0 : k ≠ x.length := hk k (Nat.le_refl _) (by simp)
      have := ih (k + 1) (fun n h1 h2 => hk n (by omega) (by simp at *; omega))
      by_cases hw : w = id
      · simp [hw, hk0] at this ⊢
        exact this
      · simp [hw] at this ⊢
        exact this
  have hlist : (((x ++ id :: y).zipIdx.filter fun w => decide (w.1 ≠ id ∨ some (⟨p, w.2⟩ : Loc) = some ⟨p, x.length⟩)).map (·.1)) =
      x.filter (· ≠ id) ++ id :: y.filter (· ≠ id) := by
    rw [List.zipIdx_append, List.filter_append, List.map_append, hfx x 0 (by intro n _ h; omega), List.zipIdx_cons,
      List.filter_cons, if_pos (by simp), List.map_cons, hfx y _ (by intro n h1 h2; omega)]
  rw [hlist]
  rcases List.eq_nil_or_concat y with rfl | ⟨y', z, rfl⟩
  · have : last = id := by simpa using hl.symm
    subst this
    refine .inr (.inl ⟨x.filter (· ≠ last), [], by simp, ?_⟩)
    simp
  · have : last = z := by
      rw [List.concat_eq_append, show x ++ id :: (y' ++ [z]) = (x ++ id :: y') ++ [z] by simp, List.getLast?_concat] at hl
      exact (Option.some.inj hl).symm
    subst this
    have hset : ((x ++ id :: (y' ++ [last])).set x.length last).dropLast = x ++ last :: y' := by
      rw [List.set_append_right _ _ (Nat.le_refl _)]
      simp only [Nat.sub_self, List.set_cons_zero]
      rw [show x ++ last :: (y' ++ [last]) = (x ++ last :: y') ++ [last] by simp, List.dropLast_concat]
    have hconc : y'.concat last = y' ++ [last] := by simp
    rw [List.concat_eq_append, hset]
    by_cases hz : last = id
    · refine .inr (.inl ⟨_, _, rfl, ?_⟩)
      simp [hz]
    · refine .inr (.inr ⟨x.filter (· ≠ id), y'.filter (· ≠ id), last, [], ?_, ?_⟩)
      · simp [hz]
      · simp [hz]

/-- Removing the row of `id` at `q`: one other row takes its place. -/
theorem walk_swapRemove {c c' : Archs} {q : Loc} {id : Nat} {o : Option Nat} {K : Archetype → Bool} (h : c.Use)
    (hr : c.swapRemoveEntity q = .ok (c', o)) (hq : c.row q = some id) :
    Vacated id (c.walk K (c.keep id (some q))) (c'.walk K (c'.keep id none)) := by
  unfold Archs.swapRemoveEntity at hr
  obtain ⟨ai, h1, hr⟩ := bind_eq_ok.1 hr
  obtain ⟨pg, h2, hr⟩ := bind_eq_ok.1 hr
  obtain ⟨a, h3, hr⟩ := bind_eq_ok.1 hr
  obtain ⟨l, h4, hr⟩ := bind_eq_ok.1 hr
  obtain ⟨⟨pg', o'⟩, h5, hr⟩ := bind_eq_ok.1 hr
  obtain ⟨last, k1, k2, k3, k4⟩ := Archs.Use.swapRemoveIndex_items h5
  have hp := idx_ok.1 h2
  have hlt := (List.getElem?_eq_some_iff.1 hp).1
  dsimp only at hr
  -- the pages afterwards
  have key : ∃ c1 : Archs, c1.pages = c.pages.set q.page pg' ∧ c1.archetypes = c.archetypes ∧ c1.archPages = c.archPages ∧
      c'.pages = c1.pages ∧ c'.walk K (c'.keep id none) = c1.walk K (c1.keep id none) := by
    refine ⟨{ c with pages := c.pages.set q.page pg' }, rfl, rfl, rfl, ?_⟩
    split at hr
    · next he =>
      obtain ⟨c2, h6, hr⟩ := bind_eq_ok.1 hr
      cases hr
      have hempty : pg'.ids.items = [] := by
        rw [k3, ← List.length_eq_zero_iff]
        have : pg.ids.items.length = 1 := by simpa [Page.entityCount] using he
        simp [this]
      unfold Archs.freePage at h6
      obtain ⟨ai', h7, h6⟩ := bind_eq_ok.1 h6
      split at h6
      · cases h6; exact ⟨rfl, rfl⟩
      · obtain ⟨ps, h8, h6⟩ := bind_eq_ok.1 h6
        dsimp only at h6 h8
        have hk0 : Archs.keep { c with pages := c.pages.set q.page pg' } id none q.page = [] := by
          refine keep_nil ?_
          unfold Archs.idsOf
          simp [hlt, hempty]
        split at h6
        · cases h6
          refine ⟨rfl, ?_⟩
          refine walk_set_pages _ _ _ _ (fun pl0 h0 => ?_)
          have := idx_ok.1 h8
          rw [this] at h0
          cases h0
          show ((ps.erase q.page).flatMap (Archs.keep { c with pages := c.pages.set q.page pg' } id none)) =
            ps.flatMap (Archs.keep { c with pages := c.pages.set q.page pg' } id none)
          generalize (Archs.keep { c with pages := c.pages.set q.page pg' } id none) = G at hk0
          clear * - hk0
          induction ps with
          | nil => rfl
          | cons x ps ih =>
            by_cases hx : x = q.page
            · subst hx; simp [hk0]
            · rw [List.erase_cons_tail (by simpa using hx), List.flatMap_cons, List.flatMap_cons, ih]
        · cases h6; exact ⟨rfl, rfl⟩
    · cases hr; exact ⟨rfl, rfl⟩
  obtain ⟨c1, e1, e2, e3, e4, e5⟩ := key
  rw [e5]
  have hpages : c1.pagesOf K = c.pagesOf K := by unfold Archs.pagesOf; rw [e2, e3]
  rw [walk_pages, walk_pages, hpages]
  have hother : ∀ p, p ≠ q.page → c1.keep id none p = c.keep id (some q) p := by
    intro p hne
    have hi : c1.idsOf p = c.idsOf p := by
      unfold Archs.idsOf; rw [e1, List.getElem?_set_ne (Ne.symm hne)]
    unfold Archs.keep
    rw [hi]
    congr 2
    funext x
    have : ¬ (some (⟨p, x.2⟩ : Loc) = some q) := fun he => hne (by rw [← Option.some.inj he])
    simp [this]
  have hitems : c.idsOf q.page = pg.ids.items := by unfold Archs.idsOf; simp [hp]
  have hrow : pg.ids.items[q.index]? = some id := by
    rw [← hitems, Archs.idsOf_getElem]; exact hq
  have hthis : Vacated id (c.keep id (some q) q.page) (c1.keep id none q.page) := by
    have hi1 : c1.idsOf q.page = (pg.ids.items.set q.index last).dropLast := by
      unfold Archs.idsOf; rw [e1]; simp [hlt, k3]
    rw [Archs.keep_none, hi1]
    unfold Archs.keep
    rw [hitems]
    exact vacated_page _ _ _ _ hrow _ k1
  have hmem : id ∈ c.keep id (some q) q.page := by
    unfold Archs.keep
    rw [List.mem_map]
    refine ⟨(id, q.index), List.mem_filter.2 ⟨?_, by simp⟩, rfl⟩
    rw [hitems, List.mk_mem_zipIdx_iff_getElem?]
    exact hrow
  have hnd := h.pagesOf_nodup K
  by_cases hin : q.page ∈ c.pagesOf K
  · obtain ⟨L1, L2, hL⟩ := List.append_of_mem hin
    rw [hL] at hnd ⊢
    have hn := List.nodup_append.1 hnd
    have hn1 : ∀ p ∈ L1, p ≠ q.page := fun p hp => hn.2.2 p hp q.page (List.mem_cons_self)
    have hn2 : ∀ p ∈ L2, p ≠ q.page := fun p hp he => (List.nodup_cons.1 hn.2.1).1 (he ▸ hp)
    simp only [List.flatMap_append, List.flatMap_cons]
    rw [List.flatMap_congr (fun p hp => hother p (hn1 p hp)), List.flatMap_congr (fun p hp => hother p (hn2 p hp)),
      ← List.append_assoc, ← List.append_assoc]
    exact vacated_middle _ _ hthis hmem
  · left
    have hne : ∀ p ∈ c.pagesOf K, p ≠ q.page := fun p hp he => hin (he ▸ hp)
    refine ⟨?_, List.flatMap_congr fun p hp => hother p (hne p hp)⟩
    intro hm
    obtain ⟨p, hp, hm⟩ := List.mem_flatMap.1 hm
    rw [← hother p (hne p hp), Archs.keep_none] at hm
    simp at hm

theorem keep_same {c c' : Archs} (h : SameIds c.pages c'.pages) (id : Nat) (q : Option Loc) : c'.keep id q = c.keep id q := by
  funext p
  have : c'.idsOf p = c.idsOf p := idsOf_same fun i => Archs.Use.row_eq h _
  unfold Archs.keep
  rw [this]

theorem walk_move {dbg : Bool} {c c' : Archs} {id pi : Nat} {a : Archetype} {prev q : Loc} {K : Archetype → Bool}
    (h : c.Use) (hs : c.Shape) (ha : a.Even) (hf : c.FreeEmpty) (hr : c.moveEntityToOtherArchetype dbg id prev pi a = .ok (c', q))
    (hrow : c.row prev ≠ none) : c'.walk K (c'.keep id (some prev)) = c.walk K (c.keep id (some prev)) := by
  unfold Archs.moveEntityToOtherArchetype at hr
  obtain ⟨⟨c1, i⟩, h1, hr⟩ := bind_eq_ok.1 hr
  dsimp only at hr
  obtain ⟨⟨c2, q'⟩, h2, hr⟩ := bind_eq_ok.1 hr
  dsimp only at hr
  obtain ⟨_, _, hr⟩ := bind_eq_ok.1 hr
  obtain ⟨_, _, hr⟩ := bind_eq_ok.1 hr
  obtain ⟨_, _, hr⟩ := bind_eq_ok.1 hr
  obtain ⟨_, _, hr⟩ := bind_eq_ok.1 hr
  obtain ⟨_, _, hr⟩ := bind_eq_ok.1 hr
  obtain ⟨ps, h3, hr⟩ := bind_eq_ok.1 hr
  cases hr
  have hadd : c.addEntity dbg id a = .ok (c2, q) := by
    unfold Archs.addEntity
    simp only [h1, ok_bind]
    exact h2
  rw [keep_same (c := c2) (c' := { c2 with pages := ps }) (SameIds.copyLoop _ h3)]
  exact walk_addEntity h hs ha hf hadd (fun x hx => by cases hx; exact hrow)

/-- The ids in the order in which a query visits them. -/
def Store.order (s : Store) (acc : Access) : List Nat := s.archs.walk (fun a => decide (Covers a.ids acc)) s.archs.idsOf

theorem coveredRows_order {s : Store} (hs : s.archs.Shape) (acc : Access) : (coveredRows s acc).map (·.id) = s.order acc := by
  unfold coveredRows Store.order Archs.walk
  rw [List.map_flatMap]
  have hll := hs.llen
  generalize s.archs.archetypes = as at hll ⊢
  generalize s.archs.layouts = ls at hll ⊢
  generalize s.archs.archPages = pp
  induction as generalizing ls pp with
  | nil => simp
  | cons a as ih =>
    cases ls with
    | nil => simp at hll
    | cons l ls =>
      cases pp with
      | nil => simp
      | cons ps pp =>
        simp only [List.zip_cons_cons, List.flatMap_cons]
        rw [ih ls (by simpa using hll) pp]
        congr 1
        by_cases hc : Covers a.ids acc
        · simp only [hc, if_true, decide_true, List.map_flatMap]
          refine List.flatMap_congr fun p _ => ?_
          unfold rowsOfPage Archs.idsOf
          cases s.archs.pages[p]? with
          | none => rfl
          | some pg =>
            simp only [List.map_map, Option.elim]
            exact List.zipIdx_map_fst _ _
        · simp [hc]

theorem walk_filter (c : Archs) (K : Archetype → Bool) (id : Nat) :
    (c.walk K c.idsOf).filter (· ≠ id) = c.walk K (c.keep id none) := by
  rw [walk_pages, walk_pages, List.filter_flatMap]
  exact List.flatMap_congr fun p _ => (c.keep_none id p).symm

/-- Only the row at `q` is of `id`. -/
theorem walk_only {c : Archs} {K : Archetype → Bool} {id : Nat} {q : Option Loc}
    (h : ∀ r, c.row r = some id → some r = q) : c.walk K c.idsOf = c.walk K (c.keep id q) := by
  refine walk_congr fun _ _ p _ => ?_
  unfold Archs.keep
  rw [List.filter_eq_self.2]
  · exact (List.zipIdx_map_fst _ _).symm
  · rintro ⟨x, i⟩ hx
    rw [List.mk_mem_zipIdx_iff_getElem?, Archs.idsOf_getElem] at hx
    simp only [decide_eq_true_eq]
    by_cases hxi : x = id
    · subst hxi; exact .inr (h _ hx)
    · exact .inl hxi

theorem not_mem_walk {c : Archs} {K : Archetype → Bool} {id : Nat} (h : ∀ r, c.row r ≠ some id) : id ∉ c.walk K c.idsOf := by
  intro hm
  rw [walk_pages] at hm
  obtain ⟨p, _, hm⟩ := List.mem_flatMap.1 hm
  obtain ⟨i, hi⟩ := List.mem_iff_getElem?.1 hm
  rw [Archs.idsOf_getElem] at hi
  exact h _ hi

theorem order_archs {s s' : Store} (h : s'.archs = s.archs) (acc : Access) : s'.order acc = s.order acc := by
  unfold Store.order; rw [h]

theorem order_setPages {s : Store} {ps : List Page} (h : SameIds s.archs.pages ps) (acc : Access) :
    Store.order { s with archs := { s.archs with pages := ps } } acc = s.order acc := by
  have : Archs.idsOf { s.archs with pages := ps } = s.archs.idsOf := funext fun p => idsOf_same fun i =>
    Archs.Use.row_eq (c := s.archs) (c' := { s.archs with pages := ps }) h _
  unfold Store.order
  dsimp only
  rw [this]
  rfl

theorem order_swapRemove {s s' : Store} {A : Nat → Prop} {q : Loc} {id : Nat} (h : s.archs.Use)
    (hr : s.swapRemoveInternal q = .ok s') (hq : s.archs.row q = some id) (acc : Access) :
    Vacated id (s.archs.walk (fun a => decide (Covers a.ids acc)) (s.archs.keep id (some q))) ((s'.order acc).filter (· ≠ id)) := by
  unfold Store.swapRemoveInternal at hr
  obtain ⟨⟨c, info⟩, h1, hr⟩ := bind_eq_ok.1 hr
  have key := walk_swapRemove (K := fun a => decide (Covers a.ids acc)) h h1 hq
  have hc : s'.archs = c := by
    dsimp only at hr
    split at hr
    · obtain ⟨_, _, hr⟩ := bind_eq_ok.1 hr
      cases hr; rfl
    · cases hr; rfl
  unfold Store.order
  rw [hc, walk_filter]
  exact key

namespace Store.Rows
variable {U : Universe} {dbg : Bool} {s s' : Store} {A : Nat → Prop}

theorem order_only {id : Nat} {q : Loc} (h : s.Rows A none) (hA : A id) (hp : Pos s.toPage s.toIndex id q) (acc : Access) :
    s.order acc = s.archs.walk (fun a => decide (Covers a.ids acc)) (s.archs.keep id (some q)) := by
  refine walk_only fun r hr => ?_
  rcases h.rows r id hr with h0 | ⟨_, h0⟩
  · cases h0
  · rw [h0.unique hp]

theorem order_none {id : Nat} (h : s.Rows A none) (hA : ¬ A id) : ∀ r, s.archs.row r ≠ some id := by
  intro r hr
  rcases h.rows r id hr with h0 | ⟨h0, _⟩
  · cases h0
  · exact hA h0

theorem order_destroyRow {e : Entity} (h : s.Rows A none) (hA : s.hasArch.bit e.id = true ↔ A e.id)
    (hr : s.destroyRow e = .ok s') (acc : Access) : Vacated e.id (s.order acc) ((s'.order acc).filter (· ≠ e.id)) := by
  unfold Store.destroyRow at hr
  obtain ⟨b, h1, hr⟩ := bind_eq_ok.1 hr
  have hb := (Words.isOn_ok.1 h1).2
  split at hr
  · next hbt =>
    obtain ⟨q, h2, hr⟩ := bind_eq_ok.1 hr
    have hAe := hA.1 (hb.symm.trans hbt)
    rw [h.order_only hAe (getLoc h2)]
    exact order_swapRemove (A := A) h.use hr (h.forget hAe (getLoc h2)).2 acc
  · next hbt =>
    cases hr
    have hn := h.order_none (fun hAe => hbt (hb.trans (hA.2 hAe)))
    refine .inl ⟨not_mem_walk hn, ?_⟩
    rw [List.filter_eq_self]
    intro x hx
    simp only [ne_eq, decide_not, Bool.not_eq_eq_eq_not, Bool.not_true, decide_eq_false_iff_not]
    rintro rfl
    exact not_mem_walk hn hx

theorem order_move {e : Entity} {a : Archetype} {q : Loc} (h : s.Rows A none) (hs : s.Shape) (ha : a.Even) (hA : A e.id)
    (hf : s.archs.FreeEmpty) (hr : s.moveEntityToOtherArchetype dbg e a = .ok (s', q)) (acc : Access) :
    Vacated e.id (s.order acc) ((s'.order acc).filter (· ≠ e.id)) := by
  unfold Store.moveEntityToOtherArchetype at hr
  obtain ⟨p, h1, hr⟩ := bind_eq_ok.1 hr
  obtain ⟨ai, h2, hr⟩ := bind_eq_ok.1 hr
  obtain ⟨⟨c, q'⟩, h3, hr⟩ := bind_eq_ok.1 hr
  dsimp only at hr
  obtain ⟨x, h4, hr⟩ := bind_eq_ok.1 hr
  obtain ⟨y, h5, hr⟩ := bind_eq_ok.1 hr
  obtain ⟨s1, h6, hr⟩ := bind_eq_ok.1 hr
  cases hr
  obtain ⟨k0, krow⟩ := h.forget hA (getLoc h1)
  obtain ⟨k1, k2, k3⟩ := h.use.move hs.archs ha h3
  have hne : p ≠ q := by
    rintro rfl
    rw [k2] at krow; cases krow
  rw [h.order_only hA (getLoc h1), ← walk_move h.use hs.archs ha hf h3 (by rw [krow]; simp)]
  exact order_swapRemove (A := A) (s := { s with archs := c, toPage := x, toIndex := y }) k1 h6 (by
    show c.row p = _
    rw [k3, if_neg hne, krow]) acc

theorem order_addEntity {id : Nat} {a : Archetype} {q : Loc} {c : Archs} (h : s.Rows A none) (hs : s.Shape) (ha : a.Even) (hA : ¬ A id)
    (hf : s.archs.FreeEmpty) (hr : s.archs.addEntity dbg id a = .ok (c, q)) (hc : s'.archs = c) (acc : Access) :
    Vacated id (s.order acc) ((s'.order acc).filter (· ≠ id)) := by
  have hn := h.order_none hA
  refine .inl ⟨not_mem_walk hn, ?_⟩
  unfold Store.order
  rw [hc, walk_filter, walk_addEntity (r := none) h.use hs.archs ha hf hr (by intro x hx; cases hx)]
  exact (walk_only fun r hr => absurd hr (hn r)).symm

theorem order_ensure {e : Entity} {ts : List TypeId} {q : Loc} (h : s.Rows A none) (hs : s.Shape) (hf : s.archs.FreeEmpty)
    (hA : s.hasArch.bit e.id = true ↔ A e.id)
    (hr : s.ensureComponents U dbg e ts = .ok (s', q)) (acc : Access) :
    s'.order acc = s.order acc ∨ Vacated e.id (s.order acc) ((s'.order acc).filter (· ≠ e.id)) := by
  unfold Store.ensureComponents at hr
  obtain ⟨b, h1, hr⟩ := bind_eq_ok.1 hr
  have hb := (Words.isOn_ok.1 h1).2
  split at hr
  · next hbt =>
    have hAe := hA.1 (hb.symm.trans hbt)
    obtain ⟨p, h2, hr⟩ := bind_eq_ok.1 hr
    obtain ⟨ai, h3, hr⟩ := bind_eq_ok.1 hr
    obtain ⟨a, h4, hr⟩ := bind_eq_ok.1 hr
    split at hr
    · cases hr; exact .inl rfl
    · obtain ⟨⟨na, bb⟩, h5, hr⟩ := bind_eq_ok.1 hr
      exact .inr (h.order_move hs (ArchetypeBuilder.build_even h5) hAe hf hr acc)
  · next hbt =>
    obtain ⟨a, h2, hr⟩ := bind_eq_ok.1 hr
    obtain ⟨⟨c, q'⟩, h3, hr⟩ := bind_eq_ok.1 hr
    dsimp only at hr
    obtain ⟨s1, h4, hr⟩ := bind_eq_ok.1 hr
    cases hr
    right
    refine h.order_addEntity hs (Archetype.withComponents_even h2) (fun hAe => hbt (hb.trans (hA.2 hAe))) hf h3 ?_ acc
    unfold Store.recordRow at h4
    obtain ⟨_, _, h4⟩ := bind_eq_ok.1 h4
    obtain ⟨_, _, h4⟩ := bind_eq_ok.1 h4
    obtain ⟨_, _, h4⟩ := bind_eq_ok.1 h4
    cases h4; rfl

end Store.Rows

section step
variable {U : Universe} {dbg : Bool} {cap : Nat} {h : List Event} {s s' : Store} {ev : Event}

theorem order_quiet (hx : LooseExec U dbg cap h s) (hl : Loose (world h) ev) (hr : Returns U dbg s ev s') (hm : movesNothing ev = true)
    (acc : Access) : s'.order acc = s.order acc := by
  have hc := loose_core hx
  cases ev with
  | created e =>
    simp only [Returns, Store.createEntity] at hr
    obtain ⟨⟨s1, e1⟩, h1, hr⟩ := bind_eq_ok.1 hr
    obtain ⟨b, h2, hr⟩ := bind_eq_ok.1 hr
    cases hr
    obtain ⟨s2, e2, k1, _, k3, k4, k5, _⟩ := hc.register (dbg := dbg) hl
    rw [h1] at k1
    cases k1
    exact order_archs k5 acc
  | assigned e vals =>
    obtain ⟨b, hr⟩ := hr
    unfold Store.setComponents at hr
    obtain ⟨o, h1, hr⟩ := bind_eq_ok.1 hr
    split at hr
    · cases hr; rfl
    · obtain ⟨pg, h2, hr⟩ := bind_eq_ok.1 hr
      cases hr
      exact order_setPages (SameIds.assign _ h2) acc
  | createdWith e ts init => cases hm
  | destroyed e => cases hm
  | added e vals => cases hm
  | removed e ts => cases hm
  | tagged t e => obtain ⟨_, _, hr⟩ := bind_eq_ok.1 hr; cases hr; rfl
  | untagged t e => obtain ⟨_, _, hr⟩ := bind_eq_ok.1 hr; cases hr; rfl
  | orderedLast g e => obtain ⟨_, _, hr⟩ := bind_eq_ok.1 hr; cases hr; rfl
  | orderedAfter g e x => obtain ⟨_, _, hr⟩ := bind_eq_ok.1 hr; cases hr; rfl
  | orderedBefore g e x => obtain ⟨_, _, hr⟩ := bind_eq_ok.1 hr; cases hr; rfl
  | unordered g e => obtain ⟨_, _, hr⟩ := bind_eq_ok.1 hr; cases hr; rfl

/-- The call is `destroy_entity`. -/
def destroys : Event → Bool
  | .destroyed _ => true
  | _ => false

/-- How the order of the ids changes with a call. -/
theorem order_step (hx : LooseExec U dbg cap h s) (hl : Loose (world h) ev) (hr : Returns U dbg s ev s')
    (hu : destroys ev = false → UsedNotFree s) (acc : Access) :
    s'.order acc = s.order acc ∨
      (Vacated (subject ev).id (s.order acc) ((s'.order acc).filter (· ≠ (subject ev).id)) ∧
        (subject ev ∈ alive h ∨ (subject ev ∈ alive (ev :: h) ∧ (subject ev).id ∉ s.order acc))) := by
  by_cases hm : movesNothing ev = true
  · exact .inl (order_quiet hx hl hr hm acc)
  have hc := loose_core hx
  have hs := loose_shape hx
  have ih := loose_rows hx
  obtain ⟨hg1, hg2⟩ := given_bit hx
  have hinj : ∀ e ∈ alive h, ∀ x ∈ alive h, e.id = x.id → e = x := by
    rw [alive_eq]; exact hc.inj
  have hlt : ∀ i, Holder h i → i < s.ents.capacity := by
    rintro i ⟨e, he, _, rfl⟩
    rw [alive_eq] at he
    exact hc.ents.id_lt he
  have hbit : ∀ e ∈ alive h, (s.hasArch.bit e.id = true ↔ Holder h e.id) := by
    intro e he
    rw [hg2 e he]
    exact ⟨fun hg => ⟨e, he, hg, rfl⟩, fun ⟨x, hx, hxg, hid⟩ => hinj x hx e he hid ▸ hxg⟩
  cases ev with
  | createdWith e ts init =>
    have hf := freeEmpty_of ih.use (hu rfl)
    obtain ⟨a, ha, _, hr⟩ := hr
    unfold Store.createEntityWithArchetype at hr
    obtain ⟨⟨s1, e1⟩, h1, hr⟩ := bind_eq_ok.1 hr
    obtain ⟨⟨c, q⟩, h3, hr⟩ := bind_eq_ok.1 hr
    dsimp only at hr h3
    obtain ⟨s2, h2, hr⟩ := bind_eq_ok.1 hr
    cases hr
    obtain ⟨hs1, _⟩ := Store.Shape.register hc hs hl h1
    obtain ⟨s3, e3, k1, _, k3, k4, k5, _, _, _, k9, k10, k11, k12, _⟩ := hc.register (dbg := dbg) hl
    rw [h1] at k1
    cases k1
    rw [← alive_eq] at k4
    have h0 : s1.Rows (Holder h) none := ih.grow hlt k5 k10 k11
    have hno : ¬ Holder h e.id := fun ⟨x, hx, _, hid⟩ => k4 x hx hid
    have hc2 : s'.archs = c := by
      unfold Store.recordRow at h2
      obtain ⟨_, _, h2⟩ := bind_eq_ok.1 h2
      obtain ⟨_, _, h2⟩ := bind_eq_ok.1 h2
      obtain ⟨_, _, h2⟩ := bind_eq_ok.1 h2
      cases h2; rfl
    right
    rw [← order_archs k5 acc]
    refine ⟨h0.order_addEntity hs1 ha.wf.even hno (by rw [k5]; exact hf) h3 hc2 acc, .inr ⟨List.mem_cons_self, ?_⟩⟩
    exact not_mem_walk (h0.order_none hno)
  | destroyed e =>
    have hle : e ∈ alive h := by rw [alive_eq]; exact hl
    simp only [Returns, Store.destroyEntity] at hr
    obtain ⟨s1, h1, hr⟩ := bind_eq_ok.1 hr
    obtain ⟨_, _, hr⟩ := bind_eq_ok.1 hr
    obtain ⟨tg, h2, hr⟩ := bind_eq_ok.1 hr
    obtain ⟨_, _, hr⟩ := bind_eq_ok.1 hr
    cases hr
    exact .inr ⟨ih.order_destroyRow (hbit e hle) h1 acc, .inl hle⟩
  | added e vals =>
    have hf := freeEmpty_of ih.use (hu rfl)
    simp only [Returns, Store.addComponents] at hr
    obtain ⟨b, h1, hr⟩ := bind_eq_ok.1 hr
    have hlt1 := hc.isAlive_lt h1
    rw [hc.isAlive hlt1, ← alive_eq] at h1
    cases h1
    split at hr
    · cases hr; exact .inl rfl
    · next hb =>
      have hle : e ∈ alive h := by simpa using hb
      obtain ⟨⟨s1, q⟩, h2, hr⟩ := bind_eq_ok.1 hr
      dsimp only at hr
      obtain ⟨v, h3, hr⟩ := bind_eq_ok.1 hr
      obtain ⟨o, h4, hr⟩ := bind_eq_ok.1 hr
      obtain ⟨pg, h5, hr⟩ := bind_eq_ok.1 hr
      cases hr
      rw [order_setPages (SameIds.assign _ h5)]
      exact (ih.order_ensure hs hf (hbit e hle) h2 acc).imp id fun hv => ⟨hv, .inl hle⟩
  | removed e ts =>
    have hf := freeEmpty_of ih.use (hu rfl)
    simp only [Returns, Store.removeComponents] at hr
    obtain ⟨b, h1, hr⟩ := bind_eq_ok.1 hr
    cases b with
    | false => cases hr; exact .inl rfl
    | true =>
      have hA : e ∈ alive h ∧ Holder h e.id := by
        unfold Store.isValidEntityWithArchetype at h1
        obtain ⟨b, h2, h1⟩ := bind_eq_ok.1 h1
        cases b with
        | false => simp at h1
        | true =>
          have hlt1 := hc.isAlive_lt h2
          rw [hc.isAlive hlt1, ← alive_eq] at h2
          have hle : e ∈ alive h := by simpa using h2
          exact ⟨hle, (hbit e hle).1 (Words.isOn_ok.1 h1).2.symm⟩
      obtain ⟨p, h2, hr⟩ := bind_eq_ok.1 hr
      obtain ⟨ai, h3, hr⟩ := bind_eq_ok.1 hr
      obtain ⟨a, h4, hr⟩ := bind_eq_ok.1 hr
      obtain ⟨⟨na, bb⟩, h5, hr⟩ := bind_eq_ok.1 hr
      obtain ⟨⟨s1, q⟩, h6, hr⟩ := bind_eq_ok.1 hr
      cases hr
      exact .inr ⟨ih.order_move hs (ArchetypeBuilder.build_even h5) hA.2 hf h6 acc, .inl hA.1⟩
  | created e => exact absurd rfl hm
  | assigned e vals => exact absurd rfl hm
  | tagged t e => exact absurd rfl hm
  | untagged t e => exact absurd rfl hm
  | orderedLast g e => exact absurd rfl hm
  | orderedAfter g e x => exact absurd rfl hm
  | orderedBefore g e x => exact absurd rfl hm
  | unordered g e => exact absurd rfl hm

theorem order_row {acc : Access} {i : Nat} (hm : i ∈ s.order acc) :
    ∃ (ai : Nat) (a : Archetype) (ps : List Nat) (p k : Nat), s.archs.archetypes[ai]? = some a ∧ s.archs.archPages[ai]? = some ps ∧
      Covers a.ids acc ∧ p ∈ ps ∧ s.archs.row ⟨p, k⟩ = some i := by
  unfold Store.order Archs.walk at hm
  obtain ⟨x, hx, hm⟩ := List.mem_flatMap.1 hm
  obtain ⟨ai, hai⟩ := List.mem_iff_getElem?.1 hx
  obtain ⟨h1, h2⟩ := List.getElem?_zip_eq_some.1 hai
  split at hm
  · next hc =>
    obtain ⟨p, hp, hm⟩ := List.mem_flatMap.1 hm
    obtain ⟨k, hk⟩ := List.mem_iff_getElem?.1 hm
    rw [Archs.idsOf_getElem] at hk
    exact ⟨ai, x.1, x.2, p, k, h1, h2, of_decide_eq_true hc, hp, hk⟩
  · cases hm

theorem order_holder (hx : LooseExec U dbg cap h s) {acc : Access} {i : Nat} (hm : i ∈ s.order acc) : Holder h i := by
  obtain ⟨_, _, _, p, k, _, _, _, _, hk⟩ := order_row hm
  rcases (loose_rows hx).rows _ _ hk with h0 | ⟨h0, _⟩
  · cases h0
  · exact h0

/-- Each id has at most one row, so it is visited at most once. -/
theorem order_nodup (hx : LooseExec U dbg cap h s) (acc : Access) : (s.order acc).Nodup := by
  have ih := loose_rows hx
  have hone : ∀ q r i, s.archs.row q = some i → s.archs.row r = some i → q = r := by
    intro q r i hq hr
    rcases ih.rows q i hq with h0 | ⟨_, h0⟩
    · cases h0
    rcases ih.rows r i hr with h1 | ⟨_, h1⟩
    · cases h1
    exact h0.unique h1
  unfold Store.order
  rw [walk_pages, List.nodup_flatMap]
  constructor
  · intro p _
    rw [List.nodup_iff_getElem?_ne_getElem?]
    intro i j hij hj he
    rw [Archs.idsOf_getElem, Archs.idsOf_getElem] at he
    have hj' : s.archs.row ⟨p, j⟩ = some ((s.archs.idsOf p)[j]) := by
      rw [← Archs.idsOf_getElem]; exact List.getElem?_eq_getElem hj
    have := hone _ _ _ (he.trans hj') hj'
    have := congrArg Loc.index this
    dsimp only at this
    omega
  · refine (ih.use.pagesOf_nodup _).imp_of_mem ?_
    intro p p' _ _ hne x hx hx'
    obtain ⟨i, hi⟩ := List.mem_iff_getElem?.1 hx
    obtain ⟨j, hj⟩ := List.mem_iff_getElem?.1 hx'
    rw [Archs.idsOf_getElem] at hi hj
    exact hne (congrArg Loc.page (hone _ _ _ hi hj))

/-- An entity that a call destroys has no row afterwards. -/
theorem subject_kept (hx : LooseExec U dbg cap h s) (hl : Loose (world h) ev) (hr : Returns U dbg s ev s')
    (ha : subject ev ∈ alive h) (hn : subject ev ∉ alive (ev :: h)) (acc : Access) : (subject ev).id ∉ s'.order acc := by
  intro hm
  have hx' : LooseExec U dbg cap (ev :: h) s' := .step _ hx hl hr
  obtain ⟨x, hx1, _, hid⟩ := order_holder hx' hm
  have hsub : x ∈ alive h := by
    cases ev with
    | destroyed e => exact List.mem_of_mem_erase hx1
    | created e => exact absurd List.mem_cons_self hn
    | createdWith e ts init => exact absurd List.mem_cons_self hn
    | _ => exact hx1
  have hinj : ∀ e ∈ alive h, ∀ x ∈ alive h, e.id = x.id → e = x := by
    rw [alive_eq]; exact (loose_core hx).inj
  rw [hinj x hsub _ ha hid] at hx1
  exact hn hx1

theorem order_add_present (hx : LooseExec U dbg cap h s) {e : Entity} {vals : TupleVal} (hr : s.addComponents U dbg e vals = .ok s')
    (hm : e.id ∈ s.order (.readonly (vals.map (·.1)))) (acc : Access) : s'.order acc = s.order acc := by
  have hc := loose_core hx
  have hs := loose_shape hx
  have ih := loose_rows hx
  obtain ⟨ai, a, ps, p, k, h1, h2, h3, h4, h5⟩ := order_row hm
  have hpos : Pos s.toPage s.toIndex e.id ⟨p, k⟩ := by
    rcases ih.rows _ _ h5 with h0 | ⟨_, h0⟩
    · cases h0
    · exact h0
  have hto := ih.use.owner ai ps p h2 h4
  unfold Store.addComponents at hr
  obtain ⟨b, g1, hr⟩ := bind_eq_ok.1 hr
  split at hr
  · cases hr; rfl
  · next hb =>
    obtain ⟨⟨s1, q⟩, g2, hr⟩ := bind_eq_ok.1 hr
    dsimp only at hr g2
    obtain ⟨v, g3, hr⟩ := bind_eq_ok.1 hr
    obtain ⟨o, g4, hr⟩ := bind_eq_ok.1 hr
    obtain ⟨pg, g5, hr⟩ := bind_eq_ok.1 hr
    cases hr
    rw [order_setPages (SameIds.assign _ g5)]
    have hle : e ∈ alive h := by
      have hlt1 := hc.isAlive_lt g1
      rw [hc.isAlive hlt1, ← alive_eq] at g1
      cases g1
      simpa using hb
    unfold Store.ensureComponents at g2
    obtain ⟨b', j1, g2⟩ := bind_eq_ok.1 g2
    have hb' := (Words.isOn_ok.1 j1).2
    have hbit : b' = true := by
      rw [hb', (given_bit hx).2 e hle]
      obtain ⟨x, hx1, hx2, hid⟩ := order_holder hx hm
      have hinj : ∀ e ∈ alive h, ∀ x ∈ alive h, e.id = x.id → e = x := by
        rw [alive_eq]; exact hc.inj
      exact hinj x hx1 e hle hid ▸ hx2
    rw [if_pos hbit] at g2
    obtain ⟨p', j2, g2⟩ := bind_eq_ok.1 g2
    obtain ⟨ai', j3, g2⟩ := bind_eq_ok.1 g2
    obtain ⟨a', j4, g2⟩ := bind_eq_ok.1 g2
    have hloc := (Store.Rows.getLoc j2).unique hpos
    subst hloc
    have j3' := idx_ok.1 j3
    rw [hto] at j3'
    cases j3'
    have j4' := idxUnchecked_ok.1 j4
    rw [h1] at j4'
    cases j4'
    obtain ⟨l, hl⟩ : ∃ l, s.archs.layouts[ai]? = some l :=
      ⟨_, List.getElem?_eq_getElem (show ai < s.archs.layouts.length by
        rw [hs.archs.llen]; exact (List.getElem?_eq_some_iff.1 h1).1)⟩
    have hinc := (Access.included_covers (hs.archs.even ai a l h1 hl).1.sorted).2 h3
    rw [if_pos (show tupleIncluded _ a = true from hinc)] at g2
    cases g2
    rfl

end step

end Ecs
