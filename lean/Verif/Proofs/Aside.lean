import Verif.Proofs.VisitOrder
import Verif.Spec.Query

/-! Where the rows of some ids are the last in their pages, moving and removing them leaves all other rows where they are, in the
same order, read with the same archetypes and layouts. -/

namespace Ecs
open Spec

/-- The rows of a page with an id outside `T`, if its components are laid out as in `x`. -/
def Archs.pageBut (c : Archs) (T : Nat → Bool) (x : Archetype × Layout) (p : Nat) : List Row :=
  ((c.idsOf p).zipIdx.filter fun y => !T y.1).map fun y => ⟨x.1, x.2, ⟨p, y.2⟩, y.1⟩

/-- Visits the pages of all archetypes. -/
def Archs.tour (c : Archs) (F : Archetype × Layout → Nat → List Row) : List Row :=
  ((c.archetypes.zip c.layouts).zip c.archPages).flatMap fun x => x.2.flatMap (F x.1)

/-- The rows with an id outside `T`, in the order in which queries visit them. -/
def Archs.others (c : Archs) (T : Nat → Bool) : List Row := c.tour (c.pageBut T)

/-- The rows with ids in `T` are the last in their pages, and free archetypes have no rows of other ids. -/
structure Archs.Aside (c : Archs) (T : Nat → Bool) : Prop where
  tail : ∀ p, ∃ l m, c.idsOf p = l ++ m ∧ (∀ j ∈ l, T j = false) ∧ ∀ j ∈ m, T j = true
  free : ∀ i ∈ c.freeArchetypes, ∀ ps, c.archPages[i]? = some ps → ∀ p ∈ ps, ∀ j ∈ c.idsOf p, T j = true

theorem pageBut_nil {c : Archs} {T : Nat → Bool} {p : Nat} (x : Archetype × Layout) (h : ∀ j ∈ c.idsOf p, T j = true) :
    c.pageBut T x p = [] := by
  unfold Archs.pageBut
  rw [List.map_eq_nil_iff, List.filter_eq_nil_iff]
  intro y hy
  simpa using h y.1 (List.fst_mem_of_mem_zipIdx hy)

theorem pageBut_tail {c c' : Archs} {T : Nat → Bool} {p : Nat} {l m m' : List Nat} (h : c.idsOf p = l ++ m)
    (h' : c'.idsOf p = l ++ m') (hm : ∀ j ∈ m, T j = true) (hm' : ∀ j ∈ m', T j = true) (x : Archetype × Layout) :
    c'.pageBut T x p = c.pageBut T x p := by
  have key : ∀ (m : List Nat) (n : Nat), (∀ j ∈ m, T j = true) → (m.zipIdx n).filter (fun y => !T y.1) = [] := by
    intro m n hm
    rw [List.filter_eq_nil_iff]
    intro y hy
    simpa using hm y.1 (List.fst_mem_of_mem_zipIdx hy)
  unfold Archs.pageBut
  rw [h, h', List.zipIdx_append, List.zipIdx_append, List.filter_append, List.filter_append, key _ _ hm, key _ _ hm']

theorem tour_congr {c : Archs} {F G : Archetype × Layout → Nat → List Row} (h : ∀ x p, F x p = G x p) : c.tour F = c.tour G := by
  have : F = G := funext fun x => funext fun p => h x p
  rw [this]

section lists
variable {γ : Type} {F : γ → Nat → List Row}

theorem tour_set_arch (a : γ) : ∀ (as : List γ) (ps : List (List Nat)) (i : Nat),
    (∀ pl, ps[i]? = some pl → ∀ x, ∀ p ∈ pl, F x p = []) →
    ((as.set i a).zip ps).flatMap (fun x => x.2.flatMap (F x.1)) = (as.zip ps).flatMap (fun x => x.2.flatMap (F x.1))
  | [], _, _, _ => by simp
  | _ :: _, [], _, _ => by simp
  | b :: as, pl :: ps, 0, h => by
    have : ∀ x, pl.flatMap (F x) = [] := fun x => by rw [List.flatMap_eq_nil_iff]; exact h pl rfl x
    simp [this]
  | b :: as, pl :: ps, i + 1, h => by
    have := tour_set_arch a as ps i (fun pl' hp => h pl' (by simpa using hp))
    simp only [List.set_cons_succ, List.zip_cons_cons, List.flatMap_cons, this]

theorem tour_set_pages (pl' : List Nat) : ∀ (as : List γ) (ps : List (List Nat)) (i : Nat),
    (∀ pl, ps[i]? = some pl → ∀ x, pl'.flatMap (F x) = pl.flatMap (F x)) →
    (as.zip (ps.set i pl')).flatMap (fun x => x.2.flatMap (F x.1)) = (as.zip ps).flatMap (fun x => x.2.flatMap (F x.1))
  | [], _, _, _ => by simp
  | _ :: _, [], _, _ => by simp
  | b :: as, pl :: ps, 0, h => by
    have := h pl rfl
    simp [this]
  | b :: as, pl :: ps, i + 1, h => by
    have := tour_set_pages pl' as ps i (fun pl' hp => h pl' (by simpa using hp))
    simp only [List.set_cons_succ, List.zip_cons_cons, List.flatMap_cons, this]

theorem zip_set {α β : Type} (a : α) (b : β) : ∀ (as : List α) (bs : List β) (i : Nat),
    (as.set i a).zip (bs.set i b) = (as.zip bs).set i (a, b)
  | [], _, _ => by simp
  | _ :: _, [], _ => by simp
  | _ :: _, _ :: _, 0 => rfl
  | x :: as, y :: bs, i + 1 => by simp [zip_set a b as bs i]

end lists

namespace Archs.Aside
variable {dbg : Bool} {c c' : Archs} {id : Nat} {T : Nat → Bool}

theorem reserveArchetype {a : Archetype} {i : Nat} (h : c.Aside T) (hs : c.Shape) (hr : c.reserveArchetype dbg a = .ok (c', i)) :
    c'.Aside T ∧ c'.others T = c.others T := by
  unfold Archs.reserveArchetype at hr
  split at hr
  · split at hr
    · cases hr
      exact ⟨⟨h.tail, fun i hi => h.free i (List.mem_of_mem_eraseIdx hi)⟩, rfl⟩
    · cases hr
      exact ⟨h, rfl⟩
  · obtain ⟨l, _, hr⟩ := bind_eq_ok.1 hr
    split at hr
    · next k hk =>
      obtain ⟨as, h1, hr⟩ := bind_eq_ok.1 hr
      obtain ⟨ls, h2, hr⟩ := bind_eq_ok.1 hr
      cases hr
      obtain ⟨_, rfl⟩ := idxSet_ok h1
      obtain ⟨_, rfl⟩ := idxSet_ok h2
      refine ⟨⟨h.tail, fun i hi => h.free i ((List.dropLast_sublist _).subset hi)⟩, ?_⟩
      unfold Archs.others Archs.tour
      dsimp only
      rw [zip_set]
      exact tour_set_arch _ _ _ _ (fun pl hpl x p hp => pageBut_nil x (h.free i (List.mem_of_getLast? hk) pl hpl p hp))
    · next hk =>
      cases hr
      refine ⟨⟨h.tail, fun i hi => ?_⟩, ?_⟩
      · dsimp only at hi
        rw [List.getLast?_eq_none_iff.1 hk] at hi
        cases hi
      · unfold Archs.others Archs.tour
        dsimp only
        rw [List.zip_append (by rw [hs.llen]), List.zip_append (by rw [List.length_zip, hs.llen, hs.plen]; simp)]
        simp
        rfl

/-- The ids of the pages after a row for `id` was added at `q`. -/
theorem push_tail {q : Loc} (h : c.Aside T) (ht : T id = true) (h0 : c.row q = none)
    (hr : ∀ r, c'.row r = if r = q then some id else c.row r) (p : Nat) :
    ∃ l m m', c.idsOf p = l ++ m ∧ c'.idsOf p = l ++ m' ∧ (∀ j ∈ l, T j = false) ∧ (∀ j ∈ m, T j = true) ∧ ∀ j ∈ m', T j = true := by
  obtain ⟨l, m, h1, h2, h3⟩ := h.tail p
  by_cases hp : p = q.page
  · subst hp
    refine ⟨l, m, m ++ [id], h1, ?_, h2, h3, fun j hj => ?_⟩
    · rw [idsOf_push h0 hr, h1, List.append_assoc]
    · rcases List.mem_append.1 hj with hj | hj
      · exact h3 j hj
      · rw [List.mem_singleton.1 hj]; exact ht
  · refine ⟨l, m, m, h1, ?_, h2, h3, h3⟩
    rw [← h1]
    exact idsOf_same (fun i => by rw [hr, if_neg (fun he => hp (by rw [← he]))])

theorem reservePage {i : Nat} {q : Loc} (h : c.Aside T) (ht : T id = true) (hu : c.Use) (hs : c.Shape) (hr : c.reservePage dbg id i = .ok (c', q)) :
    c'.Aside T ∧ c'.others T = c.others T := by
  obtain ⟨_, g2, g3⟩ := hu.reservePage hs hr
  have htail := h.push_tail ht g2 g3
  have hsame : ∀ x p, c'.pageBut T x p = c.pageBut T x p := fun x p => by
    obtain ⟨l, m, m', e1, e2, _, e4, e5⟩ := htail p
    exact pageBut_tail e1 e2 e4 e5 x
  have hsub : ∀ p, (∀ j ∈ c.idsOf p, T j = true) → ∀ j ∈ c'.idsOf p, T j = true := fun p hp j hj => by
    obtain ⟨l, m, m', e1, e2, _, _, e5⟩ := htail p
    rw [e2] at hj
    rcases List.mem_append.1 hj with hj | hj
    · exact hp j (by rw [e1]; exact List.mem_append_left _ hj)
    · exact e5 j hj
  have ht' : ∀ p, ∃ l m, c'.idsOf p = l ++ m ∧ (∀ j ∈ l, T j = false) ∧ ∀ j ∈ m, T j = true := fun p => by
    obtain ⟨l, m, m', e1, e2, e3, _, e5⟩ := htail p
    exact ⟨l, m', e2, e3, e5⟩
  suffices hh : (∀ i ∈ c'.freeArchetypes, ∀ ps, c'.archPages[i]? = some ps → ∀ p ∈ ps, ∀ j ∈ c.idsOf p, T j = true) ∧
      c'.tour (c.pageBut T) = c.tour (c.pageBut T) by
    refine ⟨⟨ht', fun i hi ps hps p hp => hsub p (hh.1 i hi ps hps p hp)⟩, ?_⟩
    unfold Archs.others
    rw [← hh.2]
    exact tour_congr hsame
  unfold Archs.reservePage at hr
  obtain ⟨pl, h1, hr⟩ := bind_eq_ok.1 hr
  obtain ⟨o, h2, hr⟩ := bind_eq_ok.1 hr
  have hpl := idx_ok.1 h1
  split at hr
  · next p =>
    obtain ⟨page, h3, hr⟩ := bind_eq_ok.1 hr
    obtain ⟨⟨page', ix⟩, h4, hr⟩ := bind_eq_ok.1 hr
    cases hr
    exact ⟨h.free, rfl⟩
  · obtain ⟨⟨c1, p⟩, h3, hr⟩ := bind_eq_ok.1 hr
    dsimp only at hr
    obtain ⟨layout, h4, hr⟩ := bind_eq_ok.1 hr
    obtain ⟨page, h5, hr⟩ := bind_eq_ok.1 hr
    obtain ⟨pl', h6, hr⟩ := bind_eq_ok.1 hr
    obtain ⟨pa, h7, hr⟩ := bind_eq_ok.1 hr
    obtain ⟨⟨page', ix⟩, h8, hr⟩ := bind_eq_ok.1 hr
    cases hr
    obtain ⟨k1, k2, k3, k4, k5⟩ := hu.take hs hpl h3
    have h6' := idx_ok.1 h6
    rw [k4, hpl] at h6'
    cases h6'
    have hemp : c.idsOf p = [] := by
      refine List.ext_getElem? fun j => ?_
      rw [Archs.idsOf_getElem, ← k3, ← Archs.idsOf_getElem]
      unfold Archs.idsOf
      rw [idx_ok.1 h5]
      show page.ids.items[j]? = _
      rw [k5 page (idx_ok.1 h5)]
    have harch : c1.archetypes = c.archetypes ∧ c1.layouts = c.layouts ∧ c1.freeArchetypes = c.freeArchetypes := by
      split at h3
      · cases h3; exact ⟨rfl, rfl, rfl⟩
      · obtain ⟨_, _, h3⟩ := bind_eq_ok.1 h3
        obtain ⟨_, _, h3⟩ := bind_eq_ok.1 h3
        cases h3; exact ⟨rfl, rfl, rfl⟩
    constructor
    · intro i' hi' ps hps p' hp' j hj
      dsimp only at hi' hps
      rw [harch.2.2] at hi'
      rw [k4, List.getElem?_set] at hps
      split at hps
      · next he =>
        subst he
        split at hps
        · cases hps
          rcases List.mem_append.1 hp' with hp' | hp'
          · exact h.free _ hi' _ hpl p' hp' j hj
          · rw [List.mem_singleton.1 hp', hemp] at hj
            cases hj
        · cases hps
      · exact h.free _ hi' _ hps p' hp' j hj
    · show ((c1.archetypes.zip c1.layouts).zip (c1.archPages.set i (pl ++ [p]))).flatMap _ = _
      rw [harch.1, harch.2.1, k4]
      refine tour_set_pages _ _ _ _ (fun pl0 h0 x => ?_)
      rw [hpl] at h0
      cases h0
      rw [List.flatMap_append]
      simp [pageBut_nil (c := c) (T := T) (p := p) x (by rw [hemp]; simp)]

theorem addEntity {a : Archetype} {q : Loc} (h : c.Aside T) (ht : T id = true) (hu : c.Use) (hs : c.Shape) (ha : a.Even)
    (hr : c.addEntity dbg id a = .ok (c', q)) : c'.Aside T ∧ c'.others T = c.others T := by
  unfold Archs.addEntity at hr
  obtain ⟨⟨c1, i⟩, h1, hr⟩ := bind_eq_ok.1 hr
  obtain ⟨k1, k2⟩ := h.reserveArchetype hs h1
  obtain ⟨m1, m2⟩ := k1.reservePage ht (hu.reserveArchetype h1) (hs.reserveArchetype ha h1).1 hr
  exact ⟨m1, m2.trans k2⟩

theorem setPages {ps : List Page} (h : c.Aside T) (hp : SameIds c.pages ps) :
    Archs.Aside { c with pages := ps } T ∧ Archs.others { c with pages := ps } T = c.others T := by
  have hids : Archs.idsOf { c with pages := ps } = c.idsOf := funext fun p => idsOf_same fun i =>
    Archs.Use.row_eq (c := c) (c' := { c with pages := ps }) hp _
  refine ⟨⟨by rw [hids]; exact h.tail, by rw [hids]; exact h.free⟩, ?_⟩
  unfold Archs.others
  refine tour_congr (c := c) fun x p => ?_
  unfold Archs.pageBut
  rw [hids]

theorem move {pi : Nat} {a : Archetype} {prev q : Loc} (h : c.Aside T) (ht : T id = true) (hu : c.Use) (hs : c.Shape) (ha : a.Even)
    (hr : c.moveEntityToOtherArchetype dbg id prev pi a = .ok (c', q)) : c'.Aside T ∧ c'.others T = c.others T := by
  unfold Archs.moveEntityToOtherArchetype at hr
  obtain ⟨⟨c1, i⟩, h1, hr⟩ := bind_eq_ok.1 hr
  dsimp only at hr
  obtain ⟨⟨c2, q'⟩, h2, hr⟩ := bind_eq_ok.1 hr
  dsimp only at hr
  obtain ⟨_, _, hr⟩ := bind_eq_ok.1 hr
  obtain ⟨_, _, hr⟩ := bind_eq_ok.1 hr
  obtain ⟨_, _, hr⟩ := bind_eq_ok.1 hr
  obtain ⟨_, _, hr⟩ := bind_eq_ok.1 hr
  obtain ⟨_, _, hr⟩ := bind_eq_ok.1 hr
  obtain ⟨ps, h3, hr⟩ := bind_eq_ok.1 hr
  cases hr
  have hadd : c.addEntity dbg id a = .ok (c2, q) := by
    unfold Archs.addEntity
    simp only [h1, ok_bind]
    exact h2
  obtain ⟨k1, k2⟩ := h.addEntity ht hu hs ha hadd
  obtain ⟨m1, m2⟩ := k1.setPages (SameIds.copyLoop _ h3)
  exact ⟨m1, m2.trans k2⟩

theorem swapRemove {q : Loc} {o : Option Nat} (h : c.Aside T) (ht : T id = true) (hr : c.swapRemoveEntity q = .ok (c', o)) (hq : c.row q = some id) :
    c'.Aside T ∧ c'.others T = c.others T := by
  unfold Archs.swapRemoveEntity at hr
  obtain ⟨ai, h1, hr⟩ := bind_eq_ok.1 hr
  obtain ⟨pg, h2, hr⟩ := bind_eq_ok.1 hr
  obtain ⟨a, h3, hr⟩ := bind_eq_ok.1 hr
  obtain ⟨l, h4, hr⟩ := bind_eq_ok.1 hr
  obtain ⟨⟨pg', o'⟩, h5, hr⟩ := bind_eq_ok.1 hr
  obtain ⟨last, k1, k2, k3, k4⟩ := Archs.Use.swapRemoveIndex_items h5
  have hp := idx_ok.1 h2
  have hlt := (List.getElem?_eq_some_iff.1 hp).1
  have hitems : c.idsOf q.page = pg.ids.items := by unfold Archs.idsOf; simp [hp]
  have hrow : pg.ids.items[q.index]? = some id := by
    rw [← hitems, Archs.idsOf_getElem]; exact hq
  dsimp only at hr
  -- the page with one row of `id` less
  obtain ⟨hA, hO⟩ : Archs.Aside { c with pages := c.pages.set q.page pg' } T ∧
      Archs.others { c with pages := c.pages.set q.page pg' } T = c.others T := by
    have htail : ∀ p, ∃ l m m', c.idsOf p = l ++ m ∧ Archs.idsOf { c with pages := c.pages.set q.page pg' } p = l ++ m' ∧
        (∀ j ∈ l, T j = false) ∧ (∀ j ∈ m, T j = true) ∧ ∀ j ∈ m', T j = true := by
      intro p
      obtain ⟨l, m, e1, e2, e3⟩ := h.tail p
      by_cases hpq : p = q.page
      · subst hpq
        have hge : l.length ≤ q.index := by
          by_contra hlt'
          rw [← hitems, e1, List.getElem?_append_left (by omega)] at hrow
          have := e2 id (List.mem_of_getElem? hrow)
          rw [ht] at this
          cases this
        have hmem : id ∈ m := by
          rw [← hitems, e1, List.getElem?_append_right hge] at hrow
          exact List.mem_of_getElem? hrow
        have hne : m ≠ [] := List.ne_nil_of_mem hmem
        have hlast : last ∈ m := by
          rw [← hitems, e1, List.getLast?_append_of_ne_nil _ hne] at k1
          exact List.mem_of_getLast? k1
        refine ⟨l, m, (m.set (q.index - l.length) last).dropLast, e1, ?_, e2, e3, fun j hj => ?_⟩
        · have hi1 : Archs.idsOf { c with pages := c.pages.set q.page pg' } q.page = pg'.ids.items := by
            unfold Archs.idsOf; simp [hlt]
          rw [hi1, k3, ← hitems, e1, List.set_append_right _ _ hge, List.dropLast_append_of_ne_nil]
          rw [ne_eq, List.set_eq_nil_iff]
          exact hne
        · have hj' := (List.dropLast_sublist _).subset hj
          rcases List.mem_or_eq_of_mem_set hj' with hj' | rfl
          · exact e3 j hj'
          · exact e3 _ hlast
      · refine ⟨l, m, m, e1, ?_, e2, e3, e3⟩
        rw [← e1]
        unfold Archs.idsOf
        rw [List.getElem?_set_ne (Ne.symm hpq)]
    refine ⟨⟨fun p => ?_, fun i hi ps hps p hp j hj => ?_⟩, ?_⟩
    · obtain ⟨l, m, m', e1, e2, e3, _, e5⟩ := htail p
      exact ⟨l, m', e2, e3, e5⟩
    · obtain ⟨l, m, m', e1, e2, _, _, e5⟩ := htail p
      rw [e2] at hj
      rcases List.mem_append.1 hj with hj | hj
      · exact h.free i hi ps hps p hp j (by rw [e1]; exact List.mem_append_left _ hj)
      · exact e5 j hj
    · unfold Archs.others
      refine tour_congr (c := c) fun x p => ?_
      obtain ⟨l, m, m', e1, e2, _, e4, e5⟩ := htail p
      exact pageBut_tail e1 e2 e4 e5 x
  split at hr
  · next he =>
    obtain ⟨c2, h6, hr⟩ := bind_eq_ok.1 hr
    cases hr
    have hempty : pg'.ids.items = [] := by
      rw [k3, ← List.length_eq_zero_iff]
      have : pg.ids.items.length = 1 := by simpa [Page.entityCount] using he
      simp [this]
    have hk0 : Archs.idsOf { c with pages := c.pages.set q.page pg' } q.page = [] := by
      unfold Archs.idsOf
      simp [hlt, hempty]
    generalize hc1 : ({ c with pages := c.pages.set q.page pg' } : Archs) = c1 at h6 hA hO hk0
    rw [← hO]
    unfold Archs.freePage at h6
    obtain ⟨ai', h7, h6⟩ := bind_eq_ok.1 h6
    split at h6
    · cases h6; exact ⟨hA, rfl⟩
    · obtain ⟨ps, h8, h6⟩ := bind_eq_ok.1 h6
      have hps := idx_ok.1 h8
      dsimp only at h6
      split at h6
      · cases h6
        refine ⟨⟨hA.tail, ?_⟩, ?_⟩
        · intro i hi ps' hps' p hp' j hj
          dsimp only at hi hps'
          rw [List.getElem?_set] at hps'
          split at hps'
          · next hai =>
            subst hai
            split at hps'
            · cases hps'
              split at hi
              · next h0 =>
                rw [List.length_eq_zero_iff.1 h0] at hp'
                cases hp'
              · exact hA.free _ hi _ hps p (List.mem_of_mem_erase hp') j hj
            · cases hps'
          · next hai =>
            refine hA.free i ?_ _ hps' p hp' j hj
            split at hi
            · rcases List.mem_append.1 hi with hi | hi
              · exact hi
              · exact absurd (List.mem_singleton.1 hi).symm hai
            · exact hi
        · refine tour_set_pages _ _ _ _ (fun pl0 h0 x => ?_)
          rw [hps] at h0
          cases h0
          have hnil : c1.pageBut T x q.page = [] := pageBut_nil x (by rw [hk0]; simp)
          show (ps.erase q.page).flatMap (c1.pageBut T x) = ps.flatMap (c1.pageBut T x)
          generalize c1.pageBut T x = G at hnil
          clear * - hnil
          induction ps with
          | nil => rfl
          | cons x ps ih =>
            by_cases hx : x = q.page
            · subst hx; simp [hnil]
            · rw [List.erase_cons_tail (by simpa using hx), List.flatMap_cons, List.flatMap_cons, ih]
      · cases h6; exact ⟨⟨hA.tail, hA.free⟩, rfl⟩
  · cases hr; exact ⟨hA, hO⟩

end Archs.Aside

end Ecs
