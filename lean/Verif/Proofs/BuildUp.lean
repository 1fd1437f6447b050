import Verif.Spec.BuildUp
import Verif.Proofs.PanicExact
import Verif.Proofs.Slots
import Verif.Proofs.QueryRows

/-! Rows are appended as long as nothing is removed. -/

namespace Ecs
open Spec

namespace Archs
variable {dbg : Bool} {c c' : Archs}

/-- The ids in the rows of a page. -/
def idsAt (c : Archs) (p : Nat) : List Nat := ((c.pages[p]?).map (·.ids.items)).getD []

/-- The ids in the rows of a list of pages. -/
def idsIn (c : Archs) (ps : List Nat) : List Nat := ps.flatMap c.idsAt

/-- No archetype was given up, only the last page of an archetype can have free space, and none is empty. -/
structure Packed (c : Archs) : Prop where
  used : c.freeArchetypes = []
  full : ∀ ps ∈ c.archPages, ∀ p ∈ ps.dropLast, ∀ pg, c.pages[p]? = some pg → pg.hasFreeSpace = false
  filled : ∀ ps ∈ c.archPages, ∀ p ∈ ps, c.idsAt p ≠ []

theorem idsIn_congr {ps : List Nat} (h : ∀ p ∈ ps, c'.idsAt p = c.idsAt p) : c'.idsIn ps = c.idsIn ps := by
  unfold idsIn
  induction ps with
  | nil => rfl
  | cons p ps ih =>
    rw [List.flatMap_cons, List.flatMap_cons, h p List.mem_cons_self, ih fun q hq => h q (List.mem_cons_of_mem _ hq)]

theorem idsIn_append (c : Archs) (ps qs : List Nat) : c.idsIn (ps ++ qs) = c.idsIn ps ++ c.idsIn qs := List.flatMap_append

theorem SameIds.hasFree {ps ps' : List Page} (h : SameIds ps ps') {p : Nat} {pg' : Page} (hp : ps'[p]? = some pg') :
    ∃ pg, ps[p]? = some pg ∧ pg.hasFreeSpace = pg'.hasFreeSpace := by
  have := h.ids p
  rw [hp] at this
  cases h0 : ps[p]? with
  | none => rw [h0] at this; cases this
  | some pg =>
    rw [h0] at this
    refine ⟨pg, rfl, ?_⟩
    simp only [Option.map_some, Option.some.injEq] at this
    unfold Page.hasFreeSpace Page.entityCount Page.entityCapacity
    rw [this]

theorem Packed.setPages (h : c.Packed) {ps : List Page} (hp : SameIds c.pages ps) :
    { c with pages := ps }.Packed ∧ ∀ l, idsIn { c with pages := ps } l = c.idsIn l := by
  refine ⟨⟨h.used, fun l hl p hpl pg hpg => ?_, fun l hl p hpl => ?_⟩, fun l => idsIn_congr fun p _ => ?_⟩
  · obtain ⟨pg0, h1, h2⟩ := SameIds.hasFree hp hpg
    rw [← h2]
    exact h.full l hl p hpl pg0 h1
  · have := h.filled l hl p hpl
    unfold idsAt at this ⊢
    dsimp only
    rw [hp.items p]
    exact this
  · unfold idsAt
    dsimp only
    rw [hp.items p]

theorem Packed.reserveArchetype {a : Archetype} {i : Nat} (h : c.Packed) (hr : c.reserveArchetype dbg a = .ok (c', i)) :
    (c' = c ∧ ∃ b, c.archetypes[i]? = some b ∧ b.ids = a.ids) ∨
    ((∀ b ∈ c.archetypes, b.ids ≠ a.ids) ∧ i = c.archetypes.length ∧ c'.archetypes = c.archetypes ++ [a] ∧
      c'.archPages = c.archPages ++ [[]] ∧ c'.pages = c.pages ∧ c'.freeArchetypes = []) := by
  unfold Archs.reserveArchetype at hr
  split at hr
  · next k hk =>
    obtain ⟨_, b, hb, he⟩ := findSame_some _ hk
    rw [Nat.sub_zero] at hb
    rw [h.used] at hr
    split at hr
    · next j hj =>
      have := binarySearch_found hj
      simp at this
    · cases hr
      exact .inl ⟨rfl, b, hb, he⟩
  · next hf =>
    obtain ⟨layout, hl, hr⟩ := bind_eq_ok.1 hr
    rw [h.used] at hr
    simp only [List.getLast?_nil] at hr
    cases hr
    exact .inr ⟨findSame_none _ hf, by simp, rfl, rfl, rfl, by simp⟩

theorem Packed.reservePage {id i : Nat} {q : Loc} (h : c.Packed) (hu : c.Use) (hs : c.Shape)
    (hr : c.reservePage dbg id i = .ok (c', q)) :
    c'.Packed ∧ c'.archetypes = c.archetypes ∧ c'.archPages.length = c.archPages.length ∧
    ∀ (j : Nat) ps', c'.archPages[j]? = some ps' →
      ∃ ps, c.archPages[j]? = some ps ∧ c'.idsIn ps' = c.idsIn ps ++ if j = i then [id] else [] := by
  obtain ⟨z1, z2, z3, z4, z5⟩ := Archs.Slots.reservePage hr
  refine (and_left_comm.1 ⟨z1, ?_⟩)
  refine (and_left_comm.1 ⟨z3, ?_⟩)
  unfold Archs.reservePage at hr
  obtain ⟨pl, h1, hr⟩ := bind_eq_ok.1 hr
  obtain ⟨o, h2, hr⟩ := bind_eq_ok.1 hr
  have hpl := idx_ok.1 h1
  have hplm := List.mem_of_getElem? hpl
  split at hr
  · next p =>
    obtain ⟨page, h3, hr⟩ := bind_eq_ok.1 hr
    obtain ⟨⟨page', ix⟩, h4, hr⟩ := bind_eq_ok.1 hr
    cases hr
    obtain ⟨hm, pg0, hpg0, hfree⟩ := mem_of_findFreePage h2
    have h3 := idx_ok.1 h3
    rw [h3] at hpg0
    cases hpg0
    obtain ⟨k1, rfl⟩ := Archs.Use.addEntityId_items h4
    have hm := List.mem_reverse.1 hm
    have hlast : p ∉ pl.dropLast := fun hd => by
      rw [h.full pl hplm p hd page h3] at hfree; cases hfree
    have hsplit : pl = pl.dropLast ++ [p] := by
      have hne : pl ≠ [] := List.ne_nil_of_mem hm
      have e := List.dropLast_append_getLast hne
      rw [← e] at hm
      rcases List.mem_append.1 hm with hm | hm
      · exact absurd hm hlast
      · rw [List.mem_singleton.1 hm]; exact e.symm
    have hlt := (List.getElem?_eq_some_iff.1 h3).1
    have hat : ∀ x, idsAt { c with pages := c.pages.set p page' } x = if x = p then c.idsAt p ++ [id] else c.idsAt x := by
      intro x
      unfold idsAt
      dsimp only
      by_cases hx : x = p
      · subst hx
        rw [if_pos rfl, List.getElem?_set_self hlt, h3]
        simp [k1]
      · rw [if_neg hx, List.getElem?_set_ne (Ne.symm hx)]
    refine ⟨⟨h.used, fun ps hps x hx pg hpg => ?_, fun ps hps x hx => ?_⟩, fun j ps' hj => ⟨ps', hj, ?_⟩⟩
    · dsimp only at hps hpg
      have hxp : x ≠ p := by
        rintro rfl
        obtain ⟨j, hj⟩ := List.mem_iff_getElem?.1 hps
        have e1 := hu.owner j ps x hj (List.dropLast_subset _ hx)
        have e2 := hu.owner i pl x hpl hm
        rw [e1] at e2
        cases e2
        rw [hpl] at hj
        cases hj
        exact hlast hx
      rw [List.getElem?_set_ne (Ne.symm hxp)] at hpg
      exact h.full ps hps x hx pg hpg
    · rw [hat]
      split
      · simp
      · exact h.filled ps hps x hx
    · dsimp only at hj
      by_cases hji : j = i
      · subst hji
        rw [hpl] at hj
        cases hj
        rw [if_pos rfl, hsplit, idsIn_append, idsIn_append, List.append_assoc]
        congr 1
        · refine idsIn_congr fun x hx => ?_
          rw [hat, if_neg]
          rintro rfl
          exact hlast hx
        · simp only [idsIn, List.flatMap_cons, List.flatMap_nil, List.append_nil]
          rw [hat, if_pos rfl]
      · rw [if_neg hji, List.append_nil]
        refine idsIn_congr fun x hx => ?_
        rw [hat, if_neg]
        rintro rfl
        have e1 := hu.owner j ps' x hj hx
        have e2 := hu.owner i pl x hpl hm
        rw [e1] at e2
        exact hji (Option.some.inj e2)
  · have hfull := findFreePage_none h2
    obtain ⟨⟨c1, p⟩, h3, hr⟩ := bind_eq_ok.1 hr
    dsimp only at hr
    obtain ⟨layout, h4, hr⟩ := bind_eq_ok.1 hr
    obtain ⟨page, h5, hr⟩ := bind_eq_ok.1 hr
    obtain ⟨pl', h6, hr⟩ := bind_eq_ok.1 hr
    obtain ⟨pa, h7, hr⟩ := bind_eq_ok.1 hr
    obtain ⟨⟨page', ix⟩, h8, hr⟩ := bind_eq_ok.1 hr
    cases hr
    obtain ⟨k1, k2, k3, k4, k5⟩ := hu.take hs hpl h3
    have h5 := idx_ok.1 h5
    have h6 := idx_ok.1 h6
    rw [k4, hpl] at h6
    cases h6
    have hil := (List.getElem?_eq_some_iff.1 hpl).1
    have hpage := (Archs.Use.addEntityId_items h8).1
    rw [Archs.Use.setLayout_items, k5 page h5, List.nil_append] at hpage
    have hold : (∀ x, x < c.pages.length → c1.pages[x]? = c.pages[x]?) ∧ (∀ ps ∈ c.archPages, p ∉ ps) := by
      split at h3
      · next hl =>
        cases h3
        exact ⟨fun _ _ => rfl, hu.freeDisj _ (List.mem_of_getLast? hl)⟩
      · next hl =>
        obtain ⟨ps, m1, h3⟩ := bind_eq_ok.1 h3
        obtain ⟨pa, m2, h3⟩ := bind_eq_ok.1 h3
        cases h3
        unfold vecInsert at m1
        rw [if_pos (Nat.le_refl _), List.insertIdx_length_self] at m1
        cases m1
        refine ⟨fun x hx => by dsimp only; rw [List.getElem?_append_left hx], fun ps hps hm => ?_⟩
        have := hs.listed ps hps _ hm
        omega
    obtain ⟨hold, hnot⟩ := hold
    have hlt := (List.getElem?_eq_some_iff.1 h5).1
    have hget : ∀ ps ∈ c.archPages, ∀ x ∈ ps, (c1.pages.set p page')[x]? = c.pages[x]? := by
      intro ps hps x hx
      rw [List.getElem?_set_ne, hold x (hs.listed ps hps x hx)]
      rintro rfl
      exact hnot ps hps hx
    have hkeep : ∀ ps ∈ c.archPages, (∀ x ∈ ps, ∀ A T, idsAt { c1 with pages := c1.pages.set p page', archPages := A, pageToArch := T } x = c.idsAt x) := by
      intro ps hps x hx A T
      unfold idsAt
      dsimp only
      rw [hget ps hps x hx]
    refine ⟨⟨?_, fun ps hps x hx pg hpg => ?_, fun ps hps x hx => ?_⟩, fun j ps' hj => ?_⟩
    · exact z2.trans h.used
    · dsimp only at hps hpg
      rw [k4] at hps
      rcases List.mem_or_eq_of_mem_set hps with hps | rfl
      · rw [hget ps hps x (List.dropLast_subset _ hx)] at hpg
        exact h.full ps hps x hx pg hpg
      · rw [List.dropLast_concat] at hx
        rw [hget pl hplm x hx] at hpg
        exact hfull x (List.mem_reverse.2 hx) pg hpg
    · dsimp only at hps
      rw [k4] at hps
      rcases List.mem_or_eq_of_mem_set hps with hps | rfl
      · rw [hkeep ps hps x hx]
        exact h.filled ps hps x hx
      · rcases List.mem_append.1 hx with hx | hx
        · rw [hkeep pl hplm x hx]
          exact h.filled pl hplm x hx
        · rw [List.mem_singleton.1 hx]
          unfold idsAt
          dsimp only
          rw [List.getElem?_set_self hlt]
          simp [hpage]
    · dsimp only at hj
      rw [k4, List.getElem?_set] at hj
      split at hj
      · next hij =>
        subst hij
        cases hj
        refine ⟨pl, hpl, ?_⟩
        rw [if_pos rfl, idsIn_append]
        congr 1
        · exact idsIn_congr fun x hx => hkeep pl hplm x hx _ _
        · simp only [idsIn, List.flatMap_cons, List.flatMap_nil, List.append_nil]
          unfold idsAt
          dsimp only
          rw [List.getElem?_set_self hlt]
          simpa using hpage
      · next hij =>
        refine ⟨ps', hj, ?_⟩
        rw [if_neg (Ne.symm hij), List.append_nil]
        exact idsIn_congr fun x hx => hkeep ps' (List.mem_of_getElem? hj) x hx _ _

/-- The archetypes and the ids in their rows, in the order of `gs`. -/
structure Stack (c : Archs) (gs : List (List TypeId × List Entity)) : Prop where
  packed : c.Packed
  len : gs.length = c.archetypes.length
  at_ : ∀ (j : Nat) a ps g, c.archetypes[j]? = some a → c.archPages[j]? = some ps → gs[j]? = some g →
    HasSet a g.1 ∧ g.1.Nodup ∧ c.idsIn ps = g.2.map (·.id)

theorem Stack.setPages {gs : List (List TypeId × List Entity)} (h : c.Stack gs) {ps : List Page} (hp : SameIds c.pages ps) :
    { c with pages := ps }.Stack gs := by
  obtain ⟨h1, h2⟩ := h.packed.setPages hp
  refine ⟨h1, h.len, fun j a l g k1 k2 k3 => ?_⟩
  rw [h2]
  exact h.at_ j a l g k1 k2 k3

end Archs

theorem join_at {S : List TypeId} {e : Entity} : ∀ {gs : List (List TypeId × List Entity)} {k : Nat} {g : List TypeId × List Entity},
    gs[k]? = some g → sameSet g.1 S → (∀ j < k, ∀ g', gs[j]? = some g' → ¬ sameSet g'.1 S) →
    join S e gs = gs.set k (g.1, g.2 ++ [e])
  | [], k, g, h, _, _ => by simp at h
  | x :: gs, 0, g, h, hs, _ => by
    simp only [List.getElem?_cons_zero, Option.some.injEq] at h
    subst h
    simp [join, hs]
  | x :: gs, k + 1, g, h, hs, hn => by
    rw [join, if_neg (hn 0 (by omega) x rfl), List.set_cons_succ]
    congr 1
    exact join_at (by simpa using h) hs fun j hj g' hg => hn (j + 1) (by omega) g' (by simpa using hg)

theorem join_new {S : List TypeId} {e : Entity} : ∀ {gs : List (List TypeId × List Entity)},
    (∀ g ∈ gs, ¬ sameSet g.1 S) → join S e gs = gs ++ [(S, [e])]
  | [], _ => rfl
  | x :: gs, hn => by
    rw [join, if_neg (hn x List.mem_cons_self), join_new fun g hg => hn g (List.mem_cons_of_mem _ hg)]
    rfl

theorem Archs.Stack.addEntity {U : Universe} {dbg : Bool} {c c' : Archs} {gs : List (List TypeId × List Entity)} {e : Entity}
    {a : Archetype} {S : List TypeId} {q : Loc} (h : c.Stack gs) (hw : ∀ b ∈ c.archetypes, b.WF U) (hsl : c.Slots) (hu : c.Use)
    (hs : c.Shape) (ha : a.WF U) (hS : HasSet a S) (hn : S.Nodup) (hr : c.addEntity dbg e.id a = .ok (c', q)) :
    c'.Stack (join S e gs) := by
  unfold Archs.addEntity at hr
  obtain ⟨⟨c1, i⟩, h1, hr'⟩ := bind_eq_ok.1 hr
  clear hr
  have hr := hr'
  clear hr'
  dsimp only at hr
  have hu1 := hu.reserveArchetype h1
  have hs1 := (hs.reserveArchetype ha.even h1).1
  have hfind : ∀ (j : Nat) b g, c.archetypes[j]? = some b → gs[j]? = some g → (sameSet g.1 S ↔ b.ids = a.ids) := by
    intro j b g k1 k2
    have hj : j < c.archPages.length := by rw [hs.plen]; exact (List.getElem?_eq_some_iff.1 k1).1
    obtain ⟨m1, _, _⟩ := h.at_ j b _ g k1 (List.getElem?_eq_getElem hj) k2
    constructor
    · intro hh
      rw [(hw b (List.mem_of_getElem? k1)).eq_of_set ha (HasSet.trans m1 hh) hS]
    · intro hh
      exact HasSet.sameSet (a := b) m1 fun t => by rw [hh]; exact hS t
  rcases h.packed.reserveArchetype h1 with ⟨rfl, b, hb, he⟩ | ⟨hnew, rfl, ha1, hp1, hpg, hf1⟩
  · obtain ⟨k1, k2, k3, k4⟩ := h.packed.reservePage hu1 hs1 hr
    have hi := (List.getElem?_eq_some_iff.1 hb).1
    have hgl : i < gs.length := by rw [h.len]; exact hi
    have hg : gs[i]? = some gs[i] := List.getElem?_eq_getElem hgl
    have hsame := (hfind i b _ hb hg).2 he
    rw [join_at hg hsame (by
      intro j hj g' hg' hh
      have hjl : j < c1.archetypes.length := by omega
      have hbj := List.getElem?_eq_getElem hjl
      have := (hfind j _ g' hbj hg').1 hh
      have hnd := hsl.uniq
      have e1 : (c1.archetypes.map (·.ids))[j]? = some a.ids := by rw [List.getElem?_map, hbj, ← this]; rfl
      have e2 : (c1.archetypes.map (·.ids))[i]? = some a.ids := by rw [List.getElem?_map, hb, ← he]; rfl
      have := (List.getElem?_inj (by simpa using hjl) hnd).1 (e1.trans e2.symm)
      omega)]
    refine ⟨k1, by rw [List.length_set, k2]; exact h.len, fun j x ps' g j1 j2 j3 => ?_⟩
    rw [k2] at j1
    obtain ⟨ps, m1, m2⟩ := k4 j ps' j2
    rw [m2]
    rw [List.getElem?_set] at j3
    split at j3
    · next hij =>
      subst hij
      cases j3
      obtain ⟨n1, n2, n3⟩ := h.at_ i x ps _ j1 m1 hg
      exact ⟨n1, n2, by rw [n3]; simp⟩
    · next hij =>
      rw [if_neg (Ne.symm hij), List.append_nil]
      exact h.at_ j x ps g j1 m1 j3
  · have hpk : c1.Packed := by
      refine ⟨hf1, fun ps hps p hp pg hpg' => ?_, fun ps hps p hp => ?_⟩
      · rw [hp1] at hps
        rw [hpg] at hpg'
        rcases List.mem_append.1 hps with hps | hps
        · exact h.packed.full ps hps p hp pg hpg'
        · rw [List.mem_singleton.1 hps] at hp
          cases hp
      · rw [hp1] at hps
        rcases List.mem_append.1 hps with hps | hps
        · unfold Archs.idsAt
          rw [hpg]
          exact h.packed.filled ps hps p hp
        · rw [List.mem_singleton.1 hps] at hp
          cases hp
    obtain ⟨k1, k2, k3, k4⟩ := hpk.reservePage hu1 hs1 hr
    rw [join_new (by
      intro g hg hh
      obtain ⟨j, hj⟩ := List.mem_iff_getElem?.1 hg
      have hjl : j < c.archetypes.length := by rw [← h.len]; exact (List.getElem?_eq_some_iff.1 hj).1
      exact hnew _ (List.getElem_mem hjl) ((hfind j _ g (List.getElem?_eq_getElem hjl) hj).1 hh))]
    refine ⟨k1, by rw [k2, ha1]; simp [h.len], fun j x ps' g j1 j2 j3 => ?_⟩
    obtain ⟨ps, m1, m2⟩ := k4 j ps' j2
    rw [m2]
    have hids : ∀ l, c1.idsIn l = c.idsIn l := fun l => Archs.idsIn_congr fun p _ => by unfold Archs.idsAt; rw [hpg]
    rw [hids]
    rw [k2, ha1] at j1
    rw [hp1] at m1
    rcases Nat.lt_trichotomy j c.archetypes.length with hlt | heq | hgt
    · rw [List.getElem?_append_left hlt] at j1
      rw [List.getElem?_append_left (by rw [hs.plen]; exact hlt)] at m1
      rw [List.getElem?_append_left (by rw [h.len]; exact hlt)] at j3
      rw [if_neg (by omega), List.append_nil]
      exact h.at_ j x ps g j1 m1 j3
    · subst heq
      rw [List.getElem?_append_right (Nat.le_refl _), Nat.sub_self] at j1
      rw [List.getElem?_append_right (by rw [hs.plen]; exact Nat.le_refl _), hs.plen, Nat.sub_self] at m1
      rw [List.getElem?_append_right (by rw [h.len]; exact Nat.le_refl _), h.len, Nat.sub_self] at j3
      cases j1
      cases m1
      cases j3
      exact ⟨hS, hn, by simp [Archs.idsIn]⟩
    · rw [List.getElem?_eq_none (by simp; omega)] at j1
      cases j1

theorem join_mem {S : List TypeId} {e x : Entity} {gs : List (List TypeId × List Entity)} {g : List TypeId × List Entity}
    (hg : g ∈ join S e gs) (hx : x ∈ g.2) : (∃ g0 ∈ gs, g0.1 = g.1 ∧ x ∈ g0.2) ∨ (x = e ∧ sameSet g.1 S) := by
  induction gs with
  | nil =>
    rw [join, List.mem_singleton] at hg
    subst hg
    exact .inr ⟨List.mem_singleton.1 hx, ⟨fun _ h => h, fun _ h => h⟩⟩
  | cons y gs ih =>
    rw [join] at hg
    split at hg
    · next hs =>
      rcases List.mem_cons.1 hg with rfl | hg
      · rcases List.mem_append.1 hx with hx | hx
        · exact .inl ⟨y, List.mem_cons_self, rfl, hx⟩
        · exact .inr ⟨List.mem_singleton.1 hx, hs⟩
      · exact .inl ⟨g, List.mem_cons_of_mem _ hg, rfl, hx⟩
    · rcases List.mem_cons.1 hg with rfl | hg
      · exact .inl ⟨g, List.mem_cons_self, rfl, hx⟩
      · rcases ih hg with ⟨g0, h1, h2⟩ | h1
        · exact .inl ⟨g0, List.mem_cons_of_mem _ h1, h2⟩
        · exact .inr h1

section
variable {U : Universe} {dbg : Bool} {cap : Nat} {h : List Event} {s : Store}

/-- Only entities that were given components have some. -/
theorem given_of_types : ∀ e, (world h).types e ≠ [] → e ∈ given h := by
  induction h with
  | nil => intro e he; exact absurd rfl he
  | cons ev h ih =>
    intro x hx
    cases ev with
    | created e =>
      simp only [world, World.apply, World.birth, at'] at hx
      split at hx
      · exact absurd rfl hx
      · exact ih x hx
    | createdWith e ts init =>
      simp only [world, World.apply, World.birth, World.setTypes, at'] at hx
      rw [given, List.mem_cons]
      by_cases hxe : x = e
      · exact .inl hxe
      · rw [if_neg hxe, if_neg hxe] at hx
        exact .inr (ih x hx)
    | destroyed e =>
      simp only [world, World.apply, at'] at hx
      split at hx
      · exact absurd rfl hx
      · exact ih x hx
    | added e vals =>
      simp only [world, World.apply] at hx
      rw [given, alive_eq]
      by_cases he : e ∈ (world h).live
      · rw [if_pos he] at hx ⊢
        rw [List.mem_cons]
        by_cases hxe : x = e
        · exact .inl hxe
        · refine .inr (ih x ?_)
          dsimp only at hx
          split at hx
          · exact hx
          · simpa only [World.setTypes, at', if_neg hxe] using hx
      · rw [if_neg he] at hx ⊢
        exact ih x hx
    | removed e ts =>
      simp only [world, World.apply] at hx
      split at hx
      · simp only [World.setTypes, at'] at hx
        split at hx
        · next hxe =>
          refine ih x fun h0 => hx ?_
          rw [hxe] at h0
          rw [h0]; rfl
        · exact ih x hx
      · exact ih x hx
    | assigned e vals =>
      simp only [world, World.apply] at hx
      split at hx <;> exact ih x hx
    | _ => exact ih x hx

theorem well_loose (hx : WellExec U dbg cap h s) : LooseExec U dbg cap h s := by
  induction hx with
  | init h1 => exact .init h1
  | @step h s s' ev hx ha hr ih => exact .step ev ih (by cases ev <;> first | exact ha | trivial) hr

/-- The entities of the groups, as long as nothing is removed. -/
theorem groups_types (hx : WellExec U dbg cap h s) (hb : BuildsUp h) :
    ∀ g ∈ groups h, ∀ e ∈ g.2, g.1 ≠ [] ∧ e ∈ alive h ∧ sameSet g.1 ((world h).types e) := by
  induction hx with
  | init hs => intro g hg; cases hg
  | @step h s s' ev hx hl hr ih =>
    replace hx := well_loose hx
    have hborn : ∀ {e : Entity} {s1 : Store}, Loose (world h) (.created e) → s.registerNewEntity dbg = .ok (s1, e) → e ∉ alive h := by
      intro e s1 hl h1 he
      obtain ⟨s2, e2, k1, _, k3, _⟩ := (loose_core hx).register (dbg := dbg) hl
      rw [h1] at k1
      cases k1
      rw [alive_eq] at he
      exact k3 ((loose_core hx).ents.sub e he)
    cases ev with
    | created e =>
      have ih := ih hb
      intro g hg x hxg
      obtain ⟨h0, h1, h2⟩ := ih g hg x hxg
      simp only [Returns, Store.createEntity] at hr
      obtain ⟨⟨s1, e1⟩, h3, hr⟩ := bind_eq_ok.1 hr
      obtain ⟨b, _, hr⟩ := bind_eq_ok.1 hr
      cases hr
      have hne : x ≠ e1 := fun he => hborn hl h3 (he ▸ h1)
      refine ⟨h0, List.mem_cons_of_mem _ h1, ?_⟩
      simpa only [world, World.apply, World.birth, at', if_neg hne] using h2
    | createdWith e ts init =>
      have ih := ih hb
      intro g hg x hxg
      obtain ⟨a, ha, hids, hr⟩ := hr
      unfold Store.createEntityWithArchetype at hr
      obtain ⟨⟨s1, e1⟩, h3, hr⟩ := bind_eq_ok.1 hr
      obtain ⟨⟨c, q⟩, h4, hr⟩ := bind_eq_ok.1 hr
      dsimp only at hr h4
      obtain ⟨s2, h5, hr⟩ := bind_eq_ok.1 hr
      cases hr
      have hnew := hborn hl h3
      rcases join_mem hg hxg with ⟨g0, k1, k2, k3⟩ | ⟨rfl, k1⟩
      · obtain ⟨h0, h1, h2⟩ := ih g0 k1 x k3
        have hne : x ≠ e := fun he => hnew (he ▸ h1)
        refine ⟨k2 ▸ h0, List.mem_cons_of_mem _ h1, ?_⟩
        rw [← k2]
        simpa only [world, World.apply, World.birth, World.setTypes, at', if_neg hne] using h2
      · refine ⟨fun h0 => ha.wf.ne ?_, List.mem_cons_self, ?_⟩
        · rw [h0] at k1
          rw [hids]
          exact List.eq_nil_iff_forall_not_mem.2 fun t ht => nomatch k1.2 t ht
        · simpa only [world, World.apply, World.birth, World.setTypes, at', if_true] using k1
    | destroyed e => exact hb.elim
    | removed e ts => exact hb.elim
    | added e vals =>
      have ih := ih hb.2
      intro g hg x hxg
      rw [groups] at hg
      show _ ∧ x ∈ alive h ∧ _
      obtain ⟨_, hvn, _⟩ := hl
      have hv : ¬ ∀ p ∈ vals, p.1 ∈ ([] : List TypeId) := fun hv =>
        hvn (List.eq_nil_iff_forall_not_mem.2 fun t ht => nomatch hv t ht)
      split at hg
      · next hc =>
        obtain ⟨hc1, hc2⟩ := hc
        rw [alive_eq] at hc1
        rcases join_mem hg hxg with ⟨g0, k1, k2, k3⟩ | ⟨rfl, k1⟩
        · obtain ⟨h0, h1, h2⟩ := ih g0 k1 x k3
          refine ⟨k2 ▸ h0, h1, ?_⟩
          rw [← k2]
          simp only [world, World.apply, if_pos hc1]
          split
          · exact h2
          · by_cases hne : x = e
            · subst hne
              rw [hc2] at h2
              exact absurd (List.eq_nil_iff_forall_not_mem.2 fun t ht => nomatch h2.1 t ht) h0
            · simpa only [World.setTypes, at', if_neg hne] using h2
        · refine ⟨fun h0 => hv ?_, by rw [alive_eq]; exact hc1, ?_⟩
          · rw [h0] at k1
            exact fun p hp => k1.2 p.1 (List.mem_map_of_mem hp)
          · simp only [world, World.apply, if_pos hc1, hc2, if_neg hv, World.setTypes, at', if_true, List.nil_append]
            exact ⟨fun t ht => List.mem_filter.2 ⟨k1.1 t ht, by simp⟩, fun t ht => k1.2 t (List.mem_filter.1 ht).1⟩
      · next hc =>
        obtain ⟨h0, h1, h2⟩ := ih g hg x hxg
        refine ⟨h0, h1, ?_⟩
        simp only [world, World.apply]
        split
        · next hlive =>
          split
          · exact h2
          · next hne =>
            by_cases hxe : x = e
            · subst hxe
              rcases hb.1 with hb | hb
              · exact absurd ⟨h1, hb⟩ hc
              · exact absurd hb hne
            · simpa only [World.setTypes, at', if_neg hxe] using h2
        · exact h2
    | assigned e vals =>
      have ih := ih hb
      intro g hg x hxg
      obtain ⟨h0, h1, h2⟩ := ih g hg x hxg
      refine ⟨h0, h1, ?_⟩
      simp only [world, World.apply]
      split <;> exact h2
    | _ => exact ih hb

theorem well_distinct (hx : WellExec U dbg cap h s) : DistinctAdds h := by
  induction hx with
  | init _ => intro e vals hm; cases hm
  | @step h s s' ev hx ha hr ih =>
    intro e vals hm
    rcases List.mem_cons.1 hm with rfl | hm
    · exact ha.2.2.1
    · exact ih e vals hm

/-- Building up a world stacks the rows in the order of the groups. -/
theorem builds_stack (hx : WellExec U dbg cap h s) (hb : BuildsUp h) : s.archs.Stack (groups h) := by
  induction hx with
  | init hs =>
    unfold Store.withCapacity at hs
    obtain ⟨_, _, hs⟩ := bind_eq_ok.1 hs
    cases hs
    exact ⟨⟨rfl, by simp [Archs.new], by simp [Archs.new]⟩, rfl, by simp [Archs.new]⟩
  | @step h s s' ev hw hl hr ih =>
    have hx := well_loose hw
    have hc := loose_core hx
    have hR := loose_rows hx
    have hsh := loose_shape hx
    have hsl := loose_slots hx
    have hwf := (loose_known hx (well_distinct hw)).wf
    have hrecord : ∀ {s s' : Store} {id : Nat} {q : Loc}, s.recordRow id q = .ok s' → s'.archs = s.archs :=
      fun hr => Archs.Next.recordRow hr
    cases ev with
    | created e =>
      simp only [Returns, Store.createEntity] at hr
      obtain ⟨⟨s1, e1⟩, h1, hr⟩ := bind_eq_ok.1 hr
      obtain ⟨b, h2, hr⟩ := bind_eq_ok.1 hr
      cases hr
      obtain ⟨s2, e2, k1, _, k3, k4, k5, _⟩ := hc.register (dbg := dbg) hl
      rw [h1] at k1
      cases k1
      dsimp only
      rw [k5]
      exact ih hb
    | createdWith e ts init =>
      obtain ⟨a, ha, hids, hr⟩ := hr
      unfold Store.createEntityWithArchetype at hr
      obtain ⟨⟨s1, e1⟩, h1, hr⟩ := bind_eq_ok.1 hr
      obtain ⟨⟨c, q⟩, h3, hr⟩ := bind_eq_ok.1 hr
      dsimp only at hr h3
      obtain ⟨s2, h2, hr⟩ := bind_eq_ok.1 hr
      cases hr
      obtain ⟨s3, e3, k1, _, k3, k4, k5, _⟩ := hc.register (dbg := dbg) hl
      rw [h1] at k1
      cases k1
      rw [k5] at h3
      rw [hrecord h2]
      exact (ih hb).addEntity hwf hsl hR.use hsh.archs ha.wf (fun t => by rw [hids]) (by rw [← hids]; exact ha.wf.incr.nodup) h3
    | destroyed e => exact hb.elim
    | removed e ts => exact hb.elim
    | added e vals =>
      have ih := ih hb.2
      obtain ⟨hiss, hvn, hnd, _⟩ := hl
      simp only [Returns, Store.addComponents] at hr
      obtain ⟨b, h1, hr⟩ := bind_eq_ok.1 hr
      rw [hc.isAlive (hc.ents.issued_id_lt hiss)] at h1
      cases h1
      by_cases he : e ∈ (world h).live
      · have hea : e ∈ alive h := by rw [alive_eq]; exact he
        rw [if_neg (by simp [he])] at hr
        obtain ⟨⟨s1, q⟩, h2, hr⟩ := bind_eq_ok.1 hr
        dsimp only at hr
        obtain ⟨v, h3, hr⟩ := bind_eq_ok.1 hr
        obtain ⟨o, h4, hr⟩ := bind_eq_ok.1 hr
        obtain ⟨pg, h5, hr⟩ := bind_eq_ok.1 hr
        cases hr
        refine Archs.Stack.setPages ?_ (SameIds.assign _ h5)
        unfold Store.ensureComponents at h2
        rw [groups]
        rcases (loose_found hx hea).2 with ⟨hoff, _⟩ | ⟨hon, _, q0, ai, a, m1, m2, m3, m4, m5, _⟩
        · rw [hoff] at h2
          simp only [ok_bind, Bool.false_eq_true, if_false] at h2
          obtain ⟨a, k2, h2⟩ := bind_eq_ok.1 h2
          obtain ⟨⟨c, q'⟩, k3, h2⟩ := bind_eq_ok.1 h2
          dsimp only at h2
          obtain ⟨s1, k4, h2⟩ := bind_eq_ok.1 h2
          cases h2
          rw [hrecord k4]
          have hnil : (world h).types e = [] := by
            by_contra hne
            have hbit := ((given_bit hx).2 e hea).2 (given_of_types e hne)
            rw [Words.isOn_of_lt (by rw [hc.blen]; exact Words.div_lt_getLen (hc.ents.issued_id_lt hiss)), hbit] at hoff
            cases hoff
          rw [if_pos ⟨hea, hnil⟩]
          obtain ⟨a', k5, k6, k7⟩ := Archetype.withComponents_spec (U := U) hnd (by simpa using hvn)
          rw [k2] at k5
          cases k5
          exact ih.addEntity hwf hsl hR.use hsh.archs k6 (fun t => k7.mem_iff) hnd k3
        · rw [hon, m1] at h2
          simp only [ok_bind, if_true, idx_ok.2 m2, idxUnchecked_ok.2 m3] at h2
          obtain ⟨ai', ps, a', l, j1, j2, j3, j4, j5⟩ := hR.use.at_row hsh.archs m5
          rw [m2] at j3
          cases j3
          rw [m3] at j4
          cases j4
          have hgl : ai < (groups h).length := by rw [ih.len]; exact (List.getElem?_eq_some_iff.1 m3).1
          obtain ⟨z1, z2, z3⟩ := ih.at_ ai a ps _ m3 j1 (List.getElem?_eq_getElem hgl)
          have hmem : e.id ∈ s.archs.idsIn ps := by
            refine List.mem_flatMap.2 ⟨q0.page, j2, ?_⟩
            unfold Archs.row at m5
            unfold Archs.idsAt
            cases hpg : s.archs.pages[q0.page]? with
            | none => rw [hpg] at m5; simp at m5
            | some pg =>
              rw [hpg] at m5
              exact List.mem_of_getElem? (by simpa using m5)
          rw [z3] at hmem
          obtain ⟨x, hxg, hxid⟩ := List.mem_map.1 hmem
          obtain ⟨y1, y2, y3⟩ := groups_types hw hb.2 _ (List.getElem_mem hgl) x hxg
          rw [alive_eq] at y2
          obtain rfl := hc.inj x y2 e he hxid
          have hne : (world h).types x ≠ [] := by
            intro h0
            rw [h0] at y3
            exact y1 (List.eq_nil_iff_forall_not_mem.2 fun t ht => nomatch y3.1 t ht)
          have hin := hb.1.resolve_left hne
          rw [if_neg fun h0 => hne h0.2]
          rw [if_pos (by
            refine (Archetype.isIncludeIds_iff (hwf a (List.mem_of_getElem? m3)).incr hnd).2 fun t ht => ?_
            obtain ⟨p, hp, rfl⟩ := List.mem_map.1 ht
            exact (z1 p.1).2 (y3.2 _ (hin p hp)))] at h2
          cases h2
          exact ih
      · rw [if_pos (by simp [he])] at hr
        cases hr
        rw [groups, if_neg fun h0 => he (by rw [← alive_eq]; exact h0.1)]
        exact ih
    | assigned e vals =>
      obtain ⟨b, hr⟩ := hr
      unfold Store.setComponents at hr
      obtain ⟨o, h1, hr⟩ := bind_eq_ok.1 hr
      split at hr
      · cases hr; exact ih hb
      · obtain ⟨pg, h2, hr⟩ := bind_eq_ok.1 hr
        cases hr
        exact (ih hb).setPages (SameIds.assign _ h2)
    | tagged t e => obtain ⟨_, _, hr⟩ := bind_eq_ok.1 hr; cases hr; exact ih hb
    | untagged t e => obtain ⟨_, _, hr⟩ := bind_eq_ok.1 hr; cases hr; exact ih hb
    | orderedLast g e => obtain ⟨_, _, hr⟩ := bind_eq_ok.1 hr; cases hr; exact ih hb
    | orderedAfter g e x => obtain ⟨_, _, hr⟩ := bind_eq_ok.1 hr; cases hr; exact ih hb
    | orderedBefore g e x => obtain ⟨_, _, hr⟩ := bind_eq_ok.1 hr; cases hr; exact ih hb
    | unordered g e => obtain ⟨_, _, hr⟩ := bind_eq_ok.1 hr; cases hr; exact ih hb

end

end Ecs

namespace Ecs
open Spec

section
variable {U : Universe} {dbg : Bool} {cap : Nat} {h : List Event} {s : Store}

theorem Spec.SafeExec.well (hx : SafeExec U dbg cap h s) : WellExec U dbg cap h s := by
  induction hx with
  | init h1 => exact .init h1
  | step ev _ ha _ hd ih => exact .step ev ih ha hd.1

theorem born_fresh (hx : LooseExec U dbg cap h s) {e : Entity} {s1 : Store} (hl : Loose (world h) (.created e))
    (h1 : s.registerNewEntity dbg = .ok (s1, e)) : e ∉ (world h).live := by
  intro he
  obtain ⟨s2, e2, k1, _, k3, _⟩ := (loose_core hx).register (dbg := dbg) hl
  rw [h1] at k1
  cases k1
  exact k3 ((loose_core hx).ents.sub e he)

theorem population_pos {w : World} {T : List TypeId} : 0 < population w T ↔ ∃ e ∈ w.live, sameSet (w.types e) T := by
  unfold population
  rw [List.length_pos_iff_exists_mem]
  simp only [List.mem_filter, decide_eq_true_eq]

/-- As long as nothing is removed, no type set was left, and all used ones are inhabited. -/
theorem builds_world (hx : WellExec U dbg cap h s) (hb : BuildsUp h) :
    (world h).left = [] ∧ ∀ S ∈ (world h).used, S ≠ [] ∧ 0 < population (world h) S := by
  induction hx with
  | init hs => exact ⟨rfl, fun S hS => nomatch hS⟩
  | @step h s s' ev hx hl hr ih =>
    replace hx := well_loose hx
    cases ev with
    | created e =>
      obtain ⟨ih1, ih2⟩ := ih hb
      simp only [Returns, Store.createEntity] at hr
      obtain ⟨⟨s1, e1⟩, h3, hr⟩ := bind_eq_ok.1 hr
      obtain ⟨b, _, hr⟩ := bind_eq_ok.1 hr
      cases hr
      have hnew := born_fresh hx hl h3
      refine ⟨ih1, fun S hS => ⟨(ih2 S hS).1, ?_⟩⟩
      obtain ⟨x, hx1, hx2⟩ := population_pos.1 (ih2 S hS).2
      have hne : x ≠ e1 := fun h0 => hnew (h0 ▸ hx1)
      refine population_pos.2 ⟨x, List.mem_cons_of_mem _ hx1, ?_⟩
      simpa only [world, World.apply, World.birth, at', if_neg hne] using hx2
    | createdWith e ts init =>
      obtain ⟨ih1, ih2⟩ := ih hb
      obtain ⟨a, ha, hids, hr⟩ := hr
      unfold Store.createEntityWithArchetype at hr
      obtain ⟨⟨s1, e1⟩, h3, hr⟩ := bind_eq_ok.1 hr
      obtain ⟨⟨c, q⟩, h4, hr⟩ := bind_eq_ok.1 hr
      dsimp only at hr h4
      obtain ⟨s2, h5, hr⟩ := bind_eq_ok.1 hr
      cases hr
      have hnew := born_fresh hx hl h3
      have hts : ts ≠ [] := by rw [← hids]; exact ha.wf.ne
      refine ⟨?_, fun S hS => ?_⟩
      · simp only [world, World.apply, World.setTypes, World.birth, at', if_true]
        exact ih1
      · simp only [world, World.apply, World.setTypes, World.birth, if_neg hts] at hS
        rcases List.mem_cons.1 hS with rfl | hS
        · refine ⟨hts, population_pos.2 ⟨e, List.mem_cons_self, ?_⟩⟩
          simp only [world, World.apply, World.setTypes, World.birth, at', if_true]
          exact ⟨fun _ h => h, fun _ h => h⟩
        · refine ⟨(ih2 S hS).1, ?_⟩
          obtain ⟨x, hx1, hx2⟩ := population_pos.1 (ih2 S hS).2
          have hne : x ≠ e := fun h0 => hnew (h0 ▸ hx1)
          refine population_pos.2 ⟨x, List.mem_cons_of_mem _ hx1, ?_⟩
          simpa only [world, World.apply, World.setTypes, World.birth, at', if_neg hne] using hx2
    | destroyed e => exact hb.elim
    | removed e ts => exact hb.elim
    | added e vals =>
      obtain ⟨ih1, ih2⟩ := ih hb.2
      simp only [world, World.apply]
      split
      · next hlive =>
        split
        · next hin => exact ⟨ih1, ih2⟩
        · next hin =>
          have hnil := hb.1.resolve_right hin
          simp only [World.setTypes, hnil, if_true, List.nil_append]
          refine ⟨ih1, fun S hS => ?_⟩
          have hvn : (vals.map (·.1)).filter (· ∉ ([] : List TypeId)) ≠ [] := by
            have : vals ≠ [] := hl.2.1
            simpa using this
          rw [if_neg hvn] at hS
          rcases List.mem_cons.1 hS with rfl | hS
          · refine ⟨hvn, population_pos.2 ⟨e, hlive, ?_⟩⟩
            simp only [at', if_true]
            exact ⟨fun _ h => h, fun _ h => h⟩
          · refine ⟨(ih2 S hS).1, ?_⟩
            obtain ⟨x, hx1, hx2⟩ := population_pos.1 (ih2 S hS).2
            have hne : x ≠ e := by
              rintro rfl
              rw [hnil] at hx2
              exact (ih2 S hS).1 (List.eq_nil_iff_forall_not_mem.2 fun t ht => nomatch hx2.2 t ht)
            refine population_pos.2 ⟨x, hx1, ?_⟩
            simpa only [at', if_neg hne] using hx2
      · exact ⟨ih1, ih2⟩
    | assigned e vals =>
      obtain ⟨ih1, ih2⟩ := ih hb
      simp only [world, World.apply]
      split <;> exact ⟨ih1, ih2⟩
    | _ => exact ih hb

theorem builds_target (hx : WellExec U dbg cap h s) (hb : BuildsUp h) {T : List TypeId} {c : Nat}
    (hT : rowsPerPage U dbg T = some c) (hc : 4 ≤ c) : Target U dbg (world h) T := by
  obtain ⟨h1, h2⟩ := builds_world hx hb
  unfold Target
  rw [hT]
  refine ⟨by omega, .inr ⟨hc, fun S hS => ?_⟩, .inr (.inr fun S hS => .inr (.inl (h2 S hS).2))⟩
  rw [h1] at hS
  cases hS

end

end Ecs
