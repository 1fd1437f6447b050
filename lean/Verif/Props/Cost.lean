import Verif.Proofs.CostBuild
import Verif.Props.Pages
import Verif.Props.Slots
import Verif.Props.BuildUp

/-! C105: what the calls examine to find a place for an entity. -/

namespace Ecs.Props
open Spec Meter

section
variable {U : Universe} {dbg : Bool} {cap : Nat} {h : List Event} {s s' : Store} {ev : Event} {w : Work}

private theorem counted {α : Type} {m : Meter α} {r : Res α} {P : α → Work → Prop} (hm : Measured m r P) (a : α) :
    r = .ok a ↔ ∃ w, m {} = .ok (a, w) := by
  have := hm {}
  cases r with
  | ok b =>
    obtain ⟨w, h1, _⟩ := this
    rw [Work.zero_add] at h1
    constructor
    · rintro ⟨⟩; exact ⟨w, h1⟩
    · rintro ⟨v, h2⟩; rw [h1] at h2; cases h2; rfl
  | error f =>
    dsimp only at this
    constructor
    · rintro ⟨⟩
    · rintro ⟨v, h2⟩; rw [this] at h2; cases h2

private theorem holds {α : Type} {m : Meter α} {r : Res α} {P : α → Work → Prop} (hm : Measured m r P) {a : α} {w : Work}
    (h : m {} = .ok (a, w)) : P a w := by
  obtain ⟨v, h1, h2⟩ := hm.ok ((counted hm a).2 ⟨w, h⟩) {}
  rw [Work.zero_add] at h1
  rw [h1] at h
  cases h
  exact h2

/-- **C105**, counting changes nothing: in any state, a call returns with some state exactly if its counting version does. -/
theorem C105_counts : Returns U dbg s ev s' ↔ ∃ w, Takes U dbg s ev s' w := by
  have hB := Archs.thin_sum s.archs
  cases ev with
  | created e => exact counted Store.measured_create _
  | createdWith e ts init =>
    constructor
    · rintro ⟨a, h1, h2, h3⟩
      obtain ⟨w, h4⟩ := (counted (Store.measured_createWith a hB) _).1 h3
      exact ⟨w, a, h1, h2, h4⟩
    · rintro ⟨w, a, h1, h2, h3⟩
      exact ⟨a, h1, h2, (counted (Store.measured_createWith a hB) _).2 ⟨w, h3⟩⟩
  | destroyed e => exact counted (Store.measured_destroy e hB) _
  | added e vals => exact counted (Store.measured_add e vals hB) _
  | removed e ts => exact counted (Store.measured_remove e ts hB) _
  | _ => exact ⟨fun h => ⟨_, h, rfl⟩, fun ⟨_, h, _⟩ => h⟩

/-- **C105**, a bound: after any calls that returned, if never more than `L` entities were alive at once, then the next call
examines at most `L + 2` archetypes and `4 * L + 11` pages, and every tag and every order group at most once. -/
theorem C105_bounded (hx : LooseExec U dbg cap h s) {L : Nat} (hL : ∀ h', h' <:+ h → (alive h').length ≤ L)
    (ht : Takes U dbg s ev s' w) :
    AtMost w { archetypes := L + 2, pages := 4 * L + 11, tags := s.tags.bitvecs.length, groups := s.orders.groups.length } := by
  have hp := C61_pages_bounded hx hL
  have ha := C68_slots_bounded hx hL
  have hB : s.archs.Thin (2 * L + 5) := by
    intro ps hps
    refine Nat.le_trans ?_ hp
    have hsub : ps ⊆ List.range s.archs.pages.length := fun p hp => by
      rw [List.mem_range]
      exact (loose_shape hx).archs.listed ps hps p hp
    simpa using ((loose_rows hx).use.psNodup ps hps).length_le_of_subset hsub
  unfold AtMost
  dsimp only
  cases ev with
  | created e =>
    have := holds Store.measured_create ht
    omega
  | createdWith e ts init =>
    obtain ⟨a, _, _, ht⟩ := ht
    obtain ⟨h1, h2, h3, h4⟩ := holds (Store.measured_createWith a hB) ht
    have := searched_le (·.isSameAs a) s.archs.archetypes
    omega
  | destroyed e =>
    have := holds (Store.measured_destroy e hB) ht
    omega
  | added e vals =>
    have := holds (Store.measured_add e vals hB) ht
    omega
  | removed e ts =>
    have := holds (Store.measured_remove e ts hB) ht
    omega
  | _ => obtain ⟨_, rfl⟩ := ht; exact ⟨Nat.zero_le _, Nat.zero_le _, Nat.zero_le _, Nat.zero_le _⟩

private theorem searched_ids {a : Archetype} (l : List Archetype) :
    searched (·.isSameAs a) l = searched (fun b => decide (b.ids = a.ids)) l :=
  searched_congr fun b _ => by
    by_cases h : b.ids = a.ids
    · rw [Archetype.isSameAs_iff.2 h, decide_eq_true h]
    · rw [decide_eq_false h, Bool.eq_false_iff]
      exact fun h0 => h (Archetype.isSameAs_iff.1 h0)

/-- **C105**, the two searches of a creation: it goes through the archetypes, the oldest slot first, to the one with the given
types; then through the pages of this archetype, the one taken last first, to the first with room. -/
theorem C105_searches (hx : SafeExec U dbg cap h s) {e : Entity} {ts : List TypeId} {init : TypeId → List Cell}
    (ht : Takes U dbg s (.createdWith e ts init) s' w) :
    w.archetypes = searched (fun a => decide (a.ids = ts)) s.archs.archetypes ∧
    w.pages = searched (hasRoom s) (pagesFor s ts).reverse := by
  obtain ⟨a, _, rfl, ht⟩ := ht
  have hI := (exec_rel hx.exec).places.inv
  refine ⟨?_, holds (Store.measured_createWith_exact a hI.freeUnused hI.alen) ht⟩
  rw [← searched_ids]
  exact (holds (Store.measured_createWith a (Archs.thin_sum s.archs)) ht).1

/-- **C105**, building up: when a program that only builds up the world creates one more entity with a type set of which `c`
entities fit into a page and `k` entities have it, then one page is examined; but if all pages are full (`c` divides `k`), all
`k / c` of them are. -/
theorem C105_buildup (hx : SafeExec U dbg cap h s) (hb : BuildsUp h) {e : Entity} {ts : List TypeId} {init : TypeId → List Cell}
    {c : Nat} (hc : rowsPerPage U dbg ts = some c) (h4 : 4 ≤ c) (ht : Takes U dbg s (.createdWith e ts init) s' w) :
    w.pages = if c ∣ population (world h) ts then population (world h) ts / c else 1 := by
  rw [(C105_searches hx ht).2]
  obtain ⟨a, ha, rfl, _⟩ := ht
  exact builds_searched hx hb ha.wf hc h4

/-- Counted executions are executions, and all of these can be counted. -/
theorem C105_counted : SafeExec U dbg cap h s ↔ ∃ w, CountedExec U dbg cap h s w := by
  constructor
  · intro hx
    induction hx with
    | init h1 => exact ⟨_, .init h1⟩
    | step ev _ ha hn hd ih =>
      obtain ⟨w, hw⟩ := ih
      obtain ⟨v, hv⟩ := C105_counts.1 hd.1
      exact ⟨_, .step ev hw ha hn hd hv⟩
  · rintro ⟨w, hw⟩
    induction hw with
    | init h1 => exact .init h1
    | step ev _ ha hn hd _ ih => exact .step ev ih ha hn hd

theorem onlyCreates_builds {ts : List TypeId} (ho : OnlyCreates ts h) : BuildsUp h := by
  induction h with
  | nil => trivial
  | cons ev h ih =>
    obtain ⟨e, init, rfl⟩ := ho ev List.mem_cons_self
    exact ih fun x hx => ho x (List.mem_cons_of_mem _ hx)

theorem onlyCreates_population {ts : List TypeId} (ho : OnlyCreates ts h) (hx : SafeExec U dbg cap h s) :
    Spec.population (world h) ts = h.length ∧ (handles h).length = h.length ∧ (alive h).length = h.length := by
  induction hx with
  | init _ => exact ⟨rfl, rfl, rfl⟩
  | @step h s s' ev hx ha hn hd ih =>
    obtain ⟨e, init, rfl⟩ := ho ev List.mem_cons_self
    obtain ⟨i1, i2, i3⟩ := ih fun x hx => ho x (List.mem_cons_of_mem _ hx)
    obtain ⟨⟨a, hab, _, hr⟩, _⟩ := hd
    unfold Store.createEntityWithArchetype at hr
    obtain ⟨⟨s1, e1⟩, h3, hr⟩ := bind_eq_ok.1 hr
    obtain ⟨⟨c, q⟩, h4, hr⟩ := bind_eq_ok.1 hr
    dsimp only at hr h4
    obtain ⟨s2, h5, hr⟩ := bind_eq_ok.1 hr
    cases hr
    have hnew := born_fresh (well_loose hx.well) ha h3
    refine ⟨?_, by simp [handles, i2], ?_⟩
    · rw [List.length_cons, ← i1]
      unfold Spec.population
      simp only [world, World.apply, World.setTypes, World.birth]
      rw [List.filter_cons_of_pos (by simp [at', sameSet]), List.length_cons]
      congr 2
      refine List.filter_congr fun x hx' => ?_
      have hne : x ≠ e := fun h0 => hnew (h0 ▸ hx')
      simp only [at', if_neg hne]
    · rw [alive_eq] at i3 ⊢
      simp only [world, World.apply, World.setTypes, World.birth, List.length_cons, i3]

/-- **C105**, a whole program: the pages examined while creating entities of one type set, one after the other. For `p` full
pages these are `p * (p - 1) / 2 + p * (c - 1)`: the number grows with the square of the number of entities. -/
theorem C105_total {ts : List TypeId} (hx : CountedExec U dbg cap h s w) (ho : OnlyCreates ts h) {c : Nat}
    (hc : rowsPerPage U dbg ts = some c) (h4 : 4 ≤ c) :
    w.pages = ((List.range h.length).map fun k => if c ∣ k then k / c else 1).sum ∧
    ∀ p, h.length = p * c → 2 * w.pages = p * (p - 1) + 2 * (p * (c - 1)) := by
  have h1 : w.pages = ((List.range h.length).map fun k => if c ∣ k then k / c else 1).sum := by
    induction hx with
    | init _ => rfl
    | @step h s s' w v ev hx ha hn hd ht ih =>
      have ho' : OnlyCreates ts h := fun x hx => ho x (List.mem_cons_of_mem _ hx)
      obtain ⟨e, init, rfl⟩ := ho ev List.mem_cons_self
      have hs := C105_counted.2 ⟨_, hx⟩
      have hv := C105_buildup hs (onlyCreates_builds ho') hc h4 ht
      rw [(onlyCreates_population ho' hs).1] at hv
      rw [List.length_cons, List.range_succ, List.map_append, List.sum_append, ← ih ho']
      simp only [List.map_cons, List.map_nil, List.sum_cons, List.sum_nil, Nat.add_zero, ← hv]
      rfl
  refine ⟨h1, fun p hp => ?_⟩
  rw [h1, hp]
  clear h1 hp hx ho hc
  induction p with
  | zero => simp
  | succ p ih =>
    have hblock : ∀ j, j ≤ c → (((List.range (p * c + j)).map fun k => if c ∣ k then k / c else 1).sum) =
        ((List.range (p * c)).map fun k => if c ∣ k then k / c else 1).sum + if j = 0 then 0 else p + (j - 1) := by
      intro j
      induction j with
      | zero => simp
      | succ j ihj =>
        intro hj
        rw [← Nat.add_assoc, List.range_succ, List.map_append, List.sum_append, ihj (by omega)]
        simp only [List.map_cons, List.map_nil, List.sum_cons, List.sum_nil, Nat.add_zero]
        by_cases h0 : j = 0
        · subst h0
          have e1 : (if c ∣ p * c + 0 then (p * c + 0) / c else 1) = p := by
            rw [Nat.add_zero, if_pos (Nat.dvd_mul_left _ _), Nat.mul_div_cancel _ (by omega)]
          rw [e1]
          simp
        · have hnd : ¬ c ∣ p * c + j := by
            intro hd
            rw [Nat.dvd_add_right (Nat.dvd_mul_left _ _)] at hd
            have := Nat.le_of_dvd (by omega) hd
            omega
          rw [if_neg hnd, if_neg h0, if_neg (by omega)]
          omega
    have := hblock c (Nat.le_refl _)
    rw [if_neg (by omega)] at this
    rw [Nat.add_mul, Nat.one_mul, this, Nat.mul_add, ih]
    cases p with
    | zero => simp
    | succ p =>
      simp only [Nat.add_sub_cancel]
      have e1 : (p + 1 + 1) * (p + 1) = (p + 1) * p + 2 * (p + 1) := by
        rw [Nat.add_mul (p + 1) 1, Nat.mul_add (p + 1) p 1]; omega
      have e2 : (p + 1 + 1) * (c - 1) = (p + 1) * (c - 1) + (c - 1) := by rw [Nat.add_mul _ 1, Nat.one_mul]
      rw [e1, e2]
      omega

/-- **C105**, no fixed bound: for every type set of which at least four entities fit into a page, and every number `p` of pages
that can be filled, there is an execution of `p * c` creations after which the next one examines `p` pages. -/
theorem C105_grows {a : Archetype} (ha : Built U a) {c : Nat} (hc : rowsPerPage U dbg a.ids = some c) (h4 : 4 ≤ c) (p : Nat)
    (hp : p * c + 1 < u32Size) :
    ∃ h s w, CountedExec U dbg 1 h s w ∧ OnlyCreates a.ids h ∧ (alive h).length = p * c ∧
      ∃ e init s' v, Takes U dbg s (.createdWith e a.ids init) s' v ∧ v.pages = p := by
  have key : ∀ n, n ≤ p * c → ∃ h s, SafeExec U dbg 1 h s ∧ OnlyCreates a.ids h ∧ h.length = n := by
    intro n
    induction n with
    | zero =>
      intro _
      have : ∃ s, Store.withCapacity dbg 1 = .ok s := by cases dbg <;> exact ⟨_, rfl⟩
      obtain ⟨s, hs⟩ := this
      exact ⟨[], s, .init hs, (fun _ h => nomatch h), rfl⟩
    | succ n ih =>
      intro hn
      obtain ⟨h, s, hx, ho, hl⟩ := ih (by omega)
      obtain ⟨_, i2, _⟩ := onlyCreates_population ho hx
      obtain ⟨s', e, init, _, _, hx'⟩ := ((C74_calls_return hx (onlyCreates_builds ho)).2 (by omega)).2 a ha ⟨c, hc, h4⟩
      refine ⟨_, s', hx', ?_, by rw [List.length_cons, hl]⟩
      intro ev hev
      rcases List.mem_cons.1 hev with rfl | hev
      · exact ⟨e, init, rfl⟩
      · exact ho ev hev
  obtain ⟨h, s, hx, ho, hl⟩ := key _ (Nat.le_refl _)
  obtain ⟨i1, i2, i3⟩ := onlyCreates_population ho hx
  obtain ⟨w, hw⟩ := C105_counted.1 hx
  obtain ⟨s', e, init, _, hd, _⟩ := ((C74_calls_return hx (onlyCreates_builds ho)).2 (by omega)).2 a ha ⟨c, hc, h4⟩
  obtain ⟨v, hv⟩ := C105_counts.1 hd.1
  refine ⟨h, s, w, hw, ho, by rw [i3, hl], e, init, s', v, hv, ?_⟩
  rw [C105_buildup hx (onlyCreates_builds ho) hc h4 hv, i1, hl, if_pos (Nat.dvd_mul_left _ _), Nat.mul_div_cancel _ (by omega)]

end

/-! ### Examples -/

/-- One component type, of 4000 bytes: four entities fit into a page. -/
def bulky : Universe where
  size := fun _ => 4000
  align := fun _ => 1
  align_pos := fun _ => Nat.one_pos
  align_dvd := fun _ => Nat.one_dvd _

example (dbg : Bool) : rowsPerPage bulky dbg [1] = some 4 := by cases dbg <;> decide

/-- The hypotheses of `C105_grows`. -/
example : ∃ a, Built bulky a ∧ a.ids = [1] ∧ rowsPerPage bulky true a.ids = some 4 ∧ 1000 * 4 + 1 < u32Size := by
  obtain ⟨a, h1, _, h3⟩ := Archetype.withComponents_spec (U := bulky) (ts := [1]) (by decide) (by decide)
  have h4 : a.ids = [1] := List.perm_singleton.1 h3
  exact ⟨a, .tuple [1] (by decide) h1, h4, by rw [h4]; decide, by decide⟩

/-- What it says: with 4000 such entities, the next creation examines 1000 pages. -/
example : ∃ h s w, CountedExec bulky true 1 h s w ∧ (alive h).length = 4000 ∧
    ∃ e init s' v, Takes bulky true s (.createdWith e [1] init) s' v ∧ v.pages = 1000 := by
  obtain ⟨a, h1, _, h3⟩ := Archetype.withComponents_spec (U := bulky) (ts := [1]) (by decide) (by decide)
  have h4 : a.ids = [1] := List.perm_singleton.1 h3
  obtain ⟨h, s, w, k1, _, k3, k4⟩ := C105_grows (U := bulky) (dbg := true) (c := 4) (.tuple [1] (by decide) h1)
    (by rw [h4]; decide) (by decide) 1000 (by decide)
  rw [h4] at k4
  exact ⟨h, s, w, k1, k3, k4⟩

/-- The hypotheses of `C105_buildup` and `C105_searches`, and the counts: the archetype of type 4 is the second, and its only page
has room. -/
example : ∃ s s' w, SafeExec demo true 1 building s ∧ BuildsUp building ∧ rowsPerPage demo true [4] = some 16383 ∧
    population (world building) [4] = 2 ∧ Takes demo true s (.createdWith ⟨6, 1⟩ [4] fun _ => []) s' w ∧
    w = { archetypes := 2, pages := 1, tags := 0, groups := 0 } := by
  have hrun : ((runSafe demo true 1 building).any fun s => okAnd (Archetype.withComponents demo [4]) fun a =>
      okAnd (s.createEntityWithArchetypeM true a {} : Res ((Store × Entity) × Work)) fun x =>
        decide (a.ids = [4] ∧ x.1.2 = ⟨6, 1⟩ ∧ x.2 = { archetypes := 2, pages := 1, tags := 0, groups := 0 })) = true := by decide
  obtain ⟨s, hs, hrun⟩ := any_some hrun
  obtain ⟨a, ha, hrun⟩ := okAnd_iff hrun
  obtain ⟨⟨⟨s', e⟩, w⟩, h1, hrun⟩ := okAnd_iff hrun
  obtain ⟨h2, h3, h4⟩ := of_decide_eq_true hrun
  dsimp only at h3 h4
  subst h3
  exact ⟨s, s', w, runSafe_sound hs, by decide, by decide, by decide, ⟨a, .tuple [4] (by decide) ha, h2, h1⟩, h4⟩

/-- The hypotheses of `C105_bounded`, with calls that examine something of each kind: destroying an entity goes through the tags
and groups, and through the pages of its archetype up to its page if the page becomes empty. -/
example : ∃ s s' w, LooseExec demo true 1 building s ∧ (∀ h', h' <:+ building → (alive h').length ≤ 6) ∧
    Takes demo true s (.destroyed ⟨4, 1⟩) s' w ∧ w = { archetypes := 0, pages := 1, tags := 1, groups := 1 } := by
  have hrun : ((runSafe demo true 1 building).any fun s =>
      okAnd (s.destroyEntityM true ⟨4, 1⟩ {} : Res (Store × Work)) fun x =>
        decide (x.2 = { archetypes := 0, pages := 1, tags := 1, groups := 1 })) = true := by decide
  obtain ⟨s, hs, hrun⟩ := any_some hrun
  obtain ⟨⟨s', w⟩, h1, hrun⟩ := okAnd_iff hrun
  refine ⟨s, s', w, well_loose (runSafe_sound hs).well, fun h' hh => ?_, h1, of_decide_eq_true hrun⟩
  have : ∀ k ∈ List.range (building.length + 1), (alive (building.drop k)).length ≤ 6 := by decide
  obtain ⟨t, ht⟩ := hh
  have hd : building.drop t.length = h' := by rw [← ht, List.drop_left]
  rw [← hd]
  refine this _ (List.mem_range.2 ?_)
  rw [← ht, List.length_append]
  omega

def threeOfOne : List Event :=
  [.createdWith ⟨2, 1⟩ [1] fun _ => [none], .createdWith ⟨1, 1⟩ [1] fun _ => [none], .createdWith ⟨0, 1⟩ [1] fun _ => [none]]

/-- The hypotheses of `C105_total`, and what it says: the three creations examine 0 + 1 + 1 pages. -/
example : ∃ s w, CountedExec demo true 1 threeOfOne s w ∧ OnlyCreates [1] threeOfOne ∧
    rowsPerPage demo true [1] = some 16383 ∧ w.pages = 2 := by
  obtain ⟨s, hs⟩ := Option.isSome_iff_exists.1 (show (runSafe demo true 1 threeOfOne).isSome = true by decide)
  obtain ⟨w, hw⟩ := C105_counted.1 (runSafe_sound hs)
  have ho : OnlyCreates [1] threeOfOne := by
    intro ev hev
    simp only [threeOfOne, List.mem_cons, List.not_mem_nil, or_false] at hev
    rcases hev with rfl | rfl | rfl <;> exact ⟨_, _, rfl⟩
  refine ⟨s, w, hw, ho, by decide, ?_⟩
  rw [(C105_total hw ho (c := 16383) (by decide) (by decide)).1]
  decide

end Ecs.Props
