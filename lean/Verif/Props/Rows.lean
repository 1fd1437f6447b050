import Verif.Proofs.QueryRows
import Verif.Props.QueryDefects

/-! Properties C59 and C60: rows and pages are never lost, duplicated or mixed up, whatever calls were made as long as they
returned (`LooseExec`, see `Spec/World.lean`). -/

namespace Ecs.Props
open Spec

section
variable {U : Universe} {dbg : Bool} {cap : Nat} {h : List Event} {s : Store}

/-- **C59**: the ids in the rows of all pages are the ids of the live entities that were given components, each once. -/
theorem C59_one_row_each (hx : LooseExec U dbg cap h s) :
    (s.archs.pages.flatMap (·.ids.items)).Perm (((alive h).filter (· ∈ given h)).map (·.id)) := by
  have hr := loose_rows hx
  have hrow : ∀ (p i : Nat) (pg : Page) id, s.archs.pages[p]? = some pg → pg.ids.items[i]? = some id →
      s.archs.row ⟨p, i⟩ = some id := by
    intro p i pg id h1 h2
    unfold Archs.row
    simp [h1, h2]
  have huniq : ∀ q q' id, s.archs.row q = some id → s.archs.row q' = some id → q = q' := by
    intro q q' id h1 h2
    exact ((hr.rows q id h1).resolve_left (by simp)).2.unique ((hr.rows q' id h2).resolve_left (by simp)).2
  rw [List.perm_ext_iff_of_nodup]
  · intro i
    simp only [List.mem_flatMap, List.mem_map, List.mem_filter, decide_eq_true_eq]
    constructor
    · rintro ⟨pg, hpg, hi⟩
      obtain ⟨p, hp⟩ := List.mem_iff_getElem?.1 hpg
      obtain ⟨k, hk⟩ := List.mem_iff_getElem?.1 hi
      obtain ⟨⟨e, he, hg, hid⟩, _⟩ := (hr.rows _ _ (hrow p k pg i hp hk)).resolve_left (by simp)
      exact ⟨e, ⟨he, hg⟩, hid⟩
    · rintro ⟨e, ⟨he, hg⟩, rfl⟩
      obtain ⟨q, _, h2, _⟩ := hr.on e.id ⟨e, he, hg, rfl⟩
      unfold Archs.row at h2
      cases hpg : s.archs.pages[q.page]? with
      | none => simp [hpg] at h2
      | some pg =>
        simp only [hpg, Option.bind_some] at h2
        exact ⟨pg, List.mem_of_getElem? hpg, List.mem_of_getElem? h2⟩
  · rw [List.nodup_flatMap]
    constructor
    · intro pg hpg
      obtain ⟨p, hp⟩ := List.mem_iff_getElem?.1 hpg
      rw [List.nodup_iff_getElem?_ne_getElem?]
      intro i j hij hj he
      have hj' := List.getElem?_eq_getElem hj
      have := huniq _ _ _ (hrow p i pg _ hp (he.trans hj')) (hrow p j pg _ hp hj')
      simp only [Loc.mk.injEq] at this
      omega
    · rw [List.pairwise_iff_getElem]
      intro p p' hp hp' hlt i hi hi'
      obtain ⟨k, hk⟩ := List.mem_iff_getElem?.1 hi
      obtain ⟨k', hk'⟩ := List.mem_iff_getElem?.1 hi'
      have := huniq _ _ _ (hrow p k _ i (List.getElem?_eq_getElem hp) hk) (hrow p' k' _ i (List.getElem?_eq_getElem hp') hk')
      simp only [Loc.mk.injEq] at this
      omega
  · refine List.Nodup.map_on ?_ (List.Nodup.filter _ ?_)
    · intro e he e' he' hid
      have h1 := (List.mem_filter.1 he).1
      have h2 := (List.mem_filter.1 he').1
      rw [alive_eq] at h1 h2
      exact (loose_core hx).inj e h1 e' h2 hid
    · rw [alive_eq]; exact (loose_core hx).ents.nodup_live

/-- **C59**, continued: for each of these entities the store has recorded the place of its own row, and `get_components`
and its relatives read from there. -/
theorem C59_recorded_place (hx : LooseExec U dbg cap h s) {e : Entity} (he : e ∈ alive h) (hg : e ∈ given h) :
    ∃ (page index : Nat) (pg : Page), s.toPage[e.id]? = some (some page) ∧ s.toIndex[e.id]? = some (some index) ∧
      s.archs.pages[page]? = some pg ∧ pg.ids.items[index]? = some e.id := by
  obtain ⟨q, h1, h2, _⟩ := (loose_rows hx).on e.id ⟨e, he, hg, rfl⟩
  unfold Archs.row at h2
  cases hpg : s.archs.pages[q.page]? with
  | none => simp [hpg] at h2
  | some pg =>
    simp only [hpg, Option.bind_some] at h2
    exact ⟨q.page, q.index, pg, h1.page, h1.index, hpg, h2⟩

/-- **C60**: every page is in the list of exactly one archetype or on the free list, once, and nothing else is in these
lists. -/
theorem C60_pages_accounted (hx : LooseExec U dbg cap h s) :
    (s.archs.freePages ++ s.archs.archPages.flatten).Perm (List.range s.archs.pages.length) := by
  have hs := (loose_shape hx).archs
  have hu := (loose_rows hx).use
  rw [List.perm_ext_iff_of_nodup _ List.nodup_range]
  · intro p
    simp only [List.mem_append, List.mem_flatten, List.mem_range]
    constructor
    · rintro (hf | ⟨ps, hps, hp⟩)
      · exact hu.freeLt p hf
      · exact hs.listed ps hps p hp
    · intro hp
      rcases hu.covers p hp with hf | ⟨i, ps, h1, h2⟩
      · exact .inl hf
      · exact .inr ⟨ps, List.mem_of_getElem? h1, h2⟩
  · rw [List.nodup_append']
    refine ⟨hu.freeNodup, ?_, fun p hf hp => ?_⟩
    · rw [List.nodup_flatten]
      refine ⟨hu.psNodup, ?_⟩
      rw [List.pairwise_iff_getElem]
      intro i j hi hj hlt p hp hp'
      have e1 := hu.owner i _ p (List.getElem?_eq_getElem hi) hp
      have e2 := hu.owner j _ p (List.getElem?_eq_getElem hj) hp'
      rw [e1] at e2
      have := Option.some.inj e2
      omega
    · obtain ⟨ps, hps, hp⟩ := List.mem_flatten.1 hp
      exact hu.freeDisj p hf ps hps hp

/-- **C60**, continued: a page listed for an archetype is marked as belonging to it, and a free page has no rows. -/
theorem C60_owner_and_free (hx : LooseExec U dbg cap h s) :
    (∀ (ai : Nat) ps p, s.archs.archPages[ai]? = some ps → p ∈ ps → s.archs.pageToArch[p]? = some ai) ∧
    ∀ p ∈ s.archs.freePages, ∃ pg, s.archs.pages[p]? = some pg ∧ pg.ids.items = [] := by
  have hu := (loose_rows hx).use
  refine ⟨hu.owner, fun p hp => ?_⟩
  have := List.getElem?_eq_getElem (hu.freeLt p hp)
  exact ⟨_, this, hu.freeEmpty p hp _ this⟩

end

/-! ### Examples -/

/-- The claims about rows and pages in a state with overfull pages. -/
example : ∃ s, LooseExec demo true 1 overflowing s ∧
    s.archs.pages.flatMap (·.ids.items) = [0, 1, 2, 3] ∧ s.archs.freePages = [0, 1, 2, 3] ∧
    s.archs.archPages = [[4]] := by
  have h : ((runLoose demo true 1 overflowing).any fun s => decide (s.archs.pages.flatMap (·.ids.items) = [0, 1, 2, 3] ∧
      s.archs.freePages = [0, 1, 2, 3] ∧ s.archs.archPages = [[4]])) = true := by decide
  obtain ⟨s, hs, h⟩ := any_some h
  exact ⟨s, runLoose_sound hs, of_decide_eq_true h⟩

/-- The same in a state in which an archetype slot was reused while entities were stored under it. -/
example : ∃ s, LooseExec demo true 1 (.added ⟨4, 1⟩ [(8, [80])] :: refilled) s ∧
    (s.archs.pages.flatMap (·.ids.items)).length = 5 := by
  have h : ((runLoose demo true 1 (.added ⟨4, 1⟩ [(8, [80])] :: refilled)).any fun s =>
    decide ((s.archs.pages.flatMap (·.ids.items)).length = 5)) = true := by decide
  obtain ⟨s, hs, h⟩ := any_some h
  exact ⟨s, runLoose_sound hs, of_decide_eq_true h⟩

end Ecs.Props
