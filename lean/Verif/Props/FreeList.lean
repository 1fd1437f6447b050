import Verif.Proofs.FreeList
import Verif.Props.Steady

/-! C126: the lengths of the vectors of a store. -/

namespace Ecs.Props
open Ecs Spec

variable {U : Universe} {dbg : Bool} {cap : Nat} {h : List Event} {s : Store}

/-- **C126**, for all vectors but one: if there were never more than `L` entities alive at once, the vectors of a store have bounded lengths,
however many calls were made: the released ids, the rows of all pages together, the page lists, the tables of pages, archetypes and
layouts, and the names of tags and groups. Missing is the list of free archetypes, see `C126_counterexample`. -/
theorem C126_vectors_partial (hx : LooseExec U dbg cap h s) {L T G : Nat} (hL : ∀ h', h' <:+ h → (alive h').length ≤ L)
    (hT : Count (tagNamed h) T) (hG : Count (groupNamed h) G) :
    s.ents.gapIds.length ≤ L ∧ (s.archs.pages.flatMap (·.ids.items)).length ≤ L ∧
    s.archs.freePages.length + s.archs.archPages.flatten.length ≤ 2 * L + 5 ∧ s.archs.pageToArch.length ≤ 2 * L + 5 ∧
    s.archs.archPages.length ≤ L + 2 ∧ s.archs.layouts.length ≤ L + 2 ∧ s.tags.tagIds.length = T ∧ s.orders.groupIds.length = G := by
  have hp := C61_pages_bounded hx hL
  have ha := C68_slots_bounded hx hL
  have hs := (loose_shape hx).archs
  have hacc := (C60_pages_accounted hx).length_eq
  rw [List.length_append, List.length_range] at hacc
  have hrows := (C59_one_row_each hx).length_eq
  have hb : dbg = true ∨ (issued (entHistory h)).length < u32Size := Or.inr (by
    rw [issued_entHistory]; exact issued_lt hx)
  have hi := exec_inv (loose_ents hx) hb
  have hn := exec_peak (loose_ents hx) hb
  have hg : s.ents.gapIds.length ≤ s.ents.nextFreeId := by
    have := (List.nodup_append.1 hi.nodup).2.1.length_le_of_subset (l₂ := List.range s.ents.nextFreeId) fun i hm =>
      List.mem_range.2 ((hi.ids i).1 (.inr hm))
    rwa [List.length_range] at this
  have hk := peak_le hL
  refine ⟨by omega, ?_, by omega, by rw [hs.tlen]; exact hp, by rw [hs.plen]; exact ha, by rw [hs.llen]; exact ha, ?_, ?_⟩
  · rw [hrows, List.length_map]
    exact Nat.le_trans (List.length_filter_le _ _) (hL h (List.suffix_refl _))
  · rw [← (loose_core hx).tags.len]; exact count_unique (count_tags hx) hT
  · rw [← (loose_core hx).orders.len]; exact count_unique (count_groups hx) hG

/-- **C126**, for the list of free archetypes, in histories in which the known defects do not show: it names no slot twice, and is shorter than
the table of archetypes. -/
theorem C126_free_list_partial (hx : Exec U dbg cap h s) :
    s.archs.freeArchetypes.Nodup ∧ s.archs.freeArchetypes.length ≤ s.archs.archetypes.length := by
  have hi := (exec_rel hx).places.inv
  refine ⟨hi.freeANodup, ?_⟩
  have := hi.freeANodup.length_le_of_subset (l₂ := List.range s.archs.archetypes.length) fun i hm => List.mem_range.2 (by
    rw [← hi.alen]
    exact (List.getElem?_eq_some_iff.1 (hi.freeUnused i hm)).1)
  rwa [List.length_range] at this

/-- **C126 is false of the code** for the list of free archetypes: for every `n` (as long as there are handles) there is a history that only
creates and destroys entities of three types, never more than two at a time, after which the list has more than `n` entries, for three
archetypes. `reserve_archetype` looks for the slot it takes with a binary search in a list that is not sorted, and leaves it there if the
search fails (`binary_search` as in Rust 1.82 and later). -/
theorem C126_counterexample (dbg : Bool) (n : Nat) (hn : 2 * n + 4 < u32Size) :
    ∃ h s, LooseExec demo dbg 2 h s ∧ (∀ h', h' <:+ h → (alive h').length ≤ 2) ∧
      (∀ ev ∈ h, (∃ e, ev = .destroyed e) ∨ ∃ e t init, ev = .createdWith e [t] init ∧ t ∈ [0, 4, 5]) ∧
      s.archs.archetypes.length = 3 ∧ n < s.archs.freeArchetypes.length := by
  obtain ⟨f, h1, h2, h3⟩ := FreeList.rounds_run dbg n hn
  refine ⟨_, _, h1, FreeList.rounds_few n, FreeList.rounds_types n, rfl, ?_⟩
  show n < (f ++ [1]).length
  rw [List.length_append]
  omega

/-- The hypotheses of C126, and a list with twice as many entries as there are archetypes. -/
example : ∃ s, LooseExec demo true 2 (FreeList.rounds 3) s ∧ Count (tagNamed (FreeList.rounds 3)) 0 ∧ Count (groupNamed (FreeList.rounds 3)) 0 ∧
    s.archs.archetypes.length = 3 ∧ s.archs.freeArchetypes = [2, 2, 2, 1, 2, 1] := by
  have h : ((runLoose demo true 2 (FreeList.rounds 3)).any fun s =>
      decide (s.archs.archetypes.length = 3 ∧ s.archs.freeArchetypes = [2, 2, 2, 1, 2, 1])) = true := by decide
  obtain ⟨s, hs, h⟩ := any_some h
  refine ⟨s, runLoose_sound hs, ⟨[], .nil, rfl, fun t => ?_⟩, ⟨[], .nil, rfl, fun g => ?_⟩, of_decide_eq_true h⟩
  · simp [tagNamed, FreeList.rounds, FreeList.start]
  · simp [groupNamed, FreeList.rounds, FreeList.start]

/-- The hypothesis of `C126_free_list_partial`, with two free archetypes. -/
example : ∃ s, Exec demo true 3 [.destroyed ⟨1, 1⟩, .destroyed ⟨2, 1⟩, .added ⟨2, 1⟩ [(5, [1])], .added ⟨1, 1⟩ [(4, [1])], .added ⟨0, 1⟩ [(0, [1])],
    .created ⟨2, 1⟩, .created ⟨1, 1⟩, .created ⟨0, 1⟩] s ∧ s.archs.freeArchetypes = [2, 1] := by
  have h : ((runExec demo true 3 [.destroyed ⟨1, 1⟩, .destroyed ⟨2, 1⟩, .added ⟨2, 1⟩ [(5, [1])], .added ⟨1, 1⟩ [(4, [1])],
    .added ⟨0, 1⟩ [(0, [1])], .created ⟨2, 1⟩, .created ⟨1, 1⟩, .created ⟨0, 1⟩]).any fun s => decide (s.archs.freeArchetypes = [2, 1])) = true := by
    decide
  obtain ⟨s, hs, h⟩ := any_some h
  exact ⟨s, runExec_sound hs, of_decide_eq_true h⟩

end Ecs.Props
