import Verif.Proofs.Rebuild
import Verif.Props.Queries
import Verif.Spec.Run

/-! C119: every world can be made, and every world can be saved and made again. -/

namespace Ecs.Props
open Ecs Ecs.Spec

variable {U : Universe} {dbg dbg' : Bool} {cap cap' : Nat} {h : List Event} {s s' : Store}

/-- **C119**: for every meaningful description of a world, all calls of the program that creates its entities one after the other, adds
the components of each, and then sets the tags and fills the groups return, in a new store of any capacity, and the store then shows
exactly what is described. -/
theorem C119_any_world (hcap : 0 < cap) {p : Plan} (hp : p.Ok U dbg) :
    ∃ s, SafeExec U dbg cap p.program.reverse s ∧ p.Shown U dbg s := by
  have hm := marked_all hcap hp
  obtain ⟨s, hx⟩ := hm.exec
  exact ⟨s, hx, hm.shown hx⟩

/-- **C119**, for component queries: they visit exactly the entities described that have the components, each once. -/
theorem C119_query (hcap : 0 < cap) {p : Plan} (hp : p.Ok U dbg) (hx : SafeExec U dbg cap p.program.reverse s) {acc : Access}
    (hd : DistinctTypes acc) (old : List IterView) {fuel : Nat} (hf : p.ents.length < fuel) :
    ∃ items, runComponentQueryWithEntities U dbg s acc old fuel = .ok items ∧ (items.map (·.1)).Nodup ∧
      ∀ e, e ∈ items.map (·.1) ↔ ∃ i vals, e = ⟨i, 1⟩ ∧ p.ents[i]? = some vals ∧ vals ≠ [] ∧ ∀ t ∈ acc.types, t ∈ vals.map (·.1) := by
  have hm := marked_all hcap hp
  have hsh := hm.shown hx
  obtain ⟨items, h1, _, h2, h3, _⟩ := C31_visits_once_partial (well_loose hx.well) hd old (fuel := fuel) (by rw [hm.live]; simpa using hf)
  refine ⟨items, h1, h2, fun e => ?_⟩
  rw [h3, hm.live]
  simp only [List.mem_map, List.mem_reverse, List.mem_range]
  constructor
  · rintro ⟨⟨i, hi, rfl⟩, a, ha, hall⟩
    have hi' := List.getElem?_eq_getElem hi
    refine ⟨i, _, rfl, hi', ?_⟩
    have := hsh.arch i _ hi'
    split at this
    · rw [this] at ha; cases ha
    · next hne =>
      obtain ⟨b, hb, hin⟩ := this
      rw [hb] at ha
      cases ha
      exact ⟨hne, fun t ht => by simpa using (hin t).1 (hall t ht)⟩
  · rintro ⟨i, vals, rfl, hi, hne, hall⟩
    have := hsh.arch i vals hi
    rw [if_neg hne] at this
    obtain ⟨a, ha, hin⟩ := this
    exact ⟨⟨i, (List.getElem?_eq_some_iff.1 hi).1, rfl⟩, a, ha, fun t ht => (hin t).2 (by simpa using hall t ht)⟩

/-- **C119**, saving and restoring: after any history of a well-behaved program that keeps clear of the two known defects, if all
components were written and at least four entities of every kind there is fit into a page, the description of the world is meaningful;
and the store in which it is made again, with any capacity and in either build mode, shows the same for all live entities, under their
new handles. It has no other entities. -/
theorem C119_restore (hx : Exec U dbg cap h s) (hv : AllWritten h)
    (hw : ∀ e ∈ alive h, (world h).types e ≠ [] → Wide U dbg' ((world h).types e)) (hcap : 0 < cap') :
    (saved h).Ok U dbg' ∧ ∃ s', SafeExec U dbg' cap' (saved h).program.reverse s' ∧
      Copied U dbg dbg' s s' (alive h) (restoredAs h) ∧
      ∀ x, x ∈ alive (saved h).program.reverse ↔ ∃ e ∈ alive h, x = restoredAs h e := by
  have hok := saved_ok hx hv hw
  have hm := marked_all hcap hok
  obtain ⟨s', hx'⟩ := hm.exec
  refine ⟨hok, s', hx', saved_copied hx hv hm hx', fun x => ?_⟩
  rw [hm.live]
  simp only [List.mem_map, List.mem_reverse, List.mem_range]
  have hlen : (saved h).ents.length = (alive h).length := by simp [saved]
  rw [hlen]
  constructor
  · rintro ⟨i, hi, rfl⟩
    refine ⟨(alive h)[i], List.getElem_mem hi, ?_⟩
    unfold restoredAs
    rw [List.Nodup.idxOf_getElem (alive_nodup' hx) i hi]
  · rintro ⟨e, he, rfl⟩
    exact ⟨_, List.idxOf_lt_length_of_mem he, rfl⟩

/-- **C119**: component queries find the same entities in the restored store, under their new handles, though perhaps in another
order. -/
theorem C119_restore_query (hx : Exec U dbg cap h s) (hv : AllWritten h)
    (hw : ∀ e ∈ alive h, (world h).types e ≠ [] → Wide U dbg' ((world h).types e)) (hcap : 0 < cap')
    (hx' : SafeExec U dbg' cap' (saved h).program.reverse s') {acc : Access} (hd : DistinctTypes acc) (old old' : List IterView)
    {fuel : Nat} (hf : (alive h).length < fuel) :
    ∃ items items', runComponentQueryWithEntities U dbg s acc old fuel = .ok items ∧
      runComponentQueryWithEntities U dbg' s' acc old' fuel = .ok items' ∧
      (items'.map (·.1)).Perm ((items.map (·.1)).map (restoredAs h)) := by
  obtain ⟨hok, _, _, _, hall⟩ := C119_restore (cap' := cap') hx hv hw hcap
  have hm := marked_all (cap := cap') hcap hok
  have hc := saved_copied hx hv hm hx'
  have hlen : (saved h).ents.length = (alive h).length := by simp [saved]
  obtain ⟨items, h1, _, h2, h3, _⟩ := C31_visits_once_partial hx.loose hd old hf
  obtain ⟨items', k1, _, k2, k3, _⟩ := C31_visits_once_partial (well_loose hx'.well) hd old' (fuel := fuel)
    (by rw [hm.live]; simpa [hlen] using hf)
  refine ⟨items, items', h1, k1, ?_⟩
  have hin : ∀ e ∈ items.map (·.1), e ∈ alive h := fun e he => ((h3 e).1 he).1
  refine (List.perm_ext_iff_of_nodup k2 (List.Nodup.map_on (fun e he e' he' => hc.apart e (hin e he) e' (hin e' he')) h2)).2 fun x => ?_
  rw [k3, hall]
  simp only [List.mem_map (f := restoredAs h)]
  constructor
  · rintro ⟨⟨e, he, rfl⟩, a, ha, ht⟩
    rw [hc.arch e he] at ha
    exact ⟨e, (h3 e).2 ⟨he, a, ha, ht⟩, rfl⟩
  · rintro ⟨e, he, rfl⟩
    obtain ⟨he, a, ha, ht⟩ := (h3 e).1 he
    exact ⟨⟨e, he, rfl⟩, a, by rw [hc.arch e he]; exact ha, ht⟩

/-! ### Examples -/

/-- Four entities, one of them without components; two tags and a group. -/
def sketch : Plan where
  ents := [[(4, [10]), (1, [11])], [], [(4, [12])], [(2, [1, 2, 3, 4])]]
  tags := [(7, 2), (7, 1), (9, 2)]
  orders := [(3, 2), (5, 1), (3, 0), (3, 1)]

/-- The description is meaningful. -/
example : sketch.Ok demo true where
  few := by decide
  tuples := by decide
  wide := by
    intro vals hv hne
    simp only [sketch, List.mem_cons, List.not_mem_nil, or_false] at hv
    rcases hv with rfl | rfl | rfl | rfl
    · exact ⟨8191, by decide, by decide⟩
    · exact absurd rfl hne
    · exact ⟨16383, by decide, by decide⟩
    · exact ⟨4095, by decide, by decide⟩
  tagged := by decide
  ordered := by decide
  once := by decide

example : sketch.program = [.created ⟨0, 1⟩, .added ⟨0, 1⟩ [(4, [10]), (1, [11])], .created ⟨1, 1⟩, .created ⟨2, 1⟩,
    .added ⟨2, 1⟩ [(4, [12])], .created ⟨3, 1⟩, .added ⟨3, 1⟩ [(2, [1, 2, 3, 4])], .tagged 7 ⟨2, 1⟩, .tagged 7 ⟨1, 1⟩, .tagged 9 ⟨2, 1⟩,
    .orderedLast 3 ⟨2, 1⟩, .orderedLast 5 ⟨1, 1⟩, .orderedLast 3 ⟨0, 1⟩, .orderedLast 3 ⟨1, 1⟩] ∧
    sketch.members 3 = [2, 0, 1] := ⟨rfl, rfl⟩

/-- A history with a past: handles were reused, components were removed, tags were taken back. -/
def eventful : List Event :=
  [.orderedBefore 3 ⟨2, 1⟩ ⟨0, 2⟩, .orderedLast 3 ⟨0, 2⟩, .untagged 7 ⟨2, 1⟩, .tagged 7 ⟨0, 2⟩, .tagged 7 ⟨2, 1⟩,
   .removed ⟨0, 2⟩ [1], .added ⟨0, 2⟩ [(4, [20]), (1, [21])], .created ⟨0, 2⟩, .destroyed ⟨0, 1⟩, .added ⟨2, 1⟩ [(4, [12])],
   .added ⟨0, 1⟩ [(4, [10]), (1, [11])], .created ⟨2, 1⟩, .created ⟨1, 1⟩, .created ⟨0, 1⟩]

/-- What is saved of it. -/
example : alive eventful = [⟨0, 2⟩, ⟨2, 1⟩, ⟨1, 1⟩] ∧ (saved eventful).ents = [[(4, [20])], [(4, [12])], []] ∧
    (saved eventful).tags = [(7, 0)] ∧ (saved eventful).orders = [(3, 1), (3, 0)] ∧ restoredAs eventful ⟨2, 1⟩ = ⟨1, 1⟩ := by decide

theorem eventful_wide : ∀ e ∈ alive eventful, (world eventful).types e ≠ [] → Wide demo true ((world eventful).types e) := by
  intro e he hne
  have hmem : e = ⟨0, 2⟩ ∨ e = ⟨2, 1⟩ ∨ e = ⟨1, 1⟩ := by
    have : alive eventful = [⟨0, 2⟩, ⟨2, 1⟩, ⟨1, 1⟩] := by decide
    rw [this] at he
    simpa using he
  rcases hmem with rfl | rfl | rfl
  · exact ⟨16383, by decide, by decide⟩
  · exact ⟨16383, by decide, by decide⟩
  · exact absurd (by decide) hne

/-- The hypotheses of `C119_restore` hold. -/
example : (∃ s, Exec demo true 1 eventful s) ∧ AllWritten eventful ∧
    ∀ e ∈ alive eventful, (world eventful).types e ≠ [] → Wide demo true ((world eventful).types e) := by
  refine ⟨?_, by unfold AllWritten; decide, eventful_wide⟩
  obtain ⟨s, hs⟩ := Option.isSome_iff_exists.1 (show (runExec demo true 1 eventful).isSome = true by decide)
  exact ⟨s, runExec_sound hs⟩

end Ecs.Props
