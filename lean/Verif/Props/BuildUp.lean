import Verif.Proofs.BuildUp
import Verif.Props.QueryCompAny
import Verif.Props.Queries
import Verif.Props.Components

/-! C74: programs that only build up a world. -/

namespace Ecs.Props
open Spec

section
variable {U : Universe} {dbg : Bool} {cap : Nat} {h : List Event} {s : Store}

private theorem covers_same {S T : List TypeId} (h : ∀ t, t ∈ S ↔ t ∈ T) (hS : S.Nodup) (hT : T.Nodup) (acc : Access) :
    Covers S acc ↔ Covers T acc := by
  have hl : S.length = T.length := ((List.perm_ext_iff_of_nodup hS hT).2 h).length_eq
  cases acc <;> simp only [Covers, hl, h]

/-- The rows that a query visits hold the ids of the groups, in the order of the groups. -/
theorem coveredRows_ids (hx : WellExec U dbg cap h s) (hb : BuildsUp h) (acc : Access) :
    (coveredRows s acc).map (·.id) = (visitOrder h acc).map (·.id) := by
  have hst := builds_stack hx hb
  have hl := well_loose hx
  have hsh := loose_shape hl
  have hwf := (loose_known hl (well_distinct hx)).wf
  have hv : visitOrder h acc = (groups h).flatMap fun g => if Covers g.1 acc then g.2 else [] := by
    unfold visitOrder
    generalize groups h = gs
    induction gs with
    | nil => rfl
    | cons g gs ih =>
      by_cases hg : Covers g.1 acc
      · rw [List.filter_cons_of_pos (by simpa using hg), List.flatMap_cons, List.flatMap_cons, ih, if_pos hg]
      · rw [List.filter_cons_of_neg (by simpa using hg), List.flatMap_cons, ih, if_neg hg]; rfl
  have key : List.Forall₂ (fun x g => ((if Covers x.1.1.ids acc then x.2.flatMap (rowsOfPage s x.1.1 x.1.2) else []).map Row.id) =
      (if Covers g.1 acc then g.2 else []).map Entity.id) ((s.archs.archetypes.zip s.archs.layouts).zip s.archs.archPages) (groups h) := by
    rw [List.forall₂_iff_get]
    have hlen : ((s.archs.archetypes.zip s.archs.layouts).zip s.archs.archPages).length = (groups h).length := by
      rw [List.length_zip, List.length_zip, hst.len, hsh.archs.llen, hsh.archs.plen, Nat.min_self, Nat.min_self]
    refine ⟨hlen, fun i h1 h2 => ?_⟩
    have h3 : i < s.archs.archetypes.length := by rw [← hst.len]; exact h2
    have h4 : i < s.archs.archPages.length := by rw [hsh.archs.plen]; exact h3
    obtain ⟨k1, k2, k3⟩ := hst.at_ i _ _ _ (List.getElem?_eq_getElem h3) (List.getElem?_eq_getElem h4) (List.getElem?_eq_getElem h2)
    simp only [List.get_eq_getElem, List.getElem_zip]
    have hc := covers_same k1 (hwf _ (List.getElem_mem h3)).incr.nodup k2 acc
    by_cases hg : Covers (groups h)[i].1 acc
    · rw [if_pos (hc.2 hg), if_pos hg, ← k3, List.map_flatMap]
      unfold Archs.idsIn
      congr 1
      funext p
      unfold rowsOfPage Archs.idsAt
      cases s.archs.pages[p]? with
      | none => rfl
      | some pg =>
        simp only [List.map_map, Option.map_some, Option.getD_some]
        rw [show (Row.id ∘ fun x : Nat × Nat => Row.mk _ _ ⟨p, x.2⟩ x.1) = Prod.fst from rfl]
        exact List.zipIdx_map_fst 0 _
    · rw [if_neg (fun h0 => hg (hc.1 h0)), if_neg hg]; rfl
  rw [hv, List.map_flatMap]
  unfold coveredRows
  rw [List.map_flatMap]
  generalize ((s.archs.archetypes.zip s.archs.layouts).zip s.archs.archPages) = xs at key
  generalize groups h = gs at key
  induction key with
  | nil => rfl
  | cons h1 _ ih => rw [List.flatMap_cons, List.flatMap_cons, ih, h1]

/-- **C74**, the order of component queries: in a state reached by a program that only builds up the world, a component
query visits the entities group by group, the type sets in the order of their first use, and in each group in the order
in which the entities were given their components. -/
theorem C74_visit_order (hx : WellExec U dbg cap h s) (hb : BuildsUp h) (acc : Access) (old : List IterView) {fuel : Nat}
    (hf : (alive h).length < fuel) :
    ∃ items, runComponentQueryWithEntities U dbg s acc old fuel = .ok items ∧
      runComponentQuery U s acc old fuel = .ok (items.map (·.2)) ∧
      items.map (·.1) = visitOrder h acc ∧
      ∀ x ∈ items, s.getComponentsRefs U dbg x.1 acc.types = .ok (some x.2) := by
  have hl := well_loose hx
  obtain ⟨items, h1, h2, h3⟩ := C31_visits_rows hl acc old hf
  obtain ⟨items', k1, k2, _, _, k5⟩ := C31_visits_covered hl acc old hf
  rw [h1] at k1
  cases k1
  refine ⟨items, h1, h2, ?_, k5⟩
  have hids := coveredRows_ids hx hb acc
  obtain ⟨hlen, hall⟩ := List.forall₂_iff_get.1 h3
  have hlen' : (coveredRows s acc).length = (visitOrder h acc).length := by simpa using congrArg List.length hids
  refine List.ext_getElem (by rw [List.length_map, ← hlen, hlen']) fun i i1 i2 => ?_
  rw [List.length_map] at i1
  obtain ⟨m1, m2, _⟩ := hall i (by rw [hlen]; exact i1) i1
  rw [List.getElem_map]
  simp only [List.get_eq_getElem] at m1 m2
  have hid : ((coveredRows s acc)[i]'(by rw [hlen]; exact i1)).id = (visitOrder h acc)[i].id := by
    have := congrArg (·[i]?) hids
    simpa [List.getElem?_eq_getElem i2, List.getElem?_eq_getElem (show i < (coveredRows s acc).length by rw [hlen]; exact i1)] using this
  have hal : (visitOrder h acc)[i] ∈ alive h := by
    have hm := List.getElem_mem i2
    unfold visitOrder at hm
    obtain ⟨g, hg, hm⟩ := List.mem_flatMap.1 hm
    exact (groups_types hx hb g (List.mem_filter.1 hg).1 _ hm).2.1
  rw [hid] at m1 m2
  have hver := C31_row_entity hl hal m2
  generalize (visitOrder h acc)[i] = e at m1 hver
  generalize items[i].1 = e' at m1 hver
  cases e; cases e'
  simp_all

/-- **C74**, building up goes on: in a state reached by a program that only builds up the world, every call such a program
can make next returns, if at least four entities with the type set it gives to an entity fit into a page. Neither of the two
defects that lose component data (`C20_*`, `C28_*`) can show. -/
theorem C74_calls_return (hx : SafeExec U dbg cap h s) (hb : BuildsUp h) :
    (∀ ev, isCreation ev = false → Allowed U (world h) ev → BuildsUp (ev :: h) →
      (∀ T, needs (world h) ev = some T → Wide U dbg T) →
      ∃ s', Does U dbg s ev s' ∧ SafeExec U dbg cap (ev :: h) s') ∧
    ((handles h).length + 1 < u32Size →
      (∃ s' e, e ∉ handles h ∧ Does U dbg s (.created e) s' ∧ SafeExec U dbg cap (.created e :: h) s') ∧
      (∀ a, Built U a → Wide U dbg a.ids →
        ∃ s' e init, e ∉ handles h ∧ Does U dbg s (.createdWith e a.ids init) s' ∧
          SafeExec U dbg cap (.createdWith e a.ids init :: h) s')) := by
  obtain ⟨h1, h2⟩ := C46_safe_calls_return_partial hx
  have ht : ∀ T, Wide U dbg T → Target U dbg (world h) T := fun T hT => by
    obtain ⟨c, hc, h4⟩ := hT
    exact builds_target hx.well hb hc h4
  refine ⟨fun ev hc ha _ hn => h1 ev hc ha fun T hT => ht T (hn T hT), fun hl => ?_⟩
  obtain ⟨h3, h4⟩ := h2 hl
  exact ⟨h3, fun a ha hw => h4 a ha (ht _ hw)⟩

end

/-! ### Examples -/

/-- Three type sets, used in turns; components are also overwritten, tagged and ordered. -/
def building : List Event :=
  [.added ⟨5, 1⟩ [(4, [6])], .added ⟨1, 1⟩ [(2, [1, 1, 1, 1])], .created ⟨5, 1⟩, .added ⟨4, 1⟩ [(5, [5]), (1, [5])],
   .orderedLast 9 ⟨3, 1⟩, .tagged 8 ⟨3, 1⟩, .added ⟨3, 1⟩ [(2, [4, 4, 4, 4]), (1, [4])], .created ⟨4, 1⟩, .created ⟨3, 1⟩,
   .assigned ⟨1, 1⟩ [(1, [3])], .added ⟨2, 1⟩ [(4, [3])], .created ⟨2, 1⟩,
   .added ⟨1, 1⟩ [(1, [2]), (2, [2, 2, 2, 2])], .created ⟨1, 1⟩, .created ⟨0, 1⟩]

example : BuildsUp building ∧ groups building =
    [([1, 2], [⟨1, 1⟩, ⟨3, 1⟩]), ([4], [⟨2, 1⟩, ⟨5, 1⟩]), ([5, 1], [⟨4, 1⟩])] := by decide

/-- The hypotheses of `C74_visit_order`, and what it says about type 1. -/
example : ∃ s, WellExec demo true 1 building s ∧ BuildsUp building ∧ (alive building).length < 10 ∧
    visitOrder building (.readonly [1]) = [⟨1, 1⟩, ⟨3, 1⟩, ⟨4, 1⟩] := by
  obtain ⟨s, hs⟩ := Option.isSome_iff_exists.1 (show (runWell demo true 1 building).isSome = true by decide)
  exact ⟨s, runWell_sound hs, by decide, by decide, by decide⟩

/-- The hypotheses of `C74_calls_return`. -/
example : ∃ s, SafeExec demo true 1 building s ∧ BuildsUp (.added ⟨0, 1⟩ [(5, [7])] :: building) ∧
    Allowed demo (world building) (.added ⟨0, 1⟩ [(5, [7])]) ∧ Wide demo true [5] := by
  obtain ⟨s, hs⟩ := Option.isSome_iff_exists.1 (show (runSafe demo true 1 building).isSome = true by decide)
  exact ⟨s, runSafe_sound hs, by decide, by decide, 16383, by decide, by decide⟩

/-- The order is another one after a removal: here the entities of one type set are visited 0, 2, 1 after entity 1 was destroyed
and its id given out again. -/
example : ∃ s items, WellExec demo true 1 [.added ⟨1, 2⟩ [(1, [9])], .created ⟨1, 2⟩, .destroyed ⟨1, 1⟩, .added ⟨2, 1⟩ [(1, [9])],
      .added ⟨1, 1⟩ [(1, [9])], .added ⟨0, 1⟩ [(1, [9])], .created ⟨2, 1⟩, .created ⟨1, 1⟩, .created ⟨0, 1⟩] s ∧
    runComponentQueryWithEntities demo true s (.readonly [1]) [] 10 = .ok items ∧
    items.map (·.1) = [⟨0, 1⟩, ⟨2, 1⟩, ⟨1, 2⟩] := by
  have h : ((runWell demo true 1 [.added ⟨1, 2⟩ [(1, [9])], .created ⟨1, 2⟩, .destroyed ⟨1, 1⟩, .added ⟨2, 1⟩ [(1, [9])],
      .added ⟨1, 1⟩ [(1, [9])], .added ⟨0, 1⟩ [(1, [9])], .created ⟨2, 1⟩, .created ⟨1, 1⟩, .created ⟨0, 1⟩]).any fun s =>
      okAnd (runComponentQueryWithEntities demo true s (.readonly [1]) [] 10) fun items =>
        decide (items.map (·.1) = [⟨0, 1⟩, ⟨2, 1⟩, ⟨1, 2⟩])) = true := by decide
  obtain ⟨s, hs, h⟩ := any_some h
  obtain ⟨items, h1, h2⟩ := okAnd_iff h
  exact ⟨s, items, runWell_sound hs, h1, of_decide_eq_true h2⟩

end Ecs.Props
