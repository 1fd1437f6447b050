import Verif.Proofs.LayoutExact
import Verif.Proofs.Archetype
import Verif.Spec.World

/-! Property C19, exactly: which layout an archetype has, if any. `Accepted` (`Spec/Accepted.lean`) does not use the model of the
layout code. -/

namespace Ecs.Props
open Spec

variable {U : Universe} {dbg : Bool}

/-- **C19**, exactly, for all sizes and alignments: `ArchetypeLayout::new` returns a layout if and only if it is the one that
`Accepted` describes. -/
theorem C19_layout_exact {a : Archetype} (ha : Built U a) (l : Layout) :
    Layout.new dbg a = .ok l ↔ Accepted U dbg a.ids l.entitiesCapacity l.offsets :=
  Layout.new_iff ha.wf l

/-- **C19**: how many rows a page has for a set of component types, if the set is accepted; its types in ascending order are `ids`. -/
theorem C19_rows_per_page {T ids : List TypeId} (hi : ids.Pairwise (· < ·)) (hm : ∀ t, t ∈ ids ↔ t ∈ T) (hne : T ≠ []) (n : Nat) :
    rowsPerPage U dbg T = some n ↔ ∃ starts, Accepted U dbg ids n starts := by
  have hd : T.dedup ≠ [] := fun h => hne ((List.dedup_eq_nil _).1 h)
  obtain ⟨a, h1, h2, h3⟩ := Archetype.withComponents_spec (U := U) (List.nodup_dedup T) hd
  have hids : a.ids = ids := by
    refine List.Perm.eq_of_pairwise (le := (· < ·)) (fun x y _ _ h h' => absurd h' (Nat.lt_asymm h)) h2.incr hi ?_
    refine (List.perm_ext_iff_of_nodup h2.incr.nodup (Incr.nodup hi)).2 fun t => ?_
    rw [h3.mem_iff, List.mem_dedup, hm]
  unfold rowsPerPage
  rw [h1]
  dsimp only
  constructor
  · intro h
    split at h
    · rename_i l hl
      cases h
      exact ⟨l.offsets, hids ▸ (Layout.new_iff h2 l).1 hl⟩
    · cases h
  · rintro ⟨starts, hs⟩
    rw [← hids] at hs
    rw [(Layout.new_iff (l := ⟨starts, n⟩) h2).2 hs]

/-- Two bytes, a `u64` and a three-byte structure: the hypotheses are met, 682 rows, with padding before the second column. -/
example : ∃ (U : Universe) (a : Archetype), Built U a ∧ a.ids = [0, 1, 2] ∧ Accepted U true a.ids 682 [0, 688, 6144] := by
  refine ⟨⟨fun t => if t = 1 then 8 else if t = 2 then 3 else 1, fun t => if t = 1 then 8 else 1,
    by intro t; split <;> omega, by intro t; split <;> simp_all⟩, ⟨[0, 1, 2], [1, 8, 3], [1, 8, 1]⟩, ?_, rfl, ?_⟩
  · exact .tuple [0, 1, 2] (by decide) (by decide)
  · exact (C19_layout_exact (.tuple [0, 1, 2] (by decide) (by decide)) ⟨[0, 688, 6144], 682⟩).1 (by decide)

end Ecs.Props
