import Verif.Proofs.StoreLoose
import Verif.Spec.Tags

/-! Histories versus worlds: liveness, tags and groups. -/

namespace Ecs
open Spec

theorem alive_eq (h : List Event) : alive h = (world h).live := by
  induction h with
  | nil => rfl
  | cons ev h ih =>
    cases ev <;> simp only [alive, world, World.apply, World.birth, World.setTypes, ih]
    · split <;> [(dsimp only; split <;> rfl); rfl]
    · split <;> rfl
    · split <;> rfl

theorem handles_eq (h : List Event) : handles h = (world h).issued := by
  induction h with
  | nil => rfl
  | cons ev h ih =>
    cases ev <;> simp only [handles, world, World.apply, World.birth, World.setTypes, ih]
    · split <;> [(dsimp only; split <;> rfl); rfl]
    · split <;> rfl
    · split <;> rfl

theorem sequence_eq (g : Nat) (h : List Event) : sequence g h = (world h).order g := by
  induction h with
  | nil => rfl
  | cons ev h ih =>
    cases ev <;> simp only [sequence, world, World.apply, World.birth, World.setTypes, ih]
    · split <;> [(dsimp only; split <;> rfl); rfl]
    · split <;> rfl
    · split <;> rfl
    all_goals
      unfold at'
      split
      · rename_i hg; subst hg; simp
      · rename_i hg; rw [if_neg (fun h => hg h.symm)]

section
variable {U : Universe} {dbg : Bool} {cap : Nat} {h : List Event} {s : Store}

/-- An event about a live entity concerns an issued handle. -/
theorem lastTag_issued (hx : LooseExec U dbg cap h s) {tag : Nat} {e : Entity} (ht : lastTag tag e h = true) :
    e ∈ (world h).issued := by
  induction hx with
  | init => cases ht
  | @step h s s' ev hx hl hr ih =>
    have hc := loose_core hx
    cases ev with
    | created x => exact List.mem_cons_of_mem _ (ih ht)
    | createdWith x ts init => exact List.mem_cons_of_mem _ (ih ht)
    | destroyed x => exact ih ht
    | added x vals =>
      have := ih ht
      simp only [world, World.apply]
      split <;> [(dsimp only; split <;> exact this); exact this]
    | removed x ts =>
      have := ih ht
      simp only [world, World.apply]
      split <;> exact this
    | assigned x vals =>
      have := ih ht
      simp only [world, World.apply]
      split <;> exact this
    | tagged t x =>
      simp only [lastTag] at ht
      split at ht
      · rename_i hh
        rw [← hh.2]
        exact hc.ents.sub _ hl
      · exact ih ht
    | untagged t x =>
      simp only [lastTag] at ht
      split at ht
      · cases ht
      · exact ih ht
    | orderedLast g x => exact ih ht
    | orderedAfter g x y => exact ih ht
    | orderedBefore g x y => exact ih ht
    | unordered g x => exact ih ht

theorem lastTag_eq (hx : LooseExec U dbg cap h s) (tag : Nat) {e : Entity} (he : e ∈ (world h).live) :
    lastTag tag e h = (world h).tags tag e := by
  induction hx with
  | init => cases he
  | @step h s s' ev hx hl hr ih =>
    have hc := loose_core hx
    cases ev with
    | created x =>
      have hn : x ∉ (world h).issued := (hc.created hl hr).1
      simp only [lastTag, world, World.apply, World.birth]
      by_cases hxe : e = x
      · subst hxe
        rw [Core.at'_self]
        by_contra hc'
        exact hn (lastTag_issued hx (by simpa using hc'))
      · rw [Core.at'_ne _ _ hxe]
        exact ih ((List.mem_cons.1 he).resolve_left hxe)
    | createdWith x ts init =>
      obtain ⟨a, _, _, hr⟩ := hr
      have hn : x ∉ (world h).issued := (hc.createdWith hl hr).1
      simp only [lastTag, world, World.apply, World.birth, World.setTypes]
      by_cases hxe : e = x
      · subst hxe
        rw [Core.at'_self]
        by_contra hc'
        exact hn (lastTag_issued hx (by simpa using hc'))
      · rw [Core.at'_ne _ _ hxe]
        exact ih ((List.mem_cons.1 he).resolve_left hxe)
    | destroyed x =>
      obtain ⟨he, hxe⟩ := (Core.mem_erase hc.ents.nodup_live x e).1 he
      simp only [lastTag, world, World.apply]
      rw [Core.at'_ne _ _ hxe]
      exact ih he
    | added x vals =>
      rw [← alive_eq] at he
      simp only [alive] at he
      rw [alive_eq] at he
      have := ih he
      simp only [lastTag, world, World.apply]
      rw [this]
      split <;> [(dsimp only; split <;> rfl); rfl]
    | removed x ts =>
      rw [← alive_eq] at he
      simp only [alive] at he
      rw [alive_eq] at he
      have := ih he
      simp only [lastTag, world, World.apply]
      rw [this]
      split <;> rfl
    | assigned x vals =>
      rw [← alive_eq] at he
      simp only [alive] at he
      rw [alive_eq] at he
      have := ih he
      simp only [lastTag, world, World.apply]
      rw [this]
      split <;> rfl
    | tagged t x =>
      have := ih he
      simp only [lastTag, world, World.apply, at', this]
      by_cases h1 : tag = t <;> by_cases h2 : e = x
      all_goals simp_all [eq_comm, at']
    | untagged t x =>
      have := ih he
      simp only [lastTag, world, World.apply, at', this]
      by_cases h1 : tag = t <;> by_cases h2 : e = x
      all_goals simp_all [eq_comm, at']
    | orderedLast g x => exact ih he
    | orderedAfter g x y => exact ih he
    | orderedBefore g x y => exact ih he
    | unordered g x => exact ih he

/-- Handles of `alive` are those created and not destroyed. -/
theorem alive_iff (hx : LooseExec U dbg cap h s) (e : Entity) :
    e ∈ alive h ↔ (.created e ∈ h ∨ ∃ ts init, .createdWith e ts init ∈ h) ∧ Event.destroyed e ∉ h := by
  have hiss : ∀ {h s}, LooseExec U dbg cap h s → Event.destroyed e ∈ h → e ∈ (world h).issued := by
    intro h s hx hd
    induction hx with
    | init => cases hd
    | @step h s s' ev hx hl hr ih =>
      have hsub : e ∈ (world h).issued → e ∈ (world (ev :: h)).issued := by
        intro hi
        cases ev with
        | created x => exact List.mem_cons_of_mem _ hi
        | createdWith x ts init => exact List.mem_cons_of_mem _ hi
        | added x vals =>
          simp only [world, World.apply]
          split <;> [(dsimp only; split <;> exact hi); exact hi]
        | removed x ts => simp only [world, World.apply]; split <;> exact hi
        | assigned x vals => simp only [world, World.apply]; split <;> exact hi
        | _ => exact hi
      rcases List.mem_cons.1 hd with rfl | hd
      · exact hsub ((loose_core hx).ents.sub _ hl)
      · exact hsub (ih hd)
  induction hx with
  | init => simp [alive]
  | @step h s s' ev hx hl hr ih =>
    have hc := loose_core hx
    cases ev with
    | created x =>
      have hn : x ∉ (world h).issued := (hc.created hl hr).1
      simp only [alive, List.mem_cons, ih]
      constructor
      · rintro (rfl | ⟨h1, h2⟩)
        · exact ⟨Or.inl (Or.inl rfl), by rintro (h3 | h3); · cases h3
                                         · exact hn (hiss hx h3)⟩
        · refine ⟨h1.imp Or.inr (fun ⟨ts, init, h3⟩ => ⟨ts, init, Or.inr h3⟩), ?_⟩
          rintro (h3 | h3)
          · cases h3
          · exact h2 h3
      · rintro ⟨h1, h2⟩
        rcases h1 with (h1 | h1) | ⟨ts, init, h1 | h1⟩
        · cases h1; exact Or.inl rfl
        · exact Or.inr ⟨Or.inl h1, fun h3 => h2 (Or.inr h3)⟩
        · cases h1
        · exact Or.inr ⟨Or.inr ⟨ts, init, h1⟩, fun h3 => h2 (Or.inr h3)⟩
    | createdWith x ts' init' =>
      obtain ⟨a, _, _, hr⟩ := hr
      have hn : x ∉ (world h).issued := (hc.createdWith hl hr).1
      simp only [alive, List.mem_cons, ih]
      constructor
      · rintro (rfl | ⟨h1, h2⟩)
        · exact ⟨Or.inr ⟨ts', init', Or.inl rfl⟩, by rintro (h3 | h3); · cases h3
                                                     · exact hn (hiss hx h3)⟩
        · refine ⟨h1.imp Or.inr (fun ⟨ts, init, h3⟩ => ⟨ts, init, Or.inr h3⟩), ?_⟩
          rintro (h3 | h3)
          · cases h3
          · exact h2 h3
      · rintro ⟨h1, h2⟩
        rcases h1 with (h1 | h1) | ⟨ts, init, h1 | h1⟩
        · cases h1
        · exact Or.inr ⟨Or.inl h1, fun h3 => h2 (Or.inr h3)⟩
        · cases h1; exact Or.inl rfl
        · exact Or.inr ⟨Or.inr ⟨ts, init, h1⟩, fun h3 => h2 (Or.inr h3)⟩
    | destroyed x =>
      have hnd : (alive h).Nodup := by rw [alive_eq]; exact hc.ents.nodup_live
      simp only [alive, Core.mem_erase hnd, ih, List.mem_cons, reduceCtorEq, false_or, Event.destroyed.injEq, not_or]
      tauto
    | _ => simpa [alive] using ih

end
end Ecs
