import Verif.Spec.Steady
import Verif.Proofs.PanicExact
import Verif.Proofs.EntsOf

/-! Lemmas for C125. -/

namespace Ecs
open Spec

variable {U : Universe} {dbg : Bool} {cap : Nat} {h : List Event} {s : Store}

theorem typeNamed_mono {ev : Event} {t : Nat} (ht : typeNamed h t) : typeNamed (ev :: h) t := by
  rcases ht with ⟨e, ts, i, h1, h2⟩ | ⟨e, vals, h1, h2⟩
  · exact .inl ⟨e, ts, i, List.mem_cons_of_mem _ h1, h2⟩
  · exact .inr ⟨e, vals, List.mem_cons_of_mem _ h1, h2⟩

/-- Every type of a registered archetype was given to some entity. -/
theorem loose_types (hx : LooseExec U dbg cap h s) (hd : DistinctAdds h) : ∀ a ∈ s.archs.archetypes, ∀ t ∈ a.ids, typeNamed h t := by
  induction hx with
  | init hs =>
    unfold Store.withCapacity at hs
    obtain ⟨_, _, hs⟩ := bind_eq_ok.1 hs
    cases hs
    simp [Archs.new]
  | @step h s s' ev hx hl hr ih =>
    have hd' : DistinctAdds h := fun e vals hm => hd e vals (List.mem_cons_of_mem _ hm)
    have old : ∀ a ∈ s.archs.archetypes, ∀ t ∈ a.ids, typeNamed (ev :: h) t := fun a ha t ht => typeNamed_mono (ih hd' a ha t ht)
    have hk := (loose_known hx hd').wf
    have grow : ∀ {c c' : Archs} {id : Nat} {a : Archetype} {q : Loc}, c.addEntity dbg id a = .ok (c', q) →
        ∀ b ∈ c'.archetypes, b = a ∨ b ∈ c.archetypes := by
      intro c c' id a q hr b hb
      unfold Archs.addEntity at hr
      obtain ⟨⟨c1, i⟩, h1, hr⟩ := bind_eq_ok.1 hr
      rw [(Archs.reservePage_regs hr).1] at hb
      exact Archs.reserveArchetype_regs h1 b hb
    by_cases hcw : ∃ e ts init, ev = .createdWith e ts init
    · obtain ⟨e, ts, init, rfl⟩ := hcw
      obtain ⟨a, ha, hids, hr⟩ := hr
      unfold Store.createEntityWithArchetype at hr
      obtain ⟨⟨s1, e1⟩, h1, hr⟩ := bind_eq_ok.1 hr
      obtain ⟨⟨c, q⟩, h3, hr⟩ := bind_eq_ok.1 hr
      dsimp only at hr h3
      obtain ⟨s2, h2, hr⟩ := bind_eq_ok.1 hr
      cases hr
      obtain ⟨s3, e3, k1, _, k3, k4, k5, _⟩ := (loose_core hx).register (dbg := dbg) hl
      rw [h1] at k1
      cases k1
      rw [k5] at h3
      rw [Archs.Next.recordRow h2]
      intro b hb t ht
      rcases grow h3 b hb with rfl | hb
      · exact .inl ⟨e, ts, init, List.mem_cons_self, hids ▸ ht⟩
      · exact old b hb t ht
    · have := archs_step (R := fun c c' => (∀ b ∈ c.archetypes, b.WF U) →
          (∀ b ∈ c.archetypes, ∀ t ∈ b.ids, typeNamed (ev :: h) t) → ∀ b ∈ c'.archetypes, ∀ t ∈ b.ids, typeNamed (ev :: h) t)
        (fun _ _ h => h) (fun c c' id a q ha hr hw hc b hb t ht => ?_)
        (fun c c' c'' q o hc hr hw h b hb => hc hw h b (by rw [← (Archs.swapRemoveEntity_regs hr).1]; exact hb))
        (fun c c' ps hc hw h => hc hw h) hx hl hr hk old
      · exact this
      · rcases grow hr b hb with rfl | hb
        · cases ev with
          | createdWith e ts init => exact absurd ⟨e, ts, init, rfl⟩ hcw
          | added e vals =>
            have new : t ∈ vals.map (·.1) → typeNamed (.added e vals :: h) t := fun ht => .inr ⟨e, vals, List.mem_cons_self, ht⟩
            rcases ha with ha | ⟨b0, hb0, bb, ha⟩
            · by_cases h0 : vals.map (·.1) = []
              · rw [h0, Archetype.withComponents_nil] at ha; cases ha
              · obtain ⟨a', h1, _, h2⟩ := Archetype.withComponents_spec (U := U) (hd e vals List.mem_cons_self) h0
                rw [h1] at ha
                cases ha
                exact new (h2.mem_iff.1 ht)
            · obtain ⟨a', bb', h1, _, h2⟩ := built_union (hw b0 hb0) (vals.map (·.1))
              rw [h1] at ha
              cases ha
              rcases List.mem_append.1 ((h2 t).1 ht) with ht | ht
              · exact hc b0 hb0 t ht
              · exact new ht
          | removed e ts =>
            obtain ⟨b0, hb0, bb, ha⟩ := ha
            have := built_diff (hw b0 hb0) ts
            split at this
            · rw [this] at ha; cases ha
            · obtain ⟨a', bb', h1, _, h2⟩ := this
              rw [h1] at ha
              cases ha
              exact hc b0 hb0 t (List.mem_filter.1 ((h2 t).1 ht)).1
          | _ => exact ha.elim
        · exact hc b hb t ht

theorem peak_le {L : Nat} (hL : ∀ h', h' <:+ h → (alive h').length ≤ L) : peak (entHistory h) ≤ L := by
  induction h with
  | nil => exact Nat.zero_le _
  | cons ev h ih =>
    have i := ih fun h' hh => hL h' (hh.trans (List.suffix_cons _ _))
    have hl := hL (ev :: h) (List.suffix_refl _)
    rw [← live_entHistory] at hl
    cases ev <;> first | exact i | exact Nat.max_le.2 ⟨hl, i⟩

end Ecs
