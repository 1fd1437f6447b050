import Verif.Proofs.ArchsInduction

/-! Archetype slots: every list of component ids is registered once, and slots without pages are reused. -/

namespace Ecs
open Spec

/-- No list of ids is registered twice, and slots without pages (other than the first) are in the list of free slots. -/
structure Archs.Slots (c : Archs) : Prop where
  plen : c.archPages.length = c.archetypes.length
  uniq : (c.archetypes.map (·.ids)).Nodup
  unused : ∀ i : Nat, c.archPages[i]? = some [] → i = 0 ∨ i ∈ c.freeArchetypes

namespace Archs.Slots
variable {dbg : Bool} {c c' : Archs}

theorem reserveArchetype {a : Archetype} {i : Nat} (h : c.Slots) (hr : c.reserveArchetype dbg a = .ok (c', i)) :
    c'.archPages.length = c'.archetypes.length ∧ (c'.archetypes.map (·.ids)).Nodup ∧
    (∀ j : Nat, c'.archPages[j]? = some [] → j = 0 ∨ j = i ∨ j ∈ c'.freeArchetypes) ∧
    (c'.archetypes.length = c.archetypes.length ∨ c.freeArchetypes = [] ∧ c'.archetypes.length = c.archetypes.length + 1) := by
  unfold Archs.reserveArchetype at hr
  split at hr
  · split at hr <;> cases hr
    · next k hk =>
      refine ⟨h.plen, h.uniq, fun j hj => ?_, .inl rfl⟩
      rcases h.unused j hj with h1 | h1
      · exact .inl h1
      · by_cases hji : j = i
        · exact .inr (.inl hji)
        · refine .inr (.inr ?_)
          have hk := binarySearch_found hk
          obtain ⟨hlt, hk⟩ := List.getElem?_eq_some_iff.1 hk
          obtain ⟨m, hm⟩ := List.mem_iff_getElem?.1 h1
          refine List.mem_eraseIdx_iff_getElem?.2 ⟨m, ?_, hm⟩
          rintro rfl
          rw [List.getElem?_eq_getElem hlt, hk] at hm
          exact hji (Option.some.inj hm).symm
    · exact ⟨h.plen, h.uniq, fun j hj => (h.unused j hj).imp_right .inr, .inl rfl⟩
  · next hf =>
    have hnew := findSame_none _ hf
    have hmap : a.ids ∉ c.archetypes.map (·.ids) := by
      intro hm
      obtain ⟨b, hb, he⟩ := List.mem_map.1 hm
      exact hnew b hb he
    obtain ⟨layout, hl, hr⟩ := bind_eq_ok.1 hr
    split at hr
    · next k hk =>
      obtain ⟨as, h1, hr⟩ := bind_eq_ok.1 hr
      obtain ⟨ls, h2, hr⟩ := bind_eq_ok.1 hr
      cases hr
      obtain ⟨hk1, rfl⟩ := idxSet_ok h1
      refine ⟨by simpa using h.plen, ?_, fun j hj => ?_, .inl (by simp)⟩
      · dsimp only
        rw [List.map_set]
        exact h.uniq.set hmap
      · rcases h.unused j hj with h1 | h1
        · exact .inl h1
        · have hne : c.freeArchetypes ≠ [] := by intro h0; rw [h0] at h1; cases h1
          rw [← List.dropLast_append_getLast hne, List.mem_append, List.mem_singleton] at h1
          rw [List.getLast?_eq_some_getLast hne] at hk
          rcases h1 with h1 | h1
          · exact .inr (.inr h1)
          · exact .inr (.inl (h1.trans (Option.some.inj hk)))
    · next hk =>
      cases hr
      refine ⟨by simp [h.plen], ?_, fun j hj => ?_, .inr ⟨by simpa using hk, by simp⟩⟩
      · dsimp only
        rw [List.map_append, List.nodup_append]
        exact ⟨h.uniq, by simp, fun x hx y hy e => hmap (by simp at hy; rw [← hy, ← e]; exact hx)⟩
      · dsimp only at hj
        rcases Nat.lt_trichotomy j c.archPages.length with hlt | heq | hgt
        · rw [List.getElem?_append_left hlt] at hj
          exact (h.unused j hj).imp_right .inr
        · refine .inr (.inl ?_)
          simp [heq, h.plen]
        · rw [List.getElem?_eq_none (by simp; omega)] at hj
          cases hj

theorem reservePage {id i : Nat} {q : Loc} (hr : c.reservePage dbg id i = .ok (c', q)) :
    c'.archetypes = c.archetypes ∧ c'.freeArchetypes = c.freeArchetypes ∧ c'.archPages.length = c.archPages.length ∧
    c'.archPages[i]? ≠ some [] ∧ ∀ j : Nat, j ≠ i → c'.archPages[j]? = c.archPages[j]? := by
  unfold Archs.reservePage at hr
  obtain ⟨pl, h1, hr⟩ := bind_eq_ok.1 hr
  obtain ⟨o, h2, hr⟩ := bind_eq_ok.1 hr
  have h1 := idx_ok.1 h1
  split at hr
  · obtain ⟨page, h3, hr⟩ := bind_eq_ok.1 hr
    obtain ⟨⟨page', ix⟩, h4, hr⟩ := bind_eq_ok.1 hr
    cases hr
    refine ⟨rfl, rfl, rfl, fun h0 => ?_, fun _ _ => rfl⟩
    dsimp only at h0
    rw [h1] at h0
    cases h0
    simp [Archs.findFreePage] at h2
  · obtain ⟨⟨c1, p⟩, h3, hr⟩ := bind_eq_ok.1 hr
    dsimp only at hr
    obtain ⟨layout, h4, hr⟩ := bind_eq_ok.1 hr
    obtain ⟨page, h5, hr⟩ := bind_eq_ok.1 hr
    obtain ⟨pl', h6, hr⟩ := bind_eq_ok.1 hr
    obtain ⟨pa, h7, hr⟩ := bind_eq_ok.1 hr
    obtain ⟨⟨page', ix⟩, h8, hr⟩ := bind_eq_ok.1 hr
    cases hr
    have hc1 : c1.archetypes = c.archetypes ∧ c1.freeArchetypes = c.freeArchetypes ∧ c1.archPages = c.archPages := by
      split at h3
      · cases h3; exact ⟨rfl, rfl, rfl⟩
      · obtain ⟨_, _, h3⟩ := bind_eq_ok.1 h3
        obtain ⟨_, _, h3⟩ := bind_eq_ok.1 h3
        cases h3
        exact ⟨rfl, rfl, rfl⟩
    obtain ⟨k1, k2, k3⟩ := hc1
    refine ⟨k1, k2, by simp [k3], ?_, fun j hj => ?_⟩
    · dsimp only
      rw [k3, List.getElem?_set_self (List.getElem?_eq_some_iff.1 h1).1]
      simp
    · dsimp only
      rw [k3, List.getElem?_set_ne (Ne.symm hj)]

theorem addEntity {id : Nat} {a : Archetype} {q : Loc} (h : c.Slots) (hr : c.addEntity dbg id a = .ok (c', q)) :
    c'.Slots ∧
    (c'.archetypes.length = c.archetypes.length ∨ c.freeArchetypes = [] ∧ c'.archetypes.length = c.archetypes.length + 1) := by
  unfold Archs.addEntity at hr
  obtain ⟨⟨c1, i⟩, h1, hr⟩ := bind_eq_ok.1 hr
  obtain ⟨k1, k2, k3, k4⟩ := h.reserveArchetype h1
  obtain ⟨m1, m2, m3, m4, m5⟩ := reservePage hr
  refine ⟨⟨by rw [m3, m1]; exact k1, by rw [m1]; exact k2, fun j hj => ?_⟩, by rw [m1]; exact k4⟩
  by_cases hji : j = i
  · subst hji; exact absurd hj m4
  · rw [m5 j hji] at hj
    rw [m2]
    rcases k3 j hj with h0 | h0 | h0
    · exact .inl h0
    · exact absurd h0 hji
    · exact .inr h0

theorem freePage {p : Nat} (h : c.Slots) (hr : c.freePage p = .ok c') : c'.Slots ∧ c'.archetypes = c.archetypes := by
  unfold Archs.freePage at hr
  obtain ⟨ai, h1, hr⟩ := bind_eq_ok.1 hr
  split at hr
  · cases hr; exact ⟨h, rfl⟩
  · obtain ⟨pl, h2, hr⟩ := bind_eq_ok.1 hr
    cases hr
    have h2 := idx_ok.1 h2
    have hai := (List.getElem?_eq_some_iff.1 h2).1
    split
    · refine ⟨⟨by simpa using h.plen, h.uniq, fun j hj => ?_⟩, rfl⟩
      dsimp only at hj ⊢
      by_cases hji : j = ai
      · subst hji
        rw [List.getElem?_set_self hai] at hj
        rw [if_pos (by rw [Option.some.inj hj]; rfl)]
        simp
      · rw [List.getElem?_set_ne (Ne.symm hji)] at hj
        rcases h.unused j hj with h0 | h0
        · exact .inl h0
        · refine .inr ?_
          split
          · exact List.mem_append_left _ h0
          · exact h0
    · exact ⟨⟨h.plen, h.uniq, h.unused⟩, rfl⟩

theorem swapRemoveEntity {q : Loc} {o : Option Nat} (h : c.Slots) (hr : c.swapRemoveEntity q = .ok (c', o)) :
    c'.Slots ∧ c'.archetypes = c.archetypes := by
  unfold Archs.swapRemoveEntity at hr
  obtain ⟨ai, h1, hr⟩ := bind_eq_ok.1 hr
  obtain ⟨pg, h2, hr⟩ := bind_eq_ok.1 hr
  obtain ⟨a, h3, hr⟩ := bind_eq_ok.1 hr
  obtain ⟨l, h4, hr⟩ := bind_eq_ok.1 hr
  obtain ⟨⟨pg', o'⟩, h5, hr⟩ := bind_eq_ok.1 hr
  dsimp only at hr
  split at hr
  · obtain ⟨c1, h6, hr⟩ := bind_eq_ok.1 hr
    cases hr
    exact freePage (c := { c with pages := c.pages.set q.page pg' }) ⟨h.plen, h.uniq, h.unused⟩ h6
  · cases hr; exact ⟨⟨h.plen, h.uniq, h.unused⟩, rfl⟩

end Archs.Slots

theorem loose_slots {U : Universe} {dbg : Bool} {cap : Nat} {h : List Event} {s : Store} (hx : LooseExec U dbg cap h s) :
    s.archs.Slots :=
  archs_induction (P := Archs.Slots) ⟨rfl, by simp [Archs.new], by simp [Archs.new]⟩ (fun _ _ _ _ _ h hr => (h.addEntity hr).1)
    (fun _ _ _ _ h hr => (h.swapRemoveEntity hr).1) (fun c ps h => ⟨h.plen, h.uniq, h.unused⟩) hx

/-- What one call does to the number of slots. -/
theorem loose_slots_step {U : Universe} {dbg : Bool} {cap : Nat} {h : List Event} {s s' : Store} {ev : Event}
    (hx : LooseExec U dbg cap h s) (hl : Loose (world h) ev) (hr : Returns U dbg s ev s') :
    s'.archs.archetypes.length = s.archs.archetypes.length ∨
    s.archs.freeArchetypes = [] ∧ s'.archs.archetypes.length = s.archs.archetypes.length + 1 := by
  refine (archs_step (R := fun c c' => c.Slots → c'.Slots ∧ (c'.archetypes.length = c.archetypes.length ∨
    c.freeArchetypes = [] ∧ c'.archetypes.length = c.archetypes.length + 1)) (fun c h => ⟨h, .inl rfl⟩)
    (fun c c' id a q _ hr h => h.addEntity hr) (fun c c' c'' q o hc hr h => ?_) (fun c c' ps hc h => ?_) hx hl hr (loose_slots hx)).2
  · obtain ⟨h1, h2⟩ := hc h
    obtain ⟨h3, h4⟩ := h1.swapRemoveEntity hr
    exact ⟨h3, by rw [h4]; exact h2⟩
  · obtain ⟨h1, h2⟩ := hc h
    exact ⟨⟨h1.plen, h1.uniq, h1.unused⟩, h2⟩
end Ecs
