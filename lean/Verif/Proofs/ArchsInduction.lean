import Verif.Proofs.Tidy

/-! Invariants of the archetype container alone, in every state reached by calls that returned. -/

namespace Ecs
open Spec

/-- The archetypes the call may ask the container for. -/
def Asks (U : Universe) (c : Archs) (a : Archetype) : Event → Prop
  | .createdWith _ _ _ => Built U a
  | .added _ vals => Archetype.withComponents U (vals.map (·.1)) = .ok a ∨ ∃ b ∈ c.archetypes, ∃ bb,
      ((ArchetypeBuilder.new.includeArchetype b).includeComponents U (vals.map (·.1))).build = .ok (a, bb)
  | .removed _ ts => ∃ b ∈ c.archetypes, ∃ bb,
      ((ArchetypeBuilder.new.includeArchetype b).excludeComponents U ts).build = .ok (a, bb)
  | _ => False

/-- A call changes the archetype container by adding a row first, if at all, and by removing rows and writing into pages
afterwards. -/
theorem archs_step {U : Universe} {dbg : Bool} {cap : Nat} {R : Archs → Archs → Prop} {ev : Event} (hrefl : ∀ c, R c c)
    (hadd : ∀ c c' id a q, Asks U c a ev → c.addEntity dbg id a = .ok (c', q) → R c c')
    (hrem : ∀ c c' c'' q o, R c c' → c'.swapRemoveEntity q = .ok (c'', o) → R c c'')
    (hset : ∀ c c' ps, R c c' → R c { c' with pages := ps }) {h : List Event} {s s' : Store}
    (hx : LooseExec U dbg cap h s) (hl : Loose (world h) ev) (hr : Returns U dbg s ev s') : R s.archs s'.archs := by
  have hrecord : ∀ {s s' : Store} {id : Nat} {q : Loc}, s.recordRow id q = .ok s' → s'.archs = s.archs :=
    fun hr => Archs.Next.recordRow hr
  have hremove : ∀ {c : Archs} {s s' : Store} {q : Loc}, R c s.archs → s.swapRemoveInternal q = .ok s' → R c s'.archs := by
    intro c0 s s' q hP hr
    unfold Store.swapRemoveInternal at hr
    obtain ⟨⟨c, o⟩, h1, hr⟩ := bind_eq_ok.1 hr
    have := hrem _ _ _ _ _ hP h1
    dsimp only at hr
    split at hr
    · obtain ⟨_, _, hr⟩ := bind_eq_ok.1 hr; cases hr; exact this
    · cases hr; exact this
  have hmove : ∀ {s s' : Store} {e : Entity} {a : Archetype} {q : Loc},
      Asks U s.archs a ev → s.moveEntityToOtherArchetype dbg e a = .ok (s', q) → R s.archs s'.archs := by
    intro s s' e a q hask hr
    unfold Store.moveEntityToOtherArchetype at hr
    obtain ⟨p, h1, hr⟩ := bind_eq_ok.1 hr
    obtain ⟨ai, h2, hr⟩ := bind_eq_ok.1 hr
    obtain ⟨⟨c, q'⟩, h3, hr⟩ := bind_eq_ok.1 hr
    dsimp only at hr
    obtain ⟨x, h4, hr⟩ := bind_eq_ok.1 hr
    obtain ⟨y, h5, hr⟩ := bind_eq_ok.1 hr
    obtain ⟨s1, h6, hr⟩ := bind_eq_ok.1 hr
    cases hr
    refine hremove ?_ h6
    dsimp only
    unfold Archs.moveEntityToOtherArchetype at h3
    obtain ⟨⟨c1, i⟩, k1, h3⟩ := bind_eq_ok.1 h3
    dsimp only at h3
    obtain ⟨⟨c2, q'⟩, k2, h3⟩ := bind_eq_ok.1 h3
    dsimp only at h3
    obtain ⟨_, _, h3⟩ := bind_eq_ok.1 h3
    obtain ⟨_, _, h3⟩ := bind_eq_ok.1 h3
    obtain ⟨_, _, h3⟩ := bind_eq_ok.1 h3
    obtain ⟨_, _, h3⟩ := bind_eq_ok.1 h3
    obtain ⟨_, _, h3⟩ := bind_eq_ok.1 h3
    obtain ⟨ps, _, h3⟩ := bind_eq_ok.1 h3
    cases h3
    refine hset _ _ _ (hadd s.archs c2 e.id a q hask ?_)
    unfold Archs.addEntity
    simp only [k1, ok_bind]
    exact k2
  have hc := loose_core hx
  cases ev with
  | created e =>
    simp only [Returns, Store.createEntity] at hr
    obtain ⟨⟨s1, e1⟩, h1, hr⟩ := bind_eq_ok.1 hr
    obtain ⟨b, h2, hr⟩ := bind_eq_ok.1 hr
    cases hr
    obtain ⟨s2, e2, k1, _, k3, k4, k5, _⟩ := hc.register (dbg := dbg) hl
    rw [h1] at k1
    cases k1
    dsimp only
    rw [k5]
    exact hrefl _
  | createdWith e ts init =>
    obtain ⟨a, ha, _, hr⟩ := hr
    unfold Store.createEntityWithArchetype at hr
    obtain ⟨⟨s1, e1⟩, h1, hr⟩ := bind_eq_ok.1 hr
    obtain ⟨⟨c, q⟩, h3, hr⟩ := bind_eq_ok.1 hr
    dsimp only at hr h3
    obtain ⟨s2, h2, hr⟩ := bind_eq_ok.1 hr
    cases hr
    obtain ⟨s3, e3, k1, _, k3, k4, k5, _⟩ := hc.register (dbg := dbg) hl
    rw [h1] at k1
    cases k1
    rw [k5] at h3
    rw [hrecord h2]
    exact hadd _ _ _ _ _ ha h3
  | destroyed e =>
    simp only [Returns, Store.destroyEntity] at hr
    obtain ⟨s1, h1, hr⟩ := bind_eq_ok.1 hr
    obtain ⟨_, _, hr⟩ := bind_eq_ok.1 hr
    obtain ⟨tg, h2, hr⟩ := bind_eq_ok.1 hr
    obtain ⟨_, _, hr⟩ := bind_eq_ok.1 hr
    cases hr
    unfold Store.destroyRow at h1
    obtain ⟨b, h3, h1⟩ := bind_eq_ok.1 h1
    split at h1
    · obtain ⟨q, h4, h1⟩ := bind_eq_ok.1 h1
      exact hremove (s' := s1) (hrefl s.archs) h1
    · cases h1; exact hrefl _
  | added e vals =>
    simp only [Returns, Store.addComponents] at hr
    obtain ⟨b, h1, hr⟩ := bind_eq_ok.1 hr
    split at hr
    · cases hr; exact hrefl _
    · obtain ⟨⟨s1, q⟩, h2, hr⟩ := bind_eq_ok.1 hr
      dsimp only at hr
      obtain ⟨v, h3, hr⟩ := bind_eq_ok.1 hr
      obtain ⟨o, h4, hr⟩ := bind_eq_ok.1 hr
      obtain ⟨pg, h5, hr⟩ := bind_eq_ok.1 hr
      cases hr
      refine hset _ _ _ ?_
      unfold Store.ensureComponents at h2
      obtain ⟨b, k1, h2⟩ := bind_eq_ok.1 h2
      split at h2
      · obtain ⟨p, k2, h2⟩ := bind_eq_ok.1 h2
        obtain ⟨ai, k3, h2⟩ := bind_eq_ok.1 h2
        obtain ⟨a, k4, h2⟩ := bind_eq_ok.1 h2
        split at h2
        · cases h2; exact hrefl _
        · obtain ⟨⟨na, bb⟩, k5, h2⟩ := bind_eq_ok.1 h2
          exact hmove (.inr ⟨a, List.mem_of_getElem? (idxUnchecked_ok.1 k4), bb, k5⟩) h2
      · obtain ⟨a, k2, h2⟩ := bind_eq_ok.1 h2
        obtain ⟨⟨c, q'⟩, k3, h2⟩ := bind_eq_ok.1 h2
        dsimp only at h2
        obtain ⟨s1, k4, h2⟩ := bind_eq_ok.1 h2
        cases h2
        rw [hrecord k4]
        exact hadd _ _ _ _ _ (.inl k2) k3
  | removed e ts =>
    simp only [Returns, Store.removeComponents] at hr
    obtain ⟨b, h1, hr⟩ := bind_eq_ok.1 hr
    split at hr
    · cases hr; exact hrefl _
    · obtain ⟨p, h2, hr⟩ := bind_eq_ok.1 hr
      obtain ⟨ai, h3, hr⟩ := bind_eq_ok.1 hr
      obtain ⟨a, h4, hr⟩ := bind_eq_ok.1 hr
      obtain ⟨⟨na, bb⟩, h5, hr⟩ := bind_eq_ok.1 hr
      obtain ⟨⟨s1, q⟩, h6, hr⟩ := bind_eq_ok.1 hr
      cases hr
      exact hmove ⟨a, List.mem_of_getElem? (idxUnchecked_ok.1 h4), bb, h5⟩ h6
  | assigned e vals =>
    obtain ⟨b, hr⟩ := hr
    unfold Store.setComponents at hr
    obtain ⟨o, h1, hr⟩ := bind_eq_ok.1 hr
    split at hr
    · cases hr; exact hrefl _
    · obtain ⟨pg, h2, hr⟩ := bind_eq_ok.1 hr
      cases hr
      exact hset _ _ _ (hrefl _)
  | tagged t e => obtain ⟨_, _, hr⟩ := bind_eq_ok.1 hr; cases hr; exact hrefl _
  | untagged t e => obtain ⟨_, _, hr⟩ := bind_eq_ok.1 hr; cases hr; exact hrefl _
  | orderedLast g e => obtain ⟨_, _, hr⟩ := bind_eq_ok.1 hr; cases hr; exact hrefl _
  | orderedAfter g e x => obtain ⟨_, _, hr⟩ := bind_eq_ok.1 hr; cases hr; exact hrefl _
  | orderedBefore g e x => obtain ⟨_, _, hr⟩ := bind_eq_ok.1 hr; cases hr; exact hrefl _
  | unordered g e => obtain ⟨_, _, hr⟩ := bind_eq_ok.1 hr; cases hr; exact hrefl _

/-- What holds of a new archetype container and is kept by adding a row, removing a row and writing into pages
holds of the archetype container of every store. -/
theorem archs_induction {U : Universe} {dbg : Bool} {cap : Nat} {P : Archs → Prop} (h0 : P Archs.new)
    (hadd : ∀ c c' id a q, P c → c.addEntity dbg id a = .ok (c', q) → P c')
    (hrem : ∀ c c' q o, P c → c.swapRemoveEntity q = .ok (c', o) → P c')
    (hset : ∀ c ps, P c → P { c with pages := ps }) {h : List Event} {s : Store}
    (hx : LooseExec U dbg cap h s) : P s.archs := by
  induction hx with
  | init hs =>
    unfold Store.withCapacity at hs
    obtain ⟨_, _, hs⟩ := bind_eq_ok.1 hs
    cases hs
    exact h0
  | step ev hx hl hr ih =>
    exact archs_step (R := fun c c' => P c → P c') (fun _ h => h) (fun c c' id a q _ hr h => hadd c c' id a q h hr)
      (fun c c' c'' q o hc hr h => hrem c' c'' q o (hc h) hr) (fun c c' ps hc h => hset c' ps (hc h)) hx hl hr ih

/-- The free archetype slots exist. -/
structure Archs.FreeOk (c : Archs) : Prop where
  plen : c.archPages.length = c.archetypes.length
  free : ∀ i ∈ c.freeArchetypes, i < c.archetypes.length
  pos : ∀ i ∈ c.freeArchetypes, i ≠ 0

namespace Archs.FreeOk
variable {dbg : Bool} {c c' : Archs}

theorem reserveArchetype {a : Archetype} {i : Nat} (h : c.FreeOk) (hr : c.reserveArchetype dbg a = .ok (c', i)) :
    c'.FreeOk := by
  unfold Archs.reserveArchetype at hr
  split at hr
  · split at hr <;> cases hr
    · exact ⟨h.plen, fun i hi => h.free i (List.mem_of_mem_eraseIdx hi), fun i hi => h.pos i (List.mem_of_mem_eraseIdx hi)⟩
    · exact h
  · obtain ⟨layout, hl, hr⟩ := bind_eq_ok.1 hr
    split at hr
    · next k hk =>
      obtain ⟨as, h1, hr⟩ := bind_eq_ok.1 hr
      obtain ⟨ls, h2, hr⟩ := bind_eq_ok.1 hr
      cases hr
      obtain ⟨hk1, rfl⟩ := idxSet_ok h1
      exact ⟨by simpa using h.plen, fun i hi => by simpa using h.free i (List.dropLast_subset _ hi),
        fun i hi => h.pos i (List.dropLast_subset _ hi)⟩
    · cases hr
      refine ⟨by simp [h.plen], fun i hi => ?_, h.pos⟩
      have := h.free i hi
      simp only [List.length_append, List.length_singleton]
      omega

theorem reservePage {id i : Nat} {q : Loc} (h : c.FreeOk) (hr : c.reservePage dbg id i = .ok (c', q)) : c'.FreeOk := by
  unfold Archs.reservePage at hr
  obtain ⟨pl, h1, hr⟩ := bind_eq_ok.1 hr
  obtain ⟨o, h2, hr⟩ := bind_eq_ok.1 hr
  split at hr
  · obtain ⟨page, h3, hr⟩ := bind_eq_ok.1 hr
    obtain ⟨⟨page', ix⟩, h4, hr⟩ := bind_eq_ok.1 hr
    cases hr
    exact ⟨h.plen, h.free, h.pos⟩
  · obtain ⟨⟨c1, p⟩, h3, hr⟩ := bind_eq_ok.1 hr
    dsimp only at hr
    obtain ⟨layout, h4, hr⟩ := bind_eq_ok.1 hr
    obtain ⟨page, h5, hr⟩ := bind_eq_ok.1 hr
    obtain ⟨pl', h6, hr⟩ := bind_eq_ok.1 hr
    obtain ⟨pa, h7, hr⟩ := bind_eq_ok.1 hr
    obtain ⟨⟨page', ix⟩, h8, hr⟩ := bind_eq_ok.1 hr
    cases hr
    have hc1 : c1.FreeOk := by
      split at h3
      · cases h3; exact ⟨h.plen, h.free, h.pos⟩
      · obtain ⟨_, _, h3⟩ := bind_eq_ok.1 h3
        obtain ⟨_, _, h3⟩ := bind_eq_ok.1 h3
        cases h3
        exact ⟨h.plen, h.free, h.pos⟩
    exact ⟨by simpa using hc1.plen, hc1.free, hc1.pos⟩

theorem freePage {p : Nat} (h : c.FreeOk) (hr : c.freePage p = .ok c') : c'.FreeOk := by
  unfold Archs.freePage at hr
  obtain ⟨ai, h1, hr⟩ := bind_eq_ok.1 hr
  split at hr
  · cases hr; exact h
  · next hne =>
    obtain ⟨pl, h2, hr⟩ := bind_eq_ok.1 hr
    cases hr
    have hai := (List.getElem?_eq_some_iff.1 (idx_ok.1 h2)).1
    rw [h.plen] at hai
    split
    · refine ⟨by simpa using h.plen, fun i hi => ?_, fun i hi => ?_⟩
      · dsimp only at hi ⊢
        split at hi
        · rcases List.mem_append.1 hi with hi | hi
          · exact h.free i hi
          · rw [List.mem_singleton.1 hi]; exact hai
        · exact h.free i hi
      · dsimp only at hi
        split at hi
        · rcases List.mem_append.1 hi with hi | hi
          · exact h.pos i hi
          · rw [List.mem_singleton.1 hi]; exact hne
        · exact h.pos i hi
    · exact ⟨h.plen, h.free, h.pos⟩

end Archs.FreeOk

theorem loose_free {U : Universe} {dbg : Bool} {cap : Nat} {h : List Event} {s : Store} (hx : LooseExec U dbg cap h s) :
    s.archs.FreeOk := by
  refine archs_induction (P := Archs.FreeOk) ⟨rfl, by simp [Archs.new], by simp [Archs.new]⟩ ?_ ?_ (fun c ps h => ⟨h.plen, h.free, h.pos⟩) hx
  · intro c c' id a q h hr
    unfold Archs.addEntity at hr
    obtain ⟨⟨c1, i⟩, h1, hr⟩ := bind_eq_ok.1 hr
    exact (h.reserveArchetype h1).reservePage hr
  · intro c c' q o h hr
    unfold Archs.swapRemoveEntity at hr
    obtain ⟨ai, h1, hr⟩ := bind_eq_ok.1 hr
    obtain ⟨pg, h2, hr⟩ := bind_eq_ok.1 hr
    obtain ⟨a, h3, hr⟩ := bind_eq_ok.1 hr
    obtain ⟨l, h4, hr⟩ := bind_eq_ok.1 hr
    obtain ⟨⟨pg', o'⟩, h5, hr⟩ := bind_eq_ok.1 hr
    dsimp only at hr
    split at hr
    · obtain ⟨c1, h6, hr⟩ := bind_eq_ok.1 hr
      cases hr
      exact Archs.FreeOk.freePage (c := { c with pages := c.pages.set q.page pg' }) ⟨h.plen, h.free, h.pos⟩ h6
    · cases hr; exact ⟨h.plen, h.free, h.pos⟩

end Ecs
