import Verif.Proofs.StoreExec
import Verif.Proofs.StoreLoose
import Verif.Spec.Observe

/-! Agreement of related stores and worlds; calls on related stores return. -/

namespace Ecs
open Spec

namespace Rel
variable {U : Universe} {dbg : Bool} {s : Store} {w : World}

theorem mapM_get (w : World) (e : Entity) {ts : List TypeId} (hne : ts ≠ []) :
    ts.mapM (w.get e) =
      if e ∈ w.live ∧ w.types e ≠ [] ∧ ∀ t ∈ ts, t ∈ w.types e then some (ts.map (w.value e)) else none := by
  have h1 : ∀ (_ : e ∈ w.live) (ts : List TypeId), ts.mapM (w.get e) =
      if ∀ t ∈ ts, t ∈ w.types e then some (ts.map (w.value e)) else none := by
    intro hl ts
    induction ts with
    | nil => simp
    | cons t ts ih =>
      rw [List.mapM_cons, ih]
      unfold World.get
      by_cases ht : t ∈ w.types e
      · rw [if_pos ⟨hl, ht⟩]
        by_cases h2 : ∀ t ∈ ts, t ∈ w.types e
        · rw [if_pos h2, if_pos (by simpa [ht] using h2)]; rfl
        · rw [if_neg h2, if_neg (by simpa [ht] using h2)]; rfl
      · have h3 : ¬ ∀ t' ∈ t :: ts, t' ∈ w.types e := fun h => ht (h t List.mem_cons_self)
        rw [if_neg (fun h => ht h.2), if_neg h3]; rfl
  cases ts with
  | nil => exact absurd rfl hne
  | cons t ts =>
    by_cases hl : e ∈ w.live
    · rw [h1 hl]
      by_cases h2 : ∀ t' ∈ t :: ts, t' ∈ w.types e
      · have h3 : w.types e ≠ [] := fun h0 => by
          have := h2 t List.mem_cons_self
          rw [h0] at this; cases this
        rw [if_pos h2, if_pos ⟨hl, h3, h2⟩]
      · rw [if_neg h2, if_neg (fun h => h2 h.2.2)]
    · rw [if_neg (fun h => hl h.1), List.mapM_cons]
      unfold World.get
      rw [if_neg (fun h => hl h.1)]; rfl

theorem agrees (h : Rel U dbg s w) : Agrees U dbg s w where
  alive := fun e he => h.isAlive (h.ents.issued_id_lt he)
  read := fun e he ts hne => by rw [h.getComponents (h.ents.issued_id_lt he), mapM_get w e hne]
  arch := fun e he => by
    split
    · rename_i h1
      obtain ⟨a, h2, _, h3⟩ := h.getEntityArchetype_some h1.1 h1.2
      exact ⟨a, h2, h3⟩
    · rename_i h1
      exact h.getEntityArchetype_none (h.ents.issued_id_lt he) h1
  tag := fun e he tag => h.core.hasTag he tag
  first := h.core.getFirst
  last := h.core.getLast
  next := fun e he g => h.core.getNext g he
  previous := fun e he g => h.core.getPrevious g he

theorem sameData {s' : Store} {w' : World} (h : Rel U dbg s w) (h' : Rel U dbg s' w') {x : Entity} (hi : x ∈ w.issued)
    (hi' : x ∈ w'.issued) (hl : x ∈ w'.live ↔ x ∈ w.live) (ht : sameSet (w'.types x) (w.types x))
    (hv : ∀ t ∈ w.types x, w'.value x t = w.value x t) : SameData U dbg s s' x := by
  have hnil : w'.types x = [] ↔ w.types x = [] := by
    constructor
    · intro h0; rw [h0] at ht
      exact List.eq_nil_iff_forall_not_mem.2 fun t h1 => by cases ht.2 t h1
    · intro h0; rw [h0] at ht
      exact List.eq_nil_iff_forall_not_mem.2 fun t h1 => by cases ht.1 t h1
  refine ⟨?_, ?_, fun ts hne => ?_⟩
  · rw [h.isAlive (h.ents.issued_id_lt hi), h'.isAlive (h'.ents.issued_id_lt hi')]
    simp only [hl]
  · by_cases h1 : x ∈ w.live ∧ w.types x ≠ []
    · obtain ⟨a, h2, h3, h4⟩ := h.getEntityArchetype_some h1.1 h1.2
      obtain ⟨a', h2', h3', h4'⟩ := h'.getEntityArchetype_some (hl.2 h1.1) (fun h0 => h1.2 (hnil.1 h0))
      rw [h2, h2', h3'.eq_of_set h3 (h4'.trans ht) h4]
    · rw [h.getEntityArchetype_none (h.ents.issued_id_lt hi) h1,
        h'.getEntityArchetype_none (h'.ents.issued_id_lt hi') (by rw [hl, ne_eq, hnil]; exact h1)]
  · rw [h.getComponents (h.ents.issued_id_lt hi), h'.getComponents (h'.ents.issued_id_lt hi')]
    by_cases h1 : x ∈ w.live ∧ w.types x ≠ [] ∧ ∀ t ∈ ts, t ∈ w.types x
    · rw [if_pos h1, if_pos ⟨hl.2 h1.1, fun h0 => h1.2.1 (hnil.1 h0), fun t ht' => ht.2 t (h1.2.2 t ht')⟩]
      exact congrArg _ (congrArg _ (List.map_congr_left fun t ht' => hv t (h1.2.2 t ht')))
    · rw [if_neg h1, if_neg]
      rintro ⟨h2, h3, h4⟩
      exact h1 ⟨hl.1 h2, fun h0 => h3 (hnil.2 h0), fun t ht' => ht.1 t (h4 t ht')⟩

theorem sameSet_refl (S : List TypeId) : sameSet S S := ⟨fun _ h => h, fun _ h => h⟩

theorem sameGroups {s' : Store} {w' : World} (h : Rel U dbg s w) (h' : Rel U dbg s' w') {L : List Entity}
    (hL : ∀ x ∈ L, x ∈ w.live) (hL' : ∀ x ∈ L, x ∈ w'.live) (ht : ∀ tag, ∀ x ∈ L, w'.tags tag x = w.tags tag x)
    (ho : w'.order = w.order) : SameGroups s s' L := by
  refine ⟨fun x hx => ⟨fun tag => ?_, fun g => ⟨?_, ?_⟩⟩, fun g => ⟨?_, ?_⟩⟩
  · rw [h.core.hasTag (hL x hx), h'.core.hasTag (hL' x hx), ht tag x hx]
  · rw [h.core.getNext g (hL x hx), h'.core.getNext g (hL' x hx), ho]
  · rw [h.core.getPrevious g (hL x hx), h'.core.getPrevious g (hL' x hx), ho]
  · rw [h.core.getFirst, h'.core.getFirst, ho]
  · rw [h.core.getLast, h'.core.getLast, ho]

theorem removed_all (h : Rel U dbg s w) {e : Entity} {ts : List TypeId} (he : e ∈ w.live) (hT : w.types e ≠ [])
    (hall : ∀ t ∈ w.types e, t ∈ ts) : s.removeComponents U dbg e ts = .error (.panic .assertFailed) := by
  unfold Store.removeComponents
  simp only [h.isValid (h.ents.id_lt he), ok_bind]
  obtain ⟨q, ai, a, l, ps, pg, h1, h2, hat, hw, hg, h5, h6, h7, h8⟩ := h.row he hT
  obtain ⟨r1, b1, b2⟩ := (BuilderRep.new U).includeArchetype hw
  obtain ⟨r2, b3, b4⟩ := b1.excludeComponents ts
  have hr2 : r2 = [] := by
    refine List.eq_nil_iff_forall_not_mem.2 fun t ht => ?_
    rw [b4, b2] at ht
    have : t ∈ a.ids := by simpa using ht.1
    exact ht.2 (hall t ((h5 t).1 this))
  subst hr2
  simp only [he, hT, ne_eq, not_false_eq_true, and_self, decide_true, Bool.not_true, Bool.false_eq_true, if_false,
    h7, ok_bind, idx_of_some hat.hto, idxUnchecked_of_some hat.ha, b3.build_nil]
  rfl

/-- Calls with handles given by the program return. -/
theorem progress (h : Rel U dbg s w) {ev : Event} (hc : isCreation ev = false) (ha : Allowed U w ev)
    (hn : ∀ T, needs w ev = some T → s.archs.CanHold U dbg T) : ∃ s', Does U dbg s ev s' := by
  cases ev with
  | created e => cases hc
  | createdWith e ts init => cases hc
  | destroyed e => obtain ⟨s1, h1, _⟩ := h.destroyed ha; exact ⟨s1, h1, trivial⟩
  | added e vals =>
    obtain ⟨s1, h1, h2⟩ := h.added ha.1 ha.2.1 ha.2.2 (fun h1 h2 => hn _ (if_pos ⟨h1, h2⟩))
    exact ⟨s1, h1, trivial⟩
  | removed e ts =>
    obtain ⟨s1, h1, h2⟩ := h.removed ha.1 (fun h1 h2 => hn _ (if_pos ⟨h1, h2⟩))
    exact ⟨s1, h1, trivial⟩
  | assigned e vals =>
    obtain ⟨s1, h1, h2⟩ := h.assigned ha.1 ha.2
    exact ⟨s1, ⟨_, h1⟩, trivial⟩
  | tagged tag e => obtain ⟨s1, h1, _⟩ := h.tagged tag ha; exact ⟨s1, h1, trivial⟩
  | untagged tag e => obtain ⟨s1, h1, _⟩ := h.untagged tag ha; exact ⟨s1, h1, trivial⟩
  | orderedLast g e => obtain ⟨s1, h1, _⟩ := h.orderedLast ha.1 ha.2; exact ⟨s1, h1, trivial⟩
  | orderedAfter g e x => obtain ⟨s1, h1, _⟩ := h.orderedAfter ha.1 ha.2.1 ha.2.2; exact ⟨s1, h1, trivial⟩
  | orderedBefore g e x => obtain ⟨s1, h1, _⟩ := h.orderedBefore ha.1 ha.2.1 ha.2.2; exact ⟨s1, h1, trivial⟩
  | unordered g e => obtain ⟨s1, h1, _⟩ := h.unordered (g := g) ha; exact ⟨s1, h1, trivial⟩

theorem progress_created (h : Rel U dbg s w) (hb : w.issued.length + 1 < u32Size) :
    ∃ s' e, e ∉ w.issued ∧ Does U dbg s (.created e) s' := by
  obtain ⟨s1, e, h1, h2, _⟩ := h.created hb
  exact ⟨s1, e, h2, h1, trivial⟩

theorem progress_createdWith (h : Rel U dbg s w) (hb : w.issued.length + 1 < u32Size) {a : Archetype} (ha : Built U a)
    (hf : s.archs.CanHold U dbg a.ids) : ∃ s' e init, e ∉ w.issued ∧ Does U dbg s (.createdWith e a.ids init) s' := by
  obtain ⟨s1, e, v, h1, h2, h3⟩ := h.createdWith hb ha.wf (hf.fits ha.wf (fun _ => Iff.rfl))
  refine ⟨s1, e, v, h2, ⟨a, ha, rfl, h1⟩, ?_⟩
  intro t ht
  have hl : e ∈ (w.apply (.createdWith e a.ids v)).live := by simp [World.apply, World.setTypes, World.birth]
  have hT : (w.apply (.createdWith e a.ids v)).types e = a.ids := by simp [World.apply, World.setTypes, at']
  rw [h3.getComponents (h3.ents.id_lt hl), hT, if_pos]
  · simp [World.apply, at']
  · exact ⟨hl, ha.wf.ne, fun t' ht' => by rw [List.mem_singleton.1 ht']; exact ht⟩

end Rel
end Ecs
