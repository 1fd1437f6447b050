import Verif.Proofs.VisitOrder
import Verif.Props.QueryCompAny

/-! The order of the entities a query returns, from the order of the ids. -/

namespace Ecs.Props
open Spec

section
variable {U : Universe} {dbg : Bool} {cap : Nat} {h : List Event} {s s' : Store} {ev : Event}

/-- The entity a query returns for the id of a live entity is this entity. -/
theorem entOf_alive (hx : LooseExec U dbg cap h s) {x : Entity} (hm : x ∈ alive h) : s.entOf x.id = x := by
  have hv := (loose_core hx).ents.lver x (by rw [← alive_eq]; exact hm)
  unfold Store.entOf; rw [hv]; rfl

/-- The entities a query returns are those of the ids in the rows, in order. -/
theorem query_order (hx : LooseExec U dbg cap h s) {acc : Access} {old : List IterView} {fuel : Nat} (hf : (alive h).length < fuel)
    {items : List (Entity × List Ref)} (hq : runComponentQueryWithEntities U dbg s acc old fuel = .ok items) :
    items.map (·.1) = (s.order acc).map s.entOf ∧ (∀ i ∈ s.order acc, (s.entOf i).id = i ∧ s.entOf i ∈ alive h) ∧
      (s.order acc).Nodup := by
  have hs := loose_shape hx
  obtain ⟨items', h1, h0, h3⟩ := C31_visits_rows hx acc old hf
  rw [hq] at h1
  cases h1
  have hent : items.map (·.1) = ((coveredRows s acc).map (·.id)).map s.entOf := by
    clear hq h0
    generalize coveredRows s acc = rows at h3
    induction h3 with
    | nil => rfl
    | @cons row x rows xs hrx _ ih =>
      refine congrArg₂ List.cons ?_ ih
      obtain ⟨k1, k2, _⟩ := hrx
      show x.1 = s.entOf row.id
      unfold Store.entOf
      rw [k2]
      obtain ⟨⟨xi, xv⟩, _⟩ := x
      cases k1
      rfl
  rw [coveredRows_order hs.archs] at hent
  refine ⟨hent, ?_, ?_⟩
  · intro i hi
    obtain ⟨e, he, _, rfl⟩ := order_holder hx hi
    rw [entOf_alive hx he]
    exact ⟨rfl, he⟩
  · exact order_nodup hx acc

theorem vacated_self {α : Type} [DecidableEq α] {e : α} {l : List α} (h : l.Nodup) : Vacated e l (l.filter (· ≠ e)) := by
  by_cases he : e ∈ l
  · obtain ⟨a, b, rfl⟩ := List.append_of_mem he
    have hn := List.nodup_append.1 h
    refine .inr (.inl ⟨a, b, rfl, ?_⟩)
    have ha : ∀ x ∈ a, x ≠ e := fun x hx => hn.2.2 x hx e List.mem_cons_self
    have hb : ∀ x ∈ b, x ≠ e := fun x hx hxe => (List.nodup_cons.1 hn.2.1).1 (hxe ▸ hx)
    rw [List.filter_append, List.filter_cons, if_neg (by simp), List.filter_eq_self.2 (by simpa using ha),
      List.filter_eq_self.2 (by simpa using hb)]
  · refine .inl ⟨he, List.filter_eq_self.2 ?_⟩
    intro x hx
    simp only [ne_eq, decide_not, Bool.not_eq_eq_eq_not, Bool.not_true, decide_eq_false_iff_not]
    rintro rfl
    exact he hx

theorem vacated_map {α β : Type} {f : α → β} {a : α} {b : β} {l l' : List α} (h : Vacated a l l') (h1 : a ∈ l → f a = b)
    (h2 : ∀ x ∈ l, f x = b → x = a) : Vacated b (l.map f) (l'.map f) := by
  rcases h with ⟨h, rfl⟩ | ⟨x, y, rfl, rfl⟩ | ⟨x, y, z, w, rfl, rfl⟩
  · refine .inl ⟨fun hm => ?_, rfl⟩
    obtain ⟨x, hx, hb⟩ := List.mem_map.1 hm
    exact h (h2 x hx hb ▸ hx)
  · exact .inr (.inl ⟨x.map f, y.map f, by simp [h1], by simp⟩)
  · exact .inr (.inr ⟨x.map f, y.map f, f z, w.map f, by simp [h1], by simp⟩)

theorem vacated_mem {α : Type} {e x : α} {l l' : List α} (h : Vacated e l l') (hx : x ∈ l') : x ∈ l := by
  rcases h with ⟨_, rfl⟩ | ⟨a, b, rfl, rfl⟩ | ⟨a, b, y, c, rfl, rfl⟩
  · exact hx
  · simp at hx ⊢; tauto
  · simp at hx ⊢; tauto

theorem alive_step {x : Entity} (hm : x ∈ alive h) (hne : x ≠ subject ev) :
    x ∈ alive (ev :: h) := by
  cases ev with
  | destroyed e => exact (List.mem_erase_of_ne hne).2 hm
  | created e => exact List.mem_cons_of_mem _ hm
  | createdWith e ts init => exact List.mem_cons_of_mem _ hm
  | _ => exact hm

theorem step_order (hx : LooseExec U dbg cap h s) (hl : Loose (world h) ev) (hr : Returns U dbg s ev s')
    (hu : destroys ev = false → UsedNotFree s) {acc : Access} {old old' : List IterView} {fuel fuel' : Nat}
    (hf : (alive h).length < fuel) (hf' : (alive (ev :: h)).length < fuel') {items items' : List (Entity × List Ref)}
    (hq : runComponentQueryWithEntities U dbg s acc old fuel = .ok items)
    (hq' : runComponentQueryWithEntities U dbg s' acc old' fuel' = .ok items') :
    Vacated (subject ev) (items.map (·.1)) ((items'.map (·.1)).filter (· ≠ subject ev)) := by
  have hx' : LooseExec U dbg cap (ev :: h) s' := .step _ hx hl hr
  obtain ⟨e1, f1, n1⟩ := query_order hx hf hq
  obtain ⟨e2, f2, n2⟩ := query_order hx' hf' hq'
  have huniq : ∀ x ∈ alive h, s.entOf x.id = x := fun x hm => entOf_alive hx hm
  have huniq' : ∀ x ∈ alive (ev :: h), s'.entOf x.id = x := fun x hm => entOf_alive hx' hm
  rw [e1, e2]
  rcases order_step hx hl hr hu acc with heq | ⟨hv, hal⟩
  · rw [heq] at f2 n2 ⊢
    -- the same ids; the entities with them are the same
    have hsame : (s.order acc).map s'.entOf = (s.order acc).map s.entOf := by
      refine List.map_congr_left fun i hi => ?_
      obtain ⟨a1, a2⟩ := f1 i hi
      obtain ⟨b1, b2⟩ := f2 i hi
      by_cases hsub : s.entOf i = subject ev
      · -- the subject is not destroyed: its id is still in a row
        by_cases hin : s.entOf i ∈ alive (ev :: h)
        · have := huniq' _ hin
          rw [a1] at this; exact this
        · exact absurd (subject_kept hx hl hr (hsub ▸ a2) (fun hn => hin (hsub ▸ hn)) acc) (by
            rw [heq]; rw [← hsub, a1]; exact fun hc => hc hi)
      · have := huniq' _ (alive_step a2 hsub)
        rw [a1] at this; exact this
    rw [hsame]
    refine vacated_self (List.Nodup.map_on ?_ n1)
    intro i hi j hj hij
    rw [← (f1 i hi).1, ← (f1 j hj).1, hij]
  · have hfil : ((s'.order acc).map s'.entOf).filter (· ≠ subject ev) =
        ((s'.order acc).filter (· ≠ (subject ev).id)).map s.entOf := by
      rw [List.filter_map]
      have h0 : (s'.order acc).filter ((fun x => decide (x ≠ subject ev)) ∘ s'.entOf) = (s'.order acc).filter (· ≠ (subject ev).id) := by
        refine List.filter_congr fun i hi => ?_
        obtain ⟨b1, b2⟩ := f2 i hi
        simp only [Function.comp_apply, decide_eq_decide]
        rw [not_iff_not]
        refine ⟨fun he => by rw [← he, b1], fun he => ?_⟩
        by_cases hin : subject ev ∈ alive (ev :: h)
        · rw [he]; exact huniq' _ hin
        · rcases hal with ha | ⟨ha, _⟩
          · exact absurd hi (by rw [he]; exact subject_kept hx hl hr ha hin acc)
          · exact absurd ha hin
      rw [h0]
      refine List.map_congr_left fun i hi => ?_
      have hne : i ≠ (subject ev).id := by simpa using (List.mem_filter.1 hi).2
      have hi0 := vacated_mem hv hi
      obtain ⟨a1, a2⟩ := f1 i hi0
      have := huniq' _ (alive_step a2 (fun hs => hne (by rw [← hs, a1])))
      rw [a1] at this; exact this
    rw [hfil]
    refine vacated_map hv (fun hm => ?_) (fun i hi he => by rw [← he, (f1 i hi).1])
    rcases hal with ha | ⟨_, hn⟩
    · exact huniq _ ha
    · exact absurd hm hn

end

end Ecs.Props
