import Verif.Spec.Exchange
import Verif.Proofs.Future

/-! Exchanging unrelated calls. -/

namespace Ecs
open Spec

section
variable {w w' : World} {ev a b : Event} {e : Entity} {g : Nat}

/-- Everything about one entity except its order groups. -/
def own (w : World) (e : Entity) : List TypeId × (TypeId → List Cell) × (Nat → Bool) × Nat :=
  (w.types e, w.value e, fun tag => w.tags tag e, w.live.count e)

theorem own_eq (h1 : w'.types e = w.types e) (h2 : w'.value e = w.value e) (h3 : ∀ tag, w'.tags tag e = w.tags tag e)
    (h4 : w'.live.count e = w.live.count e) : own w' e = own w e := by
  unfold own
  rw [h1, h2, h4, funext h3]

theorem own_other (he : e ≠ subject ev) : own (w.apply ev) e = own w e := by
  have at_ne : ∀ {β : Type} (F : Entity → β) (x : Entity) (v : β), e ≠ x → at' F x v e = F e := fun _ _ _ h => if_neg h
  have tag_ne : ∀ (T : Nat → Entity → Bool) (t tag : Nat) (x : Entity) (v : Bool), e ≠ x → at' T t (at' (T t) x v) tag e = T tag e := by
    intro T t tag x v h
    by_cases ht : tag = t
    · subst ht; exact (congrFun (if_pos rfl) e).trans (if_neg h)
    · exact congrFun (if_neg ht) e
  cases ev with
  | created x => exact own_eq (at_ne _ _ _ he) rfl (fun _ => at_ne _ _ _ he) (List.count_cons_of_ne (Ne.symm he))
  | createdWith x ts init =>
    exact own_eq ((at_ne _ _ _ he).trans (at_ne _ _ _ he)) (at_ne _ _ _ he) (fun _ => at_ne _ _ _ he) (List.count_cons_of_ne (Ne.symm he))
  | destroyed x => exact own_eq (at_ne _ _ _ he) rfl (fun _ => at_ne _ _ _ he) (List.count_erase_of_ne he)
  | added x vals =>
    simp only [World.apply]
    split
    · split
      · exact own_eq rfl (at_ne _ _ _ he) (fun _ => rfl) rfl
      · exact own_eq (at_ne _ _ _ he) (at_ne _ _ _ he) (fun _ => rfl) rfl
    · rfl
  | removed x ts =>
    simp only [World.apply]
    split
    · exact own_eq (at_ne _ _ _ he) rfl (fun _ => rfl) rfl
    · rfl
  | assigned x vals =>
    simp only [World.apply]
    split
    · exact own_eq rfl (at_ne _ _ _ he) (fun _ => rfl) rfl
    · rfl
  | tagged tag x => exact own_eq rfl rfl (fun t => tag_ne _ _ _ _ _ he) rfl
  | untagged tag x => exact own_eq rfl rfl (fun t => tag_ne _ _ _ _ _ he) rfl
  | orderedLast g x => rfl
  | orderedAfter g x y => rfl
  | orderedBefore g x y => rfl
  | unordered g x => rfl

theorem own_mem (h : own w' e = own w e) : e ∈ w'.live ↔ e ∈ w.live := by
  rw [← List.count_pos_iff, ← List.count_pos_iff, show w'.live.count e = w.live.count e from congrArg (·.2.2.2) h]

theorem own_congr (h : own w' e = own w e) : own (w'.apply ev) e = own (w.apply ev) e := by
  by_cases he : e = subject ev
  · have h1 : w'.types e = w.types e := congrArg (·.1) h
    have h2 : w'.value e = w.value e := congrArg (·.2.1) h
    have h3 : ∀ tag, w'.tags tag e = w.tags tag e := fun tag => congrFun (congrArg (·.2.2.1) h) tag
    have h4 : w'.live.count e = w.live.count e := congrArg (·.2.2.2) h
    have hm := own_mem h
    have at_eq : ∀ {β : Type} (F F' : Entity → β) (v v' : β), v' = v → at' F' e v' e = at' F e v e := fun F F' v v' hv => by
      unfold at'; rw [if_pos rfl, if_pos rfl, hv]
    have tag_eq : ∀ (t : Nat) (v : Bool) (tag : Nat), at' w'.tags t (at' (w'.tags t) e v) tag e = at' w.tags t (at' (w.tags t) e v) tag e := by
      intro t v tag
      unfold at'
      by_cases ht : tag = t
      · subst ht; simp
      · simp [ht, h3]
    cases ev with
    | created x => cases he; exact own_eq (at_eq _ _ _ _ rfl) h2 (fun _ => at_eq _ _ _ _ rfl) (by simpa [World.apply, World.birth, subject] using h4)
    | createdWith x ts init =>
      cases he
      exact own_eq (at_eq _ _ _ _ rfl) (at_eq _ _ _ _ rfl) (fun _ => at_eq _ _ _ _ rfl)
        (by simp [World.apply, World.birth, World.setTypes, subject] at h4 ⊢; exact h4)
    | destroyed x =>
      cases he
      exact own_eq (at_eq _ _ _ _ rfl) h2 (fun _ => at_eq _ _ _ _ rfl) (by simp [World.apply, subject, List.count_erase_self] at h4 ⊢; omega)
    | added x vals =>
      replace he : e = x := he
      subst he
      simp only [World.apply, hm, h1]
      split
      · split
        · exact own_eq h1 (at_eq _ _ _ _ (by rw [h2])) h3 h4
        · exact own_eq (at_eq _ _ _ _ rfl) (at_eq _ _ _ _ (by rw [h2])) h3 h4
      · exact h
    | removed x ts =>
      replace he : e = x := he
      subst he
      simp only [World.apply, hm, h1]
      split
      · exact own_eq (at_eq _ _ _ _ rfl) h2 h3 h4
      · exact h
    | assigned x vals =>
      replace he : e = x := he
      subst he
      simp only [World.apply, hm, h1]
      split
      · exact own_eq h1 (at_eq _ _ _ _ (by rw [h2])) h3 h4
      · exact h
    | tagged tag x => cases he; exact own_eq h1 h2 (tag_eq _ _) h4
    | untagged tag x => cases he; exact own_eq h1 h2 (tag_eq _ _) h4
    | orderedLast g x => exact h
    | orderedAfter g x y => exact h
    | orderedBefore g x y => exact h
    | unordered g x => exact h
  · rw [own_other he, own_other he, h]

/-- What a call does to a group. -/
def reorder (g : Nat) : Event → List Entity → List Entity
  | .destroyed e, l => l.erase e
  | .orderedLast g' e, l => if g = g' then l ++ [e] else l
  | .orderedAfter g' e x, l => if g = g' then insertAfter x e l else l
  | .orderedBefore g' e x, l => if g = g' then insertBefore x e l else l
  | .unordered g' e, l => if g = g' then l.erase e else l
  | _, l => l

theorem order_apply : (w.apply ev).order g = reorder g ev (w.order g) := by
  cases ev with
  | added e vals =>
    simp only [World.apply, reorder]
    split
    · split <;> rfl
    · rfl
  | removed e ts =>
    simp only [World.apply, reorder]
    split <;> rfl
  | assigned e vals =>
    simp only [World.apply, reorder]
    split <;> rfl
  | created e => rfl
  | createdWith e ts init => rfl
  | destroyed e => rfl
  | tagged tag e => rfl
  | untagged tag e => rfl
  | orderedLast g' e => simp only [World.apply, reorder, at']; split <;> simp_all
  | orderedAfter g' e x => simp only [World.apply, reorder, at']; split <;> simp_all
  | orderedBefore g' e x => simp only [World.apply, reorder, at']; split <;> simp_all
  | unordered g' e => simp only [World.apply, reorder, at']; split <;> simp_all

theorem insertAfter_erase {x y e : Entity} (hx : e ≠ x) (hy : e ≠ y) (l : List Entity) :
    (insertAfter x y l).erase e = insertAfter x y (l.erase e) := by
  induction l with
  | nil => rfl
  | cons a l ih =>
    by_cases ha : a = e
    · subst ha
      simp [insertAfter, hx]
    · have ha' : (a == e) = false := by simpa using ha
      rw [List.erase_cons_tail (by simpa using ha)]
      simp only [insertAfter]
      split
      · rw [List.erase_cons_tail (by simpa using ha), List.erase_cons_tail (by simpa using Ne.symm hy)]
      · rw [List.erase_cons_tail (by simpa using ha), ih]

theorem insertBefore_erase {x y e : Entity} (hx : e ≠ x) (hy : e ≠ y) (l : List Entity) :
    (insertBefore x y l).erase e = insertBefore x y (l.erase e) := by
  induction l with
  | nil => rfl
  | cons a l ih =>
    by_cases ha : a = e
    · subst ha
      simp [insertBefore, hx]
    · rw [List.erase_cons_tail (by simpa using ha)]
      simp only [insertBefore]
      split
      · rw [List.erase_cons_tail (by simpa using Ne.symm hy), List.erase_cons_tail (by simpa using ha)]
      · rw [List.erase_cons_tail (by simpa using ha), ih]

theorem reorder_kind (g : Nat) (ev : Event) : (∀ l, reorder g ev l = l) ∨ (∀ l, reorder g ev l = l.erase (subject ev)) ∨
    (entered ev = some g ∧ ∀ e, e ∉ named ev → ∀ l, (reorder g ev l).erase e = reorder g ev (l.erase e)) := by
  cases ev with
  | destroyed e => exact .inr (.inl fun _ => rfl)
  | orderedLast g' e =>
    by_cases hg : g = g'
    · subst hg
      refine .inr (.inr ⟨rfl, fun a ha l => ?_⟩)
      have hne : a ≠ e := by simpa [named, subject] using ha
      simp only [reorder, if_true]
      by_cases hl : a ∈ l
      · rw [List.erase_append_left _ hl]
      · rw [List.erase_append_right _ hl, List.erase_of_not_mem (by simpa using hne), List.erase_of_not_mem hl]
    · exact .inl fun _ => if_neg hg
  | orderedAfter g' e x =>
    by_cases hg : g = g'
    · subst hg
      refine .inr (.inr ⟨rfl, fun a ha l => ?_⟩)
      have hne : a ≠ e ∧ a ≠ x := by simpa [named] using ha
      simp only [reorder, if_true]
      exact insertAfter_erase hne.2 hne.1 l
    · exact .inl fun _ => if_neg hg
  | orderedBefore g' e x =>
    by_cases hg : g = g'
    · subst hg
      refine .inr (.inr ⟨rfl, fun a ha l => ?_⟩)
      have hne : a ≠ e ∧ a ≠ x := by simpa [named] using ha
      simp only [reorder, if_true]
      exact insertBefore_erase hne.2 hne.1 l
    · exact .inl fun _ => if_neg hg
  | unordered g' e =>
    by_cases hg : g = g'
    · subst hg
      exact .inr (.inl fun _ => if_pos rfl)
    · exact .inl fun _ => if_neg hg
  | created e => exact .inl fun _ => rfl
  | createdWith e ts init => exact .inl fun _ => rfl
  | added e vals => exact .inl fun _ => rfl
  | removed e ts => exact .inl fun _ => rfl
  | assigned e vals => exact .inl fun _ => rfl
  | tagged tag e => exact .inl fun _ => rfl
  | untagged tag e => exact .inl fun _ => rfl

theorem reorder_comm (h : Unrelated a b) (g : Nat) (l : List Entity) : reorder g a (reorder g b l) = reorder g b (reorder g a l) := by
  obtain ⟨h1, h2, h3⟩ := h
  rcases reorder_kind g a with ha | ha | ha <;> rcases reorder_kind g b with hb | hb | hb
  · rw [ha, hb, hb, ha]
  · rw [ha, ha]
  · rw [ha, ha]
  · rw [hb, hb]
  · rw [ha, hb, hb, ha, List.erase_comm]
  · rw [ha, ha, hb.2 _ h1]
  · rw [hb, hb]
  · rw [hb, hb, ha.2 _ h2]
  · exact absurd hb.1 (h3 g ha.1)

/-- The worlds are the same, as far as the store shows them. -/
def Lookalike (w w' : World) : Prop := (∀ e, own w' e = own w e) ∧ ∀ g, w'.order g = w.order g

theorem subject_named (ev : Event) : subject ev ∈ named ev := by cases ev <;> simp [named, subject]

theorem Spec.Unrelated.ne (h : Unrelated a b) : subject a ≠ subject b := fun h' => h.1 (h' ▸ subject_named b)

theorem Spec.Unrelated.symm (h : Unrelated a b) : Unrelated b a := ⟨h.2.1, h.1, fun g hb ha => h.2.2 g ha hb⟩

theorem Lookalike.apply (h : Lookalike w w') : Lookalike (w.apply ev) (w'.apply ev) :=
  ⟨fun e => own_congr (h.1 e), fun g => by rw [order_apply, order_apply, h.2]⟩

theorem Spec.Unrelated.alike (h : Unrelated a b) : Lookalike ((w.apply b).apply a) ((w.apply a).apply b) := by
  refine ⟨fun e => ?_, fun g => ?_⟩
  · by_cases he : e = subject a
    · rw [own_other (fun h' => h.ne (he.symm.trans h'))]
      exact own_congr (own_other (fun h' => h.ne (he.symm.trans h'))).symm
    · rw [own_other (ev := a) he]
      exact own_congr (own_other he)
  · rw [order_apply, order_apply, order_apply, order_apply, reorder_comm h]

theorem Spec.Exchanged.alike {h h' : List Event} (hx : Exchanged h h') : Lookalike (world h) (world h') := by
  induction hx with
  | same h => exact ⟨fun _ => rfl, fun _ => rfl⟩
  | swap k a b h hab =>
    induction k with
    | nil => exact hab.alike
    | cons ev k ih => exact ih.apply
  | trans _ _ ih1 ih2 => exact ⟨fun e => (ih2.1 e).trans (ih1.1 e), fun g => (ih2.2 g).trans (ih1.2 g)⟩

theorem Lookalike.twin (h : Lookalike w w') : Twin id w w' := by
  refine ⟨fun _ _ _ _ h => h, fun x => ?_, fun e _ t => ?_, fun e _ t _ => ?_, fun e _ tag => ?_, fun g => ?_⟩
  · simp [own_mem (h.1 x)]
  · show t ∈ w'.types e ↔ _
    rw [show w'.types e = w.types e from congrArg (·.1) (h.1 e)]
  · exact congrFun (show w'.value e = w.value e from congrArg (·.2.1) (h.1 e)) t
  · exact congrFun (show (fun tag => w'.tags tag e) = fun tag => w.tags tag e from congrArg (·.2.2.1) (h.1 e)) tag
  · rw [h.2, List.map_id]

/-- A call unrelated to another changes neither whether it is allowed nor what it looks for. -/
theorem Spec.Unrelated.mem (h : Unrelated a b) : subject b ∈ (w.apply a).live ↔ subject b ∈ w.live := own_mem (own_other h.ne.symm)

theorem Spec.Unrelated.mem_order (he : e ≠ subject a) : e ∈ (w.apply a).order g ↔ e ∈ w.order g := by
  rw [order_apply]
  generalize w.order g = l
  cases a with
  | destroyed x => exact List.mem_erase_of_ne he
  | orderedLast g' x =>
    replace he : e ≠ x := he
    simp only [reorder]; split <;> simp [he]
  | orderedAfter g' x y =>
    replace he : e ≠ x := he
    simp only [reorder]
    split
    · induction l with
      | nil => rfl
      | cons c l ih => simp only [insertAfter]; split <;> simp [he, ih]
    · rfl
  | orderedBefore g' x y =>
    replace he : e ≠ x := he
    simp only [reorder]
    split
    · induction l with
      | nil => rfl
      | cons c l ih => simp only [insertBefore]; split <;> simp [he, ih]
    · rfl
  | unordered g' x =>
    simp only [reorder]; split
    · exact List.mem_erase_of_ne he
    · rfl
  | created x => rfl
  | createdWith x ts init => rfl
  | added x vals => rfl
  | removed x ts => rfl
  | assigned x vals => rfl
  | tagged tag x => rfl
  | untagged tag x => rfl

theorem issued_apply (hc : isCreation ev = false) : (w.apply ev).issued = w.issued := by
  cases ev with
  | created e => cases hc
  | createdWith e ts init => cases hc
  | added e vals => simp only [World.apply]; split <;> [split <;> rfl; rfl]
  | removed e ts => simp only [World.apply]; split <;> rfl
  | assigned e vals => simp only [World.apply]; split <;> rfl
  | _ => rfl

theorem Spec.Unrelated.allowed {U : Universe} (h : Unrelated a b) (hc : isCreation a = false) : Allowed U (w.apply a) b ↔ Allowed U w b := by
  have hm := h.mem (w := w)
  have ht : (w.apply a).types (subject b) = w.types (subject b) := congrArg (·.1) (own_other h.ne.symm)
  have ho : ∀ g, subject b ∈ (w.apply a).order g ↔ subject b ∈ w.order g := fun g => Unrelated.mem_order h.ne.symm
  cases b with
  | created e => simp only [Allowed, issued_apply hc]
  | createdWith e ts init => simp only [Allowed, issued_apply hc]
  | destroyed e => exact hm
  | added e vals => simp only [Allowed, issued_apply hc]
  | removed e ts =>
    simp only [subject] at hm ht
    simp only [Allowed, issued_apply hc, hm, ht]
  | assigned e vals => simp only [Allowed, issued_apply hc]
  | tagged tag e => exact hm
  | untagged tag e => exact hm
  | orderedLast g e =>
    simp only [subject] at hm ho
    simp only [Allowed, hm, ho]
  | orderedAfter g e x =>
    have hx : ∀ g, x ∈ (w.apply a).order g ↔ x ∈ w.order g := fun g => Unrelated.mem_order fun h' => h.1 (h' ▸ by simp [named])
    simp only [subject] at hm ho
    simp only [Allowed, hm, ho, hx]
  | orderedBefore g e x =>
    have hx : ∀ g, x ∈ (w.apply a).order g ↔ x ∈ w.order g := fun g => Unrelated.mem_order fun h' => h.1 (h' ▸ by simp [named])
    simp only [subject] at hm ho
    simp only [Allowed, hm, ho, hx]
  | unordered g e => exact hm

theorem Spec.Unrelated.needs (h : Unrelated a b) : needs (w.apply a) b = needs w b := by
  have hm := h.mem (w := w)
  have ht : (w.apply a).types (subject b) = w.types (subject b) := congrArg (·.1) (own_other h.ne.symm)
  cases b with
  | added e vals =>
    simp only [subject] at hm ht
    simp only [Spec.needs, hm, ht]
  | removed e ts =>
    simp only [subject] at hm ht
    simp only [Spec.needs, hm, ht]
  | _ => rfl

theorem Spec.Exchanged.cons {h h' : List Event} (hx : Exchanged h h') (ev : Event) : Exchanged (ev :: h) (ev :: h') := by
  induction hx with
  | same h => exact .same _
  | swap k a b h hab => exact .swap (ev :: k) a b h hab
  | trans _ _ ih1 ih2 => exact ih1.trans ih2

theorem Spec.Exchanged.symm {h h' : List Event} (hx : Exchanged h h') : Exchanged h' h := by
  induction hx with
  | same h => exact .same _
  | swap k a b h hab => exact .swap k b a h hab.symm
  | trans _ _ ih1 ih2 => exact ih2.trans ih1

/-- A call moves behind calls unrelated to it. -/
theorem Spec.Exchanged.past (ev : Event) : ∀ (p h : List Event), (∀ a ∈ p, Unrelated a ev) → Exchanged (ev :: (p ++ h)) (p ++ ev :: h)
  | [], h, _ => .same _
  | a :: p, h, hp => ((Exchanged.swap [] ev a (p ++ h) (hp a List.mem_cons_self).symm).trans
      ((Exchanged.past ev p h fun b hb => hp b (List.mem_cons_of_mem _ hb)).cons a))

theorem Spec.Interleaved.exchanged {k p q : List Event} (hk : Interleaved k p q) (h : List Event) (hpq : ∀ a ∈ p, ∀ b ∈ q, Unrelated a b) :
    Exchanged (k ++ h) (p ++ q ++ h) := by
  induction hk with
  | none => exact .same _
  | left ev _ ih => exact (ih fun a ha => hpq a (List.mem_cons_of_mem _ ha)).cons ev
  | @right k p q ev _ ih =>
    refine ((ih fun a ha b hb => hpq a ha b (List.mem_cons_of_mem _ hb)).cons ev).trans ?_
    have := Exchanged.past ev p (q ++ h) fun a ha => hpq a ha ev List.mem_cons_self
    simpa [List.append_assoc] using this

/-! ### Programs that only build up -/

/-- The condition of `BuildsUp` on one call. -/
def Gentle (w : World) : Event → Prop
  | .destroyed _ => False
  | .removed _ _ => False
  | .added e vals => w.types e = [] ∨ ∀ p ∈ vals, p.1 ∈ w.types e
  | _ => True

theorem buildsUp_cons {h : List Event} : BuildsUp (ev :: h) ↔ Gentle (world h) ev ∧ BuildsUp h := by
  cases ev <;> simp [BuildsUp, Gentle]

/-- The call creates nothing and is one that `C74_calls_return` is about. -/
structure Smooth (U : Universe) (dbg : Bool) (w : World) (ev : Event) : Prop where
  made : isCreation ev = false
  allowed : Allowed U w ev
  gentle : Gentle w ev
  wide : ∀ T, needs w ev = some T → Wide U dbg T

def AllSmooth (U : Universe) (dbg : Bool) : List Event → List Event → Prop
  | [], _ => True
  | ev :: k, h => Smooth U dbg (world (k ++ h)) ev ∧ AllSmooth U dbg k h

variable {U : Universe} {dbg : Bool}

theorem Spec.Unrelated.gentle (h : Unrelated a b) : Gentle (w.apply a) b ↔ Gentle w b := by
  have ht : (w.apply a).types (subject b) = w.types (subject b) := congrArg (·.1) (own_other h.ne.symm)
  cases b with
  | added e vals => simp only [subject] at ht; simp only [Gentle, ht]
  | _ => rfl

theorem Spec.Unrelated.smooth (h : Unrelated a b) (hc : isCreation a = false) : Smooth U dbg (w.apply a) b ↔ Smooth U dbg w b :=
  ⟨fun hs => ⟨hs.made, (h.allowed hc).1 hs.allowed, h.gentle.1 hs.gentle, by rw [← h.needs (w := w)]; exact hs.wide⟩,
    fun hs => ⟨hs.made, (h.allowed hc).2 hs.allowed, h.gentle.2 hs.gentle, by rw [h.needs]; exact hs.wide⟩⟩

theorem Lookalike.types (h : Lookalike w w') : w'.types = w.types := funext fun e => congrArg (·.1) (h.1 e)

theorem Lookalike.smooth (h : Lookalike w w') (hi : w'.issued = w.issued) (hs : Smooth U dbg w ev) : Smooth U dbg w' ev := by
  have ht := h.types
  have hm : ∀ e, e ∈ w'.live ↔ e ∈ w.live := fun e => own_mem (h.1 e)
  have ho : w'.order = w.order := funext h.2
  obtain ⟨h1, h2, h3, h4⟩ := hs
  refine ⟨h1, ?_, ?_, ?_⟩
  · cases ev <;> simpa only [Allowed, hm, hi, ht, ho] using h2
  · cases ev <;> simpa only [Gentle, ht] using h3
  · cases ev <;> simpa only [needs, hm, ht] using h4

theorem AllSmooth.issued {k h : List Event} : AllSmooth U dbg k h → (world (k ++ h)).issued = (world h).issued := by
  induction k with
  | nil => exact fun _ => rfl
  | cons ev k ih => exact fun hk => (issued_apply hk.1.made).trans (ih hk.2)

theorem Spec.Exchanged.append {k k' : List Event} (hx : Exchanged k k') (h : List Event) : Exchanged (k ++ h) (k' ++ h) := by
  induction hx with
  | same k => exact .same _
  | swap k a b l hab => simpa using Exchanged.swap k a b (l ++ h) hab
  | trans _ _ ih1 ih2 => exact ih1.trans ih2

theorem AllSmooth.exchanged {k k' h : List Event} (hx : Exchanged k k') : AllSmooth U dbg k h → AllSmooth U dbg k' h := by
  induction hx with
  | same k => exact id
  | trans _ _ ih1 ih2 => exact fun hk => ih2 (ih1 hk)
  | swap k a b l hab =>
    induction k with
    | nil =>
      rintro ⟨h1, h2, h3⟩
      exact ⟨(hab.smooth h1.made).2 h2, (hab.symm.smooth h2.made).1 h1, h3⟩
    | cons ev k ih =>
      rintro ⟨h1, h2⟩
      have h3 := ih h2
      exact ⟨((Exchanged.swap k a b l hab).append h).alike.smooth (h3.issued.trans h2.issued.symm) h1, h3⟩

end
end Ecs
