import Verif.Spec.Simplify
import Verif.Proofs.Exchange

/-! Replacing calls by simpler ones. -/

namespace Ecs
open Spec

section
variable {w w' w'' : World} {ev : Event} {e x : Entity} {t : TypeId} {A B vals : TupleVal} {ts : List TypeId}

theorem find_none_iff : TupleVal.find vals t = none ↔ t ∉ typesOf vals := by
  unfold TupleVal.find typesOf
  simp [List.find?_eq_none]
  constructor
  · intro h b hb
    exact h t b hb rfl
  · rintro h a b hab rfl
    exact h b hab

theorem find_overlay : TupleVal.find (overlay B A) t = (TupleVal.find B t).or (TupleVal.find A t) := by
  cases hB : TupleVal.find B t with
  | some v =>
    unfold TupleVal.find overlay at *
    rw [List.find?_append]
    cases h1 : B.find? (fun p => decide (p.1 = t)) with
    | none => rw [h1] at hB; cases hB
    | some p => rw [h1] at hB; simpa using hB
  | none =>
    have hn := find_none_iff.1 hB
    unfold TupleVal.find overlay at *
    rw [List.find?_append]
    have h1 : B.find? (fun p => decide (p.1 = t)) = none := by
      simpa using hB
    rw [h1, Option.none_or, Option.none_or, List.find?_filter]
    congr 1
    congr 1
    funext p
    by_cases hp : p.1 = t
    · simp [hp, hn]
    · simp [hp]

theorem store_overlay (f : TypeId → List Cell) : store (overlay B A) f = store B (store A f) := by
  funext t
  unfold store
  rw [find_overlay]
  cases TupleVal.find B t <;> rfl

theorem store_out {f : TypeId → List Cell} (h : t ∉ typesOf vals) : store vals f t = f t := by
  unfold store
  rw [find_none_iff.2 h]

theorem store_in {f f' : TypeId → List Cell} (h : t ∈ typesOf vals) : store vals f t = store vals f' t := by
  unfold store
  cases h1 : TupleVal.find vals t with
  | none => exact absurd h (find_none_iff.1 h1)
  | some v => rfl

theorem store_congr {f f' : TypeId → List Cell} (h : t ∉ typesOf vals → f' t = f t) : store vals f' t = store vals f t := by
  by_cases ht : t ∈ typesOf vals
  · exact store_in ht
  · rw [store_out ht, store_out ht, h ht]

theorem mem_overlay : t ∈ typesOf (overlay B A) ↔ t ∈ typesOf B ∨ t ∈ typesOf A := by
  have h := find_overlay (A := A) (B := B) (t := t)
  by_cases hB : t ∈ typesOf B
  · refine ⟨fun _ => .inl hB, fun _ => by_contra fun hn => ?_⟩
    rw [find_none_iff.2 hn] at h
    cases h1 : TupleVal.find B t with
    | none => exact find_none_iff.1 h1 hB
    | some v => rw [h1] at h; cases h
  · rw [find_none_iff.2 hB, Option.none_or] at h
    rw [or_iff_right hB, ← not_iff_not, ← find_none_iff, ← find_none_iff, h]

theorem all_types {T : List TypeId} : (∀ p ∈ vals, p.1 ∈ T) ↔ ∀ t ∈ typesOf vals, t ∈ T := by
  unfold typesOf
  simp

theorem overlay_ne (h : A ≠ []) : overlay B A ≠ [] := by
  intro h1
  obtain ⟨p, A, rfl⟩ := List.exists_cons_of_ne_nil h
  have h2 : p.1 ∈ typesOf (overlay B (p :: A)) := mem_overlay.2 (.inr List.mem_cons_self)
  rw [h1] at h2
  cases h2

theorem overlay_ok {U : Universe} (hB : TupleOk U B) (hA : TupleOk U A) : TupleOk U (overlay B A) := by
  refine ⟨?_, fun p hp => ?_⟩
  · unfold overlay
    rw [List.map_append, List.nodup_append]
    refine ⟨hB.1, hA.1.sublist (List.filter_sublist.map _), ?_⟩
    rintro t ht t' ht' rfl
    obtain ⟨p, hp, rfl⟩ := List.mem_map.1 ht'
    exact (of_decide_eq_true (List.mem_filter.1 hp).2) ht
  · rcases List.mem_append.1 hp with hp | hp
    · exact hB.2 p hp
    · exact hA.2 p (List.mem_filter.1 hp).1

/-! ### What the calls about components do -/

theorem added_live : (w.apply (.added x vals)).live = w.live := by
  simp only [World.apply]; split
  · split <;> rfl
  · rfl

theorem added_tags : (w.apply (.added x vals)).tags = w.tags := by
  simp only [World.apply]; split
  · split <;> rfl
  · rfl

theorem added_order : (w.apply (.added x vals)).order = w.order := by
  simp only [World.apply]; split
  · split <;> rfl
  · rfl

theorem added_types : t ∈ (w.apply (.added x vals)).types e ↔ t ∈ w.types e ∨ (e = x ∧ x ∈ w.live ∧ t ∈ typesOf vals) := by
  simp only [World.apply]
  split
  · rename_i hl
    split
    · rename_i hall
      rw [all_types] at hall
      constructor
      · exact .inl
      · rintro (h | ⟨rfl, -, h⟩)
        · exact h
        · exact hall t h
    · by_cases he : e = x
      · subst he
        simp only [World.setTypes, at', if_true, List.mem_append, List.mem_filter, hl, true_and, decide_eq_true_eq]
        by_cases ht : t ∈ w.types e
        · simp [ht]
        · simp [ht, typesOf]
      · simp [World.setTypes, at', he]
  · rename_i hl
    simp [hl]

theorem added_value : (w.apply (.added x vals)).value e t =
    if e = x ∧ x ∈ w.live then store vals (w.value e) t else w.value e t := by
  simp only [World.apply]
  by_cases hl : x ∈ w.live
  · rw [if_pos hl]
    by_cases he : e = x
    · subst he
      simp [at', hl]
    · simp only [he, false_and, if_false]
      simp only [at', he, if_false]
  · simp [hl]

theorem removed_live : (w.apply (.removed x ts)).live = w.live := by simp only [World.apply]; split <;> rfl
theorem removed_tags : (w.apply (.removed x ts)).tags = w.tags := by simp only [World.apply]; split <;> rfl
theorem removed_order : (w.apply (.removed x ts)).order = w.order := by simp only [World.apply]; split <;> rfl
theorem removed_value : (w.apply (.removed x ts)).value = w.value := by simp only [World.apply]; split <;> rfl

theorem removed_types : t ∈ (w.apply (.removed x ts)).types e ↔ t ∈ w.types e ∧ ¬ (e = x ∧ x ∈ w.live ∧ t ∈ ts) := by
  simp only [World.apply]
  by_cases hl : x ∈ w.live
  · rw [if_pos hl]
    by_cases he : e = x
    · subst he
      simp [World.setTypes, at', hl]
    · simp [World.setTypes, at', he]
  · simp [hl]

theorem assigned_live : (w.apply (.assigned x vals)).live = w.live := by simp only [World.apply]; split <;> rfl
theorem assigned_tags : (w.apply (.assigned x vals)).tags = w.tags := by simp only [World.apply]; split <;> rfl
theorem assigned_order : (w.apply (.assigned x vals)).order = w.order := by simp only [World.apply]; split <;> rfl
theorem assigned_types : (w.apply (.assigned x vals)).types = w.types := by simp only [World.apply]; split <;> rfl

theorem assigned_value : (w.apply (.assigned x vals)).value e t =
    if e = x ∧ x ∈ w.live ∧ (∀ t ∈ typesOf vals, t ∈ w.types x) then store vals (w.value e) t else w.value e t := by
  simp only [World.apply, all_types]
  by_cases hl : x ∈ w.live ∧ (∀ t ∈ typesOf vals, t ∈ w.types x)
  · rw [if_pos hl]
    by_cases he : e = x
    · subst he
      rw [if_pos (show e = e ∧ e ∈ w.live ∧ (∀ t ∈ typesOf vals, t ∈ w.types e) from ⟨rfl, hl⟩)]
      simp only [at', if_true]
    · simp only [at', he, if_false, false_and]
  · rw [if_neg hl, if_neg fun h => hl h.2]

/-! ### Worlds that differ in nothing that counts -/

/-- The worlds are the same, as far as the store shows them; type sets may be written in another order, and components that an entity
does not have may have other values. -/
structure Akin (w w' : World) : Prop where
  live : ∀ e, w'.live.count e = w.live.count e
  types : ∀ e t, t ∈ w'.types e ↔ t ∈ w.types e
  value : ∀ e t, t ∈ w.types e → w'.value e t = w.value e t
  tags : ∀ tag e, w'.tags tag e = w.tags tag e
  order : ∀ g, w'.order g = w.order g

namespace Akin

theorem refl (w : World) : Akin w w := ⟨fun _ => rfl, fun _ _ => Iff.rfl, fun _ _ _ => rfl, fun _ _ => rfl, fun _ => rfl⟩

theorem symm (h : Akin w w') : Akin w' w :=
  ⟨fun e => (h.live e).symm, fun e t => (h.types e t).symm, fun e t ht => (h.value e t ((h.types e t).1 ht)).symm,
    fun tag e => (h.tags tag e).symm, fun g => (h.order g).symm⟩

theorem trans (h : Akin w w') (h' : Akin w' w'') : Akin w w'' :=
  ⟨fun e => (h'.live e).trans (h.live e), fun e t => (h'.types e t).trans (h.types e t),
    fun e t ht => (h'.value e t ((h.types e t).2 ht)).trans (h.value e t ht),
    fun tag e => (h'.tags tag e).trans (h.tags tag e), fun g => (h'.order g).trans (h.order g)⟩

theorem mem (h : Akin w w') (e : Entity) : e ∈ w'.live ↔ e ∈ w.live := by
  rw [← List.count_pos_iff, ← List.count_pos_iff, h.live]

theorem apply (h : Akin w w') (ev : Event) : Akin (w.apply ev) (w'.apply ev) := by
  have hord : ∀ g, (w'.apply ev).order g = (w.apply ev).order g := fun g => by rw [order_apply, order_apply, h.order]
  have htag : ∀ (t : Nat) (x : Entity) (v : Bool) (tag : Nat) (e : Entity),
      at' w'.tags t (at' (w'.tags t) x v) tag e = at' w.tags t (at' (w.tags t) x v) tag e := by
    intro t x v tag e
    unfold at'
    split
    · beta_reduce
      split
      · rfl
      · exact h.tags _ _
    · exact h.tags _ _
  have hoff : ∀ (x : Entity) (tag : Nat) (e : Entity), at' (w'.tags tag) x false e = at' (w.tags tag) x false e := by
    intro x tag e
    unfold at'
    split
    · rfl
    · exact h.tags _ _
  have hnil : ∀ (x e : Entity) (t : TypeId), t ∈ at' w'.types x [] e ↔ t ∈ at' w.types x [] e := by
    intro x e t
    unfold at'
    split
    · rfl
    · exact h.types _ _
  have hval : ∀ (x e : Entity) (t : TypeId), t ∈ at' w.types x [] e → w'.value e t = w.value e t := by
    intro x e t ht
    unfold at' at ht
    split at ht
    · cases ht
    · exact h.value _ _ ht
  cases ev with
  | created x =>
    refine ⟨fun e => ?_, hnil x, hval x, hoff x, hord⟩
    show (x :: w'.live).count e = (x :: w.live).count e
    rw [List.count_cons, List.count_cons, h.live]
  | createdWith x ts init =>
    refine ⟨fun e => ?_, fun e t => ?_, fun e t ht => ?_, hoff x, hord⟩
    · show (x :: w'.live).count e = (x :: w.live).count e
      rw [List.count_cons, List.count_cons, h.live]
    · show t ∈ at' (at' w'.types x []) x ts e ↔ t ∈ at' (at' w.types x []) x ts e
      by_cases he : e = x
      · simp [at', he]
      · simp [at', he, h.types]
    · have ht' : t ∈ at' (at' w.types x []) x ts e := ht
      show at' w'.value x init e t = at' w.value x init e t
      by_cases he : e = x
      · simp [at', he]
      · simp only [at', he, if_false] at ht' ⊢
        exact h.value _ _ ht'
  | destroyed x =>
    refine ⟨fun e => ?_, hnil x, hval x, hoff x, hord⟩
    show (w'.live.erase x).count e = (w.live.erase x).count e
    by_cases he : e = x
    · rw [he, List.count_erase_self, List.count_erase_self, h.live]
    · rw [List.count_erase_of_ne he, List.count_erase_of_ne he, h.live]
  | added x vals =>
    refine ⟨fun e => by rw [added_live, added_live, h.live], fun e t => ?_, fun e t ht => ?_,
      fun tag e => by rw [added_tags, added_tags, h.tags], hord⟩
    · rw [added_types, added_types, h.types, h.mem]
    · rw [added_types] at ht
      rw [added_value, added_value]
      simp only [h.mem]
      split
      · refine store_congr fun hn => h.value e t (ht.resolve_right fun h1 => hn h1.2.2)
      · rename_i hn
        exact h.value e t (ht.resolve_right fun h1 => hn ⟨h1.1, h1.2.1⟩)
  | removed x ts =>
    refine ⟨fun e => by rw [removed_live, removed_live, h.live], fun e t => ?_, fun e t ht => ?_,
      fun tag e => by rw [removed_tags, removed_tags, h.tags], hord⟩
    · rw [removed_types, removed_types, h.types, h.mem]
    · rw [removed_types] at ht
      rw [removed_value, removed_value]
      exact h.value e t ht.1
  | assigned x vals =>
    refine ⟨fun e => by rw [assigned_live, assigned_live, h.live], fun e t => ?_, fun e t ht => ?_,
      fun tag e => by rw [assigned_tags, assigned_tags, h.tags], hord⟩
    · rw [assigned_types, assigned_types, h.types]
    · rw [assigned_types] at ht
      rw [assigned_value, assigned_value]
      simp only [h.mem, h.types]
      split
      · exact store_congr fun _ => h.value e t ht
      · exact h.value e t ht
  | tagged tag x => exact ⟨h.live, h.types, h.value, htag tag x true, hord⟩
  | untagged tag x => exact ⟨h.live, h.types, h.value, htag tag x false, hord⟩
  | orderedLast g x => exact ⟨h.live, h.types, h.value, h.tags, hord⟩
  | orderedAfter g x y => exact ⟨h.live, h.types, h.value, h.tags, hord⟩
  | orderedBefore g x y => exact ⟨h.live, h.types, h.value, h.tags, hord⟩
  | unordered g x => exact ⟨h.live, h.types, h.value, h.tags, hord⟩

theorem twin (h : Akin w w') : Twin id w w' := by
  refine ⟨fun _ _ _ _ h => h, fun x => ?_, fun e _ t => h.types e t, fun e _ t ht => h.value e t ht, fun e _ tag => h.tags tag e, fun g => ?_⟩
  · simp [h.mem x]
  · rw [h.order, List.map_id]

end Akin

theorem Lookalike.akin (h : Lookalike w w') : Akin w w' :=
  ⟨fun e => congrArg (·.2.2.2) (h.1 e), fun e t => by rw [show w'.types e = w.types e from congrArg (·.1) (h.1 e)],
    fun e t _ => congrFun (show w'.value e = w.value e from congrArg (·.2.1) (h.1 e)) t,
    fun tag e => congrFun (show (fun tag => w'.tags tag e) = fun tag => w.tags tag e from congrArg (·.2.2.1) (h.1 e)) tag, h.2⟩

theorem erase_insertAfter_self {l : List Entity} {y : Entity} (h : e ∉ l) : (insertAfter y e l).erase e = l := by
  induction l with
  | nil => rfl
  | cons c l ih =>
    have hc : c ≠ e := fun h' => h (h' ▸ List.mem_cons_self)
    have hl : e ∉ l := fun h' => h (List.mem_cons_of_mem _ h')
    simp only [insertAfter]
    split
    · rw [List.erase_cons_tail (by simpa using hc), List.erase_cons_head]
    · rw [List.erase_cons_tail (by simpa using hc), ih hl]

theorem erase_insertBefore_self {l : List Entity} {y : Entity} (h : e ∉ l) : (insertBefore y e l).erase e = l := by
  induction l with
  | nil => rfl
  | cons c l ih =>
    have hc : c ≠ e := fun h' => h (h' ▸ List.mem_cons_self)
    have hl : e ∉ l := fun h' => h (List.mem_cons_of_mem _ h')
    simp only [insertBefore]
    split
    · rw [List.erase_cons_head]
    · rw [List.erase_cons_tail (by simpa using hc), ih hl]

theorem Spec.Simpler.akin {h p q : List Event} (hs : Simpler h p q) : Akin (world (p ++ h)) (world (q ++ h)) := by
  cases hs with
  | addAdd x A B =>
    refine ⟨fun e => ?_, fun e t => ?_, fun e t ht => ?_, fun tag e => ?_, fun g => ?_⟩ <;>
      simp only [List.cons_append, List.nil_append, world]
    · simp only [added_live]
    · simp only [added_types, added_live, mem_overlay]
      tauto
    · simp only [added_value, added_live]
      split
      · rename_i hx
        rw [store_overlay]
        exact store_congr fun _ => by rw [added_value, if_pos hx]
      · rfl
    · simp only [added_tags]
    · simp only [added_order]
  | addAssign x A B hsub =>
    refine ⟨fun e => ?_, fun e t => ?_, fun e t ht => ?_, fun tag e => ?_, fun g => ?_⟩ <;>
      simp only [List.cons_append, List.nil_append, world]
    · simp only [added_live, assigned_live]
    · simp only [added_types, assigned_types, mem_overlay]
      have := @hsub t
      tauto
    · simp only [added_value, assigned_value, added_live, added_types]
      by_cases hx : e = x ∧ x ∈ (world h).live
      · rw [if_pos hx, if_pos ⟨hx.1, hx.2, fun t ht => .inr ⟨trivial, hx.2, hsub ht⟩⟩, store_overlay]
        exact store_congr fun _ => by rw [added_value, if_pos hx]
      · rw [if_neg hx, if_neg fun h1 => hx ⟨h1.1, h1.2.1⟩, if_neg hx]
    · simp only [added_tags, assigned_tags]
    · simp only [added_order, assigned_order]
  | assignAdd x A B hsub =>
    refine ⟨fun e => ?_, fun e t => ?_, fun e t ht => ?_, fun tag e => ?_, fun g => ?_⟩ <;>
      simp only [List.cons_append, List.nil_append, world]
    · simp only [added_live, assigned_live]
    · simp only [added_types, assigned_types, assigned_live]
    · simp only [added_value, assigned_live]
      split
      · refine store_congr fun hn => ?_
        rw [assigned_value]
        split
        · rw [store_out fun h1 => hn (hsub h1)]
        · rfl
      · rename_i hx
        rw [assigned_value, if_neg fun h1 => hx ⟨h1.1, h1.2.1⟩]
    · simp only [added_tags, assigned_tags]
    · simp only [added_order, assigned_order]
  | assignAssign x A B hsub hsub' =>
    refine ⟨fun e => ?_, fun e t => ?_, fun e t ht => ?_, fun tag e => ?_, fun g => ?_⟩ <;>
      simp only [List.cons_append, List.nil_append, world]
    · simp only [assigned_live]
    · simp only [assigned_types]
    · rw [assigned_value, assigned_value (w := (world h).apply _)]
      simp only [assigned_types, assigned_live]
      split
      · refine store_congr fun hn => ?_
        rw [assigned_value]
        split
        · rw [store_out fun h1 => hn (hsub h1)]
        · rfl
      · rename_i hx
        rw [assigned_value, if_neg fun h1 => hx ⟨h1.1, h1.2.1, fun t ht => h1.2.2 t (hsub' ht)⟩]
    · simp only [assigned_tags]
    · simp only [assigned_order]
  | removeRemove x ts ts' =>
    refine ⟨fun e => ?_, fun e t => ?_, fun e t ht => ?_, fun tag e => ?_, fun g => ?_⟩ <;>
      simp only [List.cons_append, List.nil_append, world]
    · simp only [removed_live]
    · simp only [removed_types, removed_live, List.mem_append]
      tauto
    · simp only [removed_value]
    · simp only [removed_tags]
    · simp only [removed_order]
  | addRemove x A ts hsub =>
    refine ⟨fun e => ?_, fun e t => ?_, fun e t ht => ?_, fun tag e => ?_, fun g => ?_⟩ <;>
      simp only [List.cons_append, List.nil_append, world] at *
    · simp only [removed_live, added_live]
    · simp only [removed_types, added_types, added_live]
      have := @hsub t
      tauto
    · simp only [removed_value, added_value]
      rw [removed_types, added_live] at ht
      split
      · rename_i hx
        rw [store_out fun h1 => ht.2 ⟨hx.1, hx.2, hsub h1⟩]
      · rfl
    · simp only [removed_tags, added_tags]
    · simp only [removed_order, added_order]
  | assignRemove x A ts hsub =>
    refine ⟨fun e => ?_, fun e t => ?_, fun e t ht => ?_, fun tag e => ?_, fun g => ?_⟩ <;>
      simp only [List.cons_append, List.nil_append, world] at *
    · simp only [removed_live, assigned_live]
    · simp only [removed_types, assigned_types, assigned_live]
    · simp only [removed_value, assigned_value]
      rw [removed_types, assigned_live] at ht
      split
      · rename_i hx
        rw [store_out fun h1 => ht.2 ⟨hx.1, hx.2.1, hsub h1⟩]
      · rfl
    · simp only [removed_tags, assigned_tags]
    · simp only [removed_order, assigned_order]
  | removeAdd x A ts hsub =>
    refine ⟨fun e => ?_, fun e t => ?_, fun e t ht => ?_, fun tag e => ?_, fun g => ?_⟩ <;>
      simp only [List.cons_append, List.nil_append, world] at *
    · simp only [removed_live, added_live]
    · simp only [removed_types, added_types, removed_live]
      have := @hsub t
      tauto
    · simp only [removed_value, added_value, removed_live]
    · simp only [removed_tags, added_tags]
    · simp only [removed_order, added_order]
  | tagTag x tag ha hb =>
    have key : ∀ (T : Nat → Entity → Bool) (u v : Bool) (tag' : Nat) (e : Entity), at' T tag (at' (T tag) x v) tag' e =
        at' (at' T tag (at' (T tag) x u)) tag (at' (at' T tag (at' (T tag) x u) tag) x v) tag' e := by
      intro T u v tag' e
      unfold at'
      by_cases h1 : tag' = tag
      · by_cases h2 : e = x <;> simp [h1, h2]
      · simp [h1]
    rcases ha with rfl | rfl <;> rcases hb with rfl | rfl <;>
      exact ⟨fun _ => rfl, fun _ _ => Iff.rfl, fun _ _ _ => rfl, fun tag' e => key _ _ _ tag' e, fun _ => rfl⟩
  | orderUnorder g x y ha hn =>
    refine ⟨?_, ?_, ?_, ?_, fun g' => ?_⟩
    · rcases ha with rfl | rfl | rfl <;> exact fun _ => rfl
    · rcases ha with rfl | rfl | rfl <;> exact fun _ _ => Iff.rfl
    · rcases ha with rfl | rfl | rfl <;> exact fun _ _ _ => rfl
    · rcases ha with rfl | rfl | rfl <;> exact fun _ _ => rfl
    · simp only [List.cons_append, List.nil_append, world]
      rw [order_apply, order_apply]
      by_cases hg : g' = g
      · subst hg
        rcases ha with rfl | rfl | rfl <;> simp only [reorder, if_true]
        · rw [List.erase_append_right _ hn]
          simp
        · rw [erase_insertAfter_self hn]
        · rw [erase_insertBefore_self hn]
      · rcases ha with rfl | rfl | rfl <;> simp only [reorder, hg, if_false]
  | @destroy x a ha =>
    have hother : ∀ e, e ≠ x → own ((world h).apply a) e = own (world h) e := fun e he => own_other fun h1 => he (by
      cases a <;> simp [adjusts, subject] at ha h1 <;> exact h1.trans ha)
    have hlive : ((world h).apply a).live = (world h).live := by
      cases a <;> simp only [adjusts, Bool.false_eq_true] at ha
      · exact added_live
      · exact removed_live
      · exact assigned_live
      · rfl
      · rfl
    have hord : ∀ g, ((world h).apply a).order g = (world h).order g := by
      intro g
      rw [order_apply]
      cases a <;> simp only [adjusts, Bool.false_eq_true] at ha <;> rfl
    simp only [List.cons_append, List.nil_append, world]
    refine ⟨fun e => ?_, fun e t => ?_, fun e t ht => ?_, fun tag e => ?_, fun g => ?_⟩
    · show ((world h).live.erase x).count e = (((world h).apply a).live.erase x).count e
      rw [hlive]
    · show t ∈ at' (world h).types x [] e ↔ t ∈ at' ((world h).apply a).types x [] e
      by_cases he : e = x
      · simp [at', he]
      · simp only [at', he, if_false]
        rw [show ((world h).apply a).types e = (world h).types e from congrArg (·.1) (hother e he)]
    · have ht' : t ∈ at' ((world h).apply a).types x [] e := ht
      by_cases he : e = x
      · simp [at', he] at ht'
      · exact (congrFun (show ((world h).apply a).value e = (world h).value e from congrArg (·.2.1) (hother e he)) t).symm
    · show at' ((world h).tags tag) x false e = at' (((world h).apply a).tags tag) x false e
      by_cases he : e = x
      · simp [at', he]
      · simp only [at', he, if_false]
        exact (congrFun (show (fun tag => ((world h).apply a).tags tag e) = fun tag => (world h).tags tag e from
          congrArg (·.2.2.1) (hother e he)) tag).symm
    · show ((world h).order g).erase x = (((world h).apply a).order g).erase x
      rw [hord]

theorem akin_append {h h' : List Event} (k : List Event) (ha : Akin (world h) (world h')) : Akin (world (k ++ h)) (world (k ++ h')) := by
  induction k with
  | nil => exact ha
  | cons ev k ih => exact ih.apply ev

theorem Spec.Simplified.akin {h h' : List Event} (hs : Simplified h h') : Akin (world h) (world h') := by
  induction hs with
  | exchanged hx => exact hx.alike.akin
  | simpler k hs => exact akin_append k hs.akin
  | longer k hs => exact akin_append k hs.akin.symm
  | trans _ _ ih1 ih2 => exact ih1.trans ih2

end
end Ecs
