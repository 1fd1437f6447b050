import Verif.Spec.Future
import Verif.Proofs.Rebuild

/-! Two worlds that are the same up to the handles stay so. -/

namespace Ecs
open Spec

section
variable {f : Entity → Entity} {w w' : World}

/-- The worlds are the same up to the handles of the live entities. -/
structure Twin (f : Entity → Entity) (w w' : World) : Prop where
  inj : ∀ e ∈ w.live, ∀ e' ∈ w.live, f e = f e' → e = e'
  live : ∀ x, x ∈ w'.live ↔ ∃ e ∈ w.live, x = f e
  types : ∀ e ∈ w.live, ∀ t, t ∈ w'.types (f e) ↔ t ∈ w.types e
  value : ∀ e ∈ w.live, ∀ t ∈ w.types e, w'.value (f e) t = w.value e t
  tags : ∀ e ∈ w.live, ∀ tag, w'.tags tag (f e) = w.tags tag e
  order : ∀ g, w'.order g = (w.order g).map f

/-- What holds of the worlds of executions. -/
structure Orderly (w : World) : Prop where
  nodup : w.live.Nodup
  ordLive : ∀ g, ∀ e ∈ w.order g, e ∈ w.live

theorem insertAfter_map_inj {l : List Entity} {x y : Entity} (hinj : ∀ a ∈ l, f a = f x → a = x) :
    insertAfter (f x) (f y) (l.map f) = (insertAfter x y l).map f := by
  induction l with
  | nil => rfl
  | cons a l ih =>
    simp only [List.map_cons, insertAfter]
    by_cases hx : a = x
    · subst hx; simp
    · rw [if_neg hx, if_neg fun h => hx (hinj a List.mem_cons_self h), ih fun b hb => hinj b (List.mem_cons_of_mem _ hb)]
      rfl

theorem insertBefore_map_inj {l : List Entity} {x y : Entity} (hinj : ∀ a ∈ l, f a = f x → a = x) :
    insertBefore (f x) (f y) (l.map f) = (insertBefore x y l).map f := by
  induction l with
  | nil => rfl
  | cons a l ih =>
    simp only [List.map_cons, insertBefore]
    by_cases hx : a = x
    · subst hx; simp
    · rw [if_neg hx, if_neg fun h => hx (hinj a List.mem_cons_self h), ih fun b hb => hinj b (List.mem_cons_of_mem _ hb)]
      rfl

theorem erase_map_inj {l : List Entity} {x : Entity} (hinj : ∀ a ∈ l, f a = f x → a = x) :
    (l.map f).erase (f x) = (l.erase x).map f := by
  induction l with
  | nil => rfl
  | cons a l ih =>
    rw [List.map_cons]
    by_cases hx : a = x
    · subst hx; simp
    · rw [List.erase_cons_tail (by simpa using fun h => hx (hinj a List.mem_cons_self h)), List.erase_cons_tail (by simpa using hx),
        ih fun b hb => hinj b (List.mem_cons_of_mem _ hb)]
      rfl

namespace Twin

theorem mem (h : Twin f w w') {e : Entity} (he : e ∈ w.live) : f e ∈ w'.live := (h.live _).2 ⟨e, he, rfl⟩

theorem all_iff (h : Twin f w w') {e : Entity} (he : e ∈ w.live) (vals : TupleVal) :
    (∀ p ∈ vals, p.1 ∈ w'.types (f e)) ↔ ∀ p ∈ vals, p.1 ∈ w.types e :=
  ⟨fun h' p hp => (h.types e he _).1 (h' p hp), fun h' p hp => (h.types e he _).2 (h' p hp)⟩

/-- Only types and values of one entity change. -/
theorem change (h : Twin f w w') {e : Entity} (he : e ∈ w.live) {v v' : World} {T T' : List TypeId} {V V' : TypeId → List Cell}
    (h1 : v.live = w.live) (h1' : v'.live = w'.live) (h2 : v.types = at' w.types e T) (h2' : v'.types = at' w'.types (f e) T')
    (h3 : v.value = at' w.value e V) (h3' : v'.value = at' w'.value (f e) V') (h4 : v.tags = w.tags) (h4' : v'.tags = w'.tags)
    (h5 : v.order = w.order) (h5' : v'.order = w'.order) (hT : ∀ t, t ∈ T' ↔ t ∈ T) (hV : ∀ t ∈ T, V' t = V t) : Twin f v v' := by
  refine ⟨by rw [h1]; exact h.inj, by rw [h1, h1']; exact h.live, ?_, ?_, by rw [h1, h4, h4']; exact h.tags, by rw [h5, h5']; exact h.order⟩
  · rw [h1, h2, h2']
    intro a ha t
    unfold at'
    by_cases hc : a = e
    · subst hc; simpa using hT t
    · rw [if_neg hc, if_neg fun h' => hc (h.inj a ha e he h')]
      exact h.types a ha t
  · rw [h1, h2, h3, h3']
    intro a ha t
    unfold at'
    by_cases hc : a = e
    · subst hc; simpa using hV t
    · rw [if_neg hc, if_neg hc, if_neg fun h' => hc (h.inj a ha e he h')]
      exact h.value a ha t

theorem at_self {α β : Type} [DecidableEq α] (g : α → β) (x : α) : at' g x (g x) = g := by
  funext y
  unfold at'
  split
  · next h => rw [h]
  · rfl

/-- A call made for a live entity. -/
theorem step (h : Twin f w w') (ho : Orderly w) (ho' : Orderly w') {ev : Event} (hc : isCreation ev = false) (he : subject ev ∈ w.live)
    (hx : ∀ g e x, ev = .orderedAfter g e x ∨ ev = .orderedBefore g e x → x ∈ w.live) :
    Twin f (w.apply ev) (w'.apply (withHandles f ev)) := by
  have hin : ∀ g x, x ∈ w.live → ∀ a ∈ w.order g, f a = f x → a = x := fun g x hx' a ha => h.inj a (ho.ordLive g a ha) x hx'
  have hord : ∀ (g : Nat) (F F' : List Entity → List Entity), (F' ((w.order g).map f) = (F (w.order g)).map f) →
      ∀ g', at' w'.order g (F' (w'.order g)) g' = (at' w.order g (F (w.order g)) g').map f := by
    intro g F F' hF g'
    unfold at'
    by_cases hg : g' = g
    · subst hg
      rw [if_pos rfl, if_pos rfl, h.order, hF]
    · rw [if_neg hg, if_neg hg, h.order]
  have htag : ∀ (tag : Nat) (x : Entity) (b : Bool), x ∈ w.live → ∀ e ∈ w.live, ∀ tag',
      at' w'.tags tag (at' (w'.tags tag) (f x) b) tag' (f e) = at' w.tags tag (at' (w.tags tag) x b) tag' e := by
    intro tag x b hx' e he' tag'
    unfold at'
    by_cases h1 : tag' = tag
    · subst h1
      rw [if_pos rfl, if_pos rfl]
      by_cases h2 : e = x
      · subst h2; simp
      · rw [if_neg h2, if_neg fun h' => h2 (h.inj e he' x hx' h')]
        exact h.tags e he' tag'
    · rw [if_neg h1, if_neg h1]
      exact h.tags e he' tag'
  cases ev with
  | created e => cases hc
  | createdWith e ts init => cases hc
  | destroyed e =>
    replace he : e ∈ w.live := he
    have hsub : ∀ a ∈ w.live.erase e, a ∈ w.live := fun a ha => List.mem_of_mem_erase ha
    have hne : ∀ a ∈ w.live.erase e, f a ≠ f e := fun a ha hf =>
      ((List.Nodup.mem_erase_iff ho.nodup).1 ha).1 (h.inj a (hsub a ha) e he hf)
    have hne' : ∀ a ∈ w.live.erase e, a ≠ e := fun a ha => ((List.Nodup.mem_erase_iff ho.nodup).1 ha).1
    refine ⟨fun a ha b hb => h.inj a (hsub a ha) b (hsub b hb), fun x => ?_, fun a ha t => ?_, fun a ha t ht => ?_, fun a ha tag => ?_, fun g => ?_⟩
    · show x ∈ w'.live.erase (f e) ↔ ∃ a ∈ w.live.erase e, x = f a
      rw [List.Nodup.mem_erase_iff ho'.nodup, h.live]
      constructor
      · rintro ⟨h1, a, ha, rfl⟩
        exact ⟨a, (List.Nodup.mem_erase_iff ho.nodup).2 ⟨fun h0 => h1 (by rw [h0]), ha⟩, rfl⟩
      · rintro ⟨a, ha, rfl⟩
        exact ⟨hne a ha, a, hsub a ha, rfl⟩
    · show t ∈ at' w'.types (f e) [] (f a) ↔ t ∈ at' w.types e [] a
      unfold at'
      rw [if_neg (hne a ha), if_neg (hne' a ha)]
      exact h.types a (hsub a ha) t
    · replace ht : t ∈ at' w.types e [] a := ht
      unfold at' at ht
      rw [if_neg (hne' a ha)] at ht
      exact h.value a (hsub a ha) t ht
    · show at' (w'.tags tag) (f e) false (f a) = at' (w.tags tag) e false a
      unfold at'
      rw [if_neg (hne a ha), if_neg (hne' a ha)]
      exact h.tags a (hsub a ha) tag
    · show (w'.order g).erase (f e) = ((w.order g).erase e).map f
      rw [h.order, erase_map_inj (hin g e he)]
  | added e vals =>
    replace he : e ∈ w.live := he
    have hst : ∀ t, (t ∈ w.types e ∨ t ∈ vals.map (·.1)) → store vals (w'.value (f e)) t = store vals (w.value e) t := by
      intro t ht
      unfold store
      cases hf : TupleVal.find vals t with
      | some bs => rfl
      | none =>
        rcases ht with ht | ht
        · exact h.value e he t ht
        · exact absurd ht (find_none.1 hf)
    simp only [withHandles, World.apply]
    rw [if_pos he, if_pos (h.mem he)]
    by_cases hall : ∀ p ∈ vals, p.1 ∈ w.types e
    · rw [if_pos hall, if_pos ((h.all_iff he vals).2 hall)]
      exact h.change he (T := w.types e) (T' := w'.types (f e)) rfl rfl (at_self _ _).symm (at_self _ _).symm rfl rfl rfl rfl rfl rfl
        (h.types e he) fun t ht => hst t (.inl ht)
    · rw [if_neg hall, if_neg fun h' => hall ((h.all_iff he vals).1 h')]
      refine h.change he (T := w.types e ++ (vals.map (·.1)).filter (· ∉ w.types e))
        (T' := w'.types (f e) ++ (vals.map (·.1)).filter (· ∉ w'.types (f e))) rfl rfl rfl rfl rfl rfl rfl rfl rfl rfl ?_ ?_
      · intro t
        simp only [List.mem_append, List.mem_filter, decide_eq_true_eq, h.types e he]
      · intro t ht
        rcases List.mem_append.1 ht with ht | ht
        · exact hst t (.inl ht)
        · exact hst t (.inr (List.mem_filter.1 ht).1)
  | removed e ts =>
    replace he : e ∈ w.live := he
    simp only [withHandles, World.apply]
    rw [if_pos he, if_pos (h.mem he)]
    refine h.change he (T := (w.types e).filter (· ∉ ts)) (T' := (w'.types (f e)).filter (· ∉ ts)) rfl rfl rfl rfl (at_self _ _).symm
      (at_self _ _).symm rfl rfl rfl rfl ?_ ?_
    · intro t
      simp only [List.mem_filter, h.types e he]
    · intro t ht
      exact h.value e he t (List.mem_filter.1 ht).1
  | assigned e vals =>
    replace he : e ∈ w.live := he
    simp only [withHandles, World.apply]
    by_cases hall : ∀ p ∈ vals, p.1 ∈ w.types e
    · rw [if_pos ⟨he, hall⟩, if_pos ⟨h.mem he, (h.all_iff he vals).2 hall⟩]
      refine h.change he (T := w.types e) (T' := w'.types (f e)) rfl rfl (at_self _ _).symm (at_self _ _).symm rfl rfl rfl rfl rfl rfl
        (h.types e he) fun t ht => ?_
      unfold store
      cases TupleVal.find vals t with
      | some bs => rfl
      | none => exact h.value e he t ht
    · rw [if_neg fun h' => hall h'.2, if_neg fun h' => hall ((h.all_iff he vals).1 h'.2)]
      exact h
  | tagged tag e => exact ⟨h.inj, h.live, h.types, h.value, htag tag e true he, h.order⟩
  | untagged tag e => exact ⟨h.inj, h.live, h.types, h.value, htag tag e false he, h.order⟩
  | orderedLast g e =>
    exact ⟨h.inj, h.live, h.types, h.value, h.tags, hord g (· ++ [e]) (· ++ [f e]) (by simp)⟩
  | orderedAfter g e x =>
    exact ⟨h.inj, h.live, h.types, h.value, h.tags, hord g (insertAfter x e) (insertAfter (f x) (f e))
      (insertAfter_map_inj (hin g x (hx g e x (.inl rfl))))⟩
  | orderedBefore g e x =>
    exact ⟨h.inj, h.live, h.types, h.value, h.tags, hord g (insertBefore x e) (insertBefore (f x) (f e))
      (insertBefore_map_inj (hin g x (hx g e x (.inr rfl))))⟩
  | unordered g e =>
    exact ⟨h.inj, h.live, h.types, h.value, h.tags, hord g (·.erase e) (·.erase (f e)) (erase_map_inj (hin g e he))⟩

/-- A new entity on both sides. -/
theorem birth (h : Twin f w w') (ho : Orderly w) {e e' : Entity} (he : e ∉ w.live) (he' : e' ∉ w'.live) :
    Twin (at' f e e') (w.birth e) (w'.birth e') := by
  have old : ∀ a ∈ w.live, at' f e e' a = f a := fun a ha => if_neg fun h0 : a = e => he (h0 ▸ ha)
  have new : at' f e e' e = e' := if_pos rfl
  have hne : ∀ a ∈ w.live, a ≠ e := fun a ha h0 => he (h0 ▸ ha)
  have hne' : ∀ a ∈ w.live, f a ≠ e' := fun a ha h0 => he' (h0 ▸ h.mem ha)
  have cases' : ∀ a ∈ (w.birth e).live, a = e ∨ a ∈ w.live := fun a ha => List.mem_cons.1 ha
  refine ⟨fun a ha b hb hab => ?_, fun x => ?_, fun a ha t => ?_, fun a ha t ht => ?_, fun a ha tag => ?_, fun g => ?_⟩
  · rcases cases' a ha with h1 | h1 <;> rcases cases' b hb with h2 | h2
    · rw [h1, h2]
    · rw [h1, new, old b h2] at hab; exact absurd hab.symm (hne' b h2)
    · rw [h2, new, old a h1] at hab; exact absurd hab (hne' a h1)
    · rw [old a h1, old b h2] at hab; exact h.inj a h1 b h2 hab
  · show x ∈ e' :: w'.live ↔ ∃ a ∈ e :: w.live, x = at' f e e' a
    rw [List.mem_cons, h.live]
    constructor
    · rintro (rfl | ⟨a, ha, rfl⟩)
      · exact ⟨e, List.mem_cons_self, new.symm⟩
      · exact ⟨a, List.mem_cons_of_mem _ ha, (old a ha).symm⟩
    · rintro ⟨a, ha, rfl⟩
      rcases List.mem_cons.1 ha with rfl | ha
      · exact .inl new
      · exact .inr ⟨a, ha, old a ha⟩
  · show t ∈ at' w'.types e' [] (at' f e e' a) ↔ t ∈ at' w.types e [] a
    rcases cases' a ha with rfl | ha
    · rw [new]; simp [at']
    · rw [old a ha, show at' w'.types e' [] (f a) = _ from if_neg (hne' a ha), show at' w.types e [] a = _ from if_neg (hne a ha)]
      exact h.types a ha t
  · replace ht : t ∈ at' w.types e [] a := ht
    rcases cases' a ha with rfl | ha
    · simp [at'] at ht
    · rw [show at' w.types e [] a = _ from if_neg (hne a ha)] at ht
      rw [old a ha]
      exact h.value a ha t ht
  · show at' (w'.tags tag) e' false (at' f e e' a) = at' (w.tags tag) e false a
    rcases cases' a ha with rfl | ha
    · rw [new]; simp [at']
    · rw [old a ha, show at' (w'.tags tag) e' false (f a) = _ from if_neg (hne' a ha), show at' (w.tags tag) e false a = _ from if_neg (hne a ha)]
      exact h.tags a ha tag
  · show w'.order g = (w.order g).map (at' f e e')
    rw [h.order]
    exact List.map_congr_left fun a ha => (old a (ho.ordLive g a ha)).symm

theorem birthWith (h : Twin f w w') (ho : Orderly w) {e e' : Entity} (he : e ∉ w.live) (he' : e' ∉ w'.live) (ts : List TypeId)
    (init : TypeId → List Cell) : Twin (at' f e e') (w.apply (.createdWith e ts init)) (w'.apply (.createdWith e' ts init)) := by
  have hb := h.birth ho he he'
  have new : at' f e e' e = e' := if_pos rfl
  refine hb.change (e := e) (T := ts) (T' := ts) (V := init) (V' := init) List.mem_cons_self rfl rfl rfl ?_ rfl ?_ rfl rfl rfl rfl
    (fun _ => Iff.rfl) fun _ _ => rfl
  · rw [new]; rfl
  · rw [new]; rfl

/-- What is allowed for a live entity depends only on what the worlds have in common. -/
theorem allowed {U : Universe} (h : Twin f w w') (ho : Orderly w) (hsub : ∀ e ∈ w'.live, e ∈ w'.issued) {ev : Event}
    (hc : isCreation ev = false) (he : subject ev ∈ w.live) (ha : Allowed U w ev) : Allowed U w' (withHandles f ev) := by
  have hnot : ∀ g, ∀ e ∈ w.live, e ∉ w.order g → f e ∉ w'.order g := by
    intro g e he' hn hf
    rw [h.order, List.mem_map] at hf
    obtain ⟨a, ha', hfa⟩ := hf
    exact hn (h.inj a (ho.ordLive g a ha') e he' hfa ▸ ha')
  have hin : ∀ g x, x ∈ w.order g → f x ∈ w'.order g := fun g x hx => by rw [h.order]; exact List.mem_map_of_mem hx
  cases ev with
  | created e => cases hc
  | createdWith e ts init => cases hc
  | destroyed e => exact h.mem he
  | added e vals => exact ⟨hsub _ (h.mem he), ha.2⟩
  | removed e ts =>
    refine ⟨hsub _ (h.mem he), fun _ hne => ?_⟩
    obtain ⟨t, ht⟩ := List.exists_mem_of_ne_nil _ hne
    have ht' := (h.types e he t).1 ht
    obtain ⟨u, hu, hu'⟩ := ha.2 he (List.ne_nil_of_mem ht')
    exact ⟨u, (h.types e he u).2 hu, hu'⟩
  | assigned e vals => exact ⟨hsub _ (h.mem he), ha.2⟩
  | tagged tag e => exact h.mem he
  | untagged tag e => exact h.mem he
  | orderedLast g e => exact ⟨h.mem he, hnot g e he ha.2⟩
  | orderedAfter g e x => exact ⟨h.mem he, hnot g e he ha.2.1, hin g x ha.2.2⟩
  | orderedBefore g e x => exact ⟨h.mem he, hnot g e he ha.2.1, hin g x ha.2.2⟩
  | unordered g e => exact h.mem he

theorem needs_none (h : Twin f w w') {ev : Event} (he : subject ev ∈ w.live) (hc : isCreation ev = false) (hn : needs w ev = none) :
    needs w' (withHandles f ev) = none := by
  cases ev with
  | createdWith e ts init => cases hc
  | added e vals =>
    replace he : e ∈ w.live := he
    simp only [withHandles, needs] at hn ⊢
    rw [if_neg]
    rintro ⟨_, h2⟩
    rw [if_pos ⟨he, fun h3 => h2 ((h.all_iff he vals).2 h3)⟩] at hn
    cases hn
  | removed e ts =>
    replace he : e ∈ w.live := he
    simp only [withHandles, needs] at hn ⊢
    rw [if_neg]
    rintro ⟨_, h2⟩
    obtain ⟨t, ht⟩ := List.exists_mem_of_ne_nil _ h2
    rw [if_pos ⟨he, List.ne_nil_of_mem ((h.types e he t).1 ht)⟩] at hn
    cases hn
  | _ => rfl

end Twin

end

section
variable {U : Universe} {dbg dbg' : Bool} {cap cap' : Nat} {h h' : List Event} {s s' : Store} {f f' : Entity → Entity}

theorem exec_orderly (hx : Exec U dbg cap h s) : Orderly (world h) :=
  ⟨by rw [← alive_eq]; exact alive_nodup' hx, (exec_rel hx).ordLive⟩

theorem exec_tail {ev : Event} (hx : Exec U dbg cap (ev :: h) s) : ∃ s0, Exec U dbg cap h s0 ∧ Allowed U (world h) ev := by
  cases hx with
  | step _ h1 h2 _ _ => exact ⟨_, h1, h2⟩

theorem follows_twin {k k' : List Event} (hk : Follows f k k' h f') (ht : Twin f (world h) (world h')) :
    ∀ {s s' : Store}, Exec U dbg cap (k ++ h) s → Exec U dbg' cap' (k' ++ h') s' → Twin f' (world (k ++ h)) (world (k' ++ h')) := by
  induction hk with
  | start => exact fun _ _ => ht
  | @call k k' h f' ev hk hc he ih =>
    intro s s' hx hx'
    obtain ⟨s0, h1, ha⟩ := exec_tail hx
    obtain ⟨s0', h1', _⟩ := exec_tail hx'
    have hin := ih ht h1 h1'
    rw [alive_eq] at he
    refine hin.step (exec_orderly h1) (exec_orderly h1') hc he ?_
    rintro g e x (rfl | rfl)
    · exact (exec_orderly h1).ordLive g x ha.2.2
    · exact (exec_orderly h1).ordLive g x ha.2.2
  | @created k k' h f' e e' hk ih =>
    intro s s' hx hx'
    obtain ⟨s0, h1, _⟩ := exec_tail hx
    obtain ⟨s0', h1', _⟩ := exec_tail hx'
    have hn := (exec_orderly hx).nodup
    have hn' := (exec_orderly hx').nodup
    exact (ih ht h1 h1').birth (exec_orderly h1) (List.nodup_cons.1 hn).1 (List.nodup_cons.1 hn').1
  | @createdWith k k' h f' e e' ts init hk ih =>
    intro s s' hx hx'
    obtain ⟨s0, h1, _⟩ := exec_tail hx
    obtain ⟨s0', h1', _⟩ := exec_tail hx'
    have hn := (exec_orderly hx).nodup
    have hn' := (exec_orderly hx').nodup
    exact (ih ht h1 h1').birthWith (exec_orderly h1) (List.nodup_cons.1 hn).1 (List.nodup_cons.1 hn').1 ts init

/-- A sequence is determined by its first element and the neighbours. -/
theorem list_of_neighbours {l l' : List Entity} (hn : l.Nodup) (hinj : ∀ a ∈ l, ∀ b ∈ l, f a = f b → a = b) (hh : l'.head? = l.head?.map f)
    (hf : ∀ e ∈ l, follower l' (f e) = (follower l e).map f) : l' = l.map f := by
  induction l generalizing l' with
  | nil =>
    cases l' with
    | nil => rfl
    | cons b l' => cases hh
  | cons a l ih =>
    cases l' with
    | nil => cases hh
    | cons b l' =>
      have hb : b = f a := by simpa using hh
      subst hb
      rw [List.nodup_cons] at hn
      have h1 := hf a List.mem_cons_self
      simp only [follower, if_true] at h1
      rw [List.map_cons, ih hn.2 (fun x hx y hy => hinj x (List.mem_cons_of_mem _ hx) y (List.mem_cons_of_mem _ hy)) h1]
      intro e he
      have hne : e ≠ a := fun h0 => hn.1 (h0 ▸ he)
      have h2 := hf e (List.mem_cons_of_mem _ he)
      simp only [follower] at h2
      rwa [if_neg hne, if_neg fun h0 => hne (hinj e (List.mem_cons_of_mem _ he) a List.mem_cons_self h0)] at h2

theorem get_of_read {w w' : World} {e e' : Entity} {t : TypeId} (h : [t].mapM (w'.get e') = [t].mapM (w.get e)) : w'.get e' t = w.get e t := by
  simp only [List.mapM_cons, List.mapM_nil] at h
  cases h1 : w'.get e' t <;> cases h2 : w.get e t <;> rw [h1, h2] at h <;> simp at h ⊢
  exact h

theorem copied_twin (hx : Exec U dbg cap h s) (hx' : Exec U dbg' cap' h' s') (hc : Copied U dbg dbg' s s' (alive h) f)
    (ho : ∀ x, x ∈ alive h' ↔ ∃ e ∈ alive h, x = f e) : Twin f (world h) (world h') := by
  have hr := exec_rel hx
  have hr' := exec_rel hx'
  have ha := hr.agrees
  have ha' := hr'.agrees
  rw [alive_eq] at hc ho
  simp only [alive_eq] at ho
  have hm : ∀ e ∈ (world h).live, f e ∈ (world h').live := fun e he => (ho _).2 ⟨e, he, rfl⟩
  have hget : ∀ e ∈ (world h).live, ∀ t, (world h').get (f e) t = (world h).get e t := by
    intro e he t
    have := hc.read e he [t] (by simp)
    rw [ha.read e (hr.ents.sub e he) _ (by simp), ha'.read _ (hr'.ents.sub _ (hm e he)) _ (by simp)] at this
    exact get_of_read (Except.ok.inj this)
  have htypes : ∀ e ∈ (world h).live, ∀ t, t ∈ (world h').types (f e) ↔ t ∈ (world h).types e := by
    intro e he t
    have := hget e he t
    unfold World.get at this
    simp only [he, hm e he, true_and] at this
    constructor <;> intro ht <;> by_contra hn <;> simp [ht, hn] at this
  refine ⟨hc.apart, ho, htypes, fun e he t ht => ?_, fun e he tag => ?_, fun g => ?_⟩
  · have := hget e he t
    unfold World.get at this
    rw [if_pos ⟨hm e he, (htypes e he t).2 ht⟩, if_pos ⟨he, ht⟩] at this
    exact Option.some.inj this
  · have := hc.tag e he tag
    rw [ha.tag e he, ha'.tag _ (hm e he)] at this
    exact Except.ok.inj this
  · have hin := hr.ordLive g
    refine list_of_neighbours (hr.order_nodup g) (fun a ha b hb => hc.apart a (hin a ha) b (hin b hb)) ?_ fun e he => ?_
    · have := hc.first g
      rw [ha.first, ha'.first] at this
      exact Except.ok.inj this
    · have := hc.next e (hin e he) g
      rw [ha.next e (hin e he), ha'.next _ (hm e (hin e he))] at this
      exact Except.ok.inj this

theorem twin_copied (hx : Exec U dbg cap h s) (hx' : Exec U dbg' cap' h' s') (ht : Twin f (world h) (world h')) :
    Copied U dbg dbg' s s' (alive h) f ∧ ∀ x, x ∈ alive h' ↔ ∃ e ∈ alive h, x = f e := by
  have hr := exec_rel hx
  have hr' := exec_rel hx'
  have ha := hr.agrees
  have ha' := hr'.agrees
  have hord : ∀ g, ∀ e ∈ (world h).live, ∀ a ∈ (world h).order g, f a = f e → a = e := fun g e he a hma =>
    ht.inj a (hr.ordLive g a hma) e he
  rw [alive_eq]
  refine ⟨⟨ht.inj, fun e he => ?_, fun e he ts hne => ?_, fun e he => ?_, fun e he tag => ?_, fun g => ?_, fun g => ?_, fun e he g => ?_,
    fun e he g => ?_⟩, by simp only [alive_eq]; exact ht.live⟩
  · rw [ha.alive e (hr.ents.sub e he), ha'.alive _ (hr'.ents.sub _ (ht.mem he)), decide_eq_true he, decide_eq_true (ht.mem he)]
  · rw [ha.read e (hr.ents.sub e he) ts hne, ha'.read _ (hr'.ents.sub _ (ht.mem he)) ts hne]
    congr 2
    funext t
    unfold World.get
    by_cases h1 : t ∈ (world h).types e
    · rw [if_pos ⟨ht.mem he, (ht.types e he t).2 h1⟩, if_pos ⟨he, h1⟩, ht.value e he t h1]
    · rw [if_neg fun h2 => h1 ((ht.types e he t).1 h2.2), if_neg fun h2 => h1 h2.2]
  · exact saved_arch hx hx' he (ht.mem he) (ht.types e he)
  · rw [ha.tag e he, ha'.tag _ (ht.mem he), ht.tags e he]
  · rw [ha.first, ha'.first, ht.order, List.head?_map]; rfl
  · rw [ha.last, ha'.last, ht.order, List.getLast?_map]; rfl
  · rw [ha.next e he, ha'.next _ (ht.mem he), ht.order, follower_map_inj (hord g e he)]; rfl
  · rw [ha.previous e he, ha'.previous _ (ht.mem he), ht.order, preceder_map_inj (hord g e he)]; rfl

end
end Ecs
