import Verif.Spec.Rebuild
import Verif.Props.BuildUp
import Verif.Props.Alloc
import Verif.Proofs.Crowd
import Mathlib.Data.List.Induction

/-! The programs of `Spec/Rebuild.lean` return, and what they make. -/

namespace Ecs
open Spec Props

section
variable {U : Universe} {dbg : Bool} {cap : Nat}

/-- After the entities `ents` were made. -/
structure Made (U : Universe) (dbg : Bool) (cap : Nat) (ents : List TupleVal) (h : List Event) : Prop where
  exec : ∃ s, SafeExec U dbg cap h s
  builds : BuildsUp h
  calls : entHistory h = firstCreations ents.length
  live : alive h = (List.range ents.length).reverse.map (⟨·, 1⟩)
  issued : handles h = (List.range ents.length).reverse.map (⟨·, 1⟩)
  types : ∀ i vals, ents[i]? = some vals → (world h).types ⟨i, 1⟩ = vals.map (·.1)
  value : ∀ i vals, ents[i]? = some vals → ∀ t bs, TupleVal.find vals t = some bs → (world h).value ⟨i, 1⟩ t = bs.map some
  tags : ∀ tag e, (world h).tags tag e = false
  order : ∀ g, (world h).order g = []

theorem made_nil (hcap : 0 < cap) : Made U dbg cap [] [] := by
  have : ∃ s, Store.withCapacity dbg cap = .ok s := by
    unfold Store.withCapacity
    simp [dassert, hcap]
  obtain ⟨s, hs⟩ := this
  exact ⟨⟨s, .init hs⟩, trivial, rfl, rfl, rfl, by simp, by simp, fun _ _ => rfl, fun _ => rfl⟩

theorem made_created {ents : List TupleVal} {h : List Event} (hm : Made U dbg cap ents h) (hn : ents.length + 1 < u32Size) :
    Made U dbg cap (ents ++ [[]]) (.created ⟨ents.length, 1⟩ :: h) := by
  obtain ⟨s, hx⟩ := hm.exec
  have hb : (handles h).length + 1 < u32Size := by rw [hm.issued]; simpa using hn
  obtain ⟨s', e, _, hd, hx'⟩ := ((C74_calls_return hx hm.builds).2 hb).1
  have he := (C57_handle_is_determined (well_loose hx.well) hb).1 s' e hd.1
  rw [hm.calls, nextHandle_first] at he
  subst he
  have hlen : (ents ++ [([] : TupleVal)]).length = ents.length + 1 := by simp
  have hother : ∀ i vals, (ents ++ [[]])[i]? = some vals →
      (i = ents.length ∧ vals = []) ∨ (i ≠ ents.length ∧ ents[i]? = some vals) := by
    intro i vals hi
    rw [List.getElem?_append] at hi
    split at hi
    · next hlt => exact .inr ⟨by omega, hi⟩
    · next hlt =>
      obtain ⟨h0, h1⟩ := List.getElem?_eq_some_iff.1 hi
      simp only [List.length_cons, List.length_nil] at h0
      have : i = ents.length := by omega
      subst this
      simp at h1
      exact .inl ⟨rfl, h1⟩
  refine ⟨⟨s', hx'⟩, hm.builds, ?_, ?_, ?_, ?_, ?_, ?_, ?_⟩
  · simp [entHistory, hm.calls, firstCreations]
  · simp [alive, hm.live, List.range_succ]
  · simp [handles, hm.issued, List.range_succ]
  · intro i vals hi
    rcases hother i vals hi with ⟨rfl, rfl⟩ | ⟨hne, hi⟩
    · simp [world, World.apply, World.birth, at']
    · simp [world, World.apply, World.birth, at', hne, hm.types i vals hi]
  · intro i vals hi t bs hf
    rcases hother i vals hi with ⟨rfl, rfl⟩ | ⟨hne, hi⟩
    · simp [TupleVal.find] at hf
    · exact hm.value i vals hi t bs hf
  · intro tag e
    simp only [world, World.apply, World.birth, at']
    split
    · rfl
    · exact hm.tags tag e
  · exact hm.order

theorem made_added {ents : List TupleVal} {h : List Event} (hm : Made U dbg cap (ents ++ [[]]) h) {vals : TupleVal} (hok : TupleOk U vals)
    (hne : vals ≠ []) (hw : Wide U dbg (vals.map (·.1))) : Made U dbg cap (ents ++ [vals]) (.added ⟨ents.length, 1⟩ vals :: h) := by
  obtain ⟨s, hx⟩ := hm.exec
  have hlen : (ents ++ [([] : TupleVal)]).length = (ents ++ [vals]).length := by simp
  have hlive : (⟨ents.length, 1⟩ : Entity) ∈ (world h).live := by
    rw [← alive_eq, hm.live]; simp
  have hissued : (⟨ents.length, 1⟩ : Entity) ∈ (world h).issued := by
    rw [← handles_eq, hm.issued]; simp
  have hty : (world h).types ⟨ents.length, 1⟩ = [] := hm.types ents.length [] (by simp)
  have hnot : ¬ ∀ p ∈ vals, p.1 ∈ (world h).types ⟨ents.length, 1⟩ := by
    rw [hty]
    intro hall
    cases vals with
    | nil => exact hne rfl
    | cons p vs => simpa using hall p List.mem_cons_self
  have hneeds : needs (world h) (.added ⟨ents.length, 1⟩ vals) = some (vals.map (·.1)) := by
    simp only [needs]
    rw [if_pos ⟨hlive, hnot⟩, hty]
    simp
  obtain ⟨s', _, hx'⟩ := (C74_calls_return hx hm.builds).1 (.added ⟨ents.length, 1⟩ vals) rfl ⟨hissued, hne, hok⟩ ⟨.inl hty, hm.builds⟩
    (fun T hT => by rw [hneeds] at hT; cases hT; exact hw)
  have hworld : world (.added ⟨ents.length, 1⟩ vals :: h) =
      { (world h).setTypes ⟨ents.length, 1⟩ (vals.map (·.1)) with
        value := at' (world h).value ⟨ents.length, 1⟩ (store vals ((world h).value ⟨ents.length, 1⟩)) } := by
    simp only [world, World.apply]
    rw [if_pos hlive, if_neg hnot, hty]
    simp
  have hother : ∀ i v, (ents ++ [vals])[i]? = some v →
      (i = ents.length ∧ v = vals) ∨ (i ≠ ents.length ∧ (ents ++ [([] : TupleVal)])[i]? = some v) := by
    intro i v hi
    rw [List.getElem?_append] at hi
    split at hi
    · next hlt => exact .inr ⟨by omega, by rw [List.getElem?_append_left hlt]; exact hi⟩
    · next hlt =>
      obtain ⟨h0, h1⟩ := List.getElem?_eq_some_iff.1 hi
      simp only [List.length_cons, List.length_nil] at h0
      have : i = ents.length := by omega
      subst this
      simp at h1
      exact .inl ⟨rfl, h1.symm⟩
  refine ⟨⟨s', hx'⟩, ⟨.inl hty, hm.builds⟩, ?_, ?_, ?_, ?_, ?_, ?_, ?_⟩
  · simp only [entHistory, hm.calls, hlen]
  · simp only [alive, hm.live, hlen]
  · simp only [handles, hm.issued, hlen]
  · intro i v hi
    rw [hworld]
    rcases hother i v hi with ⟨rfl, rfl⟩ | ⟨hni, hi⟩
    · simp [World.setTypes, at']
    · simp [World.setTypes, at', hni, hm.types i v hi]
  · intro i v hi t bs hf
    rw [hworld]
    rcases hother i v hi with ⟨rfl, rfl⟩ | ⟨hni, hi⟩
    · simp [at', store, hf]
    · simp [at', hni, hm.value i v hi t bs hf]
  · intro tag e
    rw [hworld]
    exact hm.tags tag e
  · intro g
    rw [hworld]
    exact hm.order g

/-- The first part of the program. -/
theorem made_all (hcap : 0 < cap) (ents : List TupleVal) (hn : ents.length < u32Size) (hok : ∀ vals ∈ ents, TupleOk U vals)
    (hw : ∀ vals ∈ ents, vals ≠ [] → Wide U dbg (vals.map (·.1))) :
    Made U dbg cap ents (ents.zipIdx.flatMap (fun x => makeEntity x.2 x.1)).reverse := by
  induction ents using List.reverseRecOn with
  | nil => exact made_nil hcap
  | append_singleton ents vals ih =>
    simp only [List.length_append, List.length_cons, List.length_nil] at hn
    have hm := ih (by omega) (fun v hv => hok v (by simp [hv])) (fun v hv => hw v (by simp [hv]))
    have h1 := made_created hm (by omega)
    rw [List.zipIdx_append, List.flatMap_append, List.reverse_append]
    simp only [List.zipIdx_cons, List.zipIdx_nil, List.flatMap_cons, List.flatMap_nil, List.append_nil, Nat.zero_add]
    by_cases hne : vals = []
    · subst hne
      simpa [makeEntity] using h1
    · have h2 := made_added h1 (hok vals (by simp)) hne (hw vals (by simp) hne)
      simpa [makeEntity, hne] using h2

/-- After the tags and the groups were made, too. -/
structure Marked (U : Universe) (dbg : Bool) (cap : Nat) (ents : List TupleVal) (ts os : List (Nat × Nat)) (h : List Event) : Prop where
  exec : ∃ s, SafeExec U dbg cap h s
  builds : BuildsUp h
  live : alive h = (List.range ents.length).reverse.map (⟨·, 1⟩)
  issued : handles h = (List.range ents.length).reverse.map (⟨·, 1⟩)
  types : ∀ i vals, ents[i]? = some vals → (world h).types ⟨i, 1⟩ = vals.map (·.1)
  value : ∀ i vals, ents[i]? = some vals → ∀ t bs, TupleVal.find vals t = some bs → (world h).value ⟨i, 1⟩ t = bs.map some
  tags : ∀ tag i, (world h).tags tag ⟨i, 1⟩ = decide ((tag, i) ∈ ts)
  order : ∀ g, (world h).order g = ((os.filter (·.1 = g)).map (·.2)).map (⟨·, 1⟩)

theorem marked_tags {ents : List TupleVal} {h : List Event} (hm : Made U dbg cap ents h) (tags : List (Nat × Nat))
    (ht : ∀ x ∈ tags, x.2 < ents.length) :
    Marked U dbg cap ents tags [] ((tags.map fun x => Event.tagged x.1 ⟨x.2, 1⟩).reverse ++ h) := by
  induction tags using List.reverseRecOn with
  | nil => exact ⟨hm.exec, hm.builds, hm.live, hm.issued, hm.types, hm.value, fun tag i => by simpa using hm.tags tag _, fun g => by simpa using hm.order g⟩
  | append_singleton tags x ih =>
    have h1 := ih fun y hy => ht y (by simp [hy])
    have hxl : x.2 < ents.length := ht x (by simp)
    simp only [List.map_append, List.map_cons, List.map_nil, List.reverse_append, List.reverse_cons, List.reverse_nil, List.nil_append,
      List.cons_append]
    generalize (tags.map fun x => Event.tagged x.1 ⟨x.2, 1⟩).reverse ++ h = h' at h1
    obtain ⟨s, hx⟩ := h1.exec
    have hlive : (⟨x.2, 1⟩ : Entity) ∈ (world h').live := by
      rw [← alive_eq, h1.live]; simpa using hxl
    obtain ⟨s', _, hx'⟩ := (C74_calls_return hx h1.builds).1 (.tagged x.1 ⟨x.2, 1⟩) rfl hlive h1.builds (fun T hT => by cases hT)
    refine ⟨⟨s', hx'⟩, h1.builds, h1.live, h1.issued, h1.types, h1.value, fun tag i => ?_, h1.order⟩
    have := h1.tags tag i
    simp only [world, World.apply, at', List.mem_append, List.mem_singleton]
    by_cases h2 : tag = x.1
    · by_cases h3 : i = x.2
      · simp [h2, h3]
      · have hne : (⟨i, 1⟩ : Entity) ≠ ⟨x.2, 1⟩ := fun h => h3 (Entity.mk.inj h).1
        rw [if_pos h2, ← h2]
        rw [show at' ((world h').tags tag) ⟨x.2, 1⟩ true ⟨i, 1⟩ = _ from if_neg hne, this, decide_eq_decide]
        simp [Prod.ext_iff, h3]
    · simp only [h2, if_false]
      rw [this, decide_eq_decide]
      simp [Prod.ext_iff, h2]

theorem marked_orders {ents : List TupleVal} {tags : List (Nat × Nat)} {h : List Event} (hm : Marked U dbg cap ents tags [] h)
    (orders : List (Nat × Nat)) (ht : ∀ x ∈ orders, x.2 < ents.length) (hn : orders.Nodup) :
    Marked U dbg cap ents tags orders ((orders.map fun x => Event.orderedLast x.1 ⟨x.2, 1⟩).reverse ++ h) := by
  induction orders using List.reverseRecOn with
  | nil => exact hm
  | append_singleton orders x ih =>
    rw [List.nodup_append] at hn
    have h1 := ih (fun y hy => ht y (by simp [hy])) hn.1
    have hxl : x.2 < ents.length := ht x (by simp)
    have hnx : x ∉ orders := fun hx => hn.2.2 x hx x (by simp) rfl
    simp only [List.map_append, List.map_cons, List.map_nil, List.reverse_append, List.reverse_cons, List.reverse_nil, List.nil_append,
      List.cons_append]
    generalize (orders.map fun x => Event.orderedLast x.1 ⟨x.2, 1⟩).reverse ++ h = h' at h1
    obtain ⟨s, hx⟩ := h1.exec
    have hlive : (⟨x.2, 1⟩ : Entity) ∈ (world h').live := by
      rw [← alive_eq, h1.live]; simpa using hxl
    have hnot : (⟨x.2, 1⟩ : Entity) ∉ (world h').order x.1 := by
      rw [h1.order]
      simp only [List.mem_map, List.mem_filter, decide_eq_true_eq]
      rintro ⟨i, ⟨y, ⟨hy, hy1⟩, rfl⟩, hy2⟩
      injection hy2 with hy2 _
      exact hnx (by rwa [Prod.ext hy1.symm hy2.symm])
    obtain ⟨s', _, hx'⟩ := (C74_calls_return hx h1.builds).1 (.orderedLast x.1 ⟨x.2, 1⟩) rfl ⟨hlive, hnot⟩ h1.builds (fun T hT => by cases hT)
    refine ⟨⟨s', hx'⟩, h1.builds, h1.live, h1.issued, h1.types, h1.value, h1.tags, fun g => ?_⟩
    simp only [world, World.apply, at', List.filter_append, List.map_append]
    by_cases h2 : g = x.1
    · subst h2
      simp [h1.order]
    · rw [if_neg h2, h1.order]
      simp [Ne.symm h2]

/-- The whole program. -/
theorem marked_all (hcap : 0 < cap) {p : Plan} (hp : p.Ok U dbg) : Marked U dbg cap p.ents p.tags p.orders p.program.reverse := by
  have h1 := made_all (U := U) (dbg := dbg) hcap p.ents hp.few hp.tuples hp.wide
  have h2 := marked_orders (marked_tags h1 p.tags hp.tagged) p.orders hp.ordered hp.once
  unfold Plan.program
  rw [List.reverse_append, List.reverse_append]
  exact h2

theorem follower_map_inj {α β : Type} [DecidableEq α] [DecidableEq β] {f : α → β} {l : List α} {x : α} (hinj : ∀ a ∈ l, f a = f x → a = x) :
    follower (l.map f) (f x) = (follower l x).map f := by
  induction l with
  | nil => rfl
  | cons a l ih =>
    simp only [List.map_cons, follower]
    by_cases hx : x = a
    · subst hx
      simp
    · rw [if_neg hx, if_neg fun h => hx (hinj a List.mem_cons_self h.symm).symm]
      exact ih fun b hb => hinj b (List.mem_cons_of_mem _ hb)

theorem preceder_map_inj {α β : Type} [DecidableEq α] [DecidableEq β] {f : α → β} {l : List α} {x : α} (hinj : ∀ a ∈ l, f a = f x → a = x) :
    preceder (l.map f) (f x) = (preceder l x).map f := by
  unfold preceder
  rw [← List.map_reverse]
  exact follower_map_inj fun a ha => hinj a (List.mem_reverse.1 ha)

theorem find_none {vals : TupleVal} {t : TypeId} : TupleVal.find vals t = none ↔ t ∉ vals.map (·.1) := by
  unfold TupleVal.find
  rw [Option.map_eq_none_iff, List.find?_eq_none]
  simp only [List.mem_map, not_exists, not_and, decide_eq_true_eq]

theorem Marked.get {ents : List TupleVal} {ts os : List (Nat × Nat)} {h : List Event} (hm : Marked U dbg cap ents ts os h) {i : Nat}
    {vals : TupleVal} (hi : ents[i]? = some vals) (t : TypeId) :
    (world h).get ⟨i, 1⟩ t = (TupleVal.find vals t).map (·.map some) := by
  have hlive : (⟨i, 1⟩ : Entity) ∈ (world h).live := by
    rw [← alive_eq, hm.live]
    have := (List.getElem?_eq_some_iff.1 hi).1
    simpa using this
  unfold World.get
  rw [hm.types i vals hi]
  cases hf : TupleVal.find vals t with
  | none => rw [if_neg fun hc => find_none.1 hf hc.2]; rfl
  | some bs =>
    rw [if_pos ⟨hlive, by by_contra hc; rw [find_none.2 hc] at hf; cases hf⟩, hm.value i vals hi t bs hf]
    rfl

theorem Marked.shown {p : Plan} {h : List Event} (hm : Marked U dbg cap p.ents p.tags p.orders h) {s : Store}
    (hx : SafeExec U dbg cap h s) : p.Shown U dbg s := by
  have ha := (exec_rel hx.exec).agrees
  have hlive : ∀ i < p.ents.length, (⟨i, 1⟩ : Entity) ∈ (world h).live := by
    intro i hi
    rw [← alive_eq, hm.live]
    simpa using hi
  have hissued : ∀ i < p.ents.length, (⟨i, 1⟩ : Entity) ∈ (world h).issued := by
    intro i hi
    rw [← handles_eq, hm.issued]
    simpa using hi
  have horder : ∀ g, (world h).order g = (p.members g).map (⟨·, 1⟩) := hm.order
  have hinj : ∀ (l : List Nat) (i : Nat), ∀ a ∈ l, (⟨a, 1⟩ : Entity) = ⟨i, 1⟩ → a = i := fun l i a _ h => (Entity.mk.inj h).1
  refine ⟨fun i hi => ?_, fun i vals hi ts hne => ?_, fun i vals hi => ?_, fun i hi tag => ?_, fun g => ?_, fun g => ?_, fun i hi g => ?_,
    fun i hi g => ?_⟩
  · rw [ha.alive _ (hissued i hi), decide_eq_true (hlive i hi)]
  · rw [ha.read _ (hissued i (List.getElem?_eq_some_iff.1 hi).1) ts hne, funext (hm.get hi)]
  · have hlt := (List.getElem?_eq_some_iff.1 hi).1
    have := ha.arch _ (hissued i hlt)
    rw [hm.types i vals hi] at this
    by_cases hne : vals = []
    · subst hne
      simpa using this
    · rw [if_neg hne]
      rwa [if_pos ⟨hlive i hlt, by simpa using hne⟩] at this
  · rw [ha.tag _ (hlive i hi), hm.tags]
  · rw [ha.first, horder, List.head?_map]
  · rw [ha.last, horder, List.getLast?_map]
  · rw [ha.next _ (hlive i hi), horder, follower_map_inj (hinj _ i)]
  · rw [ha.previous _ (hlive i hi), horder, preceder_map_inj (hinj _ i)]

/-! ### Saving -/

variable {h : List Event} {s : Store}

theorem tagNames_of {tag : Nat} {e : Entity} (ht : (world h).tags tag e = true) : tag ∈ tagNames h := by
  unfold tagNames
  rw [List.mem_dedup, List.mem_filterMap]
  induction h with
  | nil => cases ht
  | cons ev h ih =>
    have up : (world h).tags tag e = true → ∃ a ∈ ev :: h,
        (match a with | .tagged tag _ => some tag | _ => none : Option Nat) = some tag := fun h' => by
      obtain ⟨a, h1, h2⟩ := ih h'
      exact ⟨a, List.mem_cons_of_mem _ h1, h2⟩
    cases ev with
    | tagged tag' e' =>
      by_cases hc : tag = tag'
      · subst hc; exact ⟨_, List.mem_cons_self, rfl⟩
      · simp only [world, World.apply, at', if_neg hc] at ht
        exact up ht
    | untagged tag' e' =>
      simp only [world, World.apply, at'] at ht
      split at ht
      · next hc =>
        subst hc
        unfold at' at ht
        split at ht
        · cases ht
        · exact up ht
      · exact up ht
    | created e' =>
      simp only [world, World.apply, World.birth, at'] at ht
      split at ht
      · cases ht
      · exact up ht
    | createdWith e' ts init =>
      simp only [world, World.apply, World.birth, World.setTypes, at'] at ht
      split at ht
      · cases ht
      · exact up ht
    | destroyed e' =>
      simp only [world, World.apply, at'] at ht
      split at ht
      · cases ht
      · exact up ht
    | added e' vals =>
      refine up ?_
      simp only [world, World.apply, World.setTypes] at ht
      split at ht
      · split at ht <;> exact ht
      · exact ht
    | removed e' ts =>
      refine up ?_
      simp only [world, World.apply, World.setTypes] at ht
      split at ht <;> exact ht
    | assigned e' vals =>
      refine up ?_
      simp only [world, World.apply] at ht
      split at ht <;> exact ht
    | _ => exact up ht

theorem groupNames_of {g : Nat} (ht : (world h).order g ≠ []) : g ∈ groupNames h := by
  unfold groupNames
  rw [List.mem_dedup, List.mem_filterMap]
  induction h with
  | nil => exact absurd rfl ht
  | cons ev h ih =>
    have up : (world h).order g ≠ [] → ∃ a ∈ ev :: h,
        (match a with | .orderedLast g _ => some g | .orderedAfter g _ _ => some g | .orderedBefore g _ _ => some g | _ => none :
          Option Nat) = some g := fun h' => by
      obtain ⟨a, h1, h2⟩ := ih h'
      exact ⟨a, List.mem_cons_of_mem _ h1, h2⟩
    cases ev with
    | orderedLast g' e' =>
      by_cases hc : g = g'
      · subst hc; exact ⟨_, List.mem_cons_self, rfl⟩
      · simp only [world, World.apply, at', if_neg hc] at ht
        exact up ht
    | orderedAfter g' e' x =>
      by_cases hc : g = g'
      · subst hc; exact ⟨_, List.mem_cons_self, rfl⟩
      · simp only [world, World.apply, at', if_neg hc] at ht
        exact up ht
    | orderedBefore g' e' x =>
      by_cases hc : g = g'
      · subst hc; exact ⟨_, List.mem_cons_self, rfl⟩
      · simp only [world, World.apply, at', if_neg hc] at ht
        exact up ht
    | unordered g' e' =>
      simp only [world, World.apply, at'] at ht
      split at ht
      · next hc => subst hc; exact up fun h0 => ht (by rw [h0]; rfl)
      · exact up ht
    | destroyed e' =>
      simp only [world, World.apply] at ht
      exact up fun h0 => ht (by rw [h0]; rfl)
    | added e' vals =>
      refine up ?_
      simp only [world, World.apply, World.setTypes] at ht
      split at ht
      · split at ht <;> exact ht
      · exact ht
    | removed e' ts =>
      refine up ?_
      simp only [world, World.apply, World.setTypes] at ht
      split at ht <;> exact ht
    | assigned e' vals =>
      refine up ?_
      simp only [world, World.apply] at ht
      split at ht <;> exact ht
    | _ => exact up ht

theorem members_flat (o : Nat → List Entity) (k : Entity → Nat) (g : Nat) (L : List Nat) (hn : L.Nodup) :
    (((L.flatMap fun g' => (o g').map fun e => (g', k e)).filter (·.1 = g)).map (·.2)) = if g ∈ L then (o g).map k else [] := by
  induction L with
  | nil => rfl
  | cons g' L ih =>
    rw [List.nodup_cons] at hn
    rw [List.flatMap_cons, List.filter_append, List.map_append, ih hn.2]
    by_cases hc : g = g'
    · subst hc
      rw [if_neg hn.1, if_pos List.mem_cons_self, List.append_nil]
      induction o g with
      | nil => rfl
      | cons e l ih => simpa using ih
    · have : ((o g').map fun e => (g', k e)).filter (·.1 = g) = [] := by
        rw [List.filter_eq_nil_iff]
        intro x hx
        obtain ⟨e, _, rfl⟩ := List.mem_map.1 hx
        simpa using Ne.symm hc
      rw [this]
      simp [hc]

theorem saved_members (g : Nat) : (saved h).members g = ((world h).order g).map fun e => (alive h).idxOf e := by
  have := members_flat (fun g => (world h).order g) (fun e => (alive h).idxOf e) g (groupNames h) (List.nodup_dedup _)
  refine Eq.trans this ?_
  split
  · rfl
  · next hc =>
    by_cases h0 : (world h).order g = []
    · rw [h0]; rfl
    · exact absurd (groupNames_of h0) hc

theorem saved_tags {tag : Nat} {e : Entity} (he : e ∈ alive h) :
    decide ((tag, (alive h).idxOf e) ∈ (saved h).tags) = (world h).tags tag e := by
  have hget : (alive h)[(alive h).idxOf e]? = some e := by
    rw [List.getElem?_eq_getElem (List.idxOf_lt_length_of_mem he), List.getElem_idxOf]
  rw [Bool.eq_iff_iff, decide_eq_true_eq]
  unfold saved
  simp only [List.mem_flatMap, List.mem_map, List.mem_filter]
  constructor
  · rintro ⟨tag', _, ⟨x, i⟩, ⟨hx, ht⟩, heq⟩
    injection heq with h1 h2
    subst h1
    rw [List.mem_zipIdx_iff_getElem?] at hx
    dsimp only at hx h2 ht
    rw [h2, hget] at hx
    cases hx
    exact ht
  · intro ht
    exact ⟨tag, tagNames_of ht, (e, (alive h).idxOf e), ⟨by rw [List.mem_zipIdx_iff_getElem?]; exact hget, ht⟩, rfl⟩

theorem value_length (hx : Exec U dbg cap h s) {e : Entity} (he : e ∈ alive h) {t : TypeId} (ht : t ∈ (world h).types e) :
    ((world h).value e t).length = U.size t := by
  rw [alive_eq] at he
  obtain ⟨_, q, a, _, _, _, _, _, hv⟩ := (exec_rel hx).places.on e he (List.ne_nil_of_mem ht)
  have := hv t ht
  unfold Archs.val rowVal at this
  simp only [Option.bind_eq_some_iff, Option.map_eq_some_iff] at this
  obtain ⟨_, _, _, _, _, _, _, _, _, _, _, _, h1⟩ := this
  rw [← h1]
  simp [Page.cells]

theorem bytes_of {l : List Cell} (hl : ∀ c ∈ l, c ≠ none) : (l.filterMap id).map some = l := by
  induction l with
  | nil => rfl
  | cons c l ih =>
    cases c with
    | none => exact absurd rfl (hl none List.mem_cons_self)
    | some b =>
      exact congrArg (some b :: ·) (ih fun c hc => hl c (List.mem_cons_of_mem _ hc))

theorem rowsPerPage_dedup (T : List TypeId) : rowsPerPage U dbg T.dedup = rowsPerPage U dbg T := by
  unfold rowsPerPage
  rw [List.dedup_idem]

theorem alive_nodup' (hx : Exec U dbg cap h s) : (alive h).Nodup := by
  have := (List.nodup_append.1 (exec_rel hx).ents.nodup).1
  rw [alive_eq]
  exact List.Nodup.of_map _ this

theorem idx_inj {l : List Entity} {e e' : Entity} (he : e ∈ l) (h : l.idxOf e = l.idxOf e') : e = e' := (List.idxOf_inj he).1 h

theorem saved_ok {dbg' : Bool} (hx : Exec U dbg cap h s) (hv : AllWritten h)
    (hw : ∀ e ∈ alive h, (world h).types e ≠ [] → Wide U dbg' ((world h).types e)) : (saved h).Ok U dbg' := by
  have hr := exec_rel hx
  have hmem : ∀ g, ∀ e ∈ (world h).order g, e ∈ alive h := fun g e he => by rw [alive_eq]; exact hr.ordLive g e he
  refine ⟨?_, ?_, ?_, ?_, ?_, ?_⟩
  · have h1 := hr.ents.live_length
    have h2 := hr.ents.next_lt
    unfold saved
    rw [List.length_map, alive_eq]
    omega
  · intro vals hvals
    obtain ⟨e, he, rfl⟩ := List.mem_map.1 hvals
    refine ⟨?_, ?_⟩
    · rw [List.map_map]
      have : ((fun x : TypeId × List UInt8 => x.1) ∘ fun t => (t, ((world h).value e t).filterMap id)) = id := rfl
      rw [this, List.map_id]
      exact List.nodup_dedup _
    · intro p hp
      obtain ⟨t, ht, rfl⟩ := List.mem_map.1 hp
      rw [List.mem_dedup] at ht
      dsimp only
      rw [← value_length hx he ht]
      conv_rhs => rw [← bytes_of (hv e he t ht)]
      rw [List.length_map]
  · intro vals hvals hne
    obtain ⟨e, he, rfl⟩ := List.mem_map.1 hvals
    rw [List.map_map]
    have : ((fun x : TypeId × List UInt8 => x.1) ∘ fun t => (t, ((world h).value e t).filterMap id)) = id := rfl
    rw [this, List.map_id]
    obtain ⟨c, h1, h2⟩ := hw e he fun h0 => hne (by rw [h0]; rfl)
    exact ⟨c, by rw [rowsPerPage_dedup]; exact h1, h2⟩
  · intro x hx'
    obtain ⟨tag, _, h1⟩ := List.mem_flatMap.1 hx'
    obtain ⟨y, h2, rfl⟩ := List.mem_map.1 h1
    have := (List.mem_zipIdx_iff_getElem?.1 (List.mem_filter.1 h2).1)
    have := (List.getElem?_eq_some_iff.1 this).1
    simpa [saved] using this
  · intro x hx'
    obtain ⟨g, _, h1⟩ := List.mem_flatMap.1 hx'
    obtain ⟨e, h2, rfl⟩ := List.mem_map.1 h1
    have := List.idxOf_lt_length_of_mem (hmem g e h2)
    simpa [saved] using this
  · unfold saved
    rw [List.nodup_flatMap]
    refine ⟨fun g _ => ?_, ?_⟩
    · refine List.Nodup.map_on ?_ (hr.order_nodup g)
      intro e he e' _ heq
      injection heq with _ h2
      exact idx_inj (hmem g e he) h2
    · refine List.Pairwise.imp ?_ (List.nodup_dedup _)
      intro g g' hne x h1 h2
      obtain ⟨e, _, rfl⟩ := List.mem_map.1 h1
      obtain ⟨e', _, heq⟩ := List.mem_map.1 h2
      injection heq with h3 _
      exact hne h3.symm

theorem saved_arch {dbg' : Bool} {cap' : Nat} {h' : List Event} {s' : Store} (hx : Exec U dbg cap h s) (hx' : Exec U dbg' cap' h' s')
    {e e' : Entity} (he : e ∈ (world h).live) (he' : e' ∈ (world h').live)
    (ht : ∀ t, t ∈ (world h').types e' ↔ t ∈ (world h).types e) :
    s'.getEntityArchetype dbg' e' = s.getEntityArchetype dbg e := by
  have hr := exec_rel hx
  have hr' := exec_rel hx'
  have hnil : (world h').types e' = [] ↔ (world h).types e = [] := by
    simp only [List.eq_nil_iff_forall_not_mem, ht]
  by_cases hc : (world h).types e ≠ []
  · obtain ⟨a, h1, h2, h3⟩ := hr.getEntityArchetype_some he hc
    obtain ⟨b, h4, h5, h6⟩ := hr'.getEntityArchetype_some he' (by rwa [Ne, hnil])
    rw [h1, h4]
    congr 2
    exact h5.ext h2 (h5.incr.ext h2.incr fun t => by rw [h6 t, h3 t, ht])
  · rw [hr.getEntityArchetype_none (hr.ents.issued_id_lt (hr.ents.sub e he)) (fun h0 => hc h0.2),
      hr'.getEntityArchetype_none (hr'.ents.issued_id_lt (hr'.ents.sub e' he')) (fun h0 => hc (by rw [Ne, ← hnil]; exact h0.2))]

theorem saved_copied {dbg' : Bool} {cap' : Nat} {s' : Store} (hx : Exec U dbg cap h s) (hv : AllWritten h)
    (hm : Marked U dbg' cap' (saved h).ents (saved h).tags (saved h).orders (saved h).program.reverse)
    (hx' : SafeExec U dbg' cap' (saved h).program.reverse s') : Copied U dbg dbg' s s' (alive h) (restoredAs h) := by
  have hsh := hm.shown hx'
  have ha := (exec_rel hx).agrees
  have ha' := (exec_rel hx'.exec).agrees
  have hr := exec_rel hx
  have hmem : ∀ g, ∀ e ∈ (world h).order g, e ∈ alive h := fun g e he => by rw [alive_eq]; exact hr.ordLive g e he
  have hlive : ∀ e ∈ alive h, e ∈ (world h).live := fun e he => by rwa [alive_eq] at he
  have hissued : ∀ e ∈ alive h, e ∈ (world h).issued := fun e he => hr.ents.sub e (hlive e he)
  have hlt : ∀ e ∈ alive h, (alive h).idxOf e < (saved h).ents.length := by
    intro e he
    have := List.idxOf_lt_length_of_mem he
    simpa [saved] using this
  have hlive' : ∀ e ∈ alive h, restoredAs h e ∈ (world (saved h).program.reverse).live := by
    intro e he
    have := hlt e he
    rw [← alive_eq, hm.live]
    simp only [List.mem_map, List.mem_reverse, List.mem_range]
    exact ⟨_, this, rfl⟩
  have hent : ∀ e ∈ alive h, (saved h).ents[(alive h).idxOf e]? =
      some (((world h).types e).dedup.map fun t => (t, ((world h).value e t).filterMap id)) := by
    intro e he
    unfold saved
    rw [List.getElem?_map, List.getElem?_eq_getElem (List.idxOf_lt_length_of_mem he), List.getElem_idxOf]
    rfl
  have hget : ∀ e ∈ alive h, (world (saved h).program.reverse).get (restoredAs h e) = (world h).get e := by
    intro e he
    funext t
    refine (hm.get (hent e he) t).trans ?_
    unfold World.get
    by_cases ht : t ∈ (world h).types e
    · rw [if_pos ⟨hlive e he, ht⟩]
      have : ∀ T : List TypeId, t ∈ T → TupleVal.find (T.map fun t => (t, ((world h).value e t).filterMap id)) t =
          some (((world h).value e t).filterMap id) := by
        intro T hT
        unfold TupleVal.find
        induction T with
        | nil => cases hT
        | cons u T ih =>
          rw [List.map_cons, List.find?_cons]
          by_cases hu : u = t
          · subst hu; simp
          · simp only [hu, decide_false]
            exact ih (by rcases List.mem_cons.1 hT with rfl | h' <;> [exact absurd rfl hu; exact h'])
      rw [this _ (List.mem_dedup.2 ht), Option.map_some, bytes_of (hv e he t ht)]
    · rw [if_neg fun hc => ht hc.2, find_none.2, Option.map_none]
      rw [List.map_map]
      have : ((fun x : TypeId × List UInt8 => x.1) ∘ fun t => (t, ((world h).value e t).filterMap id)) = id := rfl
      rw [this, List.map_id, List.mem_dedup]
      exact ht
  have hord : ∀ g, (world (saved h).program.reverse).order g = ((world h).order g).map (restoredAs h) := by
    intro g
    have := saved_members (h := h) g
    rw [hm.order g]
    unfold Plan.members at this
    rw [this, List.map_map]
    rfl
  have hinj : ∀ e ∈ alive h, ∀ e', restoredAs h e = restoredAs h e' → e = e' := by
    intro e he e' heq
    exact idx_inj he (Entity.mk.inj heq).1
  refine ⟨fun e he e' _ => hinj e he e', fun e he => ?_, fun e he ts hne => ?_, fun e he => ?_, fun e he tag => ?_, fun g => ?_, fun g => ?_,
    fun e he g => ?_, fun e he g => ?_⟩
  · rw [ha.alive e (hissued e he), decide_eq_true (hlive e he)]
    exact hsh.alive _ (hlt e he)
  · rw [ha.read e (hissued e he) ts hne, ha'.read _ ((exec_rel hx'.exec).ents.sub _ (hlive' e he)) ts hne, hget e he]
  · refine saved_arch hx hx'.exec (hlive e he) (hlive' e he) fun t => ?_
    have := hm.types _ _ (hent e he)
    rw [show (world (saved h).program.reverse).types (restoredAs h e) = _ from this, List.map_map]
    have : ((fun x : TypeId × List UInt8 => x.1) ∘ fun t => (t, ((world h).value e t).filterMap id)) = id := rfl
    rw [this, List.map_id, List.mem_dedup]
  · rw [ha.tag e (hlive e he), ← saved_tags he]
    exact hsh.tag _ (hlt e he) tag
  · rw [ha.first, ha'.first, hord, List.head?_map]
    rfl
  · rw [ha.last, ha'.last, hord, List.getLast?_map]
    rfl
  · rw [ha.next e (hlive e he), ha'.next _ (hlive' e he), hord, follower_map_inj fun a hma heq => hinj a (hmem g a hma) e heq]
    rfl
  · rw [ha.previous e (hlive e he), ha'.previous _ (hlive' e he), hord, preceder_map_inj fun a hma heq => hinj a (hmem g a hma) e heq]
    rfl

end
end Ecs
