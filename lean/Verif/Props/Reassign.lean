import Verif.Proofs.Reassign
import Verif.Props.InOrder
import Verif.Props.Defects
import Verif.Spec.InOrder

/-! C109: assigning components again. -/

namespace Ecs.Props
open Spec

variable {U : Universe} {dbg : Bool} {cap : Nat} {h : List Event} {s s1 s2 : Store} {e e' : Entity} {vals vals' old : TupleVal}

/-! ### In every store -/

/-- **C109** Adding components that the entity has already is assigning to them, in any state of the memory, if no type is named
twice: the two calls return the same store, or end in the same way. -/
theorem C109_add_is_set {refs : List Ref} (hn : (typesOf vals).Nodup)
    (hr : s.getComponentsRefs U dbg e (typesOf vals) = .ok (some refs)) :
    s.addComponents U dbg e vals = (s.setComponents U dbg e vals).map (·.1) := add_is_set hn hr

theorem refs_setPages {pages : List Page} (hl : pages.length = s.archs.pages.length) (e : Entity) (ts : List TypeId)
    (o : Option (List Ref)) :
    (s.setPages pages).getComponentsRefs U dbg e ts = .ok o ↔ s.getComponentsRefs U dbg e ts = .ok o := by
  refine ⟨fun h => ?_, Store.getComponentsRefs_setPages hl e ts⟩
  exact Store.getComponentsRefs_setPages (s := s.setPages pages) (pages := s.archs.pages) hl.symm e ts h

theorem setPages_patch (s : Store) (xs : List (Ref × List UInt8)) :
    (s.setPages (patchAll xs s.archs.pages)).archs.pages.length = s.archs.pages.length := patchAll_length _ _

/-- **C109** An assignment leaves no trace once the same components (or more of the entity) are assigned to again, in any state of
the memory and even if types are named twice: the second assignment returns what it would have returned without the first. -/
theorem C109_overwrite (hv : Sized U vals) (hv' : Sized U vals') (hs : typesOf vals ⊆ typesOf vals')
    (h1 : s.setComponents U dbg e vals = .ok (s1, true)) (s2 : Store) :
    s1.setComponents U dbg e vals' = .ok (s2, true) ↔ s.setComponents U dbg e vals' = .ok (s2, true) := by
  obtain ⟨F, h2, h3, h4, rfl⟩ := set_refs h1
  rw [set_iff, set_iff]
  refine exists_congr fun refs => ?_
  rw [refs_setPages (patchAll_length _ _)]
  refine and_congr_right fun h5 => ?_
  have hl : (s.setPages (patchAll (vals.map fun x => (F x.1, x.2)) s.archs.pages)).archs.pages.length = s.archs.pages.length :=
    patchAll_length _ _
  rw [hl]
  refine and_congr_right fun h6 => ?_
  obtain ⟨F', -, -, h7⟩ := refs_function h2
  obtain ⟨F'', h8, -, h9⟩ := refs_function h5
  have hF : ∀ x ∈ vals, F x.1 = F'' x.1 := by
    intro x hx
    have h10 := (h9 _).1 _ h2
    rw [List.map_inj_left] at h10
    exact h10 _ (List.mem_map_of_mem hx)
  subst h8
  rw [zip_tuple] at h6 ⊢
  have key : patchAll (vals'.map fun x => (F'' x.1, x.2)) (patchAll (vals.map fun x => (F x.1, x.2)) s.archs.pages) =
      patchAll (vals'.map fun x => (F'' x.1, x.2)) s.archs.pages := by
    refine patchAll_overwrite ?_ ?_ ?_
    · intro x hx
      obtain ⟨y, hy, rfl⟩ := List.mem_map.1 hx
      exact (h4 y hy).1
    · intro x hx
      obtain ⟨y, hy, rfl⟩ := List.mem_map.1 hx
      obtain ⟨z, hz, h10⟩ := List.mem_map.1 (hs (List.mem_map_of_mem hy))
      refine ⟨_, List.mem_map_of_mem hz, ?_, ?_⟩
      · show F'' z.1 = F y.1
        rw [hF y hy]
        exact congrArg F'' h10
      · show z.2.length = y.2.length
        rw [hv' z hz, hv y hy]
        exact congrArg U.size h10
    · exact fun x hx => (h6 x hx).1
  show s2 = s.setPages _ ↔ s2 = s.setPages _
  rw [show (s.setPages (patchAll (vals.map fun x => (F x.1, x.2)) s.archs.pages)).archs.pages =
    patchAll (vals.map fun x => (F x.1, x.2)) s.archs.pages from rfl, key]

theorem mapM_ok_cons {α β : Type} {f : α → Res β} {a : α} {l : List α} {r : List β} (h : (a :: l).mapM f = .ok r) :
    ∃ b bs, r = b :: bs ∧ f a = .ok b ∧ l.mapM f = .ok bs := by
  rw [List.mapM_cons] at h
  obtain ⟨b, h1, h⟩ := bind_eq_ok.1 h
  obtain ⟨bs, h2, h⟩ := bind_eq_ok.1 h
  cases h
  exact ⟨b, bs, rfl, h1, h2⟩

theorem patchAll_read {F : TypeId → Ref} {pages : List Page} (vals : TupleVal)
    (h : ((vals.map (·.1)).map F).mapM (readRef pages) = .ok (vals.map fun x => x.2.map some)) :
    (∀ x ∈ vals, Lands pages.length (F x.1, x.2) ∧ x.2.length = (F x.1).size) ∧
      patchAll (vals.map fun x => (F x.1, x.2)) pages = pages := by
  induction vals with
  | nil => exact ⟨fun _ hx => absurd hx List.not_mem_nil, rfl⟩
  | cons x vals ih =>
    obtain ⟨b, bs, h1, h2, h3⟩ := mapM_ok_cons h
    cases h1
    obtain ⟨g1, g2, g3⟩ := patchRef_same h2
    obtain ⟨h4, h5⟩ := ih h3
    refine ⟨List.forall_mem_cons.2 ⟨⟨g1, g2⟩, h4⟩, ?_⟩
    show patchAll (vals.map fun x => (F x.1, x.2)) (patchRef pages (F x.1, x.2)) = pages
    rw [g3, h5]

theorem get_refs (hg : s.getComponents U dbg e (typesOf vals) = .ok (some (bytesOf vals))) :
    Sized U vals ∧ ∃ F : TypeId → Ref, s.getComponentsRefs U dbg e (typesOf vals) = .ok (some ((typesOf vals).map F)) ∧
      (∀ x ∈ vals, Lands s.archs.pages.length (F x.1, x.2)) ∧
      patchAll (vals.map fun x => (F x.1, x.2)) s.archs.pages = s.archs.pages := by
  unfold Store.getComponents at hg
  obtain ⟨o, h1, h2⟩ := bind_eq_ok.1 hg
  cases o with
  | none => cases h2
  | some refs =>
    obtain ⟨vs, h2, h3⟩ := bind_eq_ok.1 h2
    cases h3
    obtain ⟨F, rfl, h4, -⟩ := refs_function h1
    obtain ⟨h5, h6⟩ := patchAll_read vals h2
    exact ⟨fun x hx => (h5 x hx).2.trans (h4 _), F, h1, fun x hx => (h5 x hx).1, h6⟩

/-- **C109** Assigning to components the values they have changes nothing at all, in any state of the memory; nor does adding
components with the values they have. -/
theorem C109_same_values (hg : s.getComponents U dbg e (typesOf vals) = .ok (some (bytesOf vals))) :
    s.setComponents U dbg e vals = .ok (s, true) ∧ ((typesOf vals).Nodup → s.addComponents U dbg e vals = .ok s) := by
  obtain ⟨-, F, h1, h2, h3⟩ := get_refs hg
  have h4 := set_of_refs h1 h2
  rw [h3] at h4
  exact ⟨h4, fun hn => by rw [C109_add_is_set hn h1, h4]; rfl⟩

/-- **C109** Assigning the old values undoes assignments: if the components named by `old` have these values, then after any
assignment to some of these components, assigning `old` brings back the store as it was. -/
theorem C109_restore (hg : s.getComponents U dbg e (typesOf old) = .ok (some (bytesOf old))) (hv : Sized U vals)
    (hs : typesOf vals ⊆ typesOf old) (h1 : s.setComponents U dbg e vals = .ok (s1, true)) :
    s1.setComponents U dbg e old = .ok (s, true) :=
  (C109_overwrite hv (get_refs hg).1 hs h1 s).2 (C109_same_values hg).1

/-- **C109** Assigning to several components is assigning to them one after the other, in any state of the memory. -/
theorem C109_split {v w : TupleVal} (s2 : Store) : s.setComponents U dbg e (v ++ w) = .ok (s2, true) ↔
    ∃ s1, s.setComponents U dbg e v = .ok (s1, true) ∧ s1.setComponents U dbg e w = .ok (s2, true) := by
  constructor
  · intro h
    obtain ⟨F, h1, -, h3, rfl⟩ := set_refs h
    obtain ⟨G, h4, -, h5⟩ := refs_function h1
    have hF : ∀ t ∈ (v ++ w).map (·.1), F t = G t := List.map_inj_left.1 h4
    have key : ∀ u : TupleVal, (∀ x ∈ u, x ∈ v ++ w) →
        s.getComponentsRefs U dbg e (u.map (·.1)) = .ok (some ((u.map (·.1)).map F)) := by
      intro u hu
      have hu' : ∀ t ∈ u.map (·.1), t ∈ (v ++ w).map (·.1) := by
        intro t ht
        obtain ⟨x, hx, rfl⟩ := List.mem_map.1 ht
        exact List.mem_map_of_mem (hu x hx)
      rw [(h5 _).2.1 hu', List.map_congr_left (g := G) fun t ht => hF t (hu' t ht)]
    refine ⟨_, set_of_refs (key v fun x => List.mem_append_left _) fun x hx => h3 x (List.mem_append_left _ hx), ?_⟩
    rw [set_of_refs (F := F) ((refs_setPages (patchAll_length _ _) ..).2 (key w fun x => List.mem_append_right _))]
    · rw [List.map_append]
      unfold patchAll
      rw [List.foldl_append]
      rfl
    · intro x hx
      rw [setPages_patch]
      exact h3 x (List.mem_append_right _ hx)
  · rintro ⟨s1, h1, h2⟩
    obtain ⟨F, g1, -, g3, rfl⟩ := set_refs h1
    obtain ⟨G, k1, -, k3, rfl⟩ := set_refs h2
    rw [refs_setPages (patchAll_length _ _)] at k1
    rw [setPages_patch] at k3
    obtain ⟨H, h4, -, h5⟩ := refs_function g1
    have hF : ∀ t ∈ v.map (·.1), F t = H t := List.map_inj_left.1 h4
    have hG : ∀ t ∈ w.map (·.1), G t = H t := List.map_inj_left.1 ((h5 _).1 _ k1)
    have h6 := (h5 _).2.2 _ k1
    rw [← List.map_append] at h6
    have eF : (v.map fun x => (F x.1, x.2)) = v.map fun x => (H x.1, x.2) :=
      List.map_congr_left fun x hx => by rw [hF _ (List.mem_map_of_mem hx)]
    have eG : (w.map fun x => (G x.1, x.2)) = w.map fun x => (H x.1, x.2) :=
      List.map_congr_left fun x hx => by rw [hG _ (List.mem_map_of_mem hx)]
    rw [set_of_refs h6, List.map_append, ← eF, ← eG]
    · unfold patchAll
      rw [List.foldl_append]
      rfl
    · intro x hx
      rcases List.mem_append.1 hx with hx | hx
      · rw [← hF _ (List.mem_map_of_mem hx)]; exact g3 x hx
      · rw [← hG _ (List.mem_map_of_mem hx)]; exact k3 x hx

/-! ### As long as no page is overfull -/

theorem apart_refs (hx : LooseExec U dbg cap h s) (hd : DistinctAdds h) (hf : RowsFit s) (he : e ∈ handles h) (he' : e' ∈ handles h)
    {F F' : TypeId → Ref} {ts ts' : List TypeId} (h1 : s.getComponentsRefs U dbg e ts = .ok (some (ts.map F)))
    (h2 : s.getComponentsRefs U dbg e' ts' = .ok (some (ts'.map F'))) {t t' : TypeId} (ht : t ∈ ts) (ht' : t' ∈ ts')
    (hne : e ≠ e' ∨ t ≠ t') : Apart (F t) (F' t') := by
  obtain ⟨i, hi, rfl⟩ := List.getElem_of_mem ht
  obtain ⟨j, hj, rfl⟩ := List.getElem_of_mem ht'
  exact C71_refs_apart hx hd hf he he' h1 h2 (List.getElem?_eq_getElem hi) (List.getElem?_eq_getElem hj)
    (by rw [List.getElem?_map, List.getElem?_eq_getElem hi]; rfl) (by rw [List.getElem?_map, List.getElem?_eq_getElem hj]; rfl) hne

/-- **C109** The order in which the components are named does not matter: as long as no page is overfull, assigning to the same
distinct components in another order leaves the same store. -/
theorem C109_order (hx : LooseExec U dbg cap h s) (hd : DistinctAdds h) (hf : RowsFit s) (he : e ∈ handles h) (hv : TupleOk U vals)
    (hp : vals.Perm vals') : s.setComponents U dbg e vals = s.setComponents U dbg e vals' := by
  have hi : e ∈ (world h).issued := by rw [← handles_eq]; exact he
  have hpt : (typesOf vals).Perm (typesOf vals') := hp.map _
  obtain ⟨o, h1, h2⟩ := (loose_get hx hi).2 (typesOf vals)
  obtain ⟨o', h3, h4⟩ := (loose_get hx hi).2 (typesOf vals')
  have ho : o.isSome = o'.isSome := by
    rw [Bool.eq_iff_iff, h2, h4]
    refine and_congr_right fun _ => exists_congr fun a => and_congr_right fun _ => ?_
    exact ⟨fun hh t ht => hh t (hpt.mem_iff.2 ht), fun hh t ht => hh t (hpt.mem_iff.1 ht)⟩
  cases o with
  | none =>
    cases o' with
    | some _ => cases ho
    | none => rw [set_false_iff.2 ⟨h1, rfl⟩, set_false_iff.2 ⟨h3, rfl⟩]
  | some refs =>
    cases o' with
    | none => cases ho
    | some refs' =>
      obtain ⟨F, rfl, k1, k2⟩ := refs_function h1
      obtain rfl := (k2 _).1 _ h3
      have hpl := C71_refs_in_page hx hd he h1
      rw [List.forall₂_map_right_iff, List.forall₂_same] at hpl
      have hl : ∀ x ∈ vals, Lands s.archs.pages.length (F x.1, x.2) := by
        intro x hxm
        obtain ⟨m1, m2, -, m3⟩ := hpl x.1 (List.mem_map_of_mem hxm)
        refine ⟨m1, ?_⟩
        show (F x.1).off + x.2.length ≤ PAGE_SIZE
        rw [hv.2 x hxm, ← m2]
        exact m3 hf
      rw [set_of_refs h1 hl, set_of_refs h3 fun x hxm => hl x (hp.mem_iff.2 hxm)]
      congr 3
      unfold patchAll
      refine List.Perm.foldl_eq' (hp.map _) ?_ _
      intro x hxm y hym pages
      obtain ⟨x, hxm', rfl⟩ := List.mem_map.1 hxm
      obtain ⟨y, hym', rfl⟩ := List.mem_map.1 hym
      by_cases hxy : x.1 = y.1
      · rw [List.inj_on_of_nodup_map hv.1 hxm' hym' hxy]
      · exact patchRef_comm _ ((hv.2 x hxm').trans (k1 _).symm) ((hv.2 y hym').trans (k1 _).symm)
          (apart_refs hx hd hf he he h1 h1 (List.mem_map_of_mem hxm') (List.mem_map_of_mem hym') (.inr hxy))

/-- **C109** Assignments to components of different entities, or to different components of one entity, can be exchanged as long
as no page is overfull: they leave the same store in either order. -/
theorem C109_commute (hx : LooseExec U dbg cap h s) (hd : DistinctAdds h) (hf : RowsFit s) (he : e ∈ handles h) (he' : e' ∈ handles h)
    (hv : Sized U vals) (hv' : Sized U vals') (hne : e ≠ e' ∨ ∀ t ∈ typesOf vals, t ∉ typesOf vals') {b b' : Bool}
    (h1 : s.setComponents U dbg e vals = .ok (s1, b)) (h2 : s1.setComponents U dbg e' vals' = .ok (s2, b')) :
    ∃ s1', s.setComponents U dbg e' vals' = .ok (s1', b') ∧ s1'.setComponents U dbg e vals = .ok (s2, b) := by
  cases b with
  | false =>
    obtain ⟨h3, rfl⟩ := set_false_iff.1 h1
    refine ⟨s2, h2, ?_⟩
    cases b' with
    | false =>
      obtain ⟨h4, rfl⟩ := set_false_iff.1 h2
      exact h1
    | true =>
      obtain ⟨F, k1, k2, k3, rfl⟩ := set_refs h2
      exact set_false_iff.2 ⟨(refs_setPages (patchAll_length _ _) ..).2 h3, rfl⟩
  | true =>
    obtain ⟨F, g1, g2, g3, rfl⟩ := set_refs h1
    cases b' with
    | false =>
      obtain ⟨h4, rfl⟩ := set_false_iff.1 h2
      rw [refs_setPages (patchAll_length _ _)] at h4
      exact ⟨s, set_false_iff.2 ⟨h4, rfl⟩, h1⟩
    | true =>
      obtain ⟨G, k1, k2, k3, rfl⟩ := set_refs h2
      rw [refs_setPages (patchAll_length _ _)] at k1
      rw [setPages_patch] at k3
      refine ⟨_, set_of_refs k1 k3, ?_⟩
      rw [set_of_refs (F := F) ((refs_setPages (patchAll_length _ _) ..).2 g1)]
      · show Except.ok (s.setPages _, true) = Except.ok (s.setPages _, true)
        rw [show (s.setPages (patchAll (vals.map fun x => (F x.1, x.2)) s.archs.pages)).archs.pages =
            patchAll (vals.map fun x => (F x.1, x.2)) s.archs.pages from rfl,
          show (s.setPages (patchAll (vals'.map fun x => (G x.1, x.2)) s.archs.pages)).archs.pages =
            patchAll (vals'.map fun x => (G x.1, x.2)) s.archs.pages from rfl, patchAll_comm]
        · intro x hx'
          obtain ⟨y, hy, rfl⟩ := List.mem_map.1 hx'
          exact (hv y hy).trans (g2 _).symm
        · intro x hx'
          obtain ⟨y, hy, rfl⟩ := List.mem_map.1 hx'
          exact (hv' y hy).trans (k2 _).symm
        · intro x hx' z hz'
          obtain ⟨y, hy, rfl⟩ := List.mem_map.1 hx'
          obtain ⟨w, hw, rfl⟩ := List.mem_map.1 hz'
          refine apart_refs hx hd hf he he' g1 k1 (List.mem_map_of_mem hy) (List.mem_map_of_mem hw) (hne.imp id fun hh => ?_)
          exact fun h0 => hh y.1 (List.mem_map_of_mem hy) (h0 ▸ List.mem_map_of_mem hw)
      · intro x hx'
        rw [setPages_patch]
        exact g3 x hx'

/-! ### Where the conditions are needed -/

/-- A single entity with one component. -/
def single : List Event := [.added ⟨0, 1⟩ [(1, [5])], .created ⟨0, 1⟩]

/-- **C109**: a type must not be named twice. An entity has the component 1 with the value 5. Assigning 6 and then 7 to it by one
tuple gives it the value 7. Adding the same tuple does not: the value is lost, and the component keeps the value 5. (The tuple has
more types than the entity, so the entity is moved to a new row of its own archetype, from which the last step of the move takes
it back to the old one; the values go to the new row.) -/
theorem C109_named_twice : ∃ s s1 s2, LooseExec demo true 1 single s ∧
    s.setComponents demo true ⟨0, 1⟩ [(1, [6]), (1, [7])] = .ok (s1, true) ∧
    s1.getComponents demo true ⟨0, 1⟩ [1] = .ok (some [[some 7]]) ∧
    s.addComponents demo true ⟨0, 1⟩ [(1, [6]), (1, [7])] = .ok s2 ∧
    s2.getComponents demo true ⟨0, 1⟩ [1] = .ok (some [[some 5]]) := by
  have h : ((runLoose demo true 1 single).any fun s =>
      (okAnd (s.setComponents demo true ⟨0, 1⟩ [(1, [6]), (1, [7])]) fun r => r.2 &&
        decide (r.1.getComponents demo true ⟨0, 1⟩ [1] = .ok (some [[some 7]]))) &&
      okAnd (s.addComponents demo true ⟨0, 1⟩ [(1, [6]), (1, [7])]) fun s2 =>
        decide (s2.getComponents demo true ⟨0, 1⟩ [1] = .ok (some [[some 5]]))) = true := by decide +kernel
  obtain ⟨s, hs, h⟩ := any_some h
  obtain ⟨h1, h2⟩ := Bool.and_eq_true_iff.1 h
  obtain ⟨⟨s1, b⟩, g1, h1⟩ := okAnd_iff h1
  obtain ⟨rfl, h1⟩ := Bool.and_eq_true_iff.1 h1
  obtain ⟨s2, g2, h2⟩ := okAnd_iff h2
  exact ⟨s, s1, s2, runLoose_sound hs, g1, of_decide_eq_true h1, g2, of_decide_eq_true h2⟩

/-- **C109**: no page must be overfull. In the state of C20, where the rows of two entities overlap, assignments to components of
different entities do not commute. -/
theorem C109_overfull : ∃ s s1 s2 t1 t2, WellExec demo true 1 overfull s ∧
    s.setComponents demo true ⟨1, 1⟩ [(4, [7])] = .ok (s1, true) ∧ s1.setComponents demo true ⟨0, 1⟩ [(5, [8])] = .ok (s2, true) ∧
    s.setComponents demo true ⟨0, 1⟩ [(5, [8])] = .ok (t1, true) ∧ t1.setComponents demo true ⟨1, 1⟩ [(4, [7])] = .ok (t2, true) ∧
    s2.getComponents demo true ⟨0, 1⟩ [5] = .ok (some [[some 8]]) ∧ t2.getComponents demo true ⟨0, 1⟩ [5] = .ok (some [[some 7]]) := by
  have h : ((runWell demo true 1 overfull).any fun s =>
      (okAnd (s.setComponents demo true ⟨1, 1⟩ [(4, [7])]) fun r => r.2 &&
        okAnd (r.1.setComponents demo true ⟨0, 1⟩ [(5, [8])]) fun r => r.2 &&
          decide (r.1.getComponents demo true ⟨0, 1⟩ [5] = .ok (some [[some 8]]))) &&
      (okAnd (s.setComponents demo true ⟨0, 1⟩ [(5, [8])]) fun r => r.2 &&
        okAnd (r.1.setComponents demo true ⟨1, 1⟩ [(4, [7])]) fun r => r.2 &&
          decide (r.1.getComponents demo true ⟨0, 1⟩ [5] = .ok (some [[some 7]])))) = true := by decide +kernel
  obtain ⟨s, hs, h⟩ := any_some h
  obtain ⟨h1, h2⟩ := Bool.and_eq_true_iff.1 h
  obtain ⟨⟨s1, b⟩, g1, h1⟩ := okAnd_iff h1
  obtain ⟨rfl, h1⟩ := Bool.and_eq_true_iff.1 h1
  obtain ⟨⟨s2, b⟩, g2, h1⟩ := okAnd_iff h1
  obtain ⟨rfl, h1⟩ := Bool.and_eq_true_iff.1 h1
  obtain ⟨⟨t1, b⟩, k1, h2⟩ := okAnd_iff h2
  obtain ⟨rfl, h2⟩ := Bool.and_eq_true_iff.1 h2
  obtain ⟨⟨t2, b⟩, k2, h2⟩ := okAnd_iff h2
  obtain ⟨rfl, h2⟩ := Bool.and_eq_true_iff.1 h2
  exact ⟨s, s1, s2, t1, t2, runWell_sound hs, g1, g2, k1, k2, of_decide_eq_true h1, of_decide_eq_true h2⟩

/-! ### The hypotheses are met -/

/-- Two entities with two components each. -/
def pair : List Event :=
  [.added ⟨1, 1⟩ [(2, [1, 2, 3, 4]), (1, [6])], .created ⟨1, 1⟩, .added ⟨0, 1⟩ [(1, [5]), (2, [9, 9, 9, 9])], .created ⟨0, 1⟩]

/-- The values of C109_same_values, C109_restore and C109_overwrite, and the same tuple in another order. -/
example : ∃ s s1, LooseExec demo true 1 pair s ∧ RowsFit s ∧
    s.getComponents demo true ⟨0, 1⟩ (typesOf [(1, [5]), (2, [9, 9, 9, 9])]) = .ok (some (bytesOf [(1, [5]), (2, [9, 9, 9, 9])])) ∧
    s.setComponents demo true ⟨0, 1⟩ [(2, [1, 1, 1, 1])] = .ok (s1, true) ∧
    s1.getComponents demo true ⟨0, 1⟩ [1, 2] = .ok (some [[some 5], [some 1, some 1, some 1, some 1]]) ∧
    s1.setComponents demo true ⟨0, 1⟩ [(1, [5]), (2, [9, 9, 9, 9])] = .ok (s, true) ∧
    s1.setComponents demo true ⟨0, 1⟩ [(2, [9, 9, 9, 9]), (1, [5])] = .ok (s, true) ∧
    s1.addComponents demo true ⟨0, 1⟩ [(2, [9, 9, 9, 9]), (1, [5])] = .ok s := by
  have h : ((runLoose demo true 1 pair).any fun s => decide (RowsFit s) &&
      (decide (s.getComponents demo true ⟨0, 1⟩ (typesOf [(1, [5]), (2, [9, 9, 9, 9])]) =
        .ok (some (bytesOf [(1, [5]), (2, [9, 9, 9, 9])]))) &&
      okAnd (s.setComponents demo true ⟨0, 1⟩ [(2, [1, 1, 1, 1])]) fun r => r.2 &&
        decide (r.1.getComponents demo true ⟨0, 1⟩ [1, 2] = .ok (some [[some 5], [some 1, some 1, some 1, some 1]])))) = true := by
    decide +kernel
  obtain ⟨s, hs, h⟩ := any_some h
  obtain ⟨h1, h2⟩ := Bool.and_eq_true_iff.1 h
  obtain ⟨h2, h3⟩ := Bool.and_eq_true_iff.1 h2
  obtain ⟨⟨s1, b⟩, g1, h3⟩ := okAnd_iff h3
  obtain ⟨rfl, h3⟩ := Bool.and_eq_true_iff.1 h3
  have hx := runLoose_sound hs
  have hg := of_decide_eq_true h2
  have hf := of_decide_eq_true h1
  have k1 := C109_restore (vals := [(2, [1, 1, 1, 1])]) hg (by decide) (by decide) g1
  have hx1 : LooseExec demo true 1 (.assigned ⟨0, 1⟩ [(2, [1, 1, 1, 1])] :: pair) s1 := .step _ hx trivial ⟨true, g1⟩
  have hd : DistinctAdds (.assigned ⟨0, 1⟩ [(2, [1, 1, 1, 1])] :: pair) := by
    intro e vals hm
    simp only [pair, List.mem_cons, List.not_mem_nil, or_false, reduceCtorEq, false_or, Event.added.injEq] at hm
    rcases hm with ⟨-, rfl⟩ | ⟨-, rfl⟩ <;> decide
  have hf1 : RowsFit s1 := by
    have h' : ((runLoose demo true 1 (.assigned ⟨0, 1⟩ [(2, [1, 1, 1, 1])] :: pair)).any fun s => decide (RowsFit s)) = true := by
      decide +kernel
    obtain ⟨s', hs', h'⟩ := any_some h'
    have : runLoose demo true 1 (.assigned ⟨0, 1⟩ [(2, [1, 1, 1, 1])] :: pair) = some s1 := by
      show (match runLoose demo true 1 pair with
        | some s => if Loose (world pair) (.assigned ⟨0, 1⟩ [(2, [1, 1, 1, 1])]) then
            perform demo true s (.assigned ⟨0, 1⟩ [(2, [1, 1, 1, 1])]) else none
        | none => none) = some s1
      rw [hs]
      show (if True then (s.setComponents demo true ⟨0, 1⟩ [(2, [1, 1, 1, 1])]).toOption.map (·.1) else none) = some s1
      rw [if_pos trivial, g1]
      rfl
    rw [this] at hs'
    cases hs'
    exact of_decide_eq_true h'
  have k2 := C109_order hx1 hd hf1 (e := ⟨0, 1⟩) (vals := [(1, [5]), (2, [9, 9, 9, 9])]) (vals' := [(2, [9, 9, 9, 9]), (1, [5])])
    (by decide) (by decide) (.swap ..)
  rw [k1] at k2
  refine ⟨s, s1, hx, hf, hg, g1, of_decide_eq_true h3, k1, k2.symm, ?_⟩
  obtain ⟨F, m1, -⟩ := set_refs k2.symm
  rw [C109_add_is_set (by decide) m1, ← k2]
  rfl

/-- Assignments of C109_commute. -/
example : ∃ s s1 s2 t1, LooseExec demo true 1 pair s ∧ s.setComponents demo true ⟨0, 1⟩ [(1, [0])] = .ok (s1, true) ∧
    s1.setComponents demo true ⟨1, 1⟩ [(1, [3])] = .ok (s2, true) ∧ s.setComponents demo true ⟨1, 1⟩ [(1, [3])] = .ok (t1, true) ∧
    t1.setComponents demo true ⟨0, 1⟩ [(1, [0])] = .ok (s2, true) ∧
    s2.getComponents demo true ⟨0, 1⟩ [1] = .ok (some [[some 0]]) := by
  have h : ((runLoose demo true 1 pair).any fun s => decide (RowsFit s) &&
      okAnd (s.setComponents demo true ⟨0, 1⟩ [(1, [0])]) fun r => r.2 &&
        okAnd (r.1.setComponents demo true ⟨1, 1⟩ [(1, [3])]) fun r => r.2 &&
          decide (r.1.getComponents demo true ⟨0, 1⟩ [1] = .ok (some [[some 0]]))) = true := by decide +kernel
  obtain ⟨s, hs, h⟩ := any_some h
  obtain ⟨hf, h⟩ := Bool.and_eq_true_iff.1 h
  obtain ⟨⟨s1, b⟩, g1, h⟩ := okAnd_iff h
  obtain ⟨rfl, h⟩ := Bool.and_eq_true_iff.1 h
  obtain ⟨⟨s2, b⟩, g2, h⟩ := okAnd_iff h
  obtain ⟨rfl, h⟩ := Bool.and_eq_true_iff.1 h
  have hd : DistinctAdds pair := by
    intro e vals hm
    simp only [pair, List.mem_cons, List.not_mem_nil, or_false, reduceCtorEq, false_or, Event.added.injEq] at hm
    rcases hm with ⟨-, rfl⟩ | ⟨-, rfl⟩ <;> decide
  obtain ⟨t1, k1, k2⟩ := C109_commute (runLoose_sound hs) hd (of_decide_eq_true hf) (by decide) (by decide) (by decide) (by decide)
    (.inl (by decide)) g1 g2
  exact ⟨s, s1, s2, t1, runLoose_sound hs, g1, g2, k1, k2, of_decide_eq_true h⟩

end Ecs.Props
