import Verif.Proofs.PanicExact
import Verif.Proofs.QueryRows
import Verif.Proofs.QueryComp
import Verif.Spec.Healthy

/-! Where the references handed out by the store point to, in every state reached by calls that returned. -/

namespace Ecs
open Spec

theorem getRefs_at {U : Universe} {ts offs : List Nat} {a : Archetype} {l : Layout} {p n : Nat}
    (hf : List.Forall₂ (fun t o => ∃ k : Nat, a.ids[k]? = some t ∧ l.offsets[k]? = some o) ts offs) :
    List.Forall₂ (fun t (r : Ref) => ∃ k o : Nat, a.ids[k]? = some t ∧ l.offsets[k]? = some o ∧
      r = ⟨p, o + n * U.size t, U.size t⟩) ts (getRefs U p n ts offs) := by
  induction hf with
  | nil => exact .nil
  | @cons t o ts offs h0 _ ih =>
    obtain ⟨k, h1, h2⟩ := h0
    exact .cons ⟨k, o, h1, h2, rfl⟩ ih

section
variable {U : Universe} {dbg : Bool} {cap : Nat} {h : List Event} {s : Store}

/-- The row behind references. -/
theorem loose_refs (hx : LooseExec U dbg cap h s) (hd : DistinctAdds h) {e : Entity} (he : e ∈ handles h) {ts : List TypeId}
    {rs : List Ref} (hr : s.getComponentsRefs U dbg e ts = .ok (some rs)) :
    e ∈ alive h ∧ ∃ q ai a l pg, s.archs.row q = some e.id ∧ s.archs.pageToArch[q.page]? = some ai ∧
      s.archs.layouts[ai]? = some l ∧ s.archs.archetypes[ai]? = some a ∧ s.archs.pages[q.page]? = some pg ∧
      pg.ids.items[q.index]? = some e.id ∧ a.WF U ∧ l.Good U a ∧
      List.Forall₂ (fun t (r : Ref) => ∃ k o : Nat, a.ids[k]? = some t ∧ l.offsets[k]? = some o ∧
        r = ⟨q.page, o + q.index * U.size t, U.size t⟩) ts rs := by
  rw [handles_eq] at he
  obtain ⟨⟨o, ho, hos⟩, hts⟩ := loose_get hx he
  obtain ⟨o', ho', hos'⟩ := hts ts
  rw [hr] at ho'
  cases ho'
  obtain ⟨hal, a, ha, hsub⟩ := hos'.1 rfl
  rw [ho] at ha
  cases ha
  obtain ⟨_, hbit⟩ := hos.1 rfl
  rw [← alive_eq] at hal
  have hg : e ∈ given h := ((given_bit hx).2 e hal).1 hbit
  obtain ⟨q, ai, ps, a', l, k1, k2, k3, k4, k5, k6, k7, k8, k9⟩ := loose_place hx hal hg
  rw [ho] at k8
  cases k8
  obtain ⟨offs, m1, m2⟩ := k9 ts hsub
  rw [hr] at m2
  cases m2
  have hk := loose_known hx hd
  have hw := hk.wf a (List.mem_of_getElem? k6)
  have hgood := Layout.good_of_new hw (hk.lay ai a l k6 k7)
  obtain ⟨offs', g1, g2, g3⟩ := getOffsets_present hw hgood ts hsub
  obtain ⟨pg, hpg, hi⟩ : ∃ pg, s.archs.pages[q.page]? = some pg ∧ pg.ids.items[q.index]? = some e.id := by
    unfold Archs.row at k2
    cases hpg : s.archs.pages[q.page]? with
    | none => simp [hpg] at k2
    | some pg => exact ⟨pg, rfl, by simpa [hpg] using k2⟩
  rw [m1] at g2
  cases g2
  exact ⟨hal, q, ai, a, l, pg, k2, k5, k7, k6, hpg, hi, hw, hgood, getRefs_at g3⟩

/-- References lie in their page, as long as no page is overfull. -/
theorem loose_refs_placed (hx : LooseExec U dbg cap h s) (hd : DistinctAdds h) {e : Entity} (he : e ∈ handles h)
    {ts : List TypeId} {rs : List Ref} (hr : s.getComponentsRefs U dbg e ts = .ok (some rs)) :
    List.Forall₂ (fun t (r : Ref) => r.page < s.archs.pages.length ∧ r.size = U.size t ∧ r.off % U.align t = 0 ∧
      (RowsFit s → r.off + r.size ≤ PAGE_SIZE)) ts rs := by
  obtain ⟨_, q, ai, a, l, pg, k2, k5, k7, k6, hpg, hi, hw, hg, hf⟩ := loose_refs hx hd he hr
  refine hf.imp ?_
  rintro t r ⟨k, o, h1, h2, rfl⟩
  refine ⟨(List.getElem?_eq_some_iff.1 hpg).1, rfl, ?_, fun hfit => ?_⟩
  · have h3 := hg.aligned h1 h2
    obtain ⟨c, hc⟩ := U.align_dvd t
    refine Nat.mod_eq_zero_of_dvd (Nat.dvd_add (Nat.dvd_of_mod_eq_zero h3) ?_)
    exact Nat.dvd_mul_left_of_dvd (U.align_dvd t) _
  · refine Archs.slot_inPage hg h1 h2 (Nat.lt_of_lt_of_le (List.getElem?_eq_some_iff.1 hi).1 ?_)
    exact hfit _ ai pg l hpg k5 k7

/-- References to different components are apart, as long as no page is overfull. -/
theorem loose_refs_apart (hx : LooseExec U dbg cap h s) (hd : DistinctAdds h) (hfit : RowsFit s) {e e' : Entity}
    (he : e ∈ handles h) (he' : e' ∈ handles h) {ts ts' : List TypeId} {rs rs' : List Ref}
    (hr : s.getComponentsRefs U dbg e ts = .ok (some rs)) (hr' : s.getComponentsRefs U dbg e' ts' = .ok (some rs'))
    {i j : Nat} {t t' : TypeId} {r r' : Ref} (hi : ts[i]? = some t) (hj : ts'[j]? = some t') (hri : rs[i]? = some r)
    (hrj : rs'[j]? = some r') (hne : ¬ (e = e' ∧ t = t')) : Apart r r' := by
  obtain ⟨ha, q, ai, a, l, pg, k2, k5, k7, k6, hpg, hit, hw, hg, hf⟩ := loose_refs hx hd he hr
  obtain ⟨ha', q', ai', a', l', pg', k2', k5', k7', k6', hpg', hit', _, _, hf'⟩ := loose_refs hx hd he' hr'
  have key : ∀ {ts : List TypeId} {rs : List Ref} {R : TypeId → Ref → Prop} {i : Nat} {t : TypeId} {r : Ref}, List.Forall₂ R ts rs →
      ts[i]? = some t → rs[i]? = some r → R t r := by
    intro ts rs R i t r h0 h1 h2
    obtain ⟨h3, h4⟩ := List.getElem?_eq_some_iff.1 h1
    obtain ⟨h5, h6⟩ := List.getElem?_eq_some_iff.1 h2
    have := (List.forall₂_iff_get.1 h0).2 i h3 h5
    simp only [List.get_eq_getElem] at this
    rwa [h4, h6] at this
  obtain ⟨k, o, m1, m2, rfl⟩ := key hf hi hri
  obtain ⟨k', o', m1', m2', rfl⟩ := key hf' hj hrj
  unfold Apart
  by_cases hp : q.page = q'.page
  · right
    rw [← hp] at k5' hpg'
    rw [k5] at k5'; cases k5'
    rw [k6] at k6'; cases k6'
    rw [k7] at k7'; cases k7'
    rw [hpg] at hpg'; cases hpg'
    have hcap := hfit _ ai pg l hpg k5 k7
    refine Archs.slot_disj hw hg m1 m2 (Nat.lt_of_lt_of_le (List.getElem?_eq_some_iff.1 hit).1 hcap) m1' m2'
      (Nat.lt_of_lt_of_le (List.getElem?_eq_some_iff.1 hit').1 hcap) ?_
    rintro ⟨hii, htt⟩
    refine hne ⟨?_, htt⟩
    rw [hii, hit'] at hit
    rw [alive_eq] at ha ha'
    exact (loose_core hx).inj e ha e' ha' (Option.some.inj hit).symm
  · exact .inl hp

theorem loose_refs_pairwise (hx : LooseExec U dbg cap h s) (hd : DistinctAdds h) (hfit : RowsFit s) {ts : List TypeId}
    (ht : ts.Nodup) {items : List (Entity × List Ref)}
    (hi : ∀ x ∈ items, x.1 ∈ handles h ∧ s.getComponentsRefs U dbg x.1 ts = .ok (some x.2))
    (hn : (items.map (·.1)).Nodup) : (items.map (·.2)).flatten.Pairwise Apart := by
  have key : ∀ x ∈ items, ∀ y ∈ items, ∀ i j : Nat, ∀ r r', x.2[i]? = some r → y.2[j]? = some r' → ¬ (x.1 = y.1 ∧ i = j) →
      Apart r r' := by
    intro x hx' y hy i j r r' hr hr' hne
    obtain ⟨h1, h2⟩ := hi x hx'
    obtain ⟨h3, h4⟩ := hi y hy
    have l1 := (loose_refs_placed hx hd h1 h2).length_eq
    have l2 := (loose_refs_placed hx hd h3 h4).length_eq
    have hi1 : i < ts.length := by rw [l1]; exact (List.getElem?_eq_some_iff.1 hr).1
    have hj1 : j < ts.length := by rw [l2]; exact (List.getElem?_eq_some_iff.1 hr').1
    refine loose_refs_apart hx hd hfit h1 h3 h2 h4 (List.getElem?_eq_getElem hi1) (List.getElem?_eq_getElem hj1) hr hr' ?_
    rintro ⟨h5, h6⟩
    exact hne ⟨h5, (ht.getElem_inj_iff).1 h6⟩
  rw [List.pairwise_flatten]
  constructor
  · intro rs hrs
    obtain ⟨x, hx, rfl⟩ := List.mem_map.1 hrs
    rw [List.pairwise_iff_getElem]
    intro i j hi' hj' hij
    exact key x hx x hx i j _ _ (List.getElem?_eq_getElem hi') (List.getElem?_eq_getElem hj')
      (fun h0 => absurd h0.2 (Nat.ne_of_lt hij))
  · rw [List.pairwise_map]
    have hp : items.Pairwise fun x y => x.1 ≠ y.1 := by
      have := hn
      unfold List.Nodup at this
      rw [List.pairwise_map] at this
      exact this
    refine List.Pairwise.imp_of_mem ?_ hp
    intro x y hx hy hxy r hr r' hr'
    obtain ⟨i, hi', hie⟩ := List.getElem_of_mem hr
    obtain ⟨j, hj', hje⟩ := List.getElem_of_mem hr'
    exact key x hx y hy i j _ _ (by rw [List.getElem?_eq_getElem hi', hie]) (by rw [List.getElem?_eq_getElem hj', hje])
      (fun h0 => hxy h0.1)

end
end Ecs
