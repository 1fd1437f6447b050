import Verif.Proofs.RefsLoose
import Verif.Proofs.Slots
import Verif.Proofs.Tidy
import Verif.Proofs.Healthy
import Verif.Proofs.StoreExec
import Verif.Proofs.StoreAgrees
import Verif.Spec.InOrder

/-! A store whose component data are in order stores the world that can be observed in it. -/

namespace Ecs
open Spec

section
variable {U : Universe} {dbg : Bool} {cap : Nat} {h : List Event} {s : Store}

theorem loose_inv (hx : LooseExec U dbg cap h s) (hd : DistinctAdds h) (ho : InOrder s) : s.archs.Inv U := by
  obtain ⟨h1, h2, h3, h4⟩ := ho
  have hs := (loose_shape hx).archs
  have hu := (loose_rows hx).use
  have hk := loose_known hx hd
  have hl := loose_slots hx
  have hf := loose_free hx
  refine ⟨hs.llen, hs.plen, hs.tlen, hk.wf, fun i a l ha hl' => ?_, fun i j a b ha hb hab => ?_, hu.psNodup, hu.owner,
    hu.freeNodup, hu.freeDisj, hu.freeLt, hu.covers, hu.freeEmpty, fun i ps p pg l hps hp hpg hl' => ?_, h3, fun f hff => ?_, hf.pos⟩
  · exact ⟨Layout.good_of_new (hk.wf a (List.mem_of_getElem? ha)) (hk.lay i a l ha hl'), h4 l (List.mem_of_getElem? hl')⟩
  · have h5 : (s.archs.archetypes.map (·.ids))[i]? = some a.ids := by simp [ha]
    have h6 : (s.archs.archetypes.map (·.ids))[j]? = some a.ids := by simp [hb, hab]
    obtain ⟨hi, hi'⟩ := List.getElem?_eq_some_iff.1 h5
    obtain ⟨hj, hj'⟩ := List.getElem?_eq_some_iff.1 h6
    exact (hl.uniq.getElem_inj_iff).1 (hi'.trans hj'.symm)
  · exact h1 p i pg l hpg (hu.owner i ps p hps hp) hl'
  · have hlt := hf.free f hff
    rw [← hf.plen] at hlt
    cases hps : s.archs.archPages[f] with
    | nil => rw [List.getElem?_eq_getElem hlt, hps]
    | cons p ps =>
      exfalso
      have hps' : s.archs.archPages[f]? = some (p :: ps) := by rw [List.getElem?_eq_getElem hlt, hps]
      have hp := hs.listed _ (List.mem_of_getElem? hps') p (by simp)
      have hpg := List.getElem?_eq_getElem hp
      have hne := (loose_tidy hx f (p :: ps) p _ hps' (by simp) (by unfold Archs.ids; rw [hpg]; rfl)).2 (hf.pos f hff)
      exact h2 p f _ hpg (hu.owner f _ p hps' (by simp)) hne hff

theorem loose_rel (hx : LooseExec U dbg cap h s) (hd : DistinctAdds h) (ho : InOrder s) :
    Rel U dbg s (observed U dbg h s) := by
  have hinv := loose_inv hx hd ho
  have hc := loose_core hx
  have hr := loose_rows hx
  have hk := loose_known hx hd
  have htypes : ∀ e ∈ (world h).live, (heldTypes dbg s e ≠ [] ↔ e ∈ given h) := by
    intro e he
    rw [← alive_eq] at he
    constructor
    · intro hne
      rcases (loose_found hx he).2 with ⟨_, h1⟩ | ⟨_, ⟨e', he', hg, hid⟩, _⟩
      · exact absurd h1 hne
      · rw [alive_eq] at he he'
        rwa [← hc.inj e' he' e he hid]
    · intro hg
      obtain ⟨q, ai, ps, a, l, k1, k2, k3, k4, k5, k6, k7, k8, k9⟩ := loose_place hx he hg
      unfold heldTypes
      rw [k8]
      exact (hk.wf a (List.mem_of_getElem? k6)).ne
  refine ⟨hc.ents, ⟨hinv, hc.plen, hc.ilen, hc.blen, fun e he => hc.ents.id_lt he, hc.inj, fun e he hT => ?_, fun e he hT => ?_,
    fun q i hq => ?_, fun q hq => by cases hq⟩, ⟨hk.lay, fun b hb => ?_, fun h0 => ?_, fun b hb => ?_, fun K _ hK => ?_⟩,
    hc.tags, hc.tcap, hc.tagOn, hc.orders, hc.ocap, hc.ordLive⟩
  · have hng : e ∉ given h := fun hg => (htypes e he).2 hg hT
    rw [← Bool.not_eq_true, (given_bit hx).2 e (alive_eq h ▸ he)]
    exact hng
  · have hg := (htypes e he).1 hT
    have he' : e ∈ alive h := alive_eq h ▸ he
    obtain ⟨q, ai, ps, a, l, k1, k2, k3, k4, k5, k6, k7, k8, k9⟩ := loose_place hx he' hg
    have hids : heldTypes dbg s e = a.ids := by unfold heldTypes; rw [k8]
    refine ⟨((given_bit hx).2 e he').2 hg, q, a, k1, k2, by simp, ?_, ?_, ?_⟩
    · unfold Archs.archAt; rw [k5]; exact k6
    · show ∀ t, t ∈ a.ids ↔ t ∈ heldTypes dbg s e
      rw [hids]; exact fun _ => Iff.rfl
    · intro t ht
      have ht' : t ∈ a.ids := by rw [← hids]; exact ht
      obtain ⟨offs, m1, m2⟩ := k9 [t] (by simpa using ht')
      obtain ⟨ai', a', l', ps', pg, hat, _⟩ := hinv.at_of_row k2
      have e1 := hat.hto; rw [k5] at e1; cases e1
      have e2 := hat.ha; rw [k6] at e2; cases e2
      have e3 := hat.hl; rw [k7] at e3; cases e3
      obtain ⟨hw, hgood, _⟩ := hinv.at_wf hat
      obtain ⟨offs', g1, g2, g3⟩ := getOffsets_present hw hgood [t] (by simpa using ht')
      rw [m1] at g2
      cases g2
      obtain ⟨vs, v1, v2⟩ := readRefs_spec hinv hat (by rw [k2]; simp) g3
      cases v2 with
      | @cons _ v _ _ hv hnil =>
        cases hnil
        rw [hv]
        have : s.getComponents U dbg e [t] = .ok (some [v]) := by
          unfold Store.getComponents
          rw [m2]
          simp only [ok_bind, v1, pure_ok]
        show _ = some (heldValue U dbg s e t)
        unfold heldValue
        rw [this]
  · rcases hr.rows q i hq with h0 | ⟨⟨e, he, hg, hid⟩, hp⟩
    · exact .inl h0
    · have he' : e ∈ (world h).live := alive_eq h ▸ he
      exact .inr ⟨e, he', hid, (htypes e he').2 hg, hp⟩
  · exact ⟨b.ids, by simp [observed]; exact ⟨b, hb, rfl⟩, fun _ => Iff.rfl⟩
  · have : s.archs.archetypes = [] := by
      cases hA : s.archs.archetypes with
      | nil => rfl
      | cons x xs => simp [hA] at h0
    simp [observed, this]
  · refine ⟨b.ids, ?_, fun _ => Iff.rfl⟩
    simp only [observed, List.getLast?_reverse, List.head?_eq_getElem?, List.getElem?_map, hb, Option.map_some]
  · have := hK [] (by simp [observed])
    rw [rowsPerPage_nil] at this
    cases this

theorem execFrom_rel {s₀ : Store} {w₀ : World} (hr : Rel U dbg s₀ w₀) {k : List Event} (hx : ExecFrom U dbg s₀ w₀ k s) :
    Rel U dbg s (worldFrom w₀ k) := by
  induction hx with
  | init => exact hr
  | step ev _ ha hn hd ih => exact ih.step ha hn hd

/-- In order is preserved. -/
theorem Rel.inOrder {w : World} (hr : Rel U dbg s w) : InOrder s := by
  refine ⟨hr.rowsFit, hr.usedNotFree, hr.places.inv.freeANodup, fun l hl => ?_⟩
  obtain ⟨i, hi⟩ := List.mem_iff_getElem?.1 hl
  have hlt : i < s.archs.archetypes.length := by
    rw [← hr.places.inv.llen]; exact (List.getElem?_eq_some_iff.1 hi).1
  exact (hr.places.inv.good i _ l (List.getElem?_eq_getElem hlt) hi).2

end
end Ecs
