import Verif.Spec.TwoWays
import Verif.Proofs.Reassign
import Verif.Props.CreateWith

/-! Creating an entity and adding components, or creating it with the archetype and assigning them. -/

namespace Ecs
open Spec

variable {U : Universe} {dbg : Bool} {cap : Nat} {h : List Event} {s : Store}

/-- Switching a bit off before switching it on makes no difference, and it is off in between. -/
theorem Words.off_on {w : Words} {i : Nat} (hi : i / 32 < w.length) :
    ∃ w0, w.setOff i = .ok w0 ∧ w0.isOn i = .ok false ∧ w0.setOn i = w.setOn i := by
  obtain ⟨w0, h1, h2, h3⟩ := setOff_of_lt hi
  refine ⟨w0, h1, ?_, ?_⟩
  · rw [isOn_of_lt (by rw [h2]; exact hi), h3]
    simp
  · unfold setOff at h1
    rw [List.getElem?_eq_getElem hi] at h1
    cases h1
    unfold setOn
    rw [List.getElem?_eq_getElem hi, List.getElem?_set_self hi]
    simp only [List.set_set]
    congr 2
    generalize mask i = m
    generalize w[i / 32] = v
    ext j hj
    simp only [BitVec.getElem_or, BitVec.getElem_and, BitVec.getElem_not]
    cases v[j] <;> cases m[j] <;> rfl

/-- Both ways of creating an entity with components run alike. -/
theorem two_ways (hx : LooseExec U dbg cap h s) (hb : (handles h).length + 1 < u32Size) {vals : TupleVal} {a : Archetype}
    (hn : (vals.map (·.1)).Nodup) (ha : Archetype.withComponents U (vals.map (·.1)) = .ok a) :
    createThenAdd U dbg s vals = createWithThenAdd U dbg s a vals ∧
      createWithThenSet U dbg s a vals = (createThenAdd U dbg s vals).map fun r => (r.1, r.2, true) := by
  have hne : vals.map (·.1) ≠ [] := by
    intro h0
    rw [h0, Archetype.withComponents_nil] at ha
    cases ha
  have hids : ∀ t ∈ vals.map (·.1), t ∈ a.ids := by
    obtain ⟨a', h1, _, h2⟩ := Archetype.withComponents_spec (U := U) hn hne
    rw [ha] at h1
    cases h1
    exact fun t ht => h2.mem_iff.2 ht
  have hbuilt : Built U a := .tuple _ hn ha
  have hb' := hb
  rw [handles_eq] at hb'
  obtain ⟨s1, e, h1, h2, -, -, -, -, h7, h8, h9, -⟩ := (loose_core hx).register (dbg := dbg) hb'
  have hid : e.id < s1.ents.capacity := h2.id_lt List.mem_cons_self
  have hal : s1.ents.isAlive dbg e = .ok true := by
    rw [h2.isAlive_of_lt hid]
    simp
  obtain ⟨w0, k1, k2, k3⟩ := Words.off_on (w := s1.hasArch) (i := e.id) (by
    rw [h9]; unfold Words.getLen; omega)
  obtain ⟨w1, k4, -, k5⟩ := Words.setOn_of_lt (w := s1.hasArch) (i := e.id) (by
    rw [h9]; unfold Words.getLen; omega)
  cases hadd : s1.archs.addEntity dbg e.id a with
  | error f =>
    unfold createThenAdd createWithThenAdd createWithThenSet
    unfold Store.createEntity Store.createEntityWithArchetype Store.addComponents Store.ensureComponents Store.isAlive
    simp only [h1, ok_bind, k1, pure_ok, hal, k2, ha, hadd]
    exact ⟨rfl, rfl⟩
  | ok r =>
    obtain ⟨c, loc⟩ := r
    obtain ⟨s3, hs3⟩ : ∃ s3 : Store, s3 = { s1 with
        archs := c, toPage := s1.toPage.set e.id (some loc.page), toIndex := s1.toIndex.set e.id (some loc.index),
        hasArch := w1 } := ⟨_, rfl⟩
    have hrec : ∀ w, Words.setOn w e.id = .ok w1 →
        ({ s1 with archs := c, hasArch := w } : Store).recordRow e.id loc = .ok s3 := by
      intro w hw
      unfold Store.recordRow
      simp only [Raw.write_of_lt _ (show e.id < s1.toPage.length by rw [h7]; exact hid),
        Raw.write_of_lt _ (show e.id < s1.toIndex.length by rw [h8]; exact hid), hw, ok_bind, hs3]
      rfl
    have hcw : s.createEntityWithArchetype dbg a = .ok (s3, e) := by
      unfold Store.createEntityWithArchetype
      simp only [h1, ok_bind, hadd]
      rw [hrec s1.hasArch k4]
      rfl
    have hce : s.createEntity dbg = .ok ({ s1 with hasArch := w0 }, e) := by
      unfold Store.createEntity
      simp only [h1, ok_bind, k1]
      rfl
    obtain ⟨o, g1, g2⟩ := (Props.C103_new_entity hx hb hbuilt hcw).2.2.2.1 (vals.map (·.1))
    have g3 := g2.2 hids
    cases o with
    | none => cases g3
    | some refs =>
      have hsame := add_is_set hn g1
      have hset : s3.setComponents U dbg e vals = (do
          let pages ← assignToRefs refs (vals.map (·.2)) s3.archs.pages
          return ({ s3 with archs := { s3.archs with pages := pages } }, true)) := by
        unfold Store.setComponents
        simp only [g1, ok_bind]
      unfold Store.getComponentsRefs at g1
      obtain ⟨b, e1, g1⟩ := bind_eq_ok.1 g1
      cases b with
      | false => cases g1
      | true =>
        simp only [if_true] at g1
        obtain ⟨page, e2, g1⟩ := bind_eq_ok.1 g1
        obtain ⟨view, e3, g1⟩ := bind_eq_ok.1 g1
        obtain ⟨index, e4, g1⟩ := bind_eq_ok.1 g1
        obtain ⟨o, e5, g1⟩ := bind_eq_ok.1 g1
        have hpage : page = loc.page := by
          rw [hs3] at e2
          unfold Raw.read at e2
          rw [List.getElem?_set_self (by rw [h7]; exact hid)] at e2
          cases e2
          rfl
        have hindex : index = loc.index := by
          rw [hs3] at e4
          unfold Raw.read at e4
          rw [List.getElem?_set_self (by rw [h8]; exact hid)] at e4
          cases e4
          rfl
        subst hpage hindex
        cases o with
        | none => cases g1
        | some os =>
          cases g1
          have hens : ({ s1 with hasArch := w0 } : Store).ensureComponents U dbg e (vals.map (·.1)) = .ok (s3, loc) := by
            unfold Store.ensureComponents
            simp only [k2, ok_bind, ha, hadd, hrec w0 (k3.trans k4)]
            rfl
          have hadds : ({ s1 with hasArch := w0 } : Store).addComponents U dbg e vals = (do
              let pages ← assignToRefs (getRefs U loc.page loc.index (vals.map (·.1)) os) (vals.map (·.2)) s3.archs.pages
              return { s3 with archs := { s3.archs with pages := pages } }) := by
            unfold Store.addComponents Store.isAlive
            simp only [hal, ok_bind, hens, e3, getOffsetsUnchecked_of e5]
            rfl
          unfold createThenAdd createWithThenAdd createWithThenSet
          rw [hce, hcw]
          simp only [ok_bind]
          rw [hsame, hset, hadds]
          cases assignToRefs (getRefs U loc.page loc.index (vals.map (·.1)) os) (vals.map (·.2)) s3.archs.pages <;>
            exact ⟨rfl, rfl⟩

end Ecs
