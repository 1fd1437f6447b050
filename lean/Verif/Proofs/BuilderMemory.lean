import Verif.Proofs.Archetype
import Verif.Spec.BuilderMemory
import Mathlib.Data.List.Nodup
import Mathlib.Tactic.Ring

/-! Lemmas about the vector of an `ArchetypeBuilder`. -/

namespace Ecs

open Spec

namespace BuilderVec

variable {policy : Nat → Nat → Nat} {v v' : BuilderVec}

theorem grow_ok (h : v.grow policy n = .ok v') :
    v' = { v with cap := policy v.cap n } ∧ componentTypeBytes * v'.cap < 2 ^ 63 := by
  unfold grow at h
  split at h
  · cases h
  · rename_i hb; cases h; exact ⟨rfl, Nat.lt_of_not_le hb⟩

theorem makeRoom_ok (hP : Promised policy) (hi : v.items.length ≤ v.cap) (h : v.makeRoom policy = .ok v') :
    v'.items = v.items ∧ v.cap ≤ v'.cap ∧ v.items.length < v'.cap := by
  unfold makeRoom at h
  split at h
  · rename_i he
    obtain ⟨h1, _⟩ := grow_ok h
    have := hP v.cap (v.items.length + 1)
    subst h1
    refine ⟨rfl, ?_, ?_⟩ <;> dsimp only <;> omega
  · cases h; exact ⟨rfl, Nat.le_refl _, by omega⟩

theorem push_ok (hP : Promised policy) (hi : v.items.length ≤ v.cap) {c : ComponentType} (h : v.push policy c = .ok v') :
    v'.items = v.items ++ [c] ∧ v.cap ≤ v'.cap ∧ v'.items.length ≤ v'.cap := by
  unfold push at h
  cases hm : v.makeRoom policy with
  | error p => rw [hm] at h; cases h
  | ok w =>
    rw [hm] at h; cases h
    obtain ⟨h1, h2, h3⟩ := makeRoom_ok hP hi hm
    refine ⟨by rw [h1], h2, ?_⟩
    simp only [h1, List.length_append, List.length_cons, List.length_nil]
    omega

theorem includeOne_ok (hP : Promised policy) (hi : v.items.length ≤ v.cap) {c : ComponentType}
    (h : v.includeOne policy c = .ok v') :
    v'.items = ArchetypeBuilder.includeOne v.items c ∧ v.cap ≤ v'.cap ∧ v'.items.length ≤ v'.cap := by
  unfold includeOne at h
  unfold ArchetypeBuilder.includeOne
  split at h
  · rename_i hc
    cases h; rw [if_pos hc]; exact ⟨rfl, Nat.le_refl _, hi⟩
  · rename_i hc
    rw [if_neg hc]; exact push_ok hP hi h

theorem includeTypes_ok (hP : Promised policy) (cs : List ComponentType) {v v' : BuilderVec} (hi : v.items.length ≤ v.cap)
    (h : v.includeComponentTypes policy cs = .ok v') :
    v'.items = cs.foldl ArchetypeBuilder.includeOne v.items ∧ v.cap ≤ v'.cap ∧ v'.items.length ≤ v'.cap := by
  unfold includeComponentTypes at h
  induction cs generalizing v with
  | nil => cases h; exact ⟨rfl, Nat.le_refl _, hi⟩
  | cons c cs ih =>
    rw [List.foldlM_cons] at h
    cases h1 : v.includeOne policy c with
    | error p => rw [h1] at h; cases h
    | ok w =>
      rw [h1] at h
      obtain ⟨e1, e2, e3⟩ := includeOne_ok hP hi h1
      obtain ⟨f1, f2, f3⟩ := ih e3 h
      refine ⟨?_, by omega, f3⟩
      rw [f1, e1]; rfl

theorem reserve_ok (hP : Promised policy) (hi : v.items.length ≤ v.cap) {n : Nat} (h : v.reserve policy n = .ok v') :
    v'.items = v.items ∧ v.cap ≤ v'.cap ∧ v.items.length + n ≤ v'.cap := by
  unfold reserve at h
  split at h
  · cases h; exact ⟨rfl, Nat.le_refl _, by omega⟩
  · obtain ⟨h1, _⟩ := grow_ok h
    have := hP v.cap (v.items.length + n)
    subst h1
    refine ⟨rfl, ?_, ?_⟩ <;> dsimp only <;> omega

theorem includeArchetype_ok (hP : Promised policy) (hi : v.items.length ≤ v.cap) {a : Archetype}
    (h : v.includeArchetype policy a = .ok v') :
    v'.items = a.componentsIter.foldl ArchetypeBuilder.includeOne v.items ∧
      v.cap + v.items.length + a.componentCount ≤ v'.cap ∧ v'.items.length ≤ v'.cap := by
  unfold includeArchetype at h
  cases h1 : v.reserve policy (v.cap + a.componentCount) with
  | error p => rw [h1] at h; cases h
  | ok w =>
    rw [h1] at h
    obtain ⟨e1, e2, e3⟩ := reserve_ok hP hi h1
    obtain ⟨f1, f2, f3⟩ := includeTypes_ok hP _ (v := w) (by rw [e1]; omega) h
    exact ⟨by rw [f1, e1], by omega, f3⟩

theorem excludeOne_length (l : List ComponentType) (c : ComponentType) :
    (ArchetypeBuilder.excludeOne l c).length ≤ l.length := List.length_eraseP_le

theorem exclude_length (cs l : List ComponentType) :
    (cs.foldl ArchetypeBuilder.excludeOne l).length ≤ l.length := by
  induction cs generalizing l with
  | nil => exact Nat.le_refl _
  | cons c cs ih => exact Nat.le_trans (ih _) (excludeOne_length l c)

end BuilderVec

theorem insertByKey_length {α : Type} (key : α → Nat) (a : α) (l : List α) : (insertByKey key a l).length = l.length + 1 := by
  induction l with
  | nil => rfl
  | cons b l ih => unfold insertByKey; split <;> simp [ih]

theorem sortByKey_length {α : Type} (key : α → Nat) (l : List α) : (sortByKey key l).length = l.length := by
  have : ∀ (l acc : List α), (l.foldl (fun acc a => insertByKey key a acc) acc).length = acc.length + l.length := by
    intro l
    induction l with
    | nil => intro acc; rfl
    | cons a l ih => intro acc; rw [List.foldl_cons, ih, insertByKey_length, List.length_cons]; omega
  have h := this l []
  simpa [sortByKey] using h

open BuilderVec

/-- One call that returns: what it does to the types, as in the model without capacities. -/
theorem runVec_step {policy : Nat → Nat → Nat} (hP : Promised policy) {U : Universe} {v v' : BuilderVec}
    (hi : v.items.length ≤ v.cap) {op : BuilderOp} (h : op.runVec policy U v = .ok v') :
    op.run U ⟨v.items⟩ = .ok ⟨v'.items⟩ ∧ v.cap ≤ v'.cap ∧ v'.items.length ≤ v'.cap ∧
      ∀ a, op = .includeArchetype a → v.cap + v.items.length + a.componentCount ≤ v'.cap := by
  cases op with
  | includeTypes ts =>
    obtain ⟨h1, h2, h3⟩ := includeTypes_ok hP _ hi h
    exact ⟨by rw [h1]; rfl, h2, h3, nofun⟩
  | excludeTypes ts =>
    cases h
    exact ⟨rfl, Nat.le_refl _, Nat.le_trans (exclude_length _ _) hi, nofun⟩
  | includeArchetype a =>
    obtain ⟨h1, h2, h3⟩ := includeArchetype_ok hP hi h
    refine ⟨by rw [h1]; rfl, by omega, h3, ?_⟩
    rintro b ⟨⟩; exact h2
  | build =>
    change v.build = .ok v' at h
    unfold BuilderVec.build at h
    split at h
    · cases h
    · rename_i hne
      cases h
      refine ⟨?_, Nat.le_refl _, by rw [sortByKey_length]; exact hi, nofun⟩
      unfold BuilderOp.run ArchetypeBuilder.build Archetype.new rassert
      dsimp only
      rw [sortByKey_length, decide_eq_true (List.length_pos_iff.2 hne)]
      rfl

/-- Calls that return: the types are those of the model without capacities; the capacity never shrinks. -/
theorem runVec_ok {policy : Nat → Nat → Nat} (hP : Promised policy) {U : Universe} (ops : List BuilderOp) {v v' : BuilderVec}
    (hi : v.items.length ≤ v.cap) (h : runVec policy U v ops = .ok v') :
    runBuilder U ⟨v.items⟩ ops = .ok ⟨v'.items⟩ ∧ v.cap ≤ v'.cap ∧ v'.items.length ≤ v'.cap := by
  induction ops generalizing v with
  | nil => cases h; exact ⟨rfl, Nat.le_refl _, hi⟩
  | cons op ops ih =>
    unfold runVec at h
    cases h1 : op.runVec policy U v with
    | error p => rw [h1] at h; cases h
    | ok w =>
      rw [h1] at h
      obtain ⟨e1, e2, e3, _⟩ := runVec_step hP hi h1
      obtain ⟨f1, f2, f3⟩ := ih e3 h
      refine ⟨?_, by omega, f3⟩
      unfold runBuilder
      rw [e1]; exact f1

/-- What holds of every capacity that a vector grows to holds of the last one. -/
theorem makeRoom_cap {policy : Nat → Nat → Nat} {P : Nat → Prop}
    (hg : ∀ (v v' : BuilderVec) n, v.grow policy n = .ok v' → P v'.cap) {v v' : BuilderVec} (hv : P v.cap)
    (h : v.makeRoom policy = .ok v') : P v'.cap := by
  unfold makeRoom at h
  split at h
  · exact hg _ _ _ h
  · cases h; exact hv

theorem includeTypes_cap {policy : Nat → Nat → Nat} {P : Nat → Prop}
    (hg : ∀ (v v' : BuilderVec) n, v.grow policy n = .ok v' → P v'.cap) (cs : List ComponentType) {v v' : BuilderVec} (hv : P v.cap)
    (h : v.includeComponentTypes policy cs = .ok v') : P v'.cap := by
  unfold includeComponentTypes at h
  induction cs generalizing v with
  | nil => cases h; exact hv
  | cons c cs ih =>
    rw [List.foldlM_cons] at h
    cases h1 : v.includeOne policy c with
    | error p => rw [h1] at h; cases h
    | ok w =>
      rw [h1] at h
      refine ih ?_ h
      unfold includeOne at h1
      split at h1
      · cases h1; exact hv
      · unfold push at h1
        cases hm : v.makeRoom policy with
        | error p => rw [hm] at h1; cases h1
        | ok u => rw [hm] at h1; cases h1; have := makeRoom_cap hg hv hm; exact this

theorem reserve_cap {policy : Nat → Nat → Nat} {P : Nat → Prop}
    (hg : ∀ (v v' : BuilderVec) n, v.grow policy n = .ok v' → P v'.cap) {v v' : BuilderVec} (hv : P v.cap) {n : Nat}
    (h : v.reserve policy n = .ok v') : P v'.cap := by
  unfold reserve at h
  split at h
  · cases h; exact hv
  · exact hg _ _ _ h

theorem runVec_cap {policy : Nat → Nat → Nat} {P : Nat → Prop}
    (hg : ∀ (v v' : BuilderVec) n, v.grow policy n = .ok v' → P v'.cap) {U : Universe} (ops : List BuilderOp)
    {v v' : BuilderVec} (hv : P v.cap) (h : runVec policy U v ops = .ok v') : P v'.cap := by
  induction ops generalizing v with
  | nil => cases h; exact hv
  | cons op ops ih =>
    unfold runVec at h
    cases h1 : op.runVec policy U v with
    | error p => rw [h1] at h; cases h
    | ok w =>
      rw [h1] at h
      refine ih ?_ h
      cases op with
      | includeTypes ts => exact includeTypes_cap hg _ hv h1
      | excludeTypes ts => cases h1; exact hv
      | includeArchetype a =>
        change v.includeArchetype policy a = .ok w at h1
        unfold BuilderVec.includeArchetype at h1
        cases h2 : v.reserve policy (v.cap + a.componentCount) with
        | error p => rw [h2] at h1; cases h1
        | ok u => rw [h2] at h1; exact includeTypes_cap hg _ (reserve_cap hg hv h2) h1
      | build =>
        change v.build = .ok w at h1
        unfold BuilderVec.build at h1
        split at h1
        · cases h1
        · cases h1; exact hv

/-- `include_archetype` always makes the vector grow. -/
theorem includeArchetype_grows {policy : Nat → Nat → Nat} (hP : Promised policy) {v v' : BuilderVec} {a : Archetype}
    (hi : v.items.length ≤ v.cap) (ha : 0 < a.componentCount) (h : v.includeArchetype policy a = .ok v') :
    ∃ n, policy v.cap n ≤ v'.cap := by
  unfold BuilderVec.includeArchetype at h
  cases h2 : v.reserve policy (v.cap + a.componentCount) with
  | error p => rw [h2] at h; cases h
  | ok u =>
    rw [h2] at h
    obtain ⟨e1, e2, e3⟩ := reserve_ok hP hi h2
    obtain ⟨_, f2, _⟩ := includeTypes_ok hP _ (v := u) (by rw [e1]; omega) h
    unfold reserve at h2
    rw [if_neg (by omega)] at h2
    obtain ⟨g1, _⟩ := grow_ok h2
    exact ⟨_, by rw [g1] at f2; exact f2⟩

/-- The capacity after some calls of `include_archetype`, if the vector at least doubles. -/
theorem runVec_doubles {policy : Nat → Nat → Nat} (hP : Promised policy) (hD : ∀ cap n, 2 * cap ≤ policy cap n)
    (h4 : ∀ cap n, 4 ≤ policy cap n) {U : Universe} (ops : List BuilderOp)
    (ha : ∀ a, .includeArchetype a ∈ ops → 0 < a.componentCount) {v v' : BuilderVec}
    (hi : v.items.length ≤ v.cap) (h : runVec policy U v ops = .ok v') :
    v.cap * 2 ^ ops.countP BuilderOp.isArchetype ≤ v'.cap ∧
      (0 < ops.countP BuilderOp.isArchetype → 2 * 2 ^ ops.countP BuilderOp.isArchetype ≤ v'.cap) := by
  induction ops generalizing v with
  | nil => cases h; exact ⟨by simp, by simp⟩
  | cons op ops ih =>
    unfold runVec at h
    cases h1 : op.runVec policy U v with
    | error p => rw [h1] at h; cases h
    | ok w =>
      rw [h1] at h
      obtain ⟨e1, e2, e3, _⟩ := runVec_step hP hi h1
      obtain ⟨f1, f2⟩ := ih (fun a h' => ha a (List.mem_cons_of_mem _ h')) e3 h
      by_cases ho : op.isArchetype = true
      · cases op with
        | includeArchetype a =>
          obtain ⟨n, hn⟩ := includeArchetype_grows hP hi (ha a (by simp)) h1
          have d := hD v.cap n
          have q := h4 v.cap n
          rw [List.countP_cons_of_pos ho, Nat.pow_succ]
          have m1 := Nat.mul_le_mul_right (2 ^ ops.countP BuilderOp.isArchetype) (show 2 * v.cap ≤ w.cap by omega)
          have m2 := Nat.mul_le_mul_right (2 ^ ops.countP BuilderOp.isArchetype) (show 4 ≤ w.cap by omega)
          constructor
          · calc _ = 2 * v.cap * 2 ^ ops.countP BuilderOp.isArchetype := by ring
              _ ≤ _ := by omega
          · intro _
            omega
        | _ => cases ho
      · rw [List.countP_cons_of_neg ho]
        refine ⟨Nat.le_trans (Nat.mul_le_mul_right _ e2) f1, f2⟩

theorem runVec_fits {policy : Nat → Nat → Nat} {U : Universe} (ops : List BuilderOp) {v' : BuilderVec}
    (h : runVec policy U .new ops = .ok v') : componentTypeBytes * v'.cap < 2 ^ 63 :=
  runVec_cap (P := fun c => componentTypeBytes * c < 2 ^ 63) (fun _ _ _ hg => (grow_ok hg).2) ops
    (by simp [BuilderVec.new, componentTypeBytes]) h

/-! ### The standard library's growth -/

theorem grownCap_promised : Promised CapVec.grownCap := fun cap n => by unfold CapVec.grownCap; omega

theorem includeOne_length_le (l : List ComponentType) (c : ComponentType) :
    l.length ≤ (ArchetypeBuilder.includeOne l c).length := by
  unfold ArchetypeBuilder.includeOne
  split
  · exact Nat.le_refl _
  · simp

theorem include_length_le (cs l : List ComponentType) :
    l.length ≤ (cs.foldl ArchetypeBuilder.includeOne l).length := by
  induction cs generalizing l with
  | nil => exact Nat.le_refl _
  | cons c cs ih => exact Nat.le_trans (includeOne_length_le l c) (ih _)

theorem grow_returns {policy : Nat → Nat → Nat} {v : BuilderVec} {n : Nat} (h : componentTypeBytes * policy v.cap n < 2 ^ 63) :
    v.grow policy n = .ok { v with cap := policy v.cap n } := by
  unfold grow; rw [if_neg (by omega)]

theorem includeTypes_returns (cs : List ComponentType) {v : BuilderVec} {N B : Nat} (hi : v.items.length ≤ v.cap)
    (hN : (cs.foldl ArchetypeBuilder.includeOne v.items).length ≤ N) (hv : v.cap ≤ B) (hB : 2 * N + 4 ≤ B)
    (hf : componentTypeBytes * B < 2 ^ 63) :
    ∃ v', v.includeComponentTypes CapVec.grownCap cs = .ok v' ∧ v'.cap ≤ B := by
  unfold includeComponentTypes
  induction cs generalizing v with
  | nil => exact ⟨v, rfl, hv⟩
  | cons c cs ih =>
    rw [List.foldlM_cons]
    have key : ∃ w, v.includeOne CapVec.grownCap c = .ok w ∧ w.cap ≤ B := by
      unfold includeOne
      by_cases hc : v.items.any (fun d => d.eqv c) = true
      · rw [if_pos hc]; exact ⟨v, rfl, hv⟩
      · rw [if_neg hc]
        have hl : v.items.length + 1 ≤ N := by
          have h1 := include_length_le cs (ArchetypeBuilder.includeOne v.items c)
          have h2 : (ArchetypeBuilder.includeOne v.items c).length = v.items.length + 1 := by
            unfold ArchetypeBuilder.includeOne; rw [if_neg hc]; simp
          rw [List.foldl_cons] at hN
          omega
        have : ∃ w, v.makeRoom CapVec.grownCap = .ok w ∧ w.cap ≤ B := by
          unfold makeRoom
          by_cases he : v.items.length = v.cap
          · rw [if_pos he]
            have hb : CapVec.grownCap v.cap (v.items.length + 1) ≤ B := by unfold CapVec.grownCap; omega
            rw [grow_returns (Nat.lt_of_le_of_lt (Nat.mul_le_mul_left _ hb) hf)]
            exact ⟨_, rfl, hb⟩
          · rw [if_neg he]; exact ⟨v, rfl, hv⟩
        obtain ⟨w, h1, h2⟩ := this
        unfold push
        rw [h1]
        exact ⟨_, rfl, h2⟩
    obtain ⟨w, h1, h2⟩ := key
    rw [h1]
    obtain ⟨e1, e2, e3⟩ := includeOne_ok grownCap_promised hi h1
    refine ih e3 ?_ h2
    rw [e1]; exact hN

theorem includeArchetype_returns {v : BuilderVec} {N B : Nat} {a : Archetype} (hi : v.items.length ≤ v.cap)
    (hN : (a.componentsIter.foldl ArchetypeBuilder.includeOne v.items).length ≤ N) (ha : a.componentCount ≤ N)
    (hv : 2 * v.cap + 2 * N + 4 ≤ B) (hf : componentTypeBytes * B < 2 ^ 63) :
    ∃ v', v.includeArchetype CapVec.grownCap a = .ok v' ∧ v'.cap ≤ B := by
  have hl := Nat.le_trans (include_length_le a.componentsIter v.items) hN
  have key : ∃ w, v.reserve CapVec.grownCap (v.cap + a.componentCount) = .ok w ∧ w.cap ≤ B := by
    unfold reserve
    split
    · exact ⟨v, rfl, by omega⟩
    · have hb : CapVec.grownCap v.cap (v.items.length + (v.cap + a.componentCount)) ≤ B := by unfold CapVec.grownCap; omega
      rw [grow_returns (Nat.lt_of_le_of_lt (Nat.mul_le_mul_left _ hb) hf)]
      exact ⟨_, rfl, hb⟩
  obtain ⟨w, h1, h2⟩ := key
  unfold BuilderVec.includeArchetype
  rw [h1]
  obtain ⟨e1, e2, e3⟩ := reserve_ok grownCap_promised hi h1
  exact includeTypes_returns (N := N) _ (by rw [e1]; omega) (by rw [e1]; exact hN) h2 (by omega) hf

/-- Calls that name few types and include few archetypes return, if they do in the model without capacities. -/
theorem runVec_returns {U : Universe} {D : List Nat} (ops : List BuilderOp)
    (hw : ∀ a, .includeArchetype a ∈ ops → a.WF U) (hD : ∀ op ∈ ops, ∀ t ∈ op.named, t ∈ D) {v : BuilderVec}
    {b' : ArchetypeBuilder} {ts : List Nat} {C : Nat} (hrep : BuilderRep U ⟨v.items⟩ ts) (hsub : ∀ t ∈ ts, t ∈ D)
    (hi : v.items.length ≤ v.cap) (hC : 4 * D.length + 8 ≤ C) (hv : v.cap + 2 * D.length + 4 ≤ C)
    (hf : componentTypeBytes * (C * 2 ^ ops.countP BuilderOp.isArchetype) < 2 ^ 63) (hr : runBuilder U ⟨v.items⟩ ops = .ok b') :
    ∃ v', runVec CapVec.grownCap U v ops = .ok v' ∧
      v'.cap + 2 * D.length + 4 ≤ C * 2 ^ ops.countP BuilderOp.isArchetype := by
  induction ops generalizing v ts C with
  | nil => exact ⟨v, rfl, by simpa using hv⟩
  | cons op ops ih =>
    have len : ∀ {l : List ComponentType} {r : List Nat}, BuilderRep U ⟨l⟩ r → (∀ t ∈ r, t ∈ D) → l.length ≤ D.length := by
      intro l r h1 h2
      have := (List.subperm_of_subset h1.2 h2).length_le
      have h3 : l = r.map (ComponentType.of U) := h1.1
      rw [h3, List.length_map]; exact this
    have hone : C ≤ C * 2 ^ (op :: ops).countP BuilderOp.isArchetype := Nat.le_mul_of_pos_right _ (Nat.pow_pos (by decide))
    have hfC := Nat.lt_of_le_of_lt (Nat.mul_le_mul_left componentTypeBytes hone) hf
    -- after this call
    suffices key : ∃ w C', op.runVec CapVec.grownCap U v = .ok w ∧ (∃ r, BuilderRep U ⟨w.items⟩ r ∧ ∀ t ∈ r, t ∈ D) ∧
        4 * D.length + 8 ≤ C' ∧ w.cap + 2 * D.length + 4 ≤ C' ∧
        C' * 2 ^ ops.countP BuilderOp.isArchetype = C * 2 ^ (op :: ops).countP BuilderOp.isArchetype by
      obtain ⟨w, C', h1, ⟨r, h2, h3⟩, h4, h5, h6⟩ := key
      obtain ⟨e1, e2, e3, _⟩ := runVec_step grownCap_promised hi h1
      have hr' : runBuilder U ⟨w.items⟩ ops = .ok b' := by
        unfold runBuilder at hr; rw [e1] at hr; exact hr
      obtain ⟨v', h7, h8⟩ := ih (fun a h' => hw a (List.mem_cons_of_mem _ h')) (fun o ho => hD o (List.mem_cons_of_mem _ ho)) h2 h3 e3 h4 h5
        (by rw [h6]; exact hf) hr'
      refine ⟨v', ?_, by rw [← h6]; exact h8⟩
      unfold runVec
      rw [h1]; exact h7
    have hDo := hD op (by simp)
    cases op with
    | includeTypes us =>
      obtain ⟨r, h1, h2⟩ := hrep.includeComponents us
      have hrD : ∀ t ∈ r, t ∈ D := fun t ht => by
        rcases (h2 t).1 ht with h | h
        · exact hsub t h
        · exact hDo t h
      have hl := len (l := (us.map (ComponentType.of U)).foldl ArchetypeBuilder.includeOne v.items) h1 hrD
      obtain ⟨w, h3, h4⟩ := includeTypes_returns (us.map (ComponentType.of U)) hi hl (B := C - (2 * D.length + 4)) (by omega) (by omega)
        (Nat.lt_of_le_of_lt (Nat.mul_le_mul_left _ (Nat.sub_le _ _)) hfC)
      obtain ⟨e1, _, _⟩ := includeTypes_ok grownCap_promised _ hi h3
      refine ⟨w, C, h3, ⟨r, ?_, hrD⟩, hC, by omega, ?_⟩
      · rw [e1]; exact h1
      · rw [List.countP_cons_of_neg (by simp [BuilderOp.isArchetype])]
    | excludeTypes us =>
      obtain ⟨r, h1, h2⟩ := hrep.excludeComponents us
      refine ⟨_, C, rfl, ⟨r, h1, fun t ht => hsub t ((h2 t).1 ht).1⟩, hC, hv, ?_⟩
      rw [List.countP_cons_of_neg (by simp [BuilderOp.isArchetype])]
    | includeArchetype a =>
      have hwa := hw a (by simp)
      obtain ⟨r, h1, h2⟩ := hrep.includeArchetype hwa
      have hrD : ∀ t ∈ r, t ∈ D := fun t ht => by
        rcases (h2 t).1 ht with h | h
        · exact hsub t h
        · exact hDo t h
      have hl := len (l := a.componentsIter.foldl ArchetypeBuilder.includeOne v.items) h1 hrD
      have hla : a.componentCount ≤ D.length := (List.subperm_of_subset hwa.incr.nodup hDo).length_le
      have hpow : C * 2 ^ (BuilderOp.includeArchetype a :: ops).countP BuilderOp.isArchetype =
          C * 2 * 2 ^ ops.countP BuilderOp.isArchetype := by
        rw [List.countP_cons_of_pos (by rfl), Nat.pow_succ]; ring
      have h2C : C * 2 ≤ C * 2 ^ (BuilderOp.includeArchetype a :: ops).countP BuilderOp.isArchetype := by
        rw [hpow]; exact Nat.le_mul_of_pos_right _ (Nat.pow_pos (by decide))
      have hf2 := Nat.lt_of_le_of_lt (Nat.mul_le_mul_left componentTypeBytes h2C) hf
      obtain ⟨w, h3, h4⟩ := includeArchetype_returns hi hl hla (B := C * 2 - (2 * D.length + 4)) (by omega)
        (Nat.lt_of_le_of_lt (Nat.mul_le_mul_left _ (Nat.sub_le _ _)) hf2)
      obtain ⟨e1, _, _⟩ := includeArchetype_ok grownCap_promised hi h3
      refine ⟨w, C * 2, h3, ⟨r, ?_, hrD⟩, by omega, by omega, hpow.symm⟩
      rw [e1]; exact h1
    | build =>
      have hne : ts ≠ [] := by
        rintro rfl
        unfold runBuilder BuilderOp.run at hr
        dsimp only at hr
        rw [hrep.build_nil] at hr; cases hr
      obtain ⟨a', b3, h1, h2, h3, h4⟩ := hrep.build hne
      have hv0 : v.items ≠ [] := by
        have h5 : v.items = ts.map (ComponentType.of U) := hrep.1
        rw [h5]; simpa using hne
      have hb3 : b3 = ⟨sortByKey (·.id) v.items⟩ := by
        unfold ArchetypeBuilder.build at h1
        obtain ⟨x, hx, hy⟩ := bind_eq_ok.1 h1
        cases hy; rfl
      refine ⟨{ v with items := sortByKey (·.id) v.items }, C, ?_, ⟨a'.ids, ?_, ?_⟩, hC, hv, ?_⟩
      · show v.build = _
        unfold BuilderVec.build
        rw [if_neg hv0]
      · rw [hb3] at h4; exact h4
      · intro t ht; exact hsub t (h3.mem_iff.1 ht)
      · rw [List.countP_cons_of_neg (by simp [BuilderOp.isArchetype])]

/-! ### Including one archetype again and again -/

/-- The archetype of one type. -/
def single (U : Universe) (t : Nat) : Archetype := { ids := [t], sizes := [U.size t], aligns := [U.align t] }

theorem single_again (U : Universe) (t : Nat) {c : Nat} (hc : 2 ≤ c) :
    BuilderVec.includeArchetype CapVec.grownCap ⟨[.of U t], c⟩ (single U t) =
      if 2 ^ 63 ≤ componentTypeBytes * (c * 2) then .error .capacityOverflow else .ok ⟨[.of U t], c * 2⟩ := by
  have hg : CapVec.grownCap c (1 + (c + 1)) = c * 2 := by unfold CapVec.grownCap; omega
  have hr : BuilderVec.reserve CapVec.grownCap ⟨[.of U t], c⟩ (c + 1) =
      if 2 ^ 63 ≤ componentTypeBytes * (c * 2) then .error .capacityOverflow else .ok ⟨[.of U t], c * 2⟩ := by
    unfold reserve
    rw [if_neg (by simp; omega)]
    unfold grow
    simp only [List.length_cons, List.length_nil, Nat.zero_add, hg]
  have hc1 : (single U t).componentCount = 1 := rfl
  unfold BuilderVec.includeArchetype
  rw [hc1]
  dsimp only
  rw [hr]
  split
  · rfl
  · show BuilderVec.includeComponentTypes _ _ [.of U t] = _
    unfold includeComponentTypes
    rw [List.foldlM_cons]
    have : BuilderVec.includeOne CapVec.grownCap ⟨[.of U t], c * 2⟩ (.of U t) = .ok ⟨[.of U t], c * 2⟩ := by
      unfold includeOne
      rw [if_pos (by simp [ComponentType.eqv])]
    rw [this]
    rfl

theorem single_includes (U : Universe) (t : Nat) (k : Nat) {c : Nat} (hc : 2 ≤ c) (hf : componentTypeBytes * (c * 2 ^ k) < 2 ^ 63) :
    (∀ n, runVec CapVec.grownCap U .new (List.replicate (n + 1) (.includeArchetype (single U t))) =
      runVec CapVec.grownCap U ⟨[.of U t], 4⟩ (List.replicate n (.includeArchetype (single U t)))) ∧
    runVec CapVec.grownCap U ⟨[.of U t], c⟩ (List.replicate k (.includeArchetype (single U t))) = .ok ⟨[.of U t], c * 2 ^ k⟩ ∧
    (2 ^ 63 ≤ componentTypeBytes * (c * 2 ^ (k + 1)) →
      runVec CapVec.grownCap U ⟨[.of U t], c⟩ (List.replicate (k + 1) (.includeArchetype (single U t))) =
        .error .capacityOverflow) := by
  have step : ∀ (w : BuilderVec) n, runVec CapVec.grownCap U w (List.replicate (n + 1) (.includeArchetype (single U t))) =
      (w.includeArchetype CapVec.grownCap (single U t)).bind fun w' =>
        runVec CapVec.grownCap U w' (List.replicate n (.includeArchetype (single U t))) := fun w n => rfl
  refine ⟨fun n => ?_, ?_⟩
  · rw [step]; rfl
  · induction k generalizing c with
    | zero =>
      refine ⟨by simp [runVec], fun h => ?_⟩
      rw [step, single_again U t hc, if_pos (by simpa using h)]
      rfl
    | succ k ih =>
      have hp : c * 2 ^ (k + 1) = c * 2 * 2 ^ k := by rw [Nat.pow_succ]; ring
      have hp' : c * 2 ^ (k + 1 + 1) = c * 2 * 2 ^ (k + 1) := by rw [Nat.pow_succ]; ring
      have hle : c * 2 ≤ c * 2 * 2 ^ k := Nat.le_mul_of_pos_right _ (Nat.pow_pos (by decide))
      have hlt : ¬ 2 ^ 63 ≤ componentTypeBytes * (c * 2) := by
        have := Nat.mul_le_mul_left componentTypeBytes hle
        rw [hp] at hf
        omega
      obtain ⟨h1, h2⟩ := ih (c := c * 2) (by omega) (by rw [← hp]; exact hf)
      refine ⟨?_, fun h => ?_⟩
      · rw [step, single_again U t hc, if_neg hlt, hp]; exact h1
      · rw [step, single_again U t hc, if_neg hlt]; exact h2 (by rw [← hp']; exact h)

theorem include_again {policy : Nat → Nat → Nat} (hP : Promised policy) {U : Universe} {a : Archetype} (ha : Built U a) (k : Nat)
    {v v' : BuilderVec} {r : List Nat} (hr : BuilderRep U ⟨v.items⟩ r) (hm : ∀ t, t ∈ r ↔ t ∈ a.ids)
    (hi : v.items.length ≤ v.cap)
    (h : runVec policy U v (List.replicate k (.includeArchetype a)) = .ok v') :
    v'.items.length = a.componentCount ∧ v.cap + 2 * k * a.componentCount ≤ v'.cap := by
  have len : ∀ {v : BuilderVec} {r : List Nat}, BuilderRep U ⟨v.items⟩ r → (∀ t, t ∈ r ↔ t ∈ a.ids) →
      v.items.length = a.componentCount := by
    intro v r h1 h2
    have h3 : v.items = r.map (ComponentType.of U) := h1.1
    rw [h3, List.length_map]
    exact ((List.perm_ext_iff_of_nodup h1.2 ha.wf.incr.nodup).2 h2).length_eq
  induction k generalizing v r with
  | zero => cases h; exact ⟨len hr hm, by simp⟩
  | succ k ih =>
    have h0 : List.replicate (k + 1) (BuilderOp.includeArchetype a) =
      .includeArchetype a :: List.replicate k (.includeArchetype a) := rfl
    rw [h0] at h
    unfold runVec at h
    cases h1 : (BuilderOp.includeArchetype a).runVec policy U v with
    | error p => rw [h1] at h; cases h
    | ok w =>
      rw [h1] at h
      obtain ⟨e1, e2, e3, e4⟩ := runVec_step hP hi h1
      have e5 := e4 a rfl
      rw [len hr hm] at e5
      obtain ⟨r', h2, h3⟩ := hr.includeArchetype ha.wf
      have e6 : (⟨w.items⟩ : ArchetypeBuilder) = ArchetypeBuilder.includeArchetype ⟨v.items⟩ a := by
        have := e1; simp only [BuilderOp.run, Except.ok.injEq] at this; exact this.symm
      rw [← e6] at h2
      obtain ⟨f1, f2⟩ := ih h2 (fun t => by rw [h3, hm]; simp) e3 h
      refine ⟨f1, ?_⟩
      have : 2 * (k + 1) * a.componentCount = 2 * k * a.componentCount + 2 * a.componentCount := by ring
      omega

end Ecs
