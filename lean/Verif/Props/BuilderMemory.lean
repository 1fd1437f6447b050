import Verif.Proofs.BuilderMemory
import Verif.Props.Archetypes
import Verif.Spec.Run

/-! C92: the memory of an `ArchetypeBuilder`. `include_archetype` reserves room for as many more types as the vector has
capacity, so that every call at least doubles the memory, also if it adds nothing. -/

namespace Ecs.Props

open Spec

/-- **C92**, the builder with capacities is the builder of C11: calls that return leave the same types, in the same order, however
the vector grows; and there is room for them. -/
theorem C92_same_types {policy : Nat → Nat → Nat} (hP : Promised policy) {U : Universe} (ops : List BuilderOp) {v : BuilderVec}
    (h : runVec policy U .new ops = .ok v) : runBuilder U .new ops = .ok ⟨v.items⟩ ∧ v.items.length ≤ v.cap :=
  let r := runVec_ok hP ops (Nat.le_refl _) h
  ⟨r.1, r.2.2⟩

/-- Three calls that return. -/
example : ∃ v, runVec CapVec.grownCap demo .new [.includeTypes [3, 1, 3], .excludeTypes [1], .includeTypes [2]] = .ok v :=
  ⟨⟨[.of demo 3, .of demo 2], 4⟩, rfl⟩

/-- **C92**, the true part: calls that include archetypes `k` times, and name types of a list `D` only, do not run out of memory
while `48 * 2 ^ k * (4 * D.length + 8)` is below `2 ^ 63`; the capacity is then at most `2 ^ k * (4 * D.length + 8)`. So without
`include_archetype` the memory is proportional to the number of types.
Missing: a bound that does not double with every `include_archetype`, see `C92_doubles`. -/
theorem C92_bounded_partial {U : Universe} {D : List TypeId} (ops : List BuilderOp)
    (ha : ∀ a, .includeArchetype a ∈ ops → Built U a) (hD : ∀ op ∈ ops, ∀ t ∈ op.named, t ∈ D)
    (hf : 48 * (2 ^ ops.countP BuilderOp.isArchetype * (4 * D.length + 8)) < 2 ^ 63) {b : ArchetypeBuilder}
    (hr : runBuilder U .new ops = .ok b) :
    ∃ v, runVec CapVec.grownCap U .new ops = .ok v ∧ v.items = b.componentTypes ∧
      v.cap ≤ 2 ^ ops.countP BuilderOp.isArchetype * (4 * D.length + 8) := by
  have hf' : componentTypeBytes * ((4 * D.length + 8) * 2 ^ ops.countP BuilderOp.isArchetype) < 2 ^ 63 := by
    rw [Nat.mul_comm (4 * D.length + 8)]; exact hf
  obtain ⟨v, h1, h2⟩ := runVec_returns ops (fun a h => (ha a h).wf) hD (v := .new) (ts := []) (BuilderRep.new U) (by simp)
    (Nat.le_refl _) (Nat.le_refl _) (by simp [BuilderVec.new]; omega) hf' hr
  refine ⟨v, h1, ?_, by rw [Nat.mul_comm]; omega⟩
  have h3 := (C92_same_types grownCap_promised ops h1).1
  rw [hr] at h3
  cases h3; rfl

/-- An archetype of two types included twice, with a type more: at most `2 ^ 2 * 20` of capacity (16 in fact). -/
example : ∃ v, runVec CapVec.grownCap demo .new [.includeArchetype ⟨[1, 2], [demo.size 1, demo.size 2], [demo.align 1, demo.align 2]⟩,
    .includeTypes [3], .includeArchetype ⟨[1, 2], [demo.size 1, demo.size 2], [demo.align 1, demo.align 2]⟩] = .ok v ∧
    v.items = [.of demo 1, .of demo 2, .of demo 3] ∧ v.cap ≤ 2 ^ 2 * 20 := by
  have hb : Built demo ⟨[1, 2], [demo.size 1, demo.size 2], [demo.align 1, demo.align 2]⟩ := .tuple [1, 2] (by decide) rfl
  exact C92_bounded_partial (D := [1, 2, 3]) _ (by intro a h; simp at h; rw [h]; exact hb)
    (by intro op ho t ht; simp at ho; rcases ho with rfl | rfl | rfl <;> simp [BuilderOp.named] at ht <;> simp <;> omega)
    (by decide) rfl

/-- **C92**, the builders in the store (`src/store.rs:131-134, 179-182`): one archetype is included, and a tuple is included or
excluded. They do not run out of memory with fewer than 2^54 types. -/
theorem C92_in_store {U : Universe} {a : Archetype} (ha : Built U a) (ts : List TypeId)
    (hl : a.componentCount + ts.length < 2 ^ 54) :
    (∃ v v', runVec CapVec.grownCap U .new [.includeArchetype a, .includeTypes ts] = .ok v ∧ v.build = .ok v') ∧
    ∃ v, runVec CapVec.grownCap U .new [.includeArchetype a, .excludeTypes ts] = .ok v := by
  have hlen : (a.ids ++ ts).length < 2 ^ 54 := by rw [List.length_append]; exact hl
  constructor
  · have hr : runBuilder U .new [.includeArchetype a, .includeTypes ts] =
        .ok ((ArchetypeBuilder.new.includeArchetype a).includeComponents U ts) := rfl
    obtain ⟨v, h1, h2, _⟩ := C92_bounded_partial (D := a.ids ++ ts) [.includeArchetype a, .includeTypes ts]
      (by rintro x hx; simp at hx; rw [hx]; exact ha) (by
        intro op ho t ht; simp at ho
        rcases ho with rfl | rfl
        · exact List.mem_append_left _ ht
        · exact List.mem_append_right _ ht)
      (by have : List.countP BuilderOp.isArchetype [.includeArchetype a, .includeTypes ts] = 1 := rfl
          rw [this]; omega) hr
    refine ⟨v, { v with items := sortByKey (·.id) v.items }, h1, ?_⟩
    unfold BuilderVec.build
    rw [if_neg]
    rw [h2]
    obtain ⟨r, h3, h4⟩ := (BuilderRep.new U).includeArchetype ha.wf
    obtain ⟨r', h5, h6⟩ := h3.includeComponents ts
    rw [h5.1]
    obtain ⟨t, ht⟩ := List.exists_mem_of_ne_nil _ ha.wf.ne
    have := (h6 t).2 (.inl ((h4 t).2 (.inr ht)))
    intro hn
    rw [List.map_eq_nil_iff] at hn
    rw [hn] at this
    cases this
  · have hr : runBuilder U .new [.includeArchetype a, .excludeTypes ts] =
        .ok ((ArchetypeBuilder.new.includeArchetype a).excludeComponents U ts) := rfl
    obtain ⟨v, h1, _⟩ := C92_bounded_partial (D := a.ids ++ ts) [.includeArchetype a, .excludeTypes ts]
      (by rintro x hx; simp at hx; rw [hx]; exact ha) (by
        intro op ho t ht; simp at ho
        rcases ho with rfl | rfl
        · exact List.mem_append_left _ ht
        · cases ht)
      (by have : List.countP BuilderOp.isArchetype [.includeArchetype a, .excludeTypes ts] = 1 := rfl
          rw [this]; omega) hr
    exact ⟨v, h1⟩

/-- An archetype of one type, and two types of which one is new. -/
example : ∃ v v', runVec CapVec.grownCap demo .new [.includeArchetype ⟨[1], [demo.size 1], [demo.align 1]⟩, .includeTypes [2, 1]] = .ok v ∧
    v.build = .ok v' :=
  (C92_in_store (.tuple [1] (by decide) rfl : Built demo ⟨[1], [demo.size 1], [demo.align 1]⟩) [2, 1] (by decide)).1

/-- **C92 is false of the code**, in general: however few types there are, `k` calls of `include_archetype` leave a vector with room
for at least `2 ^ (k + 1)` types; the 57th call never returns. -/
theorem C92_doubles {U : Universe} (ops : List BuilderOp) (ha : ∀ a, .includeArchetype a ∈ ops → Built U a)
    (hk : 0 < ops.countP BuilderOp.isArchetype) {v : BuilderVec} (h : runVec CapVec.grownCap U .new ops = .ok v) :
    2 ^ (ops.countP BuilderOp.isArchetype + 1) ≤ v.cap ∧ ops.countP BuilderOp.isArchetype ≤ 56 := by
  obtain ⟨_, h1⟩ := runVec_doubles grownCap_promised (fun cap n => by unfold CapVec.grownCap; omega)
    (fun cap n => by unfold CapVec.grownCap; omega) ops (fun a h => List.length_pos_iff.2 (ha a h).wf.ne) (Nat.le_refl _) h
  have h2 := h1 hk
  have h3 := runVec_fits ops h
  have h4 : 2 ^ (ops.countP BuilderOp.isArchetype + 1) ≤ v.cap := by rw [Nat.pow_succ, Nat.mul_comm]; exact h2
  refine ⟨h4, ?_⟩
  by_contra hc
  have h5 : 2 ^ 58 ≤ 2 ^ (ops.countP BuilderOp.isArchetype + 1) := Nat.pow_le_pow_right (by decide) (by omega)
  unfold componentTypeBytes at h3
  omega

/-- Two archetypes of one type each. -/
example : ∃ v, runVec CapVec.grownCap demo .new [.includeArchetype ⟨[1], [demo.size 1], [demo.align 1]⟩,
    .includeArchetype ⟨[2], [demo.size 2], [demo.align 2]⟩] = .ok v ∧ v.cap = 8 := ⟨⟨[.of demo 1, .of demo 2], 8⟩, rfl, rfl⟩

/-- **C92**, what happens at the 57th call: a panic, even if one archetype of one type is included each time. The 56 calls before
return, in the model without limits on memory, and leave one type and room for `2 ^ 57` (6.9 exabytes). -/
theorem C92_counterexample (U : Universe) (t : TypeId) : ∃ a, Built U a ∧
    runVec CapVec.grownCap U .new (List.replicate 56 (.includeArchetype a)) = .ok ⟨[.of U t], 2 ^ 57⟩ ∧
    runVec CapVec.grownCap U .new (List.replicate 57 (.includeArchetype a)) = .error .capacityOverflow := by
  obtain ⟨h1, h2, h3⟩ := single_includes U t 55 (c := 4) (by decide) (by decide)
  refine ⟨single U t, .tuple [t] (List.nodup_singleton t) rfl, ?_, ?_⟩
  · rw [h1 55, h2]; rfl
  · rw [h1 56]; exact h3 (by decide)

/-- **C92**, however vectors grow: relying on nothing but what `Vec::reserve` promises, including an archetype of `n` types `k`
times leaves `n` types and room for at least `(2 * k - 1) * n`. -/
theorem C92_any_growth {policy : Nat → Nat → Nat} (hP : Promised policy) {U : Universe} {a : Archetype} (ha : Built U a) (k : Nat)
    {v : BuilderVec} (h : runVec policy U .new (List.replicate (k + 1) (.includeArchetype a)) = .ok v) :
    v.items.length = a.componentCount ∧ (2 * k + 1) * a.componentCount ≤ v.cap := by
  have h0 : List.replicate (k + 1) (BuilderOp.includeArchetype a) = .includeArchetype a :: List.replicate k (.includeArchetype a) := rfl
  rw [h0] at h
  unfold runVec at h
  cases h1 : (BuilderOp.includeArchetype a).runVec policy U .new with
  | error p => rw [h1] at h; cases h
  | ok w =>
    rw [h1] at h
    obtain ⟨e1, e2, e3, e4⟩ := runVec_step hP (Nat.le_refl _) h1
    have e5 := e4 a rfl
    obtain ⟨r, h2, h3⟩ := (BuilderRep.new U).includeArchetype ha.wf
    have e7 : (⟨w.items⟩ : ArchetypeBuilder) = ArchetypeBuilder.includeArchetype .new a := by
      have := e1; simp only [BuilderOp.run, Except.ok.injEq] at this; exact this.symm
    rw [← e7] at h2
    obtain ⟨f1, f2⟩ := include_again hP ha k h2 (fun t => by rw [h3]; simp) e3 h
    refine ⟨f1, ?_⟩
    have e6 : a.componentCount ≤ w.cap := by omega
    have : (2 * k + 1) * a.componentCount = a.componentCount + 2 * k * a.componentCount := by ring
    omega

/-- A vector that grows to exactly what is required: three calls with one type leave room for five. -/
example : Promised (fun _ n => n) ∧ runVec (fun _ n => n) demo .new
    (List.replicate 3 (.includeArchetype ⟨[1], [demo.size 1], [demo.align 1]⟩)) = .ok ⟨[.of demo 1], 5⟩ :=
  ⟨fun _ _ => Nat.le_refl _, rfl⟩

end Ecs.Props
