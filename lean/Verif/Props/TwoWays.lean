import Verif.Proofs.TwoWays

/-! C127: the ways of creating an entity with components agree. -/

namespace Ecs.Props
open Ecs Spec

variable {U : Universe} {dbg : Bool} {cap : Nat} {h : List Event} {s : Store} {vals : TupleVal} {a : Archetype}

/-- **C127** Creating an entity and adding a tuple to it does exactly what creating it with the archetype of the tuple and then adding
the tuple does: the same handle and literally the same store, or the same failure. -/
theorem C127_add (hx : LooseExec U dbg cap h s) (hb : (handles h).length + 1 < u32Size)
    (hn : (typesOf vals).Nodup) (ha : Archetype.withComponents U (typesOf vals) = .ok a) :
    createThenAdd U dbg s vals = createWithThenAdd U dbg s a vals := (two_ways hx hb hn ha).1

/-- **C127** It does also what creating it with the archetype and assigning the tuple through references does, and the references
are there. -/
theorem C127_set (hx : LooseExec U dbg cap h s) (hb : (handles h).length + 1 < u32Size)
    (hn : (typesOf vals).Nodup) (ha : Archetype.withComponents U (typesOf vals) = .ok a) (s' : Store) (e : Entity) (b : Bool) :
    createWithThenSet U dbg s a vals = .ok (s', e, b) ↔ createThenAdd U dbg s vals = .ok (s', e) ∧ b = true := by
  rw [(two_ways hx hb hn ha).2]
  cases createThenAdd U dbg s vals with
  | error f => exact ⟨fun h1 => (by cases h1), fun h1 => (by cases h1.1)⟩
  | ok r =>
    obtain ⟨s1, e1⟩ := r
    constructor
    · intro h1
      cases h1
      exact ⟨rfl, rfl⟩
    · rintro ⟨h1, rfl⟩
      cases h1
      rfl

/-- **C127** The same for failures: each way fails as the other does. -/
theorem C127_fails (hx : LooseExec U dbg cap h s) (hb : (handles h).length + 1 < u32Size)
    (hn : (typesOf vals).Nodup) (ha : Archetype.withComponents U (typesOf vals) = .ok a) (f : Fault) :
    createWithThenSet U dbg s a vals = .error f ↔ createThenAdd U dbg s vals = .error f := by
  rw [(two_ways hx hb hn ha).2]
  cases createThenAdd U dbg s vals with
  | error g => exact ⟨fun h1 => (by cases h1; rfl), fun h1 => (by cases h1; rfl)⟩
  | ok r => exact ⟨fun h1 => (by cases h1), fun h1 => (by cases h1)⟩

/-- A store with a free archetype, an archetype in use and a released id: an entity with types 8 and 4 is created in the slot of the
released id, and both components are there. -/
example : ∃ s s' a, LooseExec demo true 1 beforeCreation s ∧ (handles beforeCreation).length + 1 < u32Size ∧
    Archetype.withComponents demo (typesOf [(8, [3]), (4, [7])]) = .ok a ∧
    createThenAdd demo true s [(8, [3]), (4, [7])] = .ok (s', ⟨1, 2⟩) ∧
    createWithThenAdd demo true s a [(8, [3]), (4, [7])] = .ok (s', ⟨1, 2⟩) ∧
    createWithThenSet demo true s a [(8, [3]), (4, [7])] = .ok (s', ⟨1, 2⟩, true) ∧
    s'.getComponents demo true ⟨1, 2⟩ [4, 8] = .ok (some [[some 7], [some 3]]) := by
  have h : ((runLoose demo true 1 beforeCreation).any fun s =>
      okAnd (createThenAdd demo true s [(8, [3]), (4, [7])]) fun r => decide (r.2 = ⟨1, 2⟩) &&
        decide (r.1.getComponents demo true ⟨1, 2⟩ [4, 8] = .ok (some [[some 7], [some 3]]))) = true := by
    decide +kernel
  obtain ⟨s, hs, h⟩ := any_some h
  obtain ⟨⟨s', e⟩, hr, h⟩ := okAnd_iff h
  simp only [Bool.and_eq_true, decide_eq_true_eq] at h
  obtain ⟨rfl, h⟩ := h
  have hx := runLoose_sound hs
  have hb : (handles beforeCreation).length + 1 < u32Size := by decide
  have ha : Archetype.withComponents demo (typesOf [(8, [3]), (4, [7])]) =
      .ok ⟨[4, 8], [demo.size 4, demo.size 8], [demo.align 4, demo.align 8]⟩ := rfl
  exact ⟨s, s', _, hx, hb, ha, hr, (C127_add hx hb (by decide) ha).symm.trans hr,
    (C127_set hx hb (by decide) ha _ _ _).2 ⟨hr, rfl⟩, h⟩

end Ecs.Props
