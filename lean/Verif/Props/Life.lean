import Verif.Proofs.Life
import Verif.Props.Queries
import Verif.Props.Defects

/-! Property C84: an entity is what its own calls made of it. What a store answers about a handle depends only on
the calls that were made with this handle (`life`, `Spec/Life.lean`), in their order. It depends neither on the calls made with
other handles, nor on how they were interleaved, nor on the number in the handle, the first capacity or the build. -/

namespace Ecs.Props
open Spec

section
variable {U : Universe} {dbg dbg' : Bool} {cap cap' : Nat} {h h' : List Event} {s s' : Store}

/-- **C84**, while no storage page is filled beyond its capacity (`Exec`): two handles with the same life, in the same store or in
two stores with different histories, are both alive or both dead, have the same values in the same components and the
same archetype; if they are alive, they have the same tags. -/
theorem C84_same_life_same_data_partial (hx : Exec U dbg cap h s) (hx' : Exec U dbg' cap' h' s') {e e' : Entity}
    (he : e ∈ handles h) (hl : life e h = life e' h') :
    s'.isAlive dbg' e' = s.isAlive dbg e ∧
    (∀ ts, ts ≠ [] → s'.getComponents U dbg' e' ts = s.getComponents U dbg e ts) ∧
    s'.getEntityArchetype dbg' e' = s.getEntityArchetype dbg e ∧
    (e ∈ alive h → ∀ tag, s'.hasTag tag e' = s.hasTag tag e) := by
  have he' : e' ∈ handles h' := by
    rw [handles_life] at he ⊢
    rwa [← hl]
  have hs : selfOf (world h') e' = selfOf (world h) e := by
    rw [self_life hx, self_life hx', hl]
  have hlive : (e' ∈ (world h').live) ↔ (e ∈ (world h).live) := by
    have := congrArg Self.live hs
    simpa [selfOf] using this
  have htypes : (world h').types e' = (world h).types e := congrArg Self.types hs
  have hvalue : (world h').value e' = (world h).value e := congrArg Self.value hs
  have htags : ∀ t, (world h').tags t e' = (world h).tags t e := fun t => congrFun (congrArg Self.tags hs) t
  have hr := exec_rel hx
  have hr' := exec_rel hx'
  rw [handles_eq] at he he'
  have hget : (world h').get e' = (world h).get e := by
    funext t
    simp only [World.get, hlive, htypes, hvalue]
  refine ⟨?_, fun ts hne => ?_, ?_, fun ha tag => ?_⟩
  · rw [hr.agrees.alive e he, hr'.agrees.alive e' he', decide_eq_decide.2 hlive]
  · rw [hr.agrees.read e he ts hne, hr'.agrees.read e' he' ts hne, hget]
  · by_cases hc : e ∈ (world h).live ∧ (world h).types e ≠ []
    · obtain ⟨a, h1, h2, h3⟩ := hr.getEntityArchetype_some hc.1 hc.2
      obtain ⟨b, h4, h5, h6⟩ := hr'.getEntityArchetype_some (hlive.2 hc.1) (htypes ▸ hc.2)
      rw [h1, h4]
      congr 2
      exact h5.ext h2 (h5.incr.ext h2.incr fun t => by rw [h6 t, h3 t, htypes])
    · rw [hr.getEntityArchetype_none (hr.ents.issued_id_lt he) hc,
        hr'.getEntityArchetype_none (hr'.ents.issued_id_lt he') (by rwa [hlive, htypes])]
  · rw [alive_eq] at ha
    rw [hr.agrees.tag e ha tag, hr'.agrees.tag e' (hlive.2 ha) tag, htags]

/-- **C84**, for component queries under the same limits: if all handles have the same life in two histories – the
calls with different handles may be interleaved in another way – then every query finds the same entities, though
perhaps in another order. -/
theorem C84_same_lives_same_query_partial (hx : Exec U dbg cap h s) (hx' : Exec U dbg' cap' h' s')
    (hl : ∀ e, life e h = life e h') {acc : Access} (hd : DistinctTypes acc) (old old' : List IterView)
    {fuel fuel' : Nat} (hf : (alive h).length < fuel) (hf' : (alive h').length < fuel') :
    ∃ items items', runComponentQueryWithEntities U dbg s acc old fuel = .ok items ∧
      runComponentQueryWithEntities U dbg' s' acc old' fuel' = .ok items' ∧
      (items'.map (·.1)).Perm (items.map (·.1)) := by
  obtain ⟨items, h1, _, h2, h3, _⟩ := C31_visits_once_partial hx.loose hd old hf
  obtain ⟨items', h4, _, h5, h6, _⟩ := C31_visits_once_partial hx'.loose hd old' hf'
  refine ⟨items, items', h1, h4, (List.perm_ext_iff_of_nodup h5 h2).2 fun e => ?_⟩
  rw [h3, h6]
  have ha : e ∈ alive h' ↔ e ∈ alive h := by
    have hs : selfOf (world h') e = selfOf (world h) e := by
      rw [self_life hx, self_life hx', hl]
    have := congrArg Self.live hs
    rw [alive_eq, alive_eq]
    simpa [selfOf] using this
  rw [ha]
  refine and_congr_right fun hal => ?_
  have hm : e ∈ handles h := by
    rw [alive_eq] at hal
    rw [handles_eq]
    exact (exec_rel hx).ents.sub _ hal
  rw [(C84_same_life_same_data_partial hx hx' hm (hl e)).2.2.1]

end

/-- Three entities; the first gets a component, loses it to another, and is tagged. -/
def lifeA : List Event := [.tagged 3 ⟨0, 1⟩, .assigned ⟨0, 1⟩ [(5, [9])], .removed ⟨0, 1⟩ [4], .destroyed ⟨2, 1⟩,
  .added ⟨1, 1⟩ [(5, [6])], .added ⟨0, 1⟩ [(4, [7]), (5, [8])], .created ⟨2, 1⟩, .created ⟨1, 1⟩, .created ⟨0, 1⟩]

/-- The same calls with every handle, in another order. -/
def lifeB : List Event := [.destroyed ⟨2, 1⟩, .added ⟨1, 1⟩ [(5, [6])], .created ⟨2, 1⟩, .tagged 3 ⟨0, 1⟩,
  .assigned ⟨0, 1⟩ [(5, [9])], .removed ⟨0, 1⟩ [4], .created ⟨1, 1⟩, .added ⟨0, 1⟩ [(4, [7]), (5, [8])], .created ⟨0, 1⟩]

/-- Entity 2 of this history has the life of entity 0 of the others. -/
def lifeC : List Event := [.tagged 3 ⟨2, 1⟩, .assigned ⟨2, 1⟩ [(5, [9])], .destroyed ⟨1, 1⟩, .removed ⟨2, 1⟩ [4],
  .added ⟨2, 1⟩ [(4, [7]), (5, [8])], .added ⟨1, 1⟩ [(4, [1])], .created ⟨2, 1⟩, .created ⟨1, 1⟩, .created ⟨0, 1⟩]

/-- The theorems apply to `lifeA`, `lifeB` and `lifeC`: in all three the entity has the value 9 in component 5, not component 4, and
tag 3. -/
example : ∃ a b c, Exec demo true 1 lifeA a ∧ Exec demo false 4 lifeB b ∧ Exec demo true 2 lifeC c ∧
    (∀ e, life e lifeA = life e lifeB) ∧ life ⟨0, 1⟩ lifeA = life ⟨2, 1⟩ lifeC ∧ ⟨0, 1⟩ ∈ handles lifeA ∧
    a.getComponents demo true ⟨0, 1⟩ [5] = .ok (some [[some 9]]) ∧
    b.getComponents demo false ⟨0, 1⟩ [5] = .ok (some [[some 9]]) ∧
    c.getComponents demo true ⟨2, 1⟩ [5] = .ok (some [[some 9]]) ∧
    a.getComponents demo true ⟨0, 1⟩ [4] = .ok none ∧ c.hasTag 3 ⟨2, 1⟩ = .ok true ∧ b.hasTag 3 ⟨0, 1⟩ = .ok true := by
  have h : ((runExec demo true 1 lifeA).any fun a => (runExec demo false 4 lifeB).any fun b =>
      (runExec demo true 2 lifeC).any fun c =>
      decide (a.getComponents demo true ⟨0, 1⟩ [5] = .ok (some [[some 9]])) &&
      (decide (b.getComponents demo false ⟨0, 1⟩ [5] = .ok (some [[some 9]])) &&
      (decide (c.getComponents demo true ⟨2, 1⟩ [5] = .ok (some [[some 9]])) &&
      (decide (a.getComponents demo true ⟨0, 1⟩ [4] = .ok none) &&
      (decide (c.hasTag 3 ⟨2, 1⟩ = .ok true) && decide (b.hasTag 3 ⟨0, 1⟩ = .ok true)))))) = true := by decide +kernel
  obtain ⟨a, ha, h⟩ := any_some h
  obtain ⟨b, hb, h⟩ := any_some h
  obtain ⟨c, hc, h⟩ := any_some h
  simp only [Bool.and_eq_true, decide_eq_true_eq] at h
  refine ⟨a, b, c, runExec_sound ha, runExec_sound hb, runExec_sound hc, fun e => ?_, rfl, by decide, h⟩
  by_cases h0 : (⟨0, 1⟩ : Entity) = e
  · subst h0; rfl
  by_cases h1 : (⟨1, 1⟩ : Entity) = e
  · subst h1; rfl
  by_cases h2 : (⟨2, 1⟩ : Entity) = e
  · subst h2; rfl
  simp [life, lifeA, lifeB, deed, h0, h1, h2]

/-- **C84 is false of the code** once a page is filled beyond its capacity: one more call, made with entity 1, and the
same life of entity 0 leads to another value of its component. -/
theorem C84_counterexample : ∃ s s', WellExec demo true 1 overfull s ∧
    WellExec demo true 1 (.added ⟨1, 1⟩ [(4, [7])] :: overfull) s' ∧
    life ⟨0, 1⟩ (.added ⟨1, 1⟩ [(4, [7])] :: overfull) = life ⟨0, 1⟩ overfull ∧
    s.getComponents demo true ⟨0, 1⟩ [5] = .ok (some [[some 2]]) ∧
    s'.getComponents demo true ⟨0, 1⟩ [5] = .ok (some [[some 7]]) := by
  have h : ((runWell demo true 1 overfull).any fun s =>
      (runWell demo true 1 (.added ⟨1, 1⟩ [(4, [7])] :: overfull)).any fun s' =>
      decide (s.getComponents demo true ⟨0, 1⟩ [5] = .ok (some [[some 2]])) &&
      decide (s'.getComponents demo true ⟨0, 1⟩ [5] = .ok (some [[some 7]]))) = true := by decide
  obtain ⟨s, hs, h⟩ := any_some h
  obtain ⟨s', hs', h⟩ := any_some h
  simp only [Bool.and_eq_true, decide_eq_true_eq] at h
  exact ⟨s, s', runWell_sound hs, runWell_sound hs', rfl, h.1, h.2⟩

end Ecs.Props
