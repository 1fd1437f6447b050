import Verif.Proofs.CreateWith
import Verif.Props.Defects

/-! Property C103: `create_entity_with_archetype` adds one entity and changes nothing else. -/

namespace Ecs.Props
open Spec

section
variable {U : Universe} {dbg : Bool} {cap : Nat} {h : List Event} {s s' : Store} {a : Archetype} {e : Entity}

private theorem step (hx : LooseExec U dbg cap h s) (hb : (handles h).length + 1 < u32Size) (ha : Built U a)
    (hr : s.createEntityWithArchetype dbg a = .ok (s', e)) :
    LooseExec U dbg cap (.createdWith e a.ids (fun _ => []) :: h) s' := by
  rw [handles_eq] at hb
  exact .step (.createdWith e a.ids _) hx hb ⟨a, ha, rfl, hr⟩

private theorem follower_absent {l : List Entity} {x : Entity} (h : x ∉ l) : follower l x = none := by
  induction l with
  | nil => rfl
  | cons y l ih =>
    unfold follower
    rw [if_neg fun h1 => h (by rw [h1]; exact List.mem_cons_self)]
    exact ih fun h1 => h (List.mem_cons_of_mem _ h1)

/-- **C103**, the new entity: it has a handle never issued before, is alive, has exactly the components of the archetype, no
tag, and is in no group. -/
theorem C103_new_entity (hx : LooseExec U dbg cap h s) (hb : (handles h).length + 1 < u32Size) (ha : Built U a)
    (hr : s.createEntityWithArchetype dbg a = .ok (s', e)) :
    e ∉ handles h ∧ s'.isAlive dbg e = .ok true ∧
    (∃ a', s'.getEntityArchetype dbg e = .ok (some a') ∧ a'.ids = a.ids) ∧
    (∀ ts, ∃ o, s'.getComponentsRefs U dbg e ts = .ok o ∧ (o.isSome = true ↔ ∀ t ∈ ts, t ∈ a.ids)) ∧
    (∀ tag, s'.hasTag tag e = .ok false) ∧
    ∀ g, s'.getNextOrdered g e = .ok none ∧ s'.getPreviousOrdered g e = .ok none ∧
      s'.getFirstOrdered g ≠ .ok (some e) ∧ s'.getLastOrdered g ≠ .ok (some e) := by
  have hx' := step hx hb ha hr
  have hc' := loose_core hx'
  have hl : e ∈ (world (.createdWith e a.ids (fun _ => []) :: h)).live := List.mem_cons_self
  have hi := hc'.ents.sub e hl
  obtain ⟨⟨a', k1, k2⟩, -⟩ := loose_createWith hx hb ha hr
  rw [handles_eq] at hb
  have hnew : e ∉ (world h).issued := ((loose_core hx).createdWith hb hr).1
  have hno : ∀ g, e ∉ (world h).order g := fun g hm =>
    hnew ((loose_core hx).ents.sub e ((loose_core hx).ordLive g e hm))
  refine ⟨by rw [handles_eq]; exact hnew, ?_, ⟨a', k1, k2⟩, fun ts => ?_, fun tag => ?_, fun g => ⟨?_, ?_, ?_, ?_⟩⟩
  · rw [hc'.isAlive (hc'.ents.issued_id_lt hi)]; simp [hl]
  · obtain ⟨o, h1, h2⟩ := (loose_get (U := U) (dbg := dbg) hx' hi).2 ts
    refine ⟨o, h1, h2.trans ⟨fun ⟨_, b, h3, h4⟩ => ?_, fun h3 => ⟨hl, a', k1, by rw [k2]; exact h3⟩⟩⟩
    rw [k1] at h3
    cases h3
    rw [← k2]
    exact h4
  · rw [hc'.hasTag hl]
    exact congrArg _ (Core.at'_self _ _ _)
  · rw [hc'.getNext g hl]
    exact congrArg _ (follower_absent (hno g))
  · rw [hc'.getPrevious g hl]
    exact congrArg _ (follower_absent fun hm => hno g (List.mem_reverse.1 hm))
  · rw [hc'.getFirst]
    intro h1
    exact hno g (List.mem_of_mem_head? (Except.ok.inj h1))
  · rw [hc'.getLast]
    intro h1
    exact hno g (List.mem_of_getLast? (Except.ok.inj h1))

/-- **C103**, groups and tags: the call changes no tag, no group, and no position of a live entity in a group. -/
theorem C103_groups (hx : LooseExec U dbg cap h s) (hb : (handles h).length + 1 < u32Size) (ha : Built U a)
    (hr : s.createEntityWithArchetype dbg a = .ok (s', e)) : SameGroups s s' (alive h) := by
  have hx' := step hx hb ha hr
  have hc := loose_core hx
  have hc' := loose_core hx'
  rw [handles_eq] at hb
  have hnew : e ∉ (world h).issued := (hc.createdWith hb hr).1
  refine ⟨fun x hxl => ?_, fun g => ?_⟩
  · rw [alive_eq] at hxl
    have hne : x ≠ e := by rintro rfl; exact hnew (hc.ents.sub x hxl)
    have hxl' : x ∈ (world (.createdWith e a.ids (fun _ => []) :: h)).live := List.mem_cons_of_mem _ hxl
    refine ⟨fun tag => ?_, fun g => ⟨?_, ?_⟩⟩
    · rw [hc.hasTag hxl, hc'.hasTag hxl']
      exact congrArg _ (Core.at'_ne _ _ hne)
    · rw [hc.getNext g hxl, hc'.getNext g hxl']; rfl
    · rw [hc.getPrevious g hxl, hc'.getPrevious g hxl']; rfl
  · rw [hc.getFirst, hc'.getFirst, hc.getLast, hc'.getLast]
    exact ⟨rfl, rfl⟩

/-- **C103**, the other entities, exactly: liveness of every entity is unchanged. So are the archetype, the references and the
component values, except of a live entity that the store takes for one with the new archetype afterwards, because its own
archetype was on the list of free archetypes. -/
theorem C103_changes_or_mistakes (hx : LooseExec U dbg cap h s) (hb : (handles h).length + 1 < u32Size) (ha : Built U a)
    (hr : s.createEntityWithArchetype dbg a = .ok (s', e)) {x : Entity} (hxi : x ∈ handles h) :
    SameComponents U dbg s s' x ∨
    (x ∈ alive h ∧ ¬ UsedNotFree s ∧ s'.isAlive dbg x = s.isAlive dbg x ∧
      ∃ b b', s.getEntityArchetype dbg x = .ok (some b) ∧ s'.getEntityArchetype dbg x = .ok (some b') ∧
        b.ids ≠ a.ids ∧ b'.ids = a.ids) :=
  (loose_createWith hx hb ha hr).2 x hxi

/-- **C103**, the other entities, when no archetype with entities is on the list of free archetypes: nothing of them changes,
not even where their components are. -/
theorem C103_frame_partial (hx : LooseExec U dbg cap h s) (hb : (handles h).length + 1 < u32Size) (ha : Built U a)
    (hf : UsedNotFree s) (hr : s.createEntityWithArchetype dbg a = .ok (s', e)) :
    ∀ x ∈ handles h, SameComponents U dbg s s' x := fun x hxi =>
  ((loose_createWith hx hb ha hr).2 x hxi).resolve_right fun h1 => h1.2.1 hf

end

/-- Entities with component 9, then 1 and 4; the one with component 1 was destroyed. Two entities are in group 3. -/
def beforeCreation : List Event :=
  [.destroyed ⟨1, 1⟩, .orderedLast 3 ⟨2, 1⟩, .orderedLast 3 ⟨0, 1⟩, .tagged 6 ⟨0, 1⟩,
   .added ⟨2, 1⟩ [(4, [4])], .added ⟨1, 1⟩ [(1, [1])], .added ⟨0, 1⟩ [(9, [9])],
   .created ⟨2, 1⟩, .created ⟨1, 1⟩, .created ⟨0, 1⟩]

/-- The theorems apply: an entity with components 4 and 8 is created with the freed slot, which leaves the other entities with
their components. -/
example : ∃ s s' a, LooseExec demo true 1 beforeCreation s ∧ Built demo a ∧ a.ids = [4, 8] ∧
    s.createEntityWithArchetype true a = .ok (s', ⟨1, 2⟩) ∧
    s.archs.freeArchetypes = [1] ∧ s'.archs.freeArchetypes = [] ∧ UsedNotFree s ∧
    SameComponents demo true s s' ⟨2, 1⟩ ∧ s'.getComponents demo true ⟨2, 1⟩ [4] = .ok (some [[some 4]]) := by
  have hb : Built demo ⟨[4, 8], [demo.size 4, demo.size 8], [demo.align 4, demo.align 8]⟩ := .tuple [4, 8] (by decide) rfl
  have h : ((runLoose demo true 1 beforeCreation).any fun s =>
      okAnd (s.createEntityWithArchetype true ⟨[4, 8], [demo.size 4, demo.size 8], [demo.align 4, demo.align 8]⟩) fun r =>
        decide (r.2 = ⟨1, 2⟩) && (decide (s.archs.freeArchetypes = [1]) && (decide (r.1.archs.freeArchetypes = []) &&
        (decide (s.archs.pageToArch = [0, 0, 2, 1, 0]) && (decide (s.archs.pages.length = 5) &&
        (decide (s.archs.pages.map (fun p => p.ids.items) = [[], [], [2], [], [0]]) &&
        decide (r.1.getComponents demo true ⟨2, 1⟩ [4] = .ok (some [[some 4]])))))))) = true := by
    decide
  obtain ⟨s, hs, h⟩ := any_some h
  obtain ⟨⟨s', e⟩, hr, h⟩ := okAnd_iff h
  simp only [Bool.and_eq_true, decide_eq_true_eq] at h
  obtain ⟨rfl, h1, h2, h3, h4, h5, h6⟩ := h
  have hx := runLoose_sound hs
  have hu : UsedNotFree s := by
    intro p ai pg hp ha hne
    rw [h1, List.mem_singleton]
    rintro rfl
    rw [h3] at ha
    have hm : (s.archs.pages.map (fun p => p.ids.items))[p]? = some pg.ids.items := by rw [List.getElem?_map, hp]; rfl
    rw [h5] at hm
    rcases p with _ | _ | _ | _ | _ | p <;> simp_all
  exact ⟨s, s', _, hx, hb, rfl, hr, h1, h2, hu, C103_frame_partial hx (by decide) hb hu hr _ (by decide), h6⟩

/-- **C103 is false of the code**: creating an entity with component 8 turns component 5 of entity 1 into a component of type 8.
(The creation also enlarges the entity buffers, from 4 to 8 entities.) -/
theorem C103_counterexample : ∃ s s' a a', WellExec demo true 1 refilled.tail s ∧ Built demo a ∧ a.ids = [8] ∧
    s.createEntityWithArchetype true a = .ok (s', ⟨4, 1⟩) ∧
    s.entitiesCapacity = 4 ∧ s'.entitiesCapacity = 8 ∧
    s.getComponents demo true ⟨1, 2⟩ [5] = .ok (some [[some 50]]) ∧
    s'.getComponents demo true ⟨1, 2⟩ [5] = .ok none ∧
    s'.getComponents demo true ⟨1, 2⟩ [8] = .ok (some [[some 50]]) ∧
    s'.getEntityArchetype true ⟨1, 2⟩ = .ok (some a') ∧ a'.ids = [8] := by
  have hb : Built demo ⟨[8], [demo.size 8], [demo.align 8]⟩ := .tuple [8] (by decide) rfl
  have h : ((runWell demo true 1 refilled.tail).any fun s =>
      okAnd (s.createEntityWithArchetype true ⟨[8], [demo.size 8], [demo.align 8]⟩) fun r =>
        decide (r.2 = ⟨4, 1⟩) && (decide (s.entitiesCapacity = 4) && (decide (r.1.entitiesCapacity = 8) &&
        (decide (s.getComponents demo true ⟨1, 2⟩ [5] = .ok (some [[some 50]])) &&
        (decide (r.1.getComponents demo true ⟨1, 2⟩ [5] = .ok none) &&
        (decide (r.1.getComponents demo true ⟨1, 2⟩ [8] = .ok (some [[some 50]])) &&
        okAnd (r.1.getEntityArchetype true ⟨1, 2⟩) fun o => o.any fun a => decide (a.ids = [8]))))))) = true := by
    decide
  obtain ⟨s, hs, h⟩ := any_some h
  obtain ⟨⟨s', e⟩, hr, h⟩ := okAnd_iff h
  simp only [Bool.and_eq_true, decide_eq_true_eq] at h
  obtain ⟨rfl, h1, h2, h3, h4, h5, h6⟩ := h
  obtain ⟨o, h7, h8⟩ := okAnd_iff h6
  obtain ⟨a', rfl, h8⟩ := any_some h8
  exact ⟨s, s', _, a', runWell_sound hs, hb, rfl, hr, h1, h2, h3, h4, h5, h7, of_decide_eq_true h8⟩

end Ecs.Props
