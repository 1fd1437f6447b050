import Verif.Proofs.HeapAsks
import Verif.Proofs.Records
import Verif.Props.HeapCalls

/-! **C90**: exactly when calls ask the allocator for memory. The executions are arbitrary sequences of calls that returned
(`LooseExec`). `AsksIff U dbg s c C` means: if `C` then the call `c` makes at least one request, and otherwise it makes none, gives no
memory back and moves no table. -/

namespace Ecs.Props
open Spec

section
variable {U : Universe} {dbg : Bool} {cap : Nat} {h : List Event} {s : Store}

/-- **C90**: `create_entity` asks for memory exactly if as many entities are alive as the store has room for (the ids of destroyed
entities count as room). -/
theorem C90_create (hx : LooseExec U dbg cap h s) (hb : (handles h).length + 1 < u32Size) (hc : s.entitiesCapacity < u32Size) :
    AsksIff U dbg s .create ((alive h).length = s.entitiesCapacity) := by
  have hcr := heapCreate_exact hx hb hc
  unfold AsksIff
  rw [show heapOps U dbg s .create = s.createOps dbg from rfl]
  unfold Store.createOps
  rw [hcr]
  refine ⟨fun hC => asks_of_loud ⟨_, List.mem_singleton_self _, by simp [StorePtrs.loud, hC]⟩, fun hC => nothing_of_quiet fun op hop => ?_⟩
  rw [List.mem_singleton.1 hop]
  simpa [StorePtrs.loud] using hC

/-- **C90**: `create_entity_with_archetype`, for an archetype that has a layout, asks exactly if the store is full or has no room for
a row of that archetype (no archetype with these types is registered, or all its pages are full and no page is unused). -/
theorem C90_create_with (hx : LooseExec U dbg cap h s) (hd : DistinctAdds h) (hb : (handles h).length + 1 < u32Size)
    (hc : s.entitiesCapacity < u32Size) {a : Archetype} (ha : Built U a) (hr : rowsPerPage U dbg a.ids ≠ none) :
    AsksIff U dbg s (.createWith a) ((alive h).length = s.entitiesCapacity ∨ ¬ Room s a.ids) :=
  createWith_exact hx hd hb hc ha hr

/-- **C90**: `add_components` asks exactly if the entity is alive and lacks one of the types: then an archetype is made for the call,
even if it turns out to be registered already. -/
theorem C90_add (hx : LooseExec U dbg cap h s) (hd : DistinctAdds h) {e : Entity} (he : e ∈ handles h) {vals : TupleVal}
    (hn : (vals.map (·.1)).Nodup) :
    AsksIff U dbg s (.add e vals) (e ∈ alive h ∧ ∃ t ∈ vals.map (·.1), t ∉ heldTypes dbg s e) :=
  add_exact hx hd he hn

/-- **C90**: `remove_components` asks exactly if the entity keeps a component, also if it has none of the types to be removed. -/
theorem C90_remove (hx : LooseExec U dbg cap h s) (hd : DistinctAdds h) {e : Entity} (he : e ∈ handles h) (ts : List TypeId) :
    AsksIff U dbg s (.remove e ts) (∃ t ∈ heldTypes dbg s e, t ∉ ts) :=
  remove_exact hx hd he ts

/-- **C90**: `add_tag` asks exactly if no entity was ever given the tag. -/
theorem C90_tag (hx : LooseExec U dbg cap h s) (tag : Nat) (e : Entity) :
    AsksIff U dbg s (.tag tag e) (∀ e', .tagged tag e' ∉ h) := by
  have hreg := registered_iff hx tag
  unfold AsksIff
  rw [show heapOps U dbg s (.tag tag e) = s.tagOps tag from rfl]
  unfold Store.tagOps
  cases hb : binarySearch s.tags.tagIds tag with
  | found i =>
    have : tag ∈ s.tags.tagIds := List.mem_of_getElem? (binarySearch_found hb)
    obtain ⟨e', he'⟩ := hreg.1 this
    exact ⟨fun hC => absurd he' (hC e'), fun _ => nothing_of_quiet fun _ h => by cases h⟩
  | notFound i =>
    have : tag ∉ s.tags.tagIds := binarySearch_notFound_not_mem (loose_core hx).tags.incr.le hb
    exact ⟨fun _ => asks_of_loud ⟨_, List.mem_singleton_self _, rfl⟩,
      fun hC => absurd (fun e' he' => this (hreg.2 ⟨e', he'⟩)) hC⟩

/-- **C90**: the calls that put an entity into an order group ask exactly if no such call named the group before. -/
theorem C90_order (hx : LooseExec U dbg cap h s) (g : Nat) (e x : Entity) :
    AsksIff U dbg s (.orderLast g e) (¬ groupNamed h g) ∧ AsksIff U dbg s (.orderAfter g e x) (¬ groupNamed h g) ∧
    AsksIff U dbg s (.orderBefore g e x) (¬ groupNamed h g) := by
  have hreg := group_registered hx g
  have key : (¬ groupNamed h g → AskSomething (s.groupOps g)) ∧ (¬ ¬ groupNamed h g → AskNothing (s.groupOps g)) := by
    rw [← hreg, not_not]
    unfold Store.groupOps
    cases hb : binarySearch s.orders.groupIds g with
    | found i =>
      have : g ∈ s.orders.groupIds := List.mem_of_getElem? (binarySearch_found hb)
      exact ⟨fun hC => absurd this hC, fun _ => nothing_of_quiet fun _ h => by cases h⟩
    | notFound i =>
      have : g ∉ s.orders.groupIds := binarySearch_notFound_not_mem (loose_core hx).orders.incr.le hb
      exact ⟨fun _ => asks_of_loud ⟨_, List.mem_singleton_self _, rfl⟩, fun hC => absurd hC this⟩
  exact ⟨key, key, key⟩

/-- **C90**: in every state, the other calls never ask: destroying an entity, assigning components, removing tags and taking entities
out of groups. -/
theorem C90_others (s : Store) (e : Entity) :
    AsksIff U dbg s (.destroy e) False ∧ (∀ vals, AsksIff U dbg s (.assign e vals) False) ∧
    (∀ tag, AsksIff U dbg s (.untag tag e) False) ∧ ∀ g, AsksIff U dbg s (.unorder g e) False := by
  have key : (False → AskSomething []) ∧ (¬ False → AskNothing []) := ⟨False.elim, fun _ => nothing_of_quiet fun _ h => by cases h⟩
  exact ⟨key, fun _ => key, fun _ => key, fun _ => key⟩

end

/-- A state for the examples: room for four; entity 0 has components 1 and 2, entity 1 none, entity 2 component 4; tag 7 and group 3
were used once. -/
def askHistory : List Event :=
  [.untagged 7 ⟨1, 1⟩, .orderedLast 3 ⟨1, 1⟩, .tagged 7 ⟨1, 1⟩, .createdWith ⟨2, 1⟩ [4] (fun _ => [none]), .created ⟨1, 1⟩,
   .added ⟨0, 1⟩ [(1, [3]), (2, [4, 3, 2, 1])], .created ⟨0, 1⟩]

/-- In that state all hypotheses are met; some calls ask for memory and some do not. -/
example : ∃ s, LooseExec demo true 1 askHistory s ∧ DistinctAdds askHistory ∧ s.entitiesCapacity = 4 ∧
    AskNothing (heapOps demo true s .create) ∧
    AskNothing (heapOps demo true s (.tag 7 ⟨0, 1⟩)) ∧ AskSomething (heapOps demo true s (.tag 8 ⟨0, 1⟩)) ∧
    AskNothing (heapOps demo true s (.orderLast 3 ⟨0, 1⟩)) ∧ AskSomething (heapOps demo true s (.orderLast 7 ⟨0, 1⟩)) ∧
    AskNothing (heapOps demo true s (.add ⟨0, 1⟩ [(1, [9])])) ∧ AskSomething (heapOps demo true s (.add ⟨1, 1⟩ [(1, [9])])) ∧
    AskSomething (heapOps demo true s (.remove ⟨0, 1⟩ [4])) ∧ AskNothing (heapOps demo true s (.remove ⟨1, 1⟩ [4])) := by
  have h : ((runLoose demo true 1 askHistory).any fun s =>
      decide (heldTypes true s ⟨0, 1⟩ = [1, 2]) && decide (heldTypes true s ⟨1, 1⟩ = []) && decide (s.entitiesCapacity = 4)) = true := by
    decide
  obtain ⟨s, hs, h⟩ := any_some h
  simp only [Bool.and_eq_true, decide_eq_true_eq] at h
  obtain ⟨⟨h0, h1⟩, h2⟩ := h
  have hx := runLoose_sound hs
  have hd : DistinctAdds askHistory := by
    intro e vals hm
    simp only [askHistory, List.mem_cons, List.not_mem_nil, or_false, Event.added.injEq, reduceCtorEq, false_or] at hm
    rw [hm.2]
    decide
  refine ⟨s, hx, hd, h2, ?_, ?_, ?_, ?_, ?_, ?_, ?_, ?_, ?_⟩
  · exact (C90_create hx (by decide) (by rw [h2]; decide)).2 (by rw [h2]; decide)
  · exact (C90_tag hx 7 _).2 fun h => h ⟨1, 1⟩ (by simp [askHistory])
  · exact (C90_tag hx 8 _).1 fun e' h => by simp [askHistory] at h
  · exact (C90_order hx 3 ⟨0, 1⟩ ⟨0, 1⟩).1.2 fun h => h ⟨⟨1, 1⟩, .inl (by simp [askHistory])⟩
  · exact (C90_order hx 7 ⟨0, 1⟩ ⟨0, 1⟩).1.1 fun h => by simp [groupNamed, askHistory] at h
  · exact (C90_add hx hd (by decide) (by decide)).2 (by rw [h0]; decide)
  · exact (C90_add hx hd (by decide) (by decide)).1 ⟨by decide, by rw [h1]; decide⟩
  · exact (C90_remove hx hd (by decide) _).1 (by rw [h0]; decide)
  · exact (C90_remove hx hd (by decide) _).2 (by rw [h1]; decide)

/-- Three of four places are taken: creating an entity with a registered archetype asks for nothing, since there are unused pages;
creating one with a new archetype asks. -/
example : ∃ s, LooseExec demo true 1 (askHistory.drop 3) s ∧ AskNothing (heapOps demo true s (.createWith (archetypeOf demo [4]))) ∧
    AskSomething (heapOps demo true s (.createWith (archetypeOf demo [1, 4]))) := by
  have h : ((runLoose demo true 1 (askHistory.drop 3)).any fun s =>
      decide (s.entitiesCapacity = 4) && decide (s.archs.archetypes.map (·.ids) = [[1, 2], [4]]) &&
      decide (s.archs.freePages ≠ [])) = true := by
    decide
  obtain ⟨s, hs, h⟩ := any_some h
  simp only [Bool.and_eq_true, decide_eq_true_eq] at h
  obtain ⟨⟨h0, h1⟩, h2⟩ := h
  have hx := runLoose_sound hs
  have hd : DistinctAdds (askHistory.drop 3) := by
    intro e vals hm
    simp only [askHistory, List.drop_succ_cons, List.drop_zero, List.mem_cons, List.not_mem_nil, or_false, Event.added.injEq, reduceCtorEq,
      false_or] at hm
    rw [hm.2]
    decide
  have ha : ∀ {ts}, ts.Nodup → ts ≠ [] → Built demo (archetypeOf demo ts) ∧ ∀ t, t ∈ (archetypeOf demo ts).ids ↔ t ∈ ts := by
    intro ts hn hne
    obtain ⟨a, k1, _, k3⟩ := Archetype.withComponents_spec (U := demo) hn hne
    have : archetypeOf demo ts = a := by unfold archetypeOf; rw [k1]
    rw [this]
    exact ⟨.tuple ts hn k1, fun t => k3.mem_iff⟩
  have h4 := ha (ts := [4]) (by decide) (by decide)
  have h14 := ha (ts := [1, 4]) (by decide) (by decide)
  refine ⟨s, hx, ?_, ?_⟩
  · refine (C90_create_with hx hd (by decide) (by rw [h0]; decide) h4.1 (by decide)).2 ?_
    rw [h0, not_or, not_not]
    refine ⟨by decide, 1, s.archs.archetypes[1]'?_, List.getElem?_eq_getElem _, fun t => ?_, .inl h2⟩
    · have := congrArg List.length h1
      simp only [List.length_map, List.length_cons, List.length_nil] at this
      omega
    · rw [h4.2]
      have : (s.archs.archetypes.map (·.ids))[1]? = some [4] := by rw [h1]; rfl
      rw [List.getElem?_map, Option.map_eq_some_iff] at this
      obtain ⟨a, h5, h6⟩ := this
      rw [(List.getElem?_eq_some_iff.1 h5).2, h6]
  · refine (C90_create_with hx hd (by decide) (by rw [h0]; decide) h14.1 (by decide)).1 (.inr ?_)
    rintro ⟨i, b, hb, hset, _⟩
    have : b.ids ∈ s.archs.archetypes.map (·.ids) := List.mem_map_of_mem (List.mem_of_getElem? hb)
    rw [h1] at this
    have e1 := (hset 1).2 ((h14.2 1).2 (by decide))
    have e4 := (hset 4).2 ((h14.2 4).2 (by decide))
    simp only [List.mem_cons, List.not_mem_nil, or_false] at this
    rcases this with h | h <;> rw [h] at e1 e4
    · exact absurd e4 (by decide)
    · exact absurd e1 (by decide)

end Ecs.Props
