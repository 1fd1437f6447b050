import Verif.Proofs.AnyStd
import Verif.Proofs.StoreLoose
import Verif.Spec.Run

/-! C93: what the library does is the same with every standard library that keeps its promises, except for the list of free archetype
slots, which is searched without being sorted, and for the number of rows of a page. -/

namespace Ecs.Props

open Spec

/-- **C93**: the promises are kept by the search of Rust 1.82 and later, which the model uses everywhere, and by the one before. -/
theorem C93_contracts : SearchContract binarySearch ∧ SearchContract binarySearch181 ∧ SortContract (sortByKey (·.id)) ∧
    Promised CapVec.grownCap :=
  ⟨binarySearch_contract, binarySearch181_contract, fun l => ⟨sortByKey_perm _ l, sortByKey_sorted _ l⟩, grownCap_promised⟩

/-- The two searches differ where nothing is promised. -/
example : binarySearch [1, 2, 0] 2 = .notFound 3 ∧ binarySearch181 [1, 2, 0] 2 = .found 1 := by decide

/-- **C93**, archetypes: the functions that look up types give the same answers with every search. -/
theorem C93_archetype {bs : List Nat → Nat → Search} (hb : SearchContract bs) {U : Universe} {a : Archetype} (ha : Built U a) :
    (∀ t, a.findComponentIndexBy bs t = a.findComponentIndex t) ∧
    (∀ ts, a.isIncludeIdsBy bs ts = a.isIncludeIds ts) ∧
    (∀ ts, a.isIncludeOnlyIdsBy bs ts = a.isIncludeOnlyIds ts) ∧
    ∀ ts, a.isExcludeIdsBy bs ts = a.isExcludeIds ts := by
  have hi := ha.wf.incr
  refine ⟨fun t => ?_, fun ts => ?_, fun ts => ?_, fun ts => Archetype.excludeLoopBy_eq hb hi ts 0⟩
  · unfold Archetype.findComponentIndexBy Archetype.findComponentIndex
    rw [search_unique hb hi]; rfl
  · unfold Archetype.isIncludeIdsBy Archetype.isIncludeIds
    rw [Archetype.allFoundBy_eq hb hi]
  · unfold Archetype.isIncludeOnlyIdsBy Archetype.isIncludeOnlyIds
    rw [Archetype.allFoundBy_eq hb hi]

/-- An archetype of two types. -/
example : ∃ a, Built demo a ∧ a.ids = [2, 7] ∧ a.findComponentIndexBy binarySearch181 7 = some 1 :=
  ⟨_, .tuple [7, 2] (by decide) rfl, by decide, by decide⟩

/-- **C93**, tags: every sequence of calls has the same outcome with every search, and leaves a container that gives the same
answers. -/
theorem C93_tags {bs : List Nat → Nat → Search} (hb : SearchContract bs) (cap : Nat) (ops : List TagOp) :
    ops.foldlM (TagOp.runBy bs) (Tags.new cap) = ops.foldlM TagOp.run (Tags.new cap) ∧
    ∀ c, ops.foldlM TagOp.run (Tags.new cap) = .ok c → ∀ tag,
      (∀ id, c.hasTagBy bs tag id = c.hasTag tag id) ∧ c.hasTagBitvecBy bs tag = c.hasTagBitvec tag := by
  obtain ⟨h1, h2⟩ := foldlM_congr (f := TagOp.runBy bs) (g := TagOp.run) (fun c : Tags => Incr c.tagIds)
    (fun c hc op => Tags.runBy_eq hb hc op) (fun c hc op c' h => Tags.run_incr hc op h) ops (b := Tags.new cap) .nil
  exact ⟨h1, fun c hc tag => ⟨fun id => Tags.hasTagBy_eq hb (h2 c hc) tag id, Tags.hasTagBitvecBy_eq hb (h2 c hc) tag⟩⟩

/-- Three tags, registered out of order. -/
example : ∃ c, [TagOp.add 5 0, .add 2 1, .add 3 0, .remove 5 0].foldlM (TagOp.runBy binarySearch181) (Tags.new 4) = .ok c ∧
    c.hasTag 3 0 = .ok true ∧ c.hasTag 5 0 = .ok false := by
  rw [(C93_tags binarySearch181_contract 4 _).1]
  exact ⟨_, rfl, by decide, by decide⟩

/-- **C93**, order groups: every sequence of calls has the same outcome with every search, and leaves a container that gives the same
answers. -/
theorem C93_orders {bs : List Nat → Nat → Search} (hb : SearchContract bs) (dbg : Bool) (cap : Nat) (ops : List OrderOp) :
    ops.foldlM (OrderOp.runBy bs dbg) (Orders.new cap) = ops.foldlM (OrderOp.run dbg) (Orders.new cap) ∧
    ∀ c, ops.foldlM (OrderOp.run dbg) (Orders.new cap) = .ok c → ∀ g,
      c.getHeadBy bs g = c.getHead g ∧ c.getTailBy bs g = c.getTail g ∧
      ∀ id, c.getNextBy bs g id = c.getNext g id ∧ c.getPreviousBy bs g id = c.getPrevious g id := by
  obtain ⟨h1, h2⟩ := foldlM_congr (f := OrderOp.runBy bs dbg) (g := OrderOp.run dbg) (fun c : Orders => Incr c.groupIds)
    (fun c hc op => Orders.runBy_eq hb hc dbg op) (fun c hc op c' h => Orders.run_incr hc op h) ops (b := Orders.new cap) .nil
  exact ⟨h1, fun c hc g => ⟨Orders.getHeadBy_eq hb (h2 c hc) g, Orders.getTailBy_eq hb (h2 c hc) g,
    fun id => ⟨Orders.getNextBy_eq hb (h2 c hc) g id, Orders.getPreviousBy_eq hb (h2 c hc) g id⟩⟩⟩

/-- Two groups, registered out of order. -/
example : ∃ c, [OrderOp.add 5 0, .add 2 1, .addNextTo 5 2 0, .remove 5 0].foldlM (OrderOp.runBy binarySearch181 true) (Orders.new 4) =
    .ok c ∧ c.getHead 5 = .ok (some 2) ∧ c.getHead 2 = .ok (some 1) := by
  rw [(C93_orders binarySearch181_contract true 4 _).1]
  exact ⟨_, rfl, by decide, by decide⟩

/-- **C93**, in the store: the tags and groups of every execution are answered alike. -/
theorem C93_store {bs : List Nat → Nat → Search} (hb : SearchContract bs) {U : Universe} {dbg : Bool} {cap : Nat} {h : List Event}
    {s : Store} (hx : LooseExec U dbg cap h s) :
    (∀ tag id, s.tags.hasTagBy bs tag id = s.tags.hasTag tag id) ∧
    (∀ op, TagOp.runBy bs s.tags op = op.run s.tags) ∧
    (∀ g, s.orders.getHeadBy bs g = s.orders.getHead g ∧ s.orders.getTailBy bs g = s.orders.getTail g) ∧
    (∀ g id, s.orders.getNextBy bs g id = s.orders.getNext g id ∧ s.orders.getPreviousBy bs g id = s.orders.getPrevious g id) ∧
    ∀ op, OrderOp.runBy bs dbg s.orders op = op.run dbg s.orders := by
  have ht := (loose_core hx).tags.incr
  have ho := (loose_core hx).orders.incr
  exact ⟨Tags.hasTagBy_eq hb ht, Tags.runBy_eq hb ht, fun g => ⟨Orders.getHeadBy_eq hb ho g, Orders.getTailBy_eq hb ho g⟩,
    fun g id => ⟨Orders.getNextBy_eq hb ho g id, Orders.getPreviousBy_eq hb ho g id⟩, Orders.runBy_eq hb ho dbg⟩

/-- A store with a tag and a group. -/
example : ∃ s, LooseExec demo true 1 [.orderedLast 3 ⟨0, 1⟩, .tagged 8 ⟨0, 1⟩, .created ⟨0, 1⟩] s := by
  have h : ((runLoose demo true 1 [.orderedLast 3 ⟨0, 1⟩, .tagged 8 ⟨0, 1⟩, .created ⟨0, 1⟩]).any fun _ => true) = true := by decide
  obtain ⟨s, hs, _⟩ := any_some h
  exact ⟨s, runLoose_sound hs⟩

/-- **C93**, sorting: every sort, stable or not, makes the same archetype from a tuple (also one with repeated types), and a builder does
the same with every sort. -/
theorem C93_sort {sort : List ComponentType → List ComponentType} (hs : SortContract sort) (U : Universe) :
    (∀ ts, Archetype.withComponentsBy sort U ts = Archetype.withComponents U ts) ∧
    ∀ ops : List BuilderOp, (∀ a, .includeArchetype a ∈ ops → Built U a) →
      ops.foldlM (BuilderOp.runBy sort U) .new = runBuilder U .new ops ∧
      ∀ b, runBuilder U .new ops = .ok b → b.buildBy sort = b.build := by
  have hb : ∀ {b : ArchetypeBuilder} {r : List TypeId}, BuilderRep U b r → b.buildBy sort = b.build := by
    intro b r h
    unfold ArchetypeBuilder.buildBy ArchetypeBuilder.build
    rw [sort_unique hs (U := U) (l := b.componentTypes)]
    rw [h.1]
    intro c hc
    obtain ⟨t, _, rfl⟩ := List.mem_map.1 hc
    rfl
  refine ⟨fun ts => ?_, fun ops => ?_⟩
  · unfold Archetype.withComponentsBy Archetype.withComponents
    rw [sort_unique hs (U := U)]
    intro c hc
    obtain ⟨t, _, rfl⟩ := List.mem_map.1 hc
    rfl
  · suffices h : ∀ (b : ArchetypeBuilder) (r : List TypeId), BuilderRep U b r → (∀ a, .includeArchetype a ∈ ops → Built U a) →
        ops.foldlM (BuilderOp.runBy sort U) b = runBuilder U b ops ∧
        ∀ b', runBuilder U b ops = .ok b' → b'.buildBy sort = b'.build from h .new [] (BuilderRep.new U)
    induction ops with
    | nil => exact fun b r h _ => ⟨rfl, fun b' h' => by cases h'; exact hb h⟩
    | cons op ops ih =>
      intro b r h ha
      have ha' : ∀ a, .includeArchetype a ∈ ops → Built U a := fun a h => ha a (List.mem_cons_of_mem _ h)
      rw [List.foldlM_cons, show runBuilder U b (op :: ops) = (op.run U b).bind fun b' => runBuilder U b' ops from rfl]
      cases op with
      | includeTypes ts => obtain ⟨r', h', _⟩ := h.includeComponents ts; exact ih _ r' h' ha'
      | excludeTypes ts => obtain ⟨r', h', _⟩ := h.excludeComponents ts; exact ih _ r' h' ha'
      | includeArchetype a =>
        obtain ⟨r', h', _⟩ := h.includeArchetype (ha a (List.mem_cons_self ..)).wf
        exact ih _ r' h' ha'
      | build =>
        have e : BuilderOp.build.runBy sort U b = BuilderOp.build.run U b := by
          show (b.buildBy sort).bind _ = b.build.bind _
          rw [hb h]
        rw [e]
        by_cases hn : r = []
        · subst hn
          have : BuilderOp.build.run U b = .error (.panic .assertFailed) := by
            show b.build.bind _ = _
            rw [h.build_nil]; rfl
          rw [this]
          exact ⟨rfl, fun b' h' => by cases h'⟩
        · obtain ⟨a, b', h1, _, _, h4⟩ := h.build hn
          have : BuilderOp.build.run U b = .ok b' := by
            show b.build.bind _ = _
            rw [h1]; rfl
          rw [this]
          exact ih b' a.ids h4 ha'

/-- A sort that is not stable. -/
example : SortContract (fun l => sortByKey (·.id) l.reverse) :=
  fun l => ⟨(sortByKey_perm _ _).trans l.reverse_perm, sortByKey_sorted _ _⟩

/-- **C93**, registering an archetype: the same with every search while the list of free slots is sorted.
Missing: the list need not be sorted (`C93_counterexample`). -/
theorem C93_registering_partial {bs : List Nat → Nat → Search} (hb : SearchContract bs) (dbg : Bool) {c : Archs}
    (hc : c.freeArchetypes.Pairwise (· < ·)) (a : Archetype) : c.reserveArchetypeBy bs dbg a = c.reserveArchetype dbg a := by
  unfold Archs.reserveArchetypeBy Archs.reserveArchetype
  cases Archs.findSame a 0 c.archetypes with
  | some i => dsimp only; rw [search_unique hb hc]; rfl
  | none => rfl

/-- Entities with component types 9, 1, 4 and 5; those with types 4, 5 and 1 are destroyed in this order, so their archetype slots 2, 3
and 1 are freed in this order. -/
def outOfOrder : List Event :=
  [.destroyed ⟨1, 1⟩, .destroyed ⟨3, 1⟩, .destroyed ⟨2, 1⟩, .added ⟨3, 1⟩ [(5, [6])], .added ⟨2, 1⟩ [(4, [4])],
   .added ⟨1, 1⟩ [(1, [1])], .added ⟨0, 1⟩ [(9, [9])], .created ⟨3, 1⟩, .created ⟨2, 1⟩, .created ⟨1, 1⟩, .created ⟨0, 1⟩]

/-- Before the last call the free slots were still in order. -/
example : ∃ s, WellExec demo true 1 outOfOrder.tail s ∧ s.archs.freeArchetypes.Pairwise (· < ·) ∧ s.archs.freeArchetypes = [2, 3] := by
  have h : ((runWell demo true 1 outOfOrder.tail).any fun s => decide (s.archs.freeArchetypes = [2, 3])) = true := by decide
  obtain ⟨s, hs, h⟩ := any_some h
  have h := of_decide_eq_true h
  exact ⟨s, runWell_sound hs, by rw [h]; decide, h⟩

/-- **C93 is false of the code** for the list of free archetype slots, which is searched but not sorted: what `reserve_archetype` does
differs between Rust 1.81 and Rust 1.82. The archetype of type 5 is found in slot 3 by both; with 1.81 the slot is no longer free
afterwards, with 1.82 it still is, so that it may be overwritten while in use (C28). -/
theorem C93_counterexample : ∃ s a c c', WellExec demo true 1 outOfOrder s ∧ Built demo a ∧ a.ids = [5] ∧
    s.archs.reserveArchetypeBy binarySearch181 true a = .ok (c, 3) ∧ c.freeArchetypes = [2, 1] ∧
    s.archs.reserveArchetype true a = .ok (c', 3) ∧ c'.freeArchetypes = [2, 3, 1] := by
  have h : ((runWell demo true 1 outOfOrder).any fun s =>
      okAnd (s.archs.reserveArchetypeBy binarySearch181 true ⟨[5], [demo.size 5], [demo.align 5]⟩) fun r =>
      okAnd (s.archs.reserveArchetype true ⟨[5], [demo.size 5], [demo.align 5]⟩) fun r' =>
      decide (r.2 = 3) && (decide (r.1.freeArchetypes = [2, 1]) &&
      (decide (r'.2 = 3) && decide (r'.1.freeArchetypes = [2, 3, 1])))) = true := by decide
  obtain ⟨s, hs, h⟩ := any_some h
  obtain ⟨⟨c, i⟩, h1, h⟩ := okAnd_iff h
  obtain ⟨⟨c', i'⟩, h2, h⟩ := okAnd_iff h
  simp only [Bool.and_eq_true, decide_eq_true_eq] at h
  obtain ⟨rfl, h3, rfl, h4⟩ := h
  exact ⟨s, _, c, c', runWell_sound hs, .tuple [5] (by decide) rfl, rfl, h1, h3, h2, h4⟩

/-- **C93**, rows of a page: how many entities a new page takes is not up to the layout but to `Vec`: exactly as many as the vector has
room for after `reserve`. -/
theorem C93_page_rows (policy : Nat → Nat → Nat) (l : Layout) (ids : List Nat) :
    (∃ p, fillPage policy l ids = .ok p) ↔
      ids.length ≤ if l.entitiesCapacity = 0 then 0 else policy 0 l.entitiesCapacity := by
  have h := fillPage_ids policy ids (p := Page.new.setLayoutBy policy l) (by
    rw [show (Page.new.setLayoutBy policy l).entityCount = 0 by unfold Page.setLayoutBy CapVec.reserveBy Page.entityCount; split <;> rfl]
    exact Nat.zero_le _)
  refine h.trans ?_
  by_cases hz : l.entitiesCapacity = 0
  · simp [Page.entityCount, Page.entityCapacity, Page.setLayoutBy, CapVec.reserveBy, Page.new, CapVec.new, hz]
  · simp [Page.entityCount, Page.entityCapacity, Page.setLayoutBy, CapVec.reserveBy, Page.new, CapVec.new, hz]

/-- **C93**, so a page never takes more rows than its layout allows (C20) exactly if `reserve` on an empty vector never makes more room
than asked for, which `Vec` does not promise; and it takes at least as many. -/
theorem C93_rows_fit_iff {policy : Nat → Nat → Nat} (hP : Promised policy) :
    ((∀ l ids p, fillPage policy l ids = .ok p → ids.length ≤ l.entitiesCapacity) ↔ ∀ n, 0 < n → policy 0 n = n) ∧
    ∀ l ids, ids.length ≤ l.entitiesCapacity → ∃ p, fillPage policy l ids = .ok p := by
  refine ⟨⟨fun h n hn => ?_, fun h l ids p hp => ?_⟩, fun l ids h => ?_⟩
  · obtain ⟨p, hp⟩ := (C93_page_rows policy ⟨[], n⟩ (List.replicate (policy 0 n) 0)).2 (by simp [Nat.pos_iff_ne_zero.1 hn])
    have := h _ _ _ hp
    simp at this
    exact Nat.le_antisymm this (hP 0 n)
  · have := (C93_page_rows policy l ids).1 ⟨p, hp⟩
    split at this
    · omega
    · rw [h _ (by omega)] at this; exact this
  · refine (C93_page_rows policy l ids).2 ?_
    split
    · omega
    · exact h.trans (hP _ _)

/-- A page of three rows takes four with the standard library's vectors. -/
example : ∃ p, fillPage CapVec.grownCap ⟨[0], 3⟩ [1, 2, 3, 4] = .ok p := ⟨_, rfl⟩

end Ecs.Props
