import Verif.Proofs.Rename

/-! Stores, calls and queries under order-preserving renamings of type ids. -/

namespace Ecs
open Spec

variable {ρ : TypeId → TypeId} {U U' : Universe} {dbg : Bool}

def Archs.rename (ρ : TypeId → TypeId) (c : Archs) : Archs := { c with archetypes := c.archetypes.map (Archetype.rename ρ) }

def Store.rename (ρ : TypeId → TypeId) (s : Store) : Store :=
  { s with archs := s.archs.rename ρ, tags := s.tags.rename ρ, orders := s.orders.rename ρ }

/-- The renaming of the first component of a pair. -/
abbrev Archs.ren1 {α : Type} (ρ : TypeId → TypeId) (x : Archs × α) : Archs × α := (x.1.rename ρ, x.2)

abbrev Store.ren1 {α : Type} (ρ : TypeId → TypeId) (x : Store × α) : Store × α := (x.1.rename ρ, x.2)

theorem moveLoop_rename (a : Archetype) (l : Layout) (src dst : Nat) (is : List Nat) :
    ∀ d, Page.moveLoop (a.rename ρ) l src dst is d = Page.moveLoop a l src dst is d := by
  induction is with
  | nil => exact fun _ => rfl
  | cons i is ih =>
    intro d
    unfold Page.moveLoop
    simp only [ih]
    rfl

theorem swapRemoveAt_rename (p : Page) (i : Nat) (a : Archetype) (l : Layout) :
    p.swapRemoveEntityAtIndex i (a.rename ρ) l = p.swapRemoveEntityAtIndex i a l := by
  unfold Page.swapRemoveEntityAtIndex Page.moveComponentData
  have : (a.rename ρ).componentCount = a.componentCount := by unfold Archetype.componentCount Archetype.rename; simp
  simp only [this, moveLoop_rename]

namespace Archs
variable {c : Archs}

theorem findSame_rename (hρ : StrictMono ρ) (a : Archetype) (l : List Archetype) :
    ∀ i, findSame (a.rename ρ) i (l.map (Archetype.rename ρ)) = findSame a i l := by
  induction l with
  | nil => exact fun _ => rfl
  | cons b l ih =>
    intro i
    rw [List.map_cons]
    unfold findSame
    rw [Archetype.isSameAs_rename hρ, ih]

theorem layout_rename (a : Archetype) : Layout.new dbg (a.rename ρ) = Layout.new dbg a := rfl

theorem reserveArchetype_rename (hρ : StrictMono ρ) (a : Archetype) :
    Maps (ren1 ρ) (c.reserveArchetype dbg a) ((c.rename ρ).reserveArchetype dbg (a.rename ρ)) := by
  unfold reserveArchetype
  show Maps _ _ (match findSame (a.rename ρ) 0 (c.archetypes.map (Archetype.rename ρ)) with | some i => _ | none => _)
  rw [findSame_rename hρ]
  cases findSame a 0 c.archetypes with
  | some i =>
    dsimp only
    show Maps _ _ (match binarySearch c.freeArchetypes i with | .found k => _ | .notFound _ => _)
    cases binarySearch c.freeArchetypes i <;> exact rfl
  | none =>
    dsimp only
    rw [layout_rename]
    refine .same fun layout => ?_
    show Maps _ _ (match c.freeArchetypes.getLast? with | some i => _ | none => _)
    cases c.freeArchetypes.getLast? with
    | some i => exact .bind (.idxSet _ _ _ _) fun l => .same fun _ => rfl
    | none =>
      show _ = _
      simp [ren1, rename]

theorem reservePage_rename (id ai : Nat) : Maps (ren1 ρ) (c.reservePage dbg id ai) ((c.rename ρ).reservePage dbg id ai) := by
  unfold reservePage
  refine .same fun pl => .same fun o => ?_
  cases o with
  | some p => exact .same fun _ => .same fun _ => rfl
  | none =>
    refine .bind (f := ren1 ρ) ?_ fun x => ?_
    · show Maps _ _ (match c.freePages.getLast? with | some i => _ | none => _)
      cases c.freePages.getLast? with
      | some i => exact rfl
      | none => exact .same fun _ => .same fun _ => rfl
    · exact .same fun _ => .same fun _ => .same fun _ => .same fun _ => .same fun _ => rfl

theorem addEntity_rename (hρ : StrictMono ρ) (id : Nat) (a : Archetype) :
    Maps (ren1 ρ) (c.addEntity dbg id a) ((c.rename ρ).addEntity dbg id (a.rename ρ)) :=
  .bind (reserveArchetype_rename hρ a) fun x => reservePage_rename id x.2

theorem freePage_rename (p : Nat) : Maps (rename ρ) (c.freePage p) ((c.rename ρ).freePage p) := by
  unfold freePage
  refine .same fun ai => ?_
  split
  · exact rfl
  · refine .same fun pl => ?_
    dsimp only
    split <;> exact rfl

theorem swapRemoveEntity_rename (l : Loc) : Maps (ren1 ρ) (c.swapRemoveEntity l) ((c.rename ρ).swapRemoveEntity l) := by
  unfold swapRemoveEntity
  refine .same fun ai => .same fun pg => .bind (.idx _ _ _) fun a => .same fun lay => ?_
  rw [swapRemoveAt_rename]
  refine .same fun x => ?_
  dsimp only
  split
  · exact .bind (freePage_rename (c := { c with pages := c.pages.set l.page x.1 }) l.page) fun _ => rfl
  · exact rfl

theorem copyLoop_rename (src dst : Loc) (sa da : Archetype) (sl dl : Layout) (l : List (Nat × Nat)) :
    ∀ ps, copyLoop src dst (sa.rename ρ) (da.rename ρ) sl dl l ps = copyLoop src dst sa da sl dl l ps := by
  induction l with
  | nil => exact fun _ => rfl
  | cons x l ih =>
    intro ps
    obtain ⟨i, j⟩ := x
    unfold copyLoop
    simp only [ih]
    rfl

theorem move_rename (hρ : StrictMono ρ) (id : Nat) (prev : Loc) (pi : Nat) (a : Archetype) :
    Maps (ren1 ρ) (c.moveEntityToOtherArchetype dbg id prev pi a)
      ((c.rename ρ).moveEntityToOtherArchetype dbg id prev pi (a.rename ρ)) := by
  unfold moveEntityToOtherArchetype
  refine .bind (reserveArchetype_rename hρ a) fun x => .bind (reservePage_rename id x.2) fun y => ?_
  refine .same fun _ => .same fun _ => .bind (.idx _ _ _) fun pa => .same fun _ => .same fun _ => ?_
  dsimp only
  rw [ArchetypesUnion.calculate_rename hρ, copyLoop_rename]
  exact .same fun _ => rfl

end Archs

namespace Store
variable {s : Store}

theorem grow_rename (n : Nat) : Maps (rename ρ) (s.growEntitiesInternal dbg n) ((s.rename ρ).growEntitiesInternal dbg n) := by
  unfold growEntitiesInternal
  exact .same fun _ => .same fun _ => .same fun _ => .bind (s.tags.grow_rename _) fun _ => .bind (s.orders.grow_rename _) fun _ => rfl

theorem register_rename : Maps (ren1 ρ) (s.registerNewEntity dbg) ((s.rename ρ).registerNewEntity dbg) := by
  unfold registerNewEntity
  refine .same fun x => ?_
  dsimp only
  split
  · exact .bind (grow_rename (s := { s with ents := x.1 }) _) fun _ => rfl
  · exact rfl

theorem create_rename : Maps (ren1 ρ) (s.createEntity dbg) ((s.rename ρ).createEntity dbg) :=
  .bind register_rename fun _ => .same fun _ => rfl

theorem record_rename (id : Nat) (l : Loc) : Maps (rename ρ) (s.recordRow id l) ((s.rename ρ).recordRow id l) :=
  .same fun _ => .same fun _ => .same fun _ => rfl

theorem createWith_rename (hρ : StrictMono ρ) (a : Archetype) :
    Maps (ren1 ρ) (s.createEntityWithArchetype dbg a) ((s.rename ρ).createEntityWithArchetype dbg (a.rename ρ)) :=
  .bind register_rename fun x => .bind (Archs.addEntity_rename hρ _ a) fun y =>
    .bind (record_rename (s := { x.1 with archs := y.1 }) _ _) fun _ => rfl

theorem swapRemove_rename (l : Loc) : Maps (rename ρ) (s.swapRemoveInternal l) ((s.rename ρ).swapRemoveInternal l) := by
  unfold swapRemoveInternal
  refine .bind (Archs.swapRemoveEntity_rename l) fun x => ?_
  obtain ⟨x, i⟩ := x
  cases i with
  | none => exact rfl
  | some i => exact .same fun _ => rfl

theorem destroy_rename (e : Entity) : Maps (rename ρ) (s.destroyEntity dbg e) ((s.rename ρ).destroyEntity dbg e) := by
  unfold destroyEntity
  refine .bind (f := rename ρ) ?_ fun x =>
    .same fun _ => .bind (x.tags.removeAll_rename _) fun _ => .bind (x.orders.removeAll_rename _) fun _ => rfl
  unfold destroyRow
  refine .same fun b => ?_
  split
  · exact .same fun l => swapRemove_rename l
  · exact rfl

theorem move_rename (hρ : StrictMono ρ) (e : Entity) (a : Archetype) :
    Maps (ren1 ρ) (s.moveEntityToOtherArchetype dbg e a) ((s.rename ρ).moveEntityToOtherArchetype dbg e (a.rename ρ)) := by
  unfold moveEntityToOtherArchetype
  refine .same fun prev => .same fun pi => .bind (Archs.move_rename hρ _ _ _ _) fun x => .same fun tp => .same fun ti => ?_
  exact .bind (swapRemove_rename (s := { s with archs := x.1, toPage := tp, toIndex := ti }) prev) fun _ => rfl

theorem pageView_rename (p : Nat) : Maps (fun v => { v with archetype := v.archetype.rename ρ }) (s.getPageViewUnchecked p)
    ((s.rename ρ).getPageViewUnchecked p) := by
  unfold getPageViewUnchecked
  exact .same fun _ => .bind (.idxUnchecked _ _ _) fun _ => .same fun _ => .same fun _ => rfl

theorem ensure_rename (hρ : StrictMono ρ) (hU : Transported ρ U U') (e : Entity) (ts : List TypeId) :
    Maps (ren1 ρ) (s.ensureComponents U dbg e ts) ((s.rename ρ).ensureComponents U' dbg e (ts.map ρ)) := by
  unfold ensureComponents
  refine .same fun b => ?_
  split
  · refine .same fun l => .same fun ai => .bind (.idxUnchecked _ _ _) fun arch => ?_
    rw [tupleIncluded_rename hρ]
    split
    · exact rfl
    · have := ArchetypeBuilder.build_rename hρ ((ArchetypeBuilder.new.includeArchetype arch).includeComponents U ts)
      rw [← ArchetypeBuilder.includeComponents_rename hρ hU, ← ArchetypeBuilder.includeArchetype_rename hρ] at this
      exact .bind this fun x => move_rename hρ e x.1
  · exact .bind (Archetype.withComponents_rename hρ hU ts) fun a => .bind (Archs.addEntity_rename hρ _ a) fun x =>
      .bind (record_rename (s := { s with archs := x.1 }) _ _) fun _ => rfl

theorem renameTuple_types (v : TupleVal) : (renameTuple ρ v).map (·.1) = (v.map (·.1)).map ρ := by
  unfold renameTuple
  simp

theorem renameTuple_bytes (v : TupleVal) : (renameTuple ρ v).map (·.2) = v.map (·.2) := by
  unfold renameTuple
  simp

theorem add_rename (hρ : StrictMono ρ) (hU : Transported ρ U U') (e : Entity) (v : TupleVal) :
    Maps (rename ρ) (s.addComponents U dbg e v) ((s.rename ρ).addComponents U' dbg e (renameTuple ρ v)) := by
  unfold addComponents
  rw [renameTuple_types, renameTuple_bytes]
  refine .same (r := s.isAlive dbg e) fun b => ?_
  dsimp only
  split
  · exact rfl
  · refine .bind (ensure_rename hρ hU e _) fun x => .bind (pageView_rename _) fun view => ?_
    dsimp only
    rw [getOffsetsUnchecked_rename hρ]
    refine .same fun offs => ?_
    rw [getRefs_rename hU]
    exact .same fun _ => rfl

theorem remove_rename (hρ : StrictMono ρ) (hU : Transported ρ U U') (e : Entity) (ts : List TypeId) :
    Maps (rename ρ) (s.removeComponents U dbg e ts) ((s.rename ρ).removeComponents U' dbg e (ts.map ρ)) := by
  unfold removeComponents
  refine .same (r := s.isValidEntityWithArchetype dbg e) fun b => ?_
  split
  · exact rfl
  · refine .same fun l => .same fun ai => .bind (.idxUnchecked _ _ _) fun arch => ?_
    have := ArchetypeBuilder.build_rename hρ ((ArchetypeBuilder.new.includeArchetype arch).excludeComponents U ts)
    rw [← ArchetypeBuilder.excludeComponents_rename hρ hU, ← ArchetypeBuilder.includeArchetype_rename hρ] at this
    exact .bind this fun x => .bind (move_rename hρ e x.1) fun _ => rfl

theorem refs_rename (hρ : StrictMono ρ) (hU : Transported ρ U U') (e : Entity) (ts : List TypeId) :
    (s.rename ρ).getComponentsRefs U' dbg e (ts.map ρ) = s.getComponentsRefs U dbg e ts := by
  apply Both.eq
  unfold getComponentsRefs
  refine .same (r := s.isValidEntityWithArchetype dbg e) fun b => ?_
  split
  · refine .same fun p => Both.bind (R := fun v' v => v' = { v with archetype := v.archetype.rename ρ }) ?_ fun v' v hv => ?_
    · have := (pageView_rename (ρ := ρ) (s := s) p).eq
      rw [this]
      cases s.getPageViewUnchecked p <;> exact rfl
    · subst hv
      refine .same fun i => ?_
      rw [getOffsets_rename hρ]
      refine .same fun o => ?_
      cases o with
      | none => exact rfl
      | some offs =>
        dsimp only
        rw [getRefs_rename hU]
        exact rfl
  · exact rfl

theorem assign_rename (hρ : StrictMono ρ) (hU : Transported ρ U U') (e : Entity) (v : TupleVal) :
    Maps (ren1 ρ) (s.setComponents U dbg e v) ((s.rename ρ).setComponents U' dbg e (renameTuple ρ v)) := by
  unfold setComponents
  rw [renameTuple_types, renameTuple_bytes, refs_rename hρ hU]
  refine .same fun o => ?_
  cases o with
  | none => exact rfl
  | some rs => exact .same fun _ => rfl

theorem components_rename (hρ : StrictMono ρ) (hU : Transported ρ U U') (e : Entity) (ts : List TypeId) :
    (s.rename ρ).getComponents U' dbg e (ts.map ρ) = s.getComponents U dbg e ts := by
  unfold getComponents
  rw [refs_rename hρ hU]
  rfl

theorem archetype_rename (e : Entity) :
    Maps (Option.map (Archetype.rename ρ)) (s.getEntityArchetype dbg e) ((s.rename ρ).getEntityArchetype dbg e) := by
  unfold getEntityArchetype
  refine .same (r := s.isValidEntityWithArchetype dbg e) fun b => ?_
  split
  · exact rfl
  · exact .same fun _ => .same fun _ => .bind (.idx _ _ _) fun _ => rfl

theorem tag_rename (hρ : StrictMono ρ) (t : Nat) (e : Entity) : Maps (rename ρ) (s.addTag t e) ((s.rename ρ).addTag (ρ t) e) :=
  .bind (s.tags.addTag_rename hρ t e.id) fun _ => rfl

theorem untag_rename (hρ : StrictMono ρ) (t : Nat) (e : Entity) : Maps (rename ρ) (s.removeTag t e) ((s.rename ρ).removeTag (ρ t) e) :=
  .bind (s.tags.removeTag_rename hρ t e.id) fun _ => rfl

theorem order_rename (hρ : StrictMono ρ) (g : Nat) (e : Entity) :
    Maps (rename ρ) (s.addOrder dbg g e) ((s.rename ρ).addOrder dbg (ρ g) e) :=
  .bind (s.orders.add_rename hρ g e.id) fun _ => rfl

theorem orderAfter_rename (hρ : StrictMono ρ) (g : Nat) (e x : Entity) :
    Maps (rename ρ) (s.addOrderNextTo dbg g e x) ((s.rename ρ).addOrderNextTo dbg (ρ g) e x) :=
  .bind (s.orders.addNextTo_rename hρ g e.id x.id) fun _ => rfl

theorem orderBefore_rename (hρ : StrictMono ρ) (g : Nat) (e x : Entity) :
    Maps (rename ρ) (s.addOrderPreviousTo dbg g e x) ((s.rename ρ).addOrderPreviousTo dbg (ρ g) e x) :=
  .bind (s.orders.addPreviousTo_rename hρ g e.id x.id) fun _ => rfl

theorem unorder_rename (hρ : StrictMono ρ) (g : Nat) (e : Entity) :
    Maps (rename ρ) (s.removeOrder g e) ((s.rename ρ).removeOrder (ρ g) e) :=
  .bind (s.orders.remove_rename hρ g e.id) fun _ => rfl

/-! ### Queries -/

theorem collectPages_rename (hU : Transported ρ U U') (acc : Access) (ps : List Page) (offs l : List Nat) :
    ∀ r, collectPages U' (acc.rename ρ) ps offs l r = collectPages U acc ps offs l r := by
  induction l with
  | nil => exact fun _ => rfl
  | cons p l ih =>
    intro r
    obtain ⟨views, n⟩ := r
    unfold collectPages
    simp only [ih, IterView.new_rename hU]

theorem collectArchetypes_rename (hρ : StrictMono ρ) (hU : Transported ρ U U') (acc : Access) (c : Archs) (l : List Nat) :
    ∀ r, collectArchetypes U' (acc.rename ρ) (c.rename ρ) l r = collectArchetypes U acc c l r := by
  induction l with
  | nil => exact fun _ => rfl
  | cons ai l ih =>
    intro r
    apply Both.eq
    unfold collectArchetypes
    refine Both.bind (R := fun a' a => a' = a.rename ρ) ?_ fun a' a ha => ?_
    · have := (Maps.idxUnchecked (Archetype.rename ρ) c.archetypes ai).eq
      show Both _ (idxUnchecked (c.archetypes.map (Archetype.rename ρ)) ai) _
      rw [this]
      cases idxUnchecked c.archetypes ai <;> exact rfl
    · subst ha
      refine .same fun lay => ?_
      rw [Access.included_rename hρ, Access.getOffsets_rename hρ]
      split
      · rw [ih]
        exact .refl _
      · refine .same fun offs => .same fun pl => ?_
        rw [collectPages_rename hU]
        refine .same fun r => ?_
        rw [ih]
        exact .refl _

theorem compIter_rename (hρ : StrictMono ρ) (hU : Transported ρ U U') (acc : Access) (old : List IterView) :
    componentQueryIter U' (s.rename ρ) (acc.rename ρ) old = componentQueryIter U s acc old := by
  unfold componentQueryIter
  have : (s.rename ρ).archs.archetypes.length = s.archs.archetypes.length := by simp [rename, Archs.rename]
  rw [this]
  show ((collectArchetypes U' (acc.rename ρ) (s.archs.rename ρ) _ _) >>= _) = _
  rw [collectArchetypes_rename hρ hU]

theorem nextFiltered_rename (bv : Words) (fuel : Nat) :
    ∀ it, CompIter.nextFiltered dbg (s.rename ρ) bv fuel it = CompIter.nextFiltered dbg s bv fuel it := by
  induction fuel with
  | zero => exact fun _ => rfl
  | succ n ih =>
    intro it
    unfold CompIter.nextFiltered
    simp only [ih]
    rfl

theorem rangeLoop_rename (p : Nat) (l : List Entity) :
    ∀ n, entityRangeLoop dbg (s.rename ρ) p l n = entityRangeLoop dbg s p l n := by
  induction l with
  | nil => exact fun _ => rfl
  | cons e l ih =>
    intro n
    unfold entityRangeLoop
    simp only [ih]
    rfl

theorem validFor_rename (hρ : StrictMono ρ) (acc : Access) (e : Entity) :
    isValidEntityForQuery dbg (s.rename ρ) (acc.rename ρ) e = isValidEntityForQuery dbg s acc e := by
  unfold isValidEntityForQuery
  rw [(archetype_rename (ρ := ρ) (s := s) (dbg := dbg) e).eq]
  cases s.getEntityArchetype dbg e with
  | error _ => rfl
  | ok o =>
    cases o with
    | none => rfl
    | some a =>
      show Except.ok _ = Except.ok _
      rw [Access.included_rename hρ]

theorem outerLoop_rename (hρ : StrictMono ρ) (hU : Transported ρ U U') (acc : Access) (fuel : Nat) : ∀ (l : List Entity) (n : Nat),
    entityOuterLoop U' dbg (s.rename ρ) (acc.rename ρ) fuel l n = entityOuterLoop U dbg s acc fuel l n := by
  induction fuel with
  | zero => intro l n; cases l <;> rfl
  | succ k ih =>
    intro l n
    cases l with
    | nil => rfl
    | cons e l =>
      apply Both.eq
      unfold entityOuterLoop
      rw [validFor_rename hρ]
      refine .same fun b => ?_
      split
      · rw [ih]
        exact .refl _
      · refine .same fun p => .same fun ai => ?_
        refine Both.bind (R := fun a' a => a' = a.rename ρ) ?_ fun a' a ha => ?_
        · have := (Maps.idxUnchecked (Archetype.rename ρ) s.archs.archetypes ai).eq
          show Both _ (idxUnchecked (s.archs.archetypes.map (Archetype.rename ρ)) ai) _
          rw [this]
          cases idxUnchecked s.archs.archetypes ai <;> exact rfl
        · subst ha
          refine .same fun lay => .same fun pg => ?_
          rw [Access.getOffsets_rename hρ]
          refine .same fun offs => ?_
          rw [rangeLoop_rename]
          refine .same fun x => ?_
          dsimp only
          rw [ih, IterView.new_rename hU]
          exact .refl _

theorem entIter_rename (hρ : StrictMono ρ) (hU : Transported ρ U U') (es : List Entity) (acc : Access) (old : List (Range × IterView)) :
    entityQueryIter U' dbg (s.rename ρ) es (acc.rename ρ) old = entityQueryIter U dbg s es acc old := by
  unfold entityQueryIter
  rw [outerLoop_rename hρ hU]

theorem ordRangeLoop_rename (links : Raw Nat) (p fuel : Nat) :
    ∀ e n, orderedRangeLoop (s.rename ρ) links p fuel e n = orderedRangeLoop s links p fuel e n := by
  induction fuel with
  | zero => exact fun _ _ => rfl
  | succ k ih =>
    intro e n
    unfold orderedRangeLoop
    simp only [ih]
    rfl

theorem ordOuterLoop_rename (hρ : StrictMono ρ) (hU : Transported ρ U U') (acc : Access) (links : Raw Nat) (fuel : Nat) :
    ∀ e, orderedOuterLoop U' (s.rename ρ) (acc.rename ρ) links fuel e = orderedOuterLoop U s acc links fuel e := by
  induction fuel with
  | zero => exact fun _ => rfl
  | succ k ih =>
    intro e
    apply Both.eq
    unfold orderedOuterLoop
    split
    · exact .refl _
    · refine .same fun p => .same fun i => .same fun pg => .same fun ai => ?_
      refine Both.bind (R := fun a' a => a' = a.rename ρ) ?_ fun a' a ha => ?_
      · have := (Maps.idxUnchecked (Archetype.rename ρ) s.archs.archetypes ai).eq
        show Both _ (idxUnchecked (s.archs.archetypes.map (Archetype.rename ρ)) ai) _
        rw [this]
        cases idxUnchecked s.archs.archetypes ai <;> exact rfl
      · subst ha
        refine .same fun lay => ?_
        rw [Access.included_rename hρ, Access.getOffsets_rename hρ]
        split
        · refine .same fun e => ?_
          rw [ih]
          exact .refl _
        · refine .same fun offs => .same fun e => ?_
          rw [ordRangeLoop_rename]
          refine .same fun x => ?_
          dsimp only
          rw [ih, IterView.new_rename hU]
          exact .refl _

theorem ordIter_rename (hρ : StrictMono ρ) (hU : Transported ρ U U') (g : Nat) (acc : Access) (old : List (Range × IterView))
    (fuel : Nat) : orderedQueryIter U' (s.rename ρ) (ρ g) (acc.rename ρ) old fuel = orderedQueryIter U s g acc old fuel := by
  unfold orderedQueryIter
  show (match (s.orders.rename ρ).getGroupIndex (ρ g) with | none => _ | some gi => _) = _
  rw [Orders.getGroupIndex_rename hρ]
  cases s.orders.getGroupIndex g with
  | none => rfl
  | some gi =>
    dsimp only
    apply Both.eq
    refine .same (r := idxUnchecked s.orders.groups gi) fun gr => ?_
    rw [ordOuterLoop_rename hρ hU]
    exact .refl _

theorem sees_rename (hρ : StrictMono ρ) (hU : Transported ρ U U') : SeesRenamed ρ U U' dbg s (s.rename ρ) where
  capacity := rfl
  alive _ := rfl
  archetype e := (archetype_rename e).eq
  refs := refs_rename hρ hU
  values := components_rename hρ hU
  query acc old fuel := by unfold runComponentQuery; rw [compIter_rename hρ hU]
  queryWithEntities acc old fuel := by unfold runComponentQueryWithEntities; rw [compIter_rename hρ hU]; rfl
  entities es acc old fuel := by unfold runEntityQuery; rw [entIter_rename hρ hU]; rfl
  entitiesWithEntities es acc old fuel := by unfold runEntityQueryWithEntities; rw [entIter_rename hρ hU]; rfl
  hasTag t e := s.tags.hasTag_rename hρ t e.id
  filterTag acc t old fuel := by
    unfold runComponentQueryFilterTag
    rw [compIter_rename hρ hU]
    have hf : ∀ bv, CompIter.nextFiltered dbg (s.rename ρ) bv fuel = CompIter.nextFiltered dbg s bv fuel :=
      fun bv => funext fun it => nextFiltered_rename bv fuel it
    simp only [hf]
    show (_ >>= fun it => ((s.tags.rename ρ).hasTagBitvec (ρ t) >>= _)) = _
    rw [Tags.hasTagBitvec_rename hρ]
  next g e := by
    unfold getNextOrdered
    show ((s.orders.rename ρ).getNext (ρ g) e.id >>= _) = _
    rw [Orders.getNext_rename hρ]
    rfl
  previous g e := by
    unfold getPreviousOrdered
    show ((s.orders.rename ρ).getPrevious (ρ g) e.id >>= _) = _
    rw [Orders.getPrevious_rename hρ]
    rfl
  first g := by
    unfold getFirstOrdered
    show ((s.orders.rename ρ).getHead (ρ g) >>= _) = _
    rw [Orders.getHead_rename hρ]
    rfl
  last g := by
    unfold getLastOrdered
    show ((s.orders.rename ρ).getTail (ρ g) >>= _) = _
    rw [Orders.getTail_rename hρ]
    rfl
  ordered g acc old fuel := by unfold runOrderedQuery; rw [ordIter_rename hρ hU]
  orderedWithEntities g acc old fuel := by unfold runOrderedQueryWithEntities; rw [ordIter_rename hρ hU]; rfl

end Store
end Ecs
