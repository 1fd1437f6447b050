import Verif.Proofs.Opaque
import Verif.Proofs.Independent
import Verif.Model.Update

/-! All calls and queries on two stores that differ in the contents of their pages only. -/

namespace Ecs
open Spec

variable {Q : Cell → Cell → Prop} {U : Universe} {dbg : Bool} {s s' : Store}

/-- The same tables, and pages with related contents. -/
def StoreLike (Q : Cell → Cell → Prop) (s s' : Store) : Prop := ∃ c, s' = { s with archs := c } ∧ ArchsLike Q s.archs c

/-- Such stores and the same second component. -/
abbrev SWith {α : Type} (Q : Cell → Cell → Prop) (x y : Store × α) : Prop := StoreLike Q x.1 y.1 ∧ x.2 = y.2

theorem assignToRefs_both (rs : List Ref) : ∀ {vs vs' : List (List UInt8)} {ps ps' : List Page},
    List.Forall₂ (List.Forall₂ fun b b' => Q (some b) (some b')) vs vs' → PagesLike Q ps ps' →
    Both (PagesLike Q) (assignToRefs rs vs ps) (assignToRefs rs vs' ps') := by
  induction rs with
  | nil =>
    intro vs vs' ps ps' hv hp
    cases hv <;> exact hp
  | cons r rs ih =>
    intro vs vs' ps ps' hv hp
    cases hv with
    | nil => exact hp
    | @cons v v' vs vs' ha hb =>
      unfold assignToRefs
      refine .bind ?_ fun ps ps' hp => ih hb hp
      unfold writeRef
      refine .bind (.idxUnchecked hp r.page) fun p p' hpp => ?_
      refine .bind (writeBytes_both hpp.data r.off (bs := v.map some) (bs' := v'.map some) ?_) fun d d' hd =>
        forall₂_set hp (show PageLike Q { p with data := d } { p' with data := d' } from ⟨hpp.ids, hd⟩) _
      rw [List.forall₂_map_left_iff, List.forall₂_map_right_iff]
      exact ha

theorem readRef_both {ps ps' : List Page} (hp : PagesLike Q ps ps') (r : Ref) :
    Both (List.Forall₂ Q) (readRef ps r) (readRef ps' r) := by
  unfold readRef
  exact .bind (.idxUnchecked hp r.page) fun p p' hpp => readBytes_both hpp.data r.off r.size

theorem Spec.SameTuple.types {v v' : TupleVal} (h : SameTuple Q v v') : v.map (·.1) = v'.map (·.1) := by
  induction h with
  | nil => rfl
  | cons ha _ ih => simp only [List.map_cons, ha.1, ih]

theorem Spec.SameTuple.bytes {v v' : TupleVal} (h : SameTuple Q v v') :
    List.Forall₂ (List.Forall₂ fun b b' => Q (some b) (some b')) (v.map (·.2)) (v'.map (·.2)) := by
  induction h with
  | nil => exact .nil
  | cons ha _ ih => exact .cons ha.2 ih

namespace StoreLike

theorem withPages {s : Store} {ps ps' : List Page} (hp : PagesLike Q ps ps') :
    StoreLike Q { s with archs := { s.archs with pages := ps } } { s with archs := { s.archs with pages := ps' } } :=
  ⟨_, rfl, ps', rfl, hp⟩

theorem dest (h : StoreLike Q s s') : ∃ ps, s' = { s with archs := { s.archs with pages := ps } } ∧ PagesLike Q s.archs.pages ps := by
  obtain ⟨c, rfl, ps, rfl, hp⟩ := h
  exact ⟨ps, rfl, hp⟩

theorem grow (h : StoreLike Q s s') (n : Nat) : Both (StoreLike Q) (s.growEntitiesInternal dbg n) (s'.growEntitiesInternal dbg n) := by
  obtain ⟨c, rfl, hc⟩ := h
  unfold Store.growEntitiesInternal
  exact .same fun _ => .same fun _ => .same fun _ => .same fun _ => .same fun _ => ⟨c, rfl, hc⟩

theorem register (h : StoreLike Q s s') : Both (SWith Q) (s.registerNewEntity dbg) (s'.registerNewEntity dbg) := by
  obtain ⟨c, rfl, hc⟩ := h
  unfold Store.registerNewEntity
  refine .same fun x => ?_
  dsimp only
  split
  · exact .bind (grow (s := { s with ents := x.1 }) (s' := { s with ents := x.1, archs := c }) ⟨c, rfl, hc⟩ _)
      fun _ _ h => ⟨h, rfl⟩
  · exact ⟨⟨c, rfl, hc⟩, rfl⟩

theorem create (h : StoreLike Q s s') : Both (SWith Q) (s.createEntity dbg) (s'.createEntity dbg) := by
  unfold Store.createEntity
  refine .bind h.register fun x y hxy => ?_
  obtain ⟨x, e⟩ := x
  obtain ⟨y, e'⟩ := y
  obtain ⟨⟨c, hy, hc⟩, rfl⟩ := hxy
  dsimp only at hy hc
  subst hy
  exact .same fun _ => ⟨⟨c, rfl, hc⟩, rfl⟩

theorem record (h : StoreLike Q s s') (id : Nat) (l : Loc) : Both (StoreLike Q) (s.recordRow id l) (s'.recordRow id l) := by
  obtain ⟨c, rfl, hc⟩ := h
  unfold Store.recordRow
  exact .same fun _ => .same fun _ => .same fun _ => ⟨c, rfl, hc⟩

theorem createWith (hn : Q none none) (h : StoreLike Q s s') (a : Archetype) :
    Both (SWith Q) (s.createEntityWithArchetype dbg a) (s'.createEntityWithArchetype dbg a) := by
  unfold Store.createEntityWithArchetype
  refine .bind h.register fun x y hxy => ?_
  obtain ⟨x, e⟩ := x
  obtain ⟨y, e'⟩ := y
  obtain ⟨⟨c, hy, hc⟩, rfl⟩ := hxy
  dsimp only at hy hc
  subst hy
  refine .bind (hc.addEntity hn e.id a) fun u v huv => ?_
  obtain ⟨u, l⟩ := u
  obtain ⟨v, l'⟩ := v
  obtain ⟨hu, rfl⟩ := huv
  exact .bind (record (s := { x with archs := u }) ⟨v, rfl, hu⟩ e.id l) fun _ _ h => ⟨h, rfl⟩

theorem swapRemove (h : StoreLike Q s s') (l : Loc) : Both (StoreLike Q) (s.swapRemoveInternal l) (s'.swapRemoveInternal l) := by
  obtain ⟨c, rfl, hc⟩ := h
  unfold Store.swapRemoveInternal
  refine .bind (hc.swapRemoveEntity l) fun u v huv => ?_
  obtain ⟨u, i⟩ := u
  obtain ⟨v, j⟩ := v
  obtain ⟨hu, rfl⟩ := huv
  cases i with
  | none => exact ⟨v, rfl, hu⟩
  | some i => exact .same fun _ => ⟨v, rfl, hu⟩

theorem destroy (h : StoreLike Q s s') (e : Entity) : Both (StoreLike Q) (s.destroyEntity dbg e) (s'.destroyEntity dbg e) := by
  unfold Store.destroyEntity
  have hd : Both (StoreLike Q) (s.destroyRow e) (s'.destroyRow e) := by
    obtain ⟨c, rfl, hc⟩ := h
    unfold Store.destroyRow
    refine .same fun b => ?_
    split
    · exact .same fun l => swapRemove ⟨c, rfl, hc⟩ l
    · exact ⟨c, rfl, hc⟩
  refine .bind hd fun x y hxy => ?_
  obtain ⟨c, rfl, hc⟩ := hxy
  exact .same fun _ => .same fun _ => .same fun _ => ⟨c, rfl, hc⟩

theorem move (hn : Q none none) (h : StoreLike Q s s') (e : Entity) (a : Archetype) :
    Both (SWith Q) (s.moveEntityToOtherArchetype dbg e a) (s'.moveEntityToOtherArchetype dbg e a) := by
  obtain ⟨ps, rfl, hp⟩ := h.dest
  unfold Store.moveEntityToOtherArchetype
  refine .same fun prev => .same fun pi => ?_
  refine .bind (ArchsLike.move hn ⟨ps, rfl, hp⟩ e.id prev pi a) fun u v huv => ?_
  obtain ⟨u, l⟩ := u
  obtain ⟨v, l'⟩ := v
  obtain ⟨hu, rfl⟩ := huv
  refine .same fun tp => .same fun ti => ?_
  exact .bind (swapRemove (s := { s with archs := u, toPage := tp, toIndex := ti }) ⟨v, rfl, hu⟩ prev) fun _ _ h => ⟨h, rfl⟩

theorem pageView (h : StoreLike Q s s') (p : Nat) : s.getPageViewUnchecked p = s'.getPageViewUnchecked p := by
  obtain ⟨ps, rfl, hp⟩ := h.dest
  apply Both.eq
  unfold Store.getPageViewUnchecked
  exact .same fun _ => .same fun _ => .same fun _ => .bind (.idxUnchecked hp p) fun _ _ _ => rfl

theorem ensure (hn : Q none none) (h : StoreLike Q s s') (e : Entity) (ts : List TypeId) :
    Both (SWith Q) (s.ensureComponents U dbg e ts) (s'.ensureComponents U dbg e ts) := by
  obtain ⟨ps, hs, hp⟩ := h.dest
  have h0 := h
  subst hs
  unfold Store.ensureComponents
  refine .same fun b => ?_
  split
  · refine .same fun l => .same fun ai => .same fun arch => ?_
    dsimp only
    split
    · exact ⟨h0, rfl⟩
    · exact .same fun x => h0.move hn e x.1
  · refine .same fun a => ?_
    refine .bind (ArchsLike.addEntity hn ⟨ps, rfl, hp⟩ e.id a) fun u v huv => ?_
    obtain ⟨u, l⟩ := u
    obtain ⟨v, l'⟩ := v
    obtain ⟨hu, rfl⟩ := huv
    exact .bind (record (s := { s with archs := u }) ⟨v, rfl, hu⟩ e.id l) fun _ _ h => ⟨h, rfl⟩

theorem alive (h : StoreLike Q s s') (e : Entity) : s.isAlive dbg e = s'.isAlive dbg e := by
  obtain ⟨c, rfl, _⟩ := h
  rfl

theorem valid (h : StoreLike Q s s') (e : Entity) :
    s.isValidEntityWithArchetype dbg e = s'.isValidEntityWithArchetype dbg e := by
  obtain ⟨c, rfl, _⟩ := h
  rfl

theorem add (hn : Q none none) (h : StoreLike Q s s') (e : Entity) {v v' : TupleVal} (hv : SameTuple Q v v') :
    Both (StoreLike Q) (s.addComponents U dbg e v) (s'.addComponents U dbg e v') := by
  unfold Store.addComponents
  rw [h.alive]
  refine .same fun b => ?_
  dsimp only
  split
  · exact h
  · rw [← hv.types]
    refine .bind (h.ensure hn e _) fun x y hxy => ?_
    obtain ⟨x, l⟩ := x
    obtain ⟨y, l'⟩ := y
    obtain ⟨hx, rfl⟩ := hxy
    dsimp only at hx ⊢
    rw [hx.pageView]
    obtain ⟨ps, rfl, hp⟩ := hx.dest
    refine .same fun view => .same fun offs => ?_
    exact .bind (assignToRefs_both _ hv.bytes hp) fun _ _ hp => withPages hp

theorem remove (hn : Q none none) (h : StoreLike Q s s') (e : Entity) (ts : List TypeId) :
    Both (StoreLike Q) (s.removeComponents U dbg e ts) (s'.removeComponents U dbg e ts) := by
  unfold Store.removeComponents
  rw [h.valid]
  obtain ⟨ps, hs, hp⟩ := h.dest
  have h0 := h
  subst hs
  refine .same fun b => ?_
  split
  · exact h0
  · refine .same fun prev => .same fun pi => .same fun pa => .same fun x => ?_
    exact .bind (h0.move hn e x.1) fun _ _ h => h.1

theorem refs (h : StoreLike Q s s') (e : Entity) (ts : List TypeId) :
    s.getComponentsRefs U dbg e ts = s'.getComponentsRefs U dbg e ts := by
  apply Both.eq
  unfold Store.getComponentsRefs
  rw [h.valid]
  refine .same fun b => ?_
  split
  · have h1 : s.toPage = s'.toPage := by obtain ⟨c, rfl, _⟩ := h; rfl
    have h2 : s.toIndex = s'.toIndex := by obtain ⟨c, rfl, _⟩ := h; rfl
    rw [h1, h2]
    refine .same fun p => ?_
    rw [h.pageView]
    exact .refl _
  · exact .refl _

theorem assign (h : StoreLike Q s s') (e : Entity) {v v' : TupleVal} (hv : SameTuple Q v v') :
    Both (SWith Q) (s.setComponents U dbg e v) (s'.setComponents U dbg e v') := by
  unfold Store.setComponents
  rw [h.refs, ← hv.types]
  refine .same fun o => ?_
  cases o with
  | none => exact ⟨h, rfl⟩
  | some rs =>
    obtain ⟨ps, rfl, hp⟩ := h.dest
    exact .bind (assignToRefs_both _ hv.bytes hp) fun _ _ hp => ⟨withPages hp, rfl⟩

theorem components (h : StoreLike Q s s') (e : Entity) (ts : List TypeId) :
    Both (Option.Rel (List.Forall₂ (List.Forall₂ Q))) (s.getComponents U dbg e ts) (s'.getComponents U dbg e ts) := by
  unfold Store.getComponents
  rw [h.refs]
  refine .same fun o => ?_
  cases o with
  | none => exact .none
  | some rs =>
    obtain ⟨ps, rfl, hp⟩ := h.dest
    exact .bind (.mapM fun r _ => readRef_both hp r) fun _ _ h => .some h

theorem tag (h : StoreLike Q s s') (t : Nat) (e : Entity) : Both (StoreLike Q) (s.addTag t e) (s'.addTag t e) := by
  obtain ⟨c, rfl, hc⟩ := h
  exact .same fun _ => ⟨c, rfl, hc⟩

theorem untag (h : StoreLike Q s s') (t : Nat) (e : Entity) : Both (StoreLike Q) (s.removeTag t e) (s'.removeTag t e) := by
  obtain ⟨c, rfl, hc⟩ := h
  exact .same fun _ => ⟨c, rfl, hc⟩

theorem order (h : StoreLike Q s s') (g : Nat) (e : Entity) : Both (StoreLike Q) (s.addOrder dbg g e) (s'.addOrder dbg g e) := by
  obtain ⟨c, rfl, hc⟩ := h
  exact .same fun _ => ⟨c, rfl, hc⟩

theorem orderAfter (h : StoreLike Q s s') (g : Nat) (e x : Entity) :
    Both (StoreLike Q) (s.addOrderNextTo dbg g e x) (s'.addOrderNextTo dbg g e x) := by
  obtain ⟨c, rfl, hc⟩ := h
  exact .same fun _ => ⟨c, rfl, hc⟩

theorem orderBefore (h : StoreLike Q s s') (g : Nat) (e x : Entity) :
    Both (StoreLike Q) (s.addOrderPreviousTo dbg g e x) (s'.addOrderPreviousTo dbg g e x) := by
  obtain ⟨c, rfl, hc⟩ := h
  exact .same fun _ => ⟨c, rfl, hc⟩

theorem unorder (h : StoreLike Q s s') (g : Nat) (e : Entity) : Both (StoreLike Q) (s.removeOrder g e) (s'.removeOrder g e) := by
  obtain ⟨c, rfl, hc⟩ := h
  exact .same fun _ => ⟨c, rfl, hc⟩

/-! ### Queries -/

theorem iterView {p p' : Page} (h : PageLike Q p p') (acc : Access) (i : Nat) (offs : List Nat) :
    IterView.new U acc i p offs = IterView.new U acc i p' offs := by
  unfold IterView.new
  rw [h.count, h.ids]

theorem collectPages {ps ps' : List Page} (hp : PagesLike Q ps ps') (acc : Access) (offs l : List Nat) (r : List IterView × Nat) :
    Ecs.collectPages U acc ps offs l r = Ecs.collectPages U acc ps' offs l r := by
  induction l generalizing r with
  | nil => rfl
  | cons p l ih =>
    apply Both.eq
    obtain ⟨views, n⟩ := r
    unfold Ecs.collectPages
    refine .bind (.idx hp p) fun q q' hq => ?_
    rw [hq.count, iterView hq, ih, ih]
    exact .refl _

theorem collectArchetypes {c c' : Archs} (h : ArchsLike Q c c') (acc : Access) (l : List Nat) (r : List IterView × Nat) :
    Ecs.collectArchetypes U acc c l r = Ecs.collectArchetypes U acc c' l r := by
  obtain ⟨ps, rfl, hp⟩ := h
  induction l generalizing r with
  | nil => rfl
  | cons ai l ih =>
    apply Both.eq
    unfold Ecs.collectArchetypes
    refine .same fun arch => .same fun lay => ?_
    split
    · rw [ih]
      exact .refl _
    · refine .same fun offs => .same fun apg => ?_
      dsimp only
      rw [collectPages hp]
      refine .same fun r => ?_
      rw [ih]
      exact .refl _

theorem compIter (h : StoreLike Q s s') (acc : Access) (old : List IterView) :
    componentQueryIter U s acc old = componentQueryIter U s' acc old := by
  obtain ⟨c, rfl, hc⟩ := h
  unfold componentQueryIter
  dsimp only
  rw [collectArchetypes hc]
  obtain ⟨ps, rfl, hp⟩ := hc
  rfl

theorem nextFiltered (h : StoreLike Q s s') (bv : Words) (fuel : Nat) (it : CompIter) :
    CompIter.nextFiltered dbg s bv fuel it = CompIter.nextFiltered dbg s' bv fuel it := by
  obtain ⟨c, rfl, hc⟩ := h
  induction fuel generalizing it with
  | zero => rfl
  | succ n ih =>
    apply Both.eq
    unfold CompIter.nextFiltered
    refine .same (r := it.nextWithEntity dbg s) fun x => ?_
    obtain ⟨o, it⟩ := x
    cases o with
    | none => exact .refl _
    | some x =>
      obtain ⟨e, rs⟩ := x
      refine .same fun b => ?_
      split
      · exact .refl _
      · rw [ih]
        exact .refl _

theorem archetype (h : StoreLike Q s s') (e : Entity) : s.getEntityArchetype dbg e = s'.getEntityArchetype dbg e := by
  obtain ⟨ps, rfl, hp⟩ := h.dest
  rfl

theorem rangeLoop (h : StoreLike Q s s') (p : Nat) (l : List Entity) (n : Nat) :
    entityRangeLoop dbg s p l n = entityRangeLoop dbg s' p l n := by
  obtain ⟨c, rfl, hc⟩ := h
  induction l generalizing n with
  | nil => rfl
  | cons e l ih =>
    apply Both.eq
    unfold entityRangeLoop
    refine .same fun pg => ?_
    refine .same (r := s.isAlive dbg e) fun b => ?_
    split
    · exact .refl _
    · rw [ih]
      exact .refl _

theorem outerLoop (h : StoreLike Q s s') (acc : Access) (fuel : Nat) (l : List Entity) (n : Nat) :
    entityOuterLoop U dbg s acc fuel l n = entityOuterLoop U dbg s' acc fuel l n := by
  induction fuel generalizing l n with
  | zero => cases l <;> rfl
  | succ k ih =>
    cases l with
    | nil => rfl
    | cons e l =>
      apply Both.eq
      unfold entityOuterLoop
      have hv : isValidEntityForQuery dbg s acc e = isValidEntityForQuery dbg s' acc e := by
        unfold isValidEntityForQuery
        rw [h.archetype]
      rw [hv]
      refine .same fun b => ?_
      split
      · rw [ih]
        exact .refl _
      · obtain ⟨ps, hs, hp⟩ := h.dest
        have h0 := h
        subst hs
        refine .same fun p => .same fun ai => .same fun arch => .same fun lay => ?_
        refine .bind (.idxUnchecked hp p) fun q q' hq => ?_
        refine .same fun offs => ?_
        rw [iterView hq, h0.rangeLoop]
        refine .same fun x => ?_
        dsimp only
        rw [ih]
        exact .refl _

theorem entIter (h : StoreLike Q s s') (es : List Entity) (acc : Access) (old : List (Range × IterView)) :
    entityQueryIter U dbg s es acc old = entityQueryIter U dbg s' es acc old := by
  unfold entityQueryIter
  rw [h.outerLoop]

theorem ordRangeLoop (h : StoreLike Q s s') (links : Raw Nat) (p fuel e n : Nat) :
    orderedRangeLoop s links p fuel e n = orderedRangeLoop s' links p fuel e n := by
  obtain ⟨c, rfl, hc⟩ := h
  induction fuel generalizing e n with
  | zero => rfl
  | succ k ih =>
    apply Both.eq
    unfold orderedRangeLoop
    split
    · exact .refl _
    · refine .same fun p => .same fun i => ?_
      split
      · exact .refl _
      · refine .same fun e => ?_
        rw [ih]
        exact .refl _

theorem ordOuterLoop (h : StoreLike Q s s') (acc : Access) (links : Raw Nat) (fuel e : Nat) :
    orderedOuterLoop U s acc links fuel e = orderedOuterLoop U s' acc links fuel e := by
  induction fuel generalizing e with
  | zero => rfl
  | succ k ih =>
    apply Both.eq
    unfold orderedOuterLoop
    split
    · exact .refl _
    · obtain ⟨ps, hs, hp⟩ := h.dest
      have h0 := h
      subst hs
      refine .same fun p => .same fun i => ?_
      refine .bind (.idxUnchecked hp p) fun q q' hq => ?_
      refine .same fun ai => .same fun arch => .same fun lay => ?_
      dsimp only
      split
      · refine .same fun e => ?_
        rw [ih]
        exact .refl _
      · refine .same fun offs => .same fun e => ?_
        rw [iterView hq, h0.ordRangeLoop]
        refine .same fun x => ?_
        rw [ih]
        exact .refl _

theorem ordIter (h : StoreLike Q s s') (g : Nat) (acc : Access) (old : List (Range × IterView)) (fuel : Nat) :
    orderedQueryIter U s g acc old fuel = orderedQueryIter U s' g acc old fuel := by
  unfold orderedQueryIter
  have h1 : s.orders = s'.orders := by obtain ⟨c, rfl, _⟩ := h; rfl
  rw [h1]
  dsimp only
  split
  · rfl
  · apply Both.eq
    refine .same fun gr => ?_
    rw [h.ordOuterLoop]
    exact .refl _

theorem sees (h : StoreLike Q s s') : SeesRecoded U dbg Q s s' where
  capacity := by obtain ⟨c, rfl, _⟩ := h; rfl
  alive := h.alive
  archetype := h.archetype
  refs := h.refs
  values := h.components
  deref r := by
    obtain ⟨ps, rfl, hp⟩ := h.dest
    exact readRef_both hp r
  query acc old fuel := by unfold runComponentQuery; rw [h.compIter]
  queryWithEntities acc old fuel := by
    unfold runComponentQueryWithEntities
    rw [h.compIter]
    obtain ⟨c, rfl, _⟩ := h
    rfl
  entities es acc old fuel := by
    unfold runEntityQuery
    rw [h.entIter]
    obtain ⟨c, rfl, _⟩ := h
    rfl
  entitiesWithEntities es acc old fuel := by
    unfold runEntityQueryWithEntities
    rw [h.entIter]
    obtain ⟨c, rfl, _⟩ := h
    rfl
  tags := by
    refine ⟨fun t e => ?_, fun acc t old fuel => ?_⟩
    · obtain ⟨c, rfl, _⟩ := h
      rfl
    · unfold runComponentQueryFilterTag
      rw [h.compIter]
      have hf : ∀ bv, CompIter.nextFiltered dbg s bv fuel = CompIter.nextFiltered dbg s' bv fuel :=
        fun bv => funext fun it => h.nextFiltered bv fuel it
      simp only [hf]
      obtain ⟨c, rfl, _⟩ := h
      rfl
  orders := by
    refine ⟨fun g e => ?_, fun g e => ?_, fun g => ?_, fun g => ?_, fun g acc old fuel => ?_, fun g acc old fuel => ?_⟩
    · obtain ⟨c, rfl, _⟩ := h
      rfl
    · obtain ⟨c, rfl, _⟩ := h
      rfl
    · obtain ⟨c, rfl, _⟩ := h
      rfl
    · obtain ⟨c, rfl, _⟩ := h
      rfl
    · unfold runOrderedQuery
      rw [h.ordIter]
    · unfold runOrderedQueryWithEntities
      rw [h.ordIter]
      obtain ⟨c, rfl, _⟩ := h
      rfl

/-! ### Loops that write -/

theorem updateItem (h : StoreLike Q s s') (n : Nat) {f f' : List (List Cell) → List (List UInt8)} (hf : Respects Q f f')
    (rs : List Ref) : Both (StoreLike Q) (Ecs.updateItem n f s rs) (Ecs.updateItem n f' s' rs) := by
  obtain ⟨ps, rfl, hp⟩ := h.dest
  unfold Ecs.updateItem
  refine .bind (.mapM fun r _ => readRef_both hp r) fun vs vs' hv => ?_
  exact .bind (assignToRefs_both _ (hf vs vs' hv) hp) fun _ _ hp => withPages hp

theorem updateLoop {σ α : Type} {next : Store → σ → Res (Option α × σ)} {rs : α → List Ref} {n : Nat}
    {f f' : α → List (List Cell) → List (List UInt8)} (hnext : ∀ s s' : Store, StoreLike Q s s' → next s = next s')
    (hf : ∀ a, Respects Q (f a) (f' a)) (fuel : Nat) (it : σ) (h : StoreLike Q s s') :
    Both (StoreLike Q) (Ecs.updateLoop next rs n f fuel it s) (Ecs.updateLoop next rs n f' fuel it s') := by
  induction fuel generalizing it s s' with
  | zero => exact rfl
  | succ k ih =>
    unfold Ecs.updateLoop
    rw [hnext s s' h]
    refine .same fun x => ?_
    obtain ⟨o, it⟩ := x
    cases o with
    | none => exact h
    | some a => exact .bind (h.updateItem n (hf a) (rs a)) fun _ _ h => ih it h

/-! ### Calls and programs -/

theorem step (hn : Q none none) (h : StoreLike Q s s') {ev ev' : Event} (hr : Recoded Q ev ev') {t : Store}
    (hs : Returns U dbg s ev t) :
    ∃ ev'' t', SameCall ev' ev'' ∧ handles [ev''] = handles [ev] ∧ Returns U dbg s' ev'' t' ∧ StoreLike Q t t' := by
  cases ev with
  | created e =>
    cases ev' <;> try cases hr
    rename_i e'
    obtain ⟨⟨t', _⟩, h1, h2, h3⟩ := (h.create (dbg := dbg)).ok hs
    dsimp only at h2 h3
    subst h3
    exact ⟨.created e, t', trivial, rfl, h1, h2⟩
  | createdWith e ts init =>
    cases ev' <;> try cases hr
    rename_i e' init'
    obtain ⟨a, ha, hi, hs⟩ := hs
    obtain ⟨⟨t', _⟩, h1, h2, h3⟩ := (h.createWith (dbg := dbg) hn a).ok hs
    dsimp only at h2 h3
    subst h3
    exact ⟨.createdWith e ts init', t', rfl, rfl, ⟨a, ha, hi, h1⟩, h2⟩
  | added e v =>
    cases ev' <;> try cases hr
    rename_i e' v' he hv
    subst he
    obtain ⟨t', h1, h2⟩ := (h.add (U := U) (dbg := dbg) hn e hv).ok hs
    exact ⟨.added e v', t', rfl, rfl, h1, h2⟩
  | assigned e v =>
    cases ev' <;> try cases hr
    rename_i e' v' he hv
    subst he
    obtain ⟨b, hs⟩ := hs
    obtain ⟨⟨t', _⟩, h1, h2, h3⟩ := (h.assign (U := U) (dbg := dbg) e hv).ok hs
    exact ⟨.assigned e v', t', rfl, rfl, ⟨_, h1⟩, h2⟩
  | destroyed e =>
    cases hr
    obtain ⟨t', h1, h2⟩ := (h.destroy (dbg := dbg) e).ok hs
    exact ⟨.destroyed e, t', rfl, rfl, h1, h2⟩
  | removed e ts =>
    cases hr
    obtain ⟨t', h1, h2⟩ := (h.remove (U := U) (dbg := dbg) hn e ts).ok hs
    exact ⟨.removed e ts, t', rfl, rfl, h1, h2⟩
  | tagged k e =>
    cases hr
    obtain ⟨t', h1, h2⟩ := (h.tag k e).ok hs
    exact ⟨.tagged k e, t', rfl, rfl, h1, h2⟩
  | untagged k e =>
    cases hr
    obtain ⟨t', h1, h2⟩ := (h.untag k e).ok hs
    exact ⟨.untagged k e, t', rfl, rfl, h1, h2⟩
  | orderedLast g e =>
    cases hr
    obtain ⟨t', h1, h2⟩ := (h.order (dbg := dbg) g e).ok hs
    exact ⟨.orderedLast g e, t', rfl, rfl, h1, h2⟩
  | orderedAfter g e x =>
    cases hr
    obtain ⟨t', h1, h2⟩ := (h.orderAfter (dbg := dbg) g e x).ok hs
    exact ⟨.orderedAfter g e x, t', rfl, rfl, h1, h2⟩
  | orderedBefore g e x =>
    cases hr
    obtain ⟨t', h1, h2⟩ := (h.orderBefore (dbg := dbg) g e x).ok hs
    exact ⟨.orderedBefore g e x, t', rfl, rfl, h1, h2⟩
  | unordered g e =>
    cases hr
    obtain ⟨t', h1, h2⟩ := (h.unorder g e).ok hs
    exact ⟨.unordered g e, t', rfl, rfl, h1, h2⟩

theorem runs (hn : Q none none) {cap : Nat} {h h' : List Event} (hx : Runs U dbg cap h s) (hr : List.Forall₂ (Recoded Q) h h') :
    ∃ h'' s', List.Forall₂ SameCall h' h'' ∧ handles h'' = handles h ∧ Runs U dbg cap h'' s' ∧ StoreLike Q s s' := by
  induction hx generalizing h' with
  | @init s0 hs =>
    cases hr
    refine ⟨[], s0, .nil, rfl, .init hs, s0.archs, rfl, s0.archs.pages, rfl, ?_⟩
    unfold Store.withCapacity at hs
    obtain ⟨_, _, hs⟩ := bind_eq_ok.1 hs
    cases hs
    exact List.forall₂_same.2 fun p hp => by
      rw [List.eq_of_mem_replicate hp]
      exact PageLike.new hn
  | @step h s t ev hx hs ih =>
    cases hr with
    | cons ha hb =>
    obtain ⟨h'', s', h1, h2, h3, h4⟩ := ih hb
    obtain ⟨ev'', t', h5, h6, h7, h8⟩ := h4.step hn ha hs
    refine ⟨ev'' :: h'', t', .cons h5 h1, ?_, .step ev'' h3 h7, h8⟩
    rw [handles_one, h6, h2, ← handles_one]

theorem runs_both (hn : Q none none) {cap : Nat} {h h' : List Event} (hx : Runs U dbg cap h s) (hy : Runs U dbg cap h' s')
    (hr : List.Forall₂ (Recoded Q) h h') : handles h = handles h' ∧ StoreLike Q s s' := by
  obtain ⟨h'', s'', h1, h2, h3, h4⟩ := runs hn hx hr
  obtain ⟨rfl, h5⟩ := same_runs hy h3 h1
  exact ⟨h2.symm.trans h5.symm, h4⟩

theorem mapUnit {α β : Type} {R : α → β → Prop} {r : Res α} {r' : Res β} (h : Both R r r') :
    (r.map fun _ => ()) = (r'.map fun _ => ()) := by
  cases r with
  | error x =>
    cases r' with
    | error y => rw [show x = y from h]; rfl
    | ok b => exact h.elim
  | ok a =>
    cases r' with
    | error y => exact h.elim
    | ok b => rfl

theorem outcome (hn : Q none none) (h : StoreLike Q s s') {c c' : Call} (hr : RecodedCall Q c c') :
    Spec.outcome U dbg s c = Spec.outcome U dbg s' c' := by
  cases c with
  | create => cases hr; exact mapUnit h.create
  | createWith a => cases hr; exact mapUnit (h.createWith hn a)
  | destroy e => cases hr; exact mapUnit (h.destroy e)
  | add e v =>
    cases c' <;> try cases hr
    rename_i e' v' he hv
    subst he
    exact mapUnit (h.add hn e hv)
  | remove e ts => cases hr; exact mapUnit (h.remove hn e ts)
  | assign e v =>
    cases c' <;> try cases hr
    rename_i e' v' he hv
    subst he
    exact mapUnit (h.assign e hv)
  | tag k e => cases hr; exact mapUnit (h.tag k e)
  | untag k e => cases hr; exact mapUnit (h.untag k e)
  | orderLast g e => cases hr; exact mapUnit (h.order g e)
  | orderAfter g e x => cases hr; exact mapUnit (h.orderAfter g e x)
  | orderBefore g e x => cases hr; exact mapUnit (h.orderBefore g e x)
  | unorder g e => cases hr; exact mapUnit (h.unorder g e)

end StoreLike
end Ecs
