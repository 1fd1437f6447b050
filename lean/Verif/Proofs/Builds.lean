import Verif.Model.Update
import Verif.Model.ResourceStore
import Verif.Proofs.StoreLoose
import Verif.Spec.Builds

/-! Debug and release builds of the same function: when the first returns, the second returns the same. -/

namespace Ecs

open Spec

namespace Spec.Stricter
variable {α β : Type}

theorem refl (r : Res α) : Stricter r r := .inl rfl

/-- A return of the debug build is the return of the release build. -/
theorem ok {x y : Res α} (h : Stricter x y) {a : α} (hx : x = .ok a) : y = .ok a := by
  rcases h with h | h | h
  · rw [h, hx]
  · rw [h] at hx; cases hx
  · rw [h] at hx; cases hx

theorem bind' {x y : Res α} {f g : α → Res β} (h : Stricter x y) (hf : ∀ a, x = .ok a → Stricter (f a) (g a)) :
    Stricter (x >>= f) (y >>= g) := by
  rcases h with rfl | rfl | rfl
  · cases y with
    | ok a => exact hf a rfl
    | error e => exact refl _
  · exact .inr (.inl rfl)
  · exact .inr (.inr rfl)

theorem bind {x y : Res α} {f g : α → Res β} (h : Stricter x y) (hf : ∀ a, Stricter (f a) (g a)) :
    Stricter (x >>= f) (y >>= g) := bind' h fun a _ => hf a

/-- Something that only the debug build does, and that at worst fails a `debug_assert!`. -/
theorem check {x : Res α} {f : α → Res β} {r : Res β} (hx : (∃ a, x = .ok a) ∨ x = .error (.panic .debugAssert))
    (hf : ∀ a, Stricter (f a) r) : Stricter (x >>= f) r := by
  rcases hx with ⟨a, rfl⟩ | rfl
  · exact hf a
  · exact .inr (.inl rfl)

theorem same {x : Res α} {f g : α → Res β} (hf : ∀ a, Stricter (f a) (g a)) : Stricter (x >>= f) (x >>= g) := bind (refl x) hf

theorem ite {c : Prop} [Decidable c] {x y x' y' : Res α} (h1 : Stricter x x') (h2 : Stricter y y') :
    Stricter (if c then x else y) (if c then x' else y') := by
  split
  · exact h1
  · exact h2

theorem mapM {f g : α → Res β} (h : ∀ a, Stricter (f a) (g a)) (l : List α) : Stricter (l.mapM f) (l.mapM g) := by
  induction l with
  | nil => rw [List.mapM_nil, List.mapM_nil]; exact refl _
  | cons a l ih => rw [List.mapM_cons, List.mapM_cons]; exact bind (h a) fun _ => bind ih fun _ => refl _

theorem dassert_or (c : Bool) : (∃ a, Ecs.dassert true c = .ok a) ∨ Ecs.dassert true c = .error (.panic .debugAssert) := by
  cases c
  · exact .inr rfl
  · exact .inl ⟨_, rfl⟩

theorem dassert (c : Bool) : Stricter (Ecs.dassert true c) (Ecs.dassert false c) := by
  cases c
  · exact .inr (.inl rfl)
  · exact refl _

theorem addU32 (a b : Nat) : Stricter (Ecs.addU32 true a b) (Ecs.addU32 false a b) := by
  unfold Ecs.addU32
  split
  · exact refl _
  · exact .inr (.inr rfl)

theorem subU32 (a b : Nat) : Stricter (Ecs.subU32 true a b) (Ecs.subU32 false a b) := by
  unfold Ecs.subU32
  split
  · exact refl _
  · exact .inr (.inr rfl)

theorem subUsize (a b : Nat) : Stricter (Ecs.subUsize true a b) (Ecs.subUsize false a b) := by
  unfold Ecs.subUsize
  split
  · exact refl _
  · exact .inr (.inr rfl)

/-! ### Entities -/

theorem takeId (c : Ents) : Stricter (c.takeId true) (c.takeId false) := by
  unfold Ents.takeId
  split
  · exact refl _
  · exact bind (addU32 _ _) fun _ => refl _

theorem create (c : Ents) : Stricter (c.create true) (c.create false) := by
  unfold Ents.create
  exact bind (takeId c) fun ⟨_, _⟩ => same fun _ => same fun _ => bind (addU32 _ _) fun _ => refl _

theorem entIsAlive (c : Ents) (e : Entity) : Stricter (c.isAlive true e) (c.isAlive false e) := by
  unfold Ents.isAlive
  exact bind (dassert _) fun _ => refl _

/-- In debug builds, asking whether a handle is alive returns or fails the assertion about its id. -/
theorem asks {I L : List Entity} {c : Ents} (hi : EntInv c I L) (e : Entity) :
    (∃ b, c.isAlive true e = .ok b) ∨ c.isAlive true e = .error (.panic .debugAssert) := by
  by_cases h : e.id < c.capacity
  · exact .inl ⟨_, hi.isAlive_of_lt h⟩
  · exact .inr (EntInv.isAlive_debug_oob h)

theorem destroy {I L : List Entity} {c : Ents} (hi : EntInv c I L) (e : Entity) : Stricter (c.destroy true e) (c.destroy false e) := by
  unfold Ents.destroy Ents.validateVersionWithPanic
  simp only [if_true, Bool.false_eq_true, if_false]
  refine check ?_ fun _ => check (asks hi e) fun _ => check (dassert_or _) fun _ => same fun _ => bind (subU32 _ _) fun _ => refl _
  by_cases h : e.id < c.capacity
  · obtain ⟨v, hv, _⟩ := hi.vinit e.id h
    unfold Ents.validateId Ents.validateVersion
    rw [decide_eq_true h, Raw.read_of_some hv]
    exact dassert_or _
  · right
    unfold Ents.validateId
    rw [decide_eq_false h]
    rfl

/-! ### Resource stores -/

theorem resCreate (r : ResStore α) (v : α) : Stricter (r.create true v) (r.create false v) := by
  unfold ResStore.create
  exact bind (create _) fun _ => refl _

theorem resRelease {I L : List Entity} {r : ResStore α} (hi : EntInv r.ents I L) (e : Entity) :
    Stricter (r.release true e) (r.release false e) := by
  unfold ResStore.release
  simp only [if_true, Bool.false_eq_true, if_false]
  exact check (asks hi e) fun _ => check (dassert_or _) fun _ => bind (destroy hi _) fun _ => refl _

theorem resIndex {I L : List Entity} {r : ResStore α} (hi : EntInv r.ents I L) (e : Entity) :
    Stricter (r.index true e) (r.index false e) := by
  unfold ResStore.index
  simp only [if_true, Bool.false_eq_true, if_false]
  exact check (asks hi e) fun _ => check (dassert_or _) fun _ => refl _

theorem resAssign {I L : List Entity} {r : ResStore α} (hi : EntInv r.ents I L) (e : Entity) (v : α) :
    Stricter (r.assign true e v) (r.assign false e v) := by
  unfold ResStore.assign
  simp only [if_true, Bool.false_eq_true, if_false]
  exact check (asks hi e) fun _ => check (dassert_or _) fun _ => refl _

/-! ### Archetypes and pages -/

theorem layout (a : Archetype) : Stricter (Layout.new true a) (Layout.new false a) := by
  unfold Layout.new Layout.calcCapacity
  exact bind (same fun _ => same fun _ => bind (subUsize _ _) fun _ => refl _) fun _ => refl _

theorem reserveArchetype (c : Archs) (a : Archetype) : Stricter (c.reserveArchetype true a) (c.reserveArchetype false a) := by
  unfold Archs.reserveArchetype
  split
  · exact refl _
  · exact bind (layout a) fun _ => refl _

theorem addEntityId (p : Page) (id : Nat) : Stricter (p.addEntityId true id) (p.addEntityId false id) := by
  unfold Page.addEntityId
  exact bind (dassert _) fun _ => refl _

theorem reservePage (c : Archs) (id i : Nat) : Stricter (c.reservePage true id i) (c.reservePage false id i) := by
  unfold Archs.reservePage
  refine same fun _ => same fun o => ?_
  cases o with
  | some _ => exact same fun _ => bind (addEntityId _ _) fun _ => refl _
  | none =>
    exact same fun _ => same fun _ => same fun _ => same fun _ => same fun _ => bind (addEntityId _ _) fun _ => refl _

theorem addEntity (c : Archs) (id : Nat) (a : Archetype) : Stricter (c.addEntity true id a) (c.addEntity false id a) := by
  unfold Archs.addEntity
  exact bind (reserveArchetype _ _) fun _ => reservePage _ _ _

theorem move (c : Archs) (id : Nat) (q : Loc) (i : Nat) (a : Archetype) :
    Stricter (c.moveEntityToOtherArchetype true id q i a) (c.moveEntityToOtherArchetype false id q i a) := by
  unfold Archs.moveEntityToOtherArchetype
  exact bind (reserveArchetype _ _) fun _ => bind (reservePage _ _ _) fun _ => refl _

/-! ### Order groups -/

theorem noOrder (a b : Nat) : Stricter (assertEntityHasNoOrder true a b) (assertEntityHasNoOrder false a b) := by
  unfold assertEntityHasNoOrder
  exact bind (dassert _) fun _ => dassert _

theorem groupAdd (g : Group) (x : Nat) : Stricter (g.add true x) (g.add false x) := by
  unfold Group.add
  exact ite (refl _) (same fun _ => same fun _ => bind (noOrder _ _) fun _ => refl _)

theorem groupAddNextTo (g : Group) (x y : Nat) : Stricter (g.addNextTo true x y) (g.addNextTo false x y) := by
  unfold Group.addNextTo
  exact same fun _ => same fun _ => bind (noOrder _ _) fun _ => refl _

theorem groupAddPreviousTo (g : Group) (x y : Nat) : Stricter (g.addPreviousTo true x y) (g.addPreviousTo false x y) := by
  unfold Group.addPreviousTo
  exact same fun _ => same fun _ => bind (noOrder _ _) fun _ => refl _

theorem onGroup (c : Orders) (i : Nat) {f f' : Group → Res Group} (h : ∀ g, Stricter (f g) (f' g)) :
    Stricter (c.onGroup i f) (c.onGroup i f') := by
  unfold Orders.onGroup
  exact same fun _ => bind (h _) fun _ => refl _

theorem ordersGrow (c : Orders) (n : Nat) : Stricter (c.grow true n) (c.grow false n) := by
  unfold Orders.grow
  exact bind (subUsize _ _) fun _ => refl _

/-! ### The store -/

theorem withCapacity (n : Nat) : Stricter (Store.withCapacity true n) (Store.withCapacity false n) := by
  unfold Store.withCapacity
  exact bind (dassert _) fun _ => refl _

variable (U : Universe) (s : Store) (e : Entity)

theorem register : Stricter (s.registerNewEntity true) (s.registerNewEntity false) := by
  unfold Store.registerNewEntity
  refine bind (create _) fun ⟨_, _⟩ => ite (bind ?_ fun _ => refl _) (refl _)
  unfold Store.growEntitiesInternal
  exact same fun _ => same fun _ => same fun _ => same fun _ => bind (ordersGrow _ _) fun _ => refl _

theorem createEntity : Stricter (s.createEntity true) (s.createEntity false) := by
  unfold Store.createEntity
  exact bind (register s) fun _ => refl _

theorem createWith (a : Archetype) : Stricter (s.createEntityWithArchetype true a) (s.createEntityWithArchetype false a) := by
  unfold Store.createEntityWithArchetype
  exact bind (register s) fun _ => bind (addEntity _ _ _) fun _ => refl _

theorem destroyEntity {I L : List Entity} (hi : EntInv s.ents I L) : Stricter (s.destroyEntity true e) (s.destroyEntity false e) := by
  unfold Store.destroyEntity
  refine bind' (refl _) fun s1 h1 => bind (destroy (I := I) (L := L) ?_ _) fun _ => refl _
  rw [(SameCore.destroyRow h1).ents]
  exact hi

theorem isAlive : Stricter (s.isAlive true e) (s.isAlive false e) := entIsAlive _ _

theorem isValid : Stricter (s.isValidEntityWithArchetype true e) (s.isValidEntityWithArchetype false e) := by
  unfold Store.isValidEntityWithArchetype
  exact bind (isAlive s e) fun _ => refl _

theorem storeMove (a : Archetype) : Stricter (s.moveEntityToOtherArchetype true e a) (s.moveEntityToOtherArchetype false e a) := by
  unfold Store.moveEntityToOtherArchetype
  exact same fun _ => same fun _ => bind (move _ _ _ _ _) fun _ => refl _

theorem ensure (ts : List TypeId) : Stricter (s.ensureComponents U true e ts) (s.ensureComponents U false e ts) := by
  unfold Store.ensureComponents
  exact same fun _ => ite (same fun _ => same fun _ => same fun _ => ite (refl _) (same fun _ => storeMove _ _ _))
    (same fun _ => bind (addEntity _ _ _) fun _ => refl _)

theorem addComponents (vals : TupleVal) : Stricter (s.addComponents U true e vals) (s.addComponents U false e vals) := by
  unfold Store.addComponents
  exact bind (isAlive s e) fun _ => ite (refl _) (bind (ensure U s e _) fun _ => refl _)

theorem removeComponents (ts : List TypeId) :
    Stricter (s.removeComponents U true e ts) (s.removeComponents U false e ts) := by
  unfold Store.removeComponents
  exact bind (isValid s e) fun _ => ite (refl _) (same fun _ => same fun _ => same fun _ => same fun _ =>
    bind (storeMove _ _ _) fun _ => refl _)

theorem refs (ts : List TypeId) : Stricter (s.getComponentsRefs U true e ts) (s.getComponentsRefs U false e ts) := by
  unfold Store.getComponentsRefs
  exact bind (isValid s e) fun _ => refl _

theorem getComponents (ts : List TypeId) : Stricter (s.getComponents U true e ts) (s.getComponents U false e ts) := by
  unfold Store.getComponents
  exact bind (refs U s e ts) fun _ => refl _

theorem setComponents (vals : TupleVal) : Stricter (s.setComponents U true e vals) (s.setComponents U false e vals) := by
  unfold Store.setComponents
  exact bind (refs U s e _) fun _ => refl _

theorem getArchetype : Stricter (s.getEntityArchetype true e) (s.getEntityArchetype false e) := by
  unfold Store.getEntityArchetype
  exact bind (isValid s e) fun _ => refl _

theorem addOrder (g : Nat) : Stricter (s.addOrder true g e) (s.addOrder false g e) := by
  unfold Store.addOrder Orders.add
  exact bind (onGroup _ _ fun _ => groupAdd _ _) fun _ => refl _

theorem addOrderNextTo (g : Nat) (x : Entity) : Stricter (s.addOrderNextTo true g e x) (s.addOrderNextTo false g e x) := by
  unfold Store.addOrderNextTo Orders.addNextTo
  exact bind (onGroup _ _ fun _ => groupAddNextTo _ _ _) fun _ => refl _

theorem addOrderPreviousTo (g : Nat) (x : Entity) :
    Stricter (s.addOrderPreviousTo true g e x) (s.addOrderPreviousTo false g e x) := by
  unfold Store.addOrderPreviousTo Orders.addPreviousTo
  exact bind (onGroup _ _ fun _ => groupAddPreviousTo _ _ _) fun _ => refl _

/-! ### Queries -/

theorem drain {σ : Type} {f g : σ → Res (Option α × σ)} (h : ∀ x, Stricter (f x) (g x)) (fuel : Nat) (it : σ) :
    Stricter (Ecs.drain f fuel it) (Ecs.drain g fuel it) := by
  induction fuel generalizing it with
  | zero => exact refl _
  | succ n ih =>
    unfold Ecs.drain
    refine bind (h it) fun ⟨o, it'⟩ => ?_
    cases o with
    | none => exact refl _
    | some a => exact bind (ih it') fun _ => refl _

theorem compNext (it : CompIter) : Stricter (it.nextWithEntity true s) (it.nextWithEntity false s) := by
  unfold CompIter.nextWithEntity
  refine same fun ⟨o, it'⟩ => ?_
  cases o with
  | none => exact refl _
  | some a =>
    unfold PageIter.currentEntityId
    exact bind (bind (subUsize _ _) fun _ => refl _) fun _ => refl _

theorem compFiltered (bv : Words) (fuel : Nat) (it : CompIter) :
    Stricter (CompIter.nextFiltered true s bv fuel it) (CompIter.nextFiltered false s bv fuel it) := by
  induction fuel generalizing it with
  | zero => exact refl _
  | succ n ih =>
    unfold CompIter.nextFiltered
    refine bind (compNext s it) fun ⟨o, it'⟩ => ?_
    cases o with
    | none => exact refl _
    | some a => exact same fun _ => ite (refl _) (ih _)

theorem validForQuery (acc : Access) : Stricter (isValidEntityForQuery true s acc e) (isValidEntityForQuery false s acc e) := by
  unfold isValidEntityForQuery
  exact bind (getArchetype s e) fun _ => refl _

theorem rangeLoop (p : Nat) (l : List Entity) (n : Nat) : Stricter (entityRangeLoop true s p l n) (entityRangeLoop false s p l n) := by
  induction l generalizing n with
  | nil => exact refl _
  | cons x l ih =>
    unfold entityRangeLoop
    exact same fun _ => bind (isAlive s x) fun _ => ite (refl _) (ih _)

theorem outerLoop (acc : Access) (fuel : Nat) (l : List Entity) (n : Nat) :
    Stricter (entityOuterLoop U true s acc fuel l n) (entityOuterLoop U false s acc fuel l n) := by
  induction fuel generalizing l n with
  | zero => cases l <;> exact refl _
  | succ k ih =>
    cases l with
    | nil => exact refl _
    | cons x l =>
      unfold entityOuterLoop
      exact bind (validForQuery s x acc) fun _ => ite (ih _ _) (same fun _ => same fun _ => same fun _ => same fun _ =>
        same fun _ => same fun _ => bind (rangeLoop s _ _ _) fun _ => bind (ih _ _) fun _ => refl _)

theorem entityQueryIter (acc : Access) (l : List Entity) (old : List (Range × IterView)) :
    Stricter (Ecs.entityQueryIter U true s l acc old) (Ecs.entityQueryIter U false s l acc old) := by
  unfold Ecs.entityQueryIter
  exact bind (outerLoop U s acc _ _ _) fun _ => refl _

theorem entNext (it : EntIter) : Stricter (it.next true s) (it.next false s) := by
  unfold EntIter.next
  refine ite (refl _) (same fun _ => same fun _ => same fun _ => bind (subUsize _ _) fun _ => refl _)

theorem entNextWith (it : EntIter) : Stricter (it.nextWithEntity true s) (it.nextWithEntity false s) := by
  unfold EntIter.nextWithEntity
  exact bind (entNext s it) fun _ => refl _

theorem ordNext (it : OrdIter) : Stricter (it.next true) (it.next false) := by
  unfold OrdIter.next
  exact ite (refl _) (same fun _ => bind (subU32 _ _) fun _ => refl _)

theorem ordNextWith (it : OrdIter) : Stricter (it.nextWithEntity true s) (it.nextWithEntity false s) := by
  unfold OrdIter.nextWithEntity
  exact bind (ordNext it) fun _ => refl _

theorem updateLoop {σ : Type} {f g : Store → σ → Res (Option α × σ)} (h : ∀ s it, Stricter (f s it) (g s it)) (rf : α → List Ref) (n : Nat)
    (u : α → List (List Cell) → List (List UInt8)) (fuel : Nat) (it : σ) (s : Store) :
    Stricter (Ecs.updateLoop f rf n u fuel it s) (Ecs.updateLoop g rf n u fuel it s) := by
  induction fuel generalizing it s with
  | zero => exact refl _
  | succ k ih =>
    unfold Ecs.updateLoop
    refine bind (h s it) fun ⟨o, it'⟩ => ?_
    cases o with
    | none => exact refl _
    | some a => exact same fun _ => ih _ _

end Spec.Stricter
end Ecs
