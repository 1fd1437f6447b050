import Verif.Model.Unwind
import Verif.Proofs.Basic

/-! The two models of the mutating calls agree: `Unw.result` of each definition of `Model/Unwind.lean` is the
definition it follows. -/

namespace Ecs

namespace Unw
variable {σ τ α β : Type}

theorem result_bind (m : Unw σ α) (f : α → Unw σ β) (s : σ) :
    (m >>= f).result s = m.result s >>= fun p => (f p.2).result p.1 := by
  show (Unw.bind m f).result s = _
  unfold Unw.bind result
  dsimp only
  rcases m s with ⟨_ | a, s'⟩ <;> rfl

theorem result_pure (a : α) (s : σ) : (pure a : Unw σ α).result s = .ok (s, a) := rfl

theorem result_get (s : σ) : (get : Unw σ σ).result s = .ok (s, s) := rfl

theorem result_lift (r : Res α) (s : σ) : (lift r : Unw σ α).result s = r >>= fun a => .ok (s, a) := by
  cases r <;> rfl

theorem result_step (f : σ → Res σ) (s : σ) : (step f).result s = f s >>= fun s' => .ok (s', ()) := by
  unfold result step
  cases f s <;> rfl

theorem result_step' (f : σ → Res (σ × α)) (s : σ) : (step' f).result s = f s := by
  unfold result step'
  cases f s <;> rfl

theorem result_on (g : σ → τ) (w : σ → τ → σ) (m : Unw τ α) (s : σ) :
    (m.on g w).result s = m.result (g s) >>= fun p => .ok (w s p.1, p.2) := by
  unfold result on
  rcases m (g s) with ⟨_ | a, s'⟩ <;> rfl

theorem result_ite {c : Prop} [Decidable c] (m n : Unw σ α) (s : σ) :
    (if c then m else n).result s = if c then m.result s else n.result s := by
  split <;> rfl

end Unw

theorem res_bind_assoc {α β γ : Type} (x : Res α) (f : α → Res β) (g : β → Res γ) :
    (x >>= f) >>= g = x >>= fun a => f a >>= g := by cases x <;> rfl

theorem res_pure_bind {α β : Type} (a : α) (f : α → Res β) : (pure a : Res α) >>= f = f a := rfl
theorem res_ok_bind {α β : Type} (a : α) (f : α → Res β) : (Except.ok a : Res α) >>= f = f a := rfl

/-- Outcome of both models, with the state in the same place. -/
theorem Ents.createU_result (dbg : Bool) (c : Ents) : (Ents.createU dbg).result c = c.create dbg := by
  unfold Ents.createU Ents.create
  simp only [Unw.result_bind, Unw.result_get, Unw.result_step, Unw.result_step', Unw.result_lift, Unw.result_pure,
    res_bind_assoc, res_pure_bind, res_ok_bind]
  rfl

theorem Ents.destroyU_result (dbg : Bool) (e : Entity) (c : Ents) :
    (Ents.destroyU dbg e).result c = c.destroy dbg e >>= fun c' => .ok (c', ()) := by
  unfold Ents.destroyU Ents.destroy
  cases dbg <;>
  simp only [Unw.result_bind, Unw.result_get, Unw.result_step, Unw.result_lift,
    res_bind_assoc, res_pure_bind, res_ok_bind, if_true, Bool.false_eq_true, if_false, Unw.result_pure]
namespace Archs
variable (dbg : Bool) (c : Archs)

theorem reserveArchetypeU_result (a : Archetype) : (reserveArchetypeU dbg a).result c = c.reserveArchetype dbg a := by
  unfold reserveArchetypeU reserveArchetype
  simp only [Unw.result_bind, Unw.result_get, res_ok_bind]
  cases findSame a 0 c.archetypes with
  | some i =>
    dsimp only
    cases binarySearch c.freeArchetypes i <;> rfl
  | none =>
    dsimp only
    cases c.freeArchetypes.getLast? <;>
    simp only [Unw.result_bind, Unw.result_get, Unw.result_step, Unw.result_lift, Unw.result_pure,
      res_bind_assoc, res_pure_bind, res_ok_bind] <;> rfl

theorem reservePageU_result (id i : Nat) : (reservePageU dbg id i).result c = c.reservePage dbg id i := by
  unfold reservePageU reservePage
  simp only [Unw.result_bind, Unw.result_get, Unw.result_lift, res_ok_bind, res_bind_assoc]
  congr 1; funext pl
  congr 1; funext r
  cases r with
  | some p =>
    unfold pushIdU
    simp only [Unw.result_bind, Unw.result_step', Unw.result_pure, res_bind_assoc, res_pure_bind]
    rfl
  | none =>
    unfold takePageU pushIdU
    simp only [Unw.result_bind, Unw.result_get, res_ok_bind, res_bind_assoc, Unw.result_step', Unw.result_step, Unw.result_pure]
    cases c.freePages.getLast? with
    | some p =>
      simp only [Unw.result_bind, Unw.result_step, Unw.result_pure, res_bind_assoc, res_pure_bind, res_ok_bind]
      congr 1; funext l
      cases hp : idx c.pages p with
      | error f => rfl
      | ok pg =>
        rw [idx_ok] at hp
        have hlt := (List.getElem?_eq_some_iff.1 hp).1
        simp only [res_ok_bind]
        congr 1; funext ps
        congr 1; funext ta
        rw [idx_of_some (List.getElem?_set_self hlt)]
        simp only [res_ok_bind, List.set_set]
        rfl
    | none =>
      simp only [Unw.result_bind, Unw.result_step, Unw.result_pure, res_bind_assoc, res_pure_bind, res_ok_bind]
      congr 1; funext pgs
      congr 1; funext ta0
      congr 1; funext l
      cases hp : idx pgs c.pages.length with
      | error f => rfl
      | ok pg =>
        rw [idx_ok] at hp
        have hlt := (List.getElem?_eq_some_iff.1 hp).1
        simp only [res_ok_bind]
        congr 1; funext ps
        congr 1; funext ta
        rw [idx_of_some (List.getElem?_set_self hlt)]
        simp only [res_ok_bind, List.set_set]
        rfl

theorem addEntityU_result (id : Nat) (a : Archetype) : (addEntityU dbg id a).result c = c.addEntity dbg id a := by
  unfold addEntityU addEntity
  simp only [Unw.result_bind, reserveArchetypeU_result, reservePageU_result]

theorem swapRemoveEntityU_result (q : Loc) : (swapRemoveEntityU q).result c = c.swapRemoveEntity q := by
  unfold swapRemoveEntityU swapRemoveEntity
  simp only [Unw.result_bind, Unw.result_get, Unw.result_step', Unw.result_lift, Unw.result_pure, res_bind_assoc,
    res_pure_bind, res_ok_bind]
  congr 1; funext ai
  congr 1; funext pg
  congr 1; funext a
  congr 1; funext l
  congr 1; funext p
  split
  · simp only [Unw.result_bind, Unw.result_pure, Unw.result_step, res_bind_assoc, res_ok_bind]; rfl
  · rfl

theorem moveU_result (id : Nat) (q : Loc) (i : Nat) (a : Archetype) :
    (moveEntityToOtherArchetypeU dbg id q i a).result c = c.moveEntityToOtherArchetype dbg id q i a := by
  unfold moveEntityToOtherArchetypeU moveEntityToOtherArchetype
  simp only [Unw.result_bind, reserveArchetypeU_result, reservePageU_result, Unw.result_step, Unw.result_pure,
    res_bind_assoc, res_pure_bind, res_ok_bind]
  rfl

end Archs

namespace Store
variable (U : Universe) (dbg : Bool) (s : Store)

theorem onEnts_result {α : Type} (m : Unw Ents α) :
    (onEnts m).result s = m.result s.ents >>= fun p => .ok ({ s with ents := p.1 }, p.2) := Unw.result_on _ _ _ _

theorem onArchs_result {α : Type} (m : Unw Archs α) :
    (onArchs m).result s = m.result s.archs >>= fun p => .ok ({ s with archs := p.1 }, p.2) := Unw.result_on _ _ _ _

theorem growU_result (n : Nat) :
    (growEntitiesInternalU dbg n).result s = s.growEntitiesInternal dbg n >>= fun s' => .ok (s', ()) := by
  unfold growEntitiesInternalU growEntitiesInternal
  simp only [Unw.result_bind, Unw.result_get, Unw.result_step, res_bind_assoc, res_pure_bind, res_ok_bind]

theorem registerU_result : (registerNewEntityU dbg).result s = s.registerNewEntity dbg := by
  unfold registerNewEntityU registerNewEntity
  simp only [Unw.result_bind, onEnts_result, Ents.createU_result, res_bind_assoc, res_ok_bind]
  congr 1; funext p
  split
  · simp only [Unw.result_bind, growU_result, res_bind_assoc, res_ok_bind, Unw.result_pure]; rfl
  · rfl

theorem createU_result : (createEntityU dbg).result s = s.createEntity dbg := by
  unfold createEntityU createEntity
  simp only [Unw.result_bind, registerU_result, Unw.result_step, Unw.result_pure, res_bind_assoc, res_pure_bind, res_ok_bind]
  rfl

theorem createWithU_result (a : Archetype) :
    (createEntityWithArchetypeU dbg a).result s = s.createEntityWithArchetype dbg a := by
  unfold createEntityWithArchetypeU createEntityWithArchetype
  simp only [Unw.result_bind, registerU_result, onArchs_result, Archs.addEntityU_result, Unw.result_step, Unw.result_pure,
    res_bind_assoc, res_ok_bind]
  rfl

theorem swapRemoveInternalU_result (q : Loc) :
    (swapRemoveInternalU q).result s = s.swapRemoveInternal q >>= fun s' => .ok (s', ()) := by
  unfold swapRemoveInternalU swapRemoveInternal
  simp only [Unw.result_bind, onArchs_result, Archs.swapRemoveEntityU_result, res_bind_assoc, res_ok_bind]
  congr 1; funext p
  obtain ⟨c, o⟩ := p
  cases o with
  | none => rfl
  | some x => simp only [Unw.result_step, res_bind_assoc, res_pure_bind]

theorem destroyU_result (e : Entity) :
    (destroyEntityU dbg e).result s = s.destroyEntity dbg e >>= fun s' => .ok (s', ()) := by
  unfold destroyEntityU destroyEntity destroyRow
  simp only [Unw.result_bind, Unw.result_get, Unw.result_lift, res_bind_assoc, res_ok_bind]
  congr 1; funext b
  cases b <;>
  simp only [if_true, Bool.false_eq_true, if_false, Unw.result_bind, Unw.result_lift, Unw.result_pure, Unw.result_step,
    swapRemoveInternalU_result, onEnts_result, Ents.destroyU_result, res_bind_assoc, res_ok_bind, res_pure_bind]

theorem moveU_result (e : Entity) (a : Archetype) :
    (moveEntityToOtherArchetypeU dbg e a).result s = s.moveEntityToOtherArchetype dbg e a := by
  unfold moveEntityToOtherArchetypeU moveEntityToOtherArchetype
  simp only [Unw.result_bind, Unw.result_get, Unw.result_lift, Unw.result_step, Unw.result_pure, onArchs_result,
    Archs.moveU_result, swapRemoveInternalU_result, res_bind_assoc, res_ok_bind, res_pure_bind]
  rfl

theorem ensureU_result (e : Entity) (ts : List TypeId) :
    (ensureComponentsU U dbg e ts).result s = s.ensureComponents U dbg e ts := by
  unfold ensureComponentsU ensureComponents
  simp only [Unw.result_bind, Unw.result_get, Unw.result_lift, res_bind_assoc, res_ok_bind]
  congr 1; funext b
  cases b
  · simp only [if_true, Bool.false_eq_true, if_false, Unw.result_bind, Unw.result_lift, Unw.result_pure, Unw.result_step,
      onArchs_result, Archs.addEntityU_result, res_bind_assoc, res_ok_bind]
    rfl
  · simp only [if_true, Unw.result_bind, Unw.result_lift, res_bind_assoc, res_ok_bind]
    congr 1; funext q
    congr 1; funext ai
    congr 1; funext a
    split
    · rfl
    · simp only [Unw.result_bind, Unw.result_lift, moveU_result, res_bind_assoc, res_ok_bind]

theorem addU_result (e : Entity) (vals : TupleVal) :
    (addComponentsU U dbg e vals).result s = s.addComponents U dbg e vals >>= fun s' => .ok (s', ()) := by
  unfold addComponentsU addComponents
  simp only [Unw.result_bind, Unw.result_get, Unw.result_lift, res_bind_assoc, res_ok_bind]
  congr 1; funext b
  cases b
  · rfl
  · simp only [if_true, Bool.not_true, Bool.false_eq_true, if_false, Unw.result_bind, ensureU_result, Unw.result_step,
      res_bind_assoc, res_pure_bind]

theorem removeU_result (e : Entity) (ts : List TypeId) :
    (removeComponentsU U dbg e ts).result s = s.removeComponents U dbg e ts >>= fun s' => .ok (s', ()) := by
  unfold removeComponentsU removeComponents
  simp only [Unw.result_bind, Unw.result_get, Unw.result_lift, res_bind_assoc, res_ok_bind]
  congr 1; funext b
  cases b
  · rfl
  · simp only [if_true, Bool.not_true, Bool.false_eq_true, if_false, Unw.result_bind, Unw.result_lift, moveU_result,
      Unw.result_pure, res_bind_assoc, res_pure_bind, res_ok_bind]

theorem setU_result (e : Entity) (vals : TupleVal) :
    (setComponentsU U dbg e vals).result s = s.setComponents U dbg e vals := Unw.result_step' _ _

theorem onGroupU_result (g : Nat) (f : Group → Res Group) :
    (onGroupU g f).result s = ((s.orders.reserveGroup g).1.onGroup (s.orders.reserveGroup g).2 f) >>= fun o =>
      .ok ({ s with orders := o }, ()) := by
  unfold onGroupU
  simp only [Unw.result_bind, Unw.result_step', Unw.result_step, res_bind_assoc, res_pure_bind]

theorem addOrderU_result (g : Nat) (e : Entity) :
    (addOrderU dbg g e).result s = s.addOrder dbg g e >>= fun s' => .ok (s', ()) := by
  unfold addOrderU addOrder Orders.add
  rw [onGroupU_result]; simp only [res_bind_assoc, res_pure_bind]

theorem addOrderNextToU_result (g : Nat) (e x : Entity) :
    (addOrderNextToU dbg g e x).result s = s.addOrderNextTo dbg g e x >>= fun s' => .ok (s', ()) := by
  unfold addOrderNextToU addOrderNextTo Orders.addNextTo
  rw [onGroupU_result]; simp only [res_bind_assoc, res_pure_bind]

theorem addOrderPreviousToU_result (g : Nat) (e x : Entity) :
    (addOrderPreviousToU dbg g e x).result s = s.addOrderPreviousTo dbg g e x >>= fun s' => .ok (s', ()) := by
  unfold addOrderPreviousToU addOrderPreviousTo Orders.addPreviousTo
  rw [onGroupU_result]; simp only [res_bind_assoc, res_pure_bind]

end Store
end Ecs
