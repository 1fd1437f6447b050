import Verif.Spec.Independent
import Verif.Proofs.Archetype
import Verif.Proofs.StoreLoose

/-! The tag and order containers do not influence the other parts of a store. -/

namespace Ecs
open Spec

namespace Store

/-- `s` with other tag and order containers. -/
def dress (t : Tags) (o : Orders) (s : Store) : Store := { s with tags := t, orders := o }

variable {U : Universe} {dbg : Bool} {s : Store} {t : Tags} {o : Orders}

theorem isAlive_dress (e : Entity) : (s.dress t o).isAlive dbg e = s.isAlive dbg e := rfl

theorem isValid_dress (e : Entity) :
    (s.dress t o).isValidEntityWithArchetype dbg e = s.isValidEntityWithArchetype dbg e := rfl

theorem getLoc_dress (i : Nat) : (s.dress t o).getLocUnchecked i = s.getLocUnchecked i := rfl

theorem getPageView_dress (i : Nat) : (s.dress t o).getPageViewUnchecked i = s.getPageViewUnchecked i := rfl

theorem getEntityArchetype_dress (e : Entity) : (s.dress t o).getEntityArchetype dbg e = s.getEntityArchetype dbg e := rfl

theorem getComponentsRefs_dress (e : Entity) (ts : List TypeId) :
    (s.dress t o).getComponentsRefs U dbg e ts = s.getComponentsRefs U dbg e ts := rfl

theorem getComponents_dress (e : Entity) (ts : List TypeId) :
    (s.dress t o).getComponents U dbg e ts = s.getComponents U dbg e ts := rfl

theorem recordRow_dress (id : Nat) (loc : Loc) :
    (s.dress t o).recordRow id loc = (s.recordRow id loc).map (dress t o) := by
  unfold recordRow
  show (Raw.write s.toPage id loc.page >>= _) = _
  cases Raw.write s.toPage id loc.page with
  | error _ => rfl
  | ok a =>
    show (Raw.write s.toIndex id loc.index >>= _) = Except.map _ (Raw.write s.toIndex id loc.index >>= _)
    cases Raw.write s.toIndex id loc.index with
    | error _ => rfl
    | ok b =>
      show (s.hasArch.setOn id >>= _) = Except.map _ (s.hasArch.setOn id >>= _)
      cases s.hasArch.setOn id <;> rfl

theorem swapRemove_dress (loc : Loc) :
    (s.dress t o).swapRemoveInternal loc = (s.swapRemoveInternal loc).map (dress t o) := by
  unfold swapRemoveInternal
  show (s.archs.swapRemoveEntity loc >>= _) = _
  cases s.archs.swapRemoveEntity loc with
  | error _ => rfl
  | ok a =>
    obtain ⟨a, i⟩ := a
    cases i with
    | none => rfl
    | some i =>
      show (Raw.write s.toIndex i loc.index >>= _) = Except.map _ (Raw.write s.toIndex i loc.index >>= _)
      cases Raw.write s.toIndex i loc.index <;> rfl

theorem destroyRow_dress (e : Entity) : (s.dress t o).destroyRow e = (s.destroyRow e).map (dress t o) := by
  unfold destroyRow
  show (s.hasArch.isOn e.id >>= _) = _
  cases s.hasArch.isOn e.id with
  | error _ => rfl
  | ok b =>
    cases b with
    | false => rfl
    | true =>
      show (s.getLocUnchecked e.id >>= _) = Except.map _ (s.getLocUnchecked e.id >>= _)
      cases s.getLocUnchecked e.id with
      | error _ => rfl
      | ok loc => exact swapRemove_dress loc

/-- The change of the store in a pair. -/
def dressFst {α : Type} (t : Tags) (o : Orders) (x : Store × α) : Store × α := (x.1.dress t o, x.2)

theorem move_dress (e : Entity) (a : Archetype) :
    (s.dress t o).moveEntityToOtherArchetype dbg e a = (s.moveEntityToOtherArchetype dbg e a).map (dressFst t o) := by
  unfold moveEntityToOtherArchetype
  show (s.getLocUnchecked e.id >>= _) = _
  cases s.getLocUnchecked e.id with
  | error _ => rfl
  | ok prev =>
  show (idx s.archs.pageToArch prev.page >>= _) = Except.map _ (idx s.archs.pageToArch prev.page >>= _)
  cases idx s.archs.pageToArch prev.page with
  | error _ => rfl
  | ok pi =>
  show (s.archs.moveEntityToOtherArchetype dbg e.id prev pi a >>= _) =
    Except.map _ (s.archs.moveEntityToOtherArchetype dbg e.id prev pi a >>= _)
  cases s.archs.moveEntityToOtherArchetype dbg e.id prev pi a with
  | error _ => rfl
  | ok x =>
  obtain ⟨archs, loc⟩ := x
  show (Raw.write s.toPage e.id loc.page >>= _) = Except.map _ (Raw.write s.toPage e.id loc.page >>= _)
  cases Raw.write s.toPage e.id loc.page with
  | error _ => rfl
  | ok p =>
  show (Raw.write s.toIndex e.id loc.index >>= _) = Except.map _ (Raw.write s.toIndex e.id loc.index >>= _)
  cases Raw.write s.toIndex e.id loc.index with
  | error _ => rfl
  | ok i =>
  show (({ s with archs := archs, toPage := p, toIndex := i } : Store).dress t o).swapRemoveInternal prev >>= _ = Except.map _
    (({ s with archs := archs, toPage := p, toIndex := i } : Store).swapRemoveInternal prev >>= _)
  rw [swapRemove_dress]
  cases ({ s with archs := archs, toPage := p, toIndex := i } : Store).swapRemoveInternal prev <;> rfl

theorem ensure_dress (e : Entity) (ts : List TypeId) :
    (s.dress t o).ensureComponents U dbg e ts = (s.ensureComponents U dbg e ts).map (dressFst t o) := by
  unfold ensureComponents
  show (s.hasArch.isOn e.id >>= _) = _
  cases s.hasArch.isOn e.id with
  | error _ => rfl
  | ok b =>
  cases b with
  | true =>
    show (s.getLocUnchecked e.id >>= _) = Except.map _ (s.getLocUnchecked e.id >>= _)
    cases s.getLocUnchecked e.id with
    | error _ => rfl
    | ok loc =>
    show (idx s.archs.pageToArch loc.page >>= _) = Except.map _ (idx s.archs.pageToArch loc.page >>= _)
    cases idx s.archs.pageToArch loc.page with
    | error _ => rfl
    | ok ai =>
    show (idxUnchecked s.archs.archetypes ai >>= _) = Except.map _ (idxUnchecked s.archs.archetypes ai >>= _)
    cases idxUnchecked s.archs.archetypes ai with
    | error _ => rfl
    | ok arch =>
    show (if tupleIncluded ts arch then _ else _) = Except.map _ (if tupleIncluded ts arch then _ else _)
    split
    · rfl
    · show ((((ArchetypeBuilder.new.includeArchetype arch).includeComponents U ts).build) >>= _) = Except.map _
        ((((ArchetypeBuilder.new.includeArchetype arch).includeComponents U ts).build) >>= _)
      cases ((ArchetypeBuilder.new.includeArchetype arch).includeComponents U ts).build with
      | error _ => rfl
      | ok x => exact move_dress e x.1
  | false =>
    show (Archetype.withComponents U ts >>= _) = Except.map _ (Archetype.withComponents U ts >>= _)
    cases Archetype.withComponents U ts with
    | error _ => rfl
    | ok a =>
    show (s.archs.addEntity dbg e.id a >>= _) = Except.map _ (s.archs.addEntity dbg e.id a >>= _)
    cases s.archs.addEntity dbg e.id a with
    | error _ => rfl
    | ok x =>
    obtain ⟨archs, loc⟩ := x
    show ((({ s with archs := archs } : Store).dress t o).recordRow e.id loc >>= _) = Except.map _
      (({ s with archs := archs } : Store).recordRow e.id loc >>= _)
    rw [recordRow_dress]
    cases ({ s with archs := archs } : Store).recordRow e.id loc <;> rfl

theorem addComponents_dress (e : Entity) (vals : TupleVal) :
    (s.dress t o).addComponents U dbg e vals = (s.addComponents U dbg e vals).map (dress t o) := by
  unfold addComponents
  show (s.isAlive dbg e >>= _) = _
  cases s.isAlive dbg e with
  | error _ => rfl
  | ok b =>
  cases b with
  | false => rfl
  | true =>
  show ((s.dress t o).ensureComponents U dbg e (vals.map (·.1)) >>= _) = Except.map _ (s.ensureComponents U dbg e (vals.map (·.1)) >>= _)
  rw [ensure_dress]
  cases s.ensureComponents U dbg e (vals.map (·.1)) with
  | error _ => rfl
  | ok x =>
  obtain ⟨s1, loc⟩ := x
  show (s1.getPageViewUnchecked loc.page >>= _) = Except.map _ (s1.getPageViewUnchecked loc.page >>= _)
  cases s1.getPageViewUnchecked loc.page with
  | error _ => rfl
  | ok view =>
  show (Ecs.getOffsetsUnchecked view.archetype view.layout (vals.map (·.1)) >>= _) =
    Except.map _ (Ecs.getOffsetsUnchecked view.archetype view.layout (vals.map (·.1)) >>= _)
  cases Ecs.getOffsetsUnchecked view.archetype view.layout (vals.map (·.1)) with
  | error _ => rfl
  | ok offs =>
  show (assignToRefs (getRefs U loc.page loc.index (vals.map (·.1)) offs) (vals.map (·.2)) s1.archs.pages >>= _) =
    Except.map _ (assignToRefs (getRefs U loc.page loc.index (vals.map (·.1)) offs) (vals.map (·.2)) s1.archs.pages >>= _)
  cases assignToRefs (getRefs U loc.page loc.index (vals.map (·.1)) offs) (vals.map (·.2)) s1.archs.pages <;> rfl

theorem removeComponents_dress (e : Entity) (ts : List TypeId) :
    (s.dress t o).removeComponents U dbg e ts = (s.removeComponents U dbg e ts).map (dress t o) := by
  unfold removeComponents
  show (s.isValidEntityWithArchetype dbg e >>= _) = _
  cases s.isValidEntityWithArchetype dbg e with
  | error _ => rfl
  | ok b =>
  cases b with
  | false => rfl
  | true =>
  show (s.getLocUnchecked e.id >>= _) = Except.map _ (s.getLocUnchecked e.id >>= _)
  cases s.getLocUnchecked e.id with
  | error _ => rfl
  | ok prev =>
  show (idx s.archs.pageToArch prev.page >>= _) = Except.map _ (idx s.archs.pageToArch prev.page >>= _)
  cases idx s.archs.pageToArch prev.page with
  | error _ => rfl
  | ok pi =>
  show (idxUnchecked s.archs.archetypes pi >>= _) = Except.map _ (idxUnchecked s.archs.archetypes pi >>= _)
  cases idxUnchecked s.archs.archetypes pi with
  | error _ => rfl
  | ok arch =>
  show ((((ArchetypeBuilder.new.includeArchetype arch).excludeComponents U ts).build) >>= _) = Except.map _
    ((((ArchetypeBuilder.new.includeArchetype arch).excludeComponents U ts).build) >>= _)
  cases ((ArchetypeBuilder.new.includeArchetype arch).excludeComponents U ts).build with
  | error _ => rfl
  | ok x =>
  show ((s.dress t o).moveEntityToOtherArchetype dbg e x.1 >>= _) = Except.map _ (s.moveEntityToOtherArchetype dbg e x.1 >>= _)
  rw [move_dress]
  cases s.moveEntityToOtherArchetype dbg e x.1 <;> rfl

theorem setComponents_dress (e : Entity) (vals : TupleVal) :
    (s.dress t o).setComponents U dbg e vals = (s.setComponents U dbg e vals).map (dressFst t o) := by
  unfold setComponents
  show (s.getComponentsRefs U dbg e (vals.map (·.1)) >>= _) = _
  cases s.getComponentsRefs U dbg e (vals.map (·.1)) with
  | error _ => rfl
  | ok r =>
  cases r with
  | none => rfl
  | some refs =>
  show (assignToRefs refs (vals.map (·.2)) s.archs.pages >>= _) = Except.map _ (assignToRefs refs (vals.map (·.2)) s.archs.pages >>= _)
  cases assignToRefs refs (vals.map (·.2)) s.archs.pages <;> rfl

end Store

/-- The tag container itself, or one that never got a tag. -/
def Tags.keep (k : Bool) (t : Tags) : Tags := if k then t else Tags.new t.entityCapacity

/-- The order container itself, or one that never got a group. -/
def Orders.keep (k : Bool) (o : Orders) : Orders := if k then o else Orders.new o.entityCapacity

namespace Tags

theorem grow_keep {k : Bool} {t t' : Tags} {n : Nat} (hr : t.grow n = .ok t') : (t.keep k).grow n = .ok (t'.keep k) := by
  cases k with
  | true => exact hr
  | false =>
    unfold grow at hr
    obtain ⟨_, _, hr⟩ := bind_eq_ok.1 hr
    cases hr
    rfl

theorem removeAll_keep {k : Bool} {t t' : Tags} {i : Nat} (hr : t.removeAllTagsForEntity i = .ok t') :
    (t.keep k).removeAllTagsForEntity i = .ok (t'.keep k) := by
  cases k with
  | true => exact hr
  | false =>
    unfold removeAllTagsForEntity at hr
    obtain ⟨_, _, hr⟩ := bind_eq_ok.1 hr
    cases hr
    rfl

theorem addTag_cap {t t' : Tags} {g i : Nat} (hr : t.addTag g i = .ok t') : t'.entityCapacity = t.entityCapacity := by
  unfold addTag at hr
  obtain ⟨_, _, hr⟩ := bind_eq_ok.1 hr
  obtain ⟨_, _, hr⟩ := bind_eq_ok.1 hr
  cases hr
  show (t.reserveTag g).1.entityCapacity = _
  unfold reserveTag
  split <;> rfl

theorem removeTag_cap {t t' : Tags} {g i : Nat} (hr : t.removeTag g i = .ok t') : t'.entityCapacity = t.entityCapacity := by
  unfold removeTag at hr
  split at hr
  · obtain ⟨_, _, hr⟩ := bind_eq_ok.1 hr
    obtain ⟨_, _, hr⟩ := bind_eq_ok.1 hr
    cases hr
    rfl
  · cases hr; rfl

end Tags

namespace Orders

theorem grow_keep {k : Bool} {dbg : Bool} {t t' : Orders} {n : Nat} (hr : t.grow dbg n = .ok t') :
    (t.keep k).grow dbg n = .ok (t'.keep k) := by
  cases k with
  | true => exact hr
  | false =>
    unfold grow at hr
    obtain ⟨x, hx, hr⟩ := bind_eq_ok.1 hr
    obtain ⟨_, _, hr⟩ := bind_eq_ok.1 hr
    cases hr
    show (subUsize dbg n t.entityCapacity >>= _) = _
    rw [hx]
    rfl

theorem removeAll_keep {k : Bool} {t t' : Orders} {i : Nat} (hr : t.removeAll i = .ok t') :
    (t.keep k).removeAll i = .ok (t'.keep k) := by
  cases k with
  | true => exact hr
  | false =>
    unfold removeAll at hr
    obtain ⟨_, _, hr⟩ := bind_eq_ok.1 hr
    cases hr
    rfl

theorem reserve_cap (o : Orders) (g : Nat) : (o.reserveGroup g).1.entityCapacity = o.entityCapacity := by
  unfold reserveGroup
  split <;> rfl

theorem onGroup_cap {o o' : Orders} {i : Nat} {f : Group → Res Group} (hr : o.onGroup i f = .ok o') :
    o'.entityCapacity = o.entityCapacity := by
  unfold onGroup at hr
  obtain ⟨_, _, hr⟩ := bind_eq_ok.1 hr
  obtain ⟨_, _, hr⟩ := bind_eq_ok.1 hr
  cases hr
  rfl

theorem add_cap {dbg : Bool} {o o' : Orders} {g i : Nat} (hr : o.add dbg g i = .ok o') : o'.entityCapacity = o.entityCapacity :=
  (onGroup_cap hr).trans (reserve_cap o g)

theorem addNextTo_cap {dbg : Bool} {o o' : Orders} {g i j : Nat} (hr : o.addNextTo dbg g i j = .ok o') :
    o'.entityCapacity = o.entityCapacity :=
  (onGroup_cap hr).trans (reserve_cap o g)

theorem addPreviousTo_cap {dbg : Bool} {o o' : Orders} {g i j : Nat} (hr : o.addPreviousTo dbg g i j = .ok o') :
    o'.entityCapacity = o.entityCapacity :=
  (onGroup_cap hr).trans (reserve_cap o g)

theorem remove_cap {o o' : Orders} {g i : Nat} (hr : o.remove g i = .ok o') : o'.entityCapacity = o.entityCapacity := by
  unfold remove at hr
  split at hr
  · cases hr; rfl
  · exact onGroup_cap hr

end Orders

namespace Store

variable {U : Universe} {dbg kt ko : Bool} {s s' : Store}

/-- The store without tags (unless `kt`) and order groups (unless `ko`). -/
def keep (kt ko : Bool) (s : Store) : Store := s.dress (s.tags.keep kt) (s.orders.keep ko)

theorem register_keep {e : Entity} (hr : s.registerNewEntity dbg = .ok (s', e)) :
    (s.keep kt ko).registerNewEntity dbg = .ok (s'.keep kt ko, e) := by
  unfold registerNewEntity at hr ⊢
  obtain ⟨⟨ents, cr⟩, hc, hr⟩ := bind_eq_ok.1 hr
  have hc' : (s.keep kt ko).ents.create dbg = .ok (ents, cr) := hc
  rw [hc']
  dsimp only at hr ⊢
  by_cases hg : cr.wasGrow = true
  · show (if cr.wasGrow = true then ({ s.keep kt ko with ents := ents } : Store).growEntitiesInternal dbg cr.capacityBefore >>= _ else _) = _
    rw [if_pos hg] at hr ⊢
    obtain ⟨s1, hg, hr⟩ := bind_eq_ok.1 hr
    cases hr
    unfold growEntitiesInternal at hg ⊢
    obtain ⟨a, ha, hg⟩ := bind_eq_ok.1 hg
    obtain ⟨b, hb, hg⟩ := bind_eq_ok.1 hg
    obtain ⟨c, hc, hg⟩ := bind_eq_ok.1 hg
    obtain ⟨d, hd, hg⟩ := bind_eq_ok.1 hg
    obtain ⟨f, hf, hg⟩ := bind_eq_ok.1 hg
    cases hg
    show ((Raw.realloc s.toPage _ _ >>= _) >>= _) = _
    rw [show Raw.realloc s.toPage cr.capacityBefore (entitiesCapacity { s.keep kt ko with ents := ents }) = _ from ha]
    show ((Raw.realloc s.toIndex _ _ >>= _) >>= _) = _
    rw [show Raw.realloc s.toIndex cr.capacityBefore (entitiesCapacity { s.keep kt ko with ents := ents }) = _ from hb]
    show ((s.hasArch.realloc _ _ >>= _) >>= _) = _
    rw [show s.hasArch.realloc cr.capacityBefore (entitiesCapacity { s.keep kt ko with ents := ents }) = _ from hc]
    show (((s.tags.keep kt).grow _ >>= _) >>= _) = _
    rw [show (s.tags.keep kt).grow (entitiesCapacity { s.keep kt ko with ents := ents }) = _ from Tags.grow_keep hd]
    show (((s.orders.keep ko).grow dbg _ >>= _) >>= _) = _
    rw [show (s.orders.keep ko).grow dbg (entitiesCapacity { s.keep kt ko with ents := ents }) = _ from Orders.grow_keep hf]
    rfl
  · show (if cr.wasGrow = true then ({ s.keep kt ko with ents := ents } : Store).growEntitiesInternal dbg cr.capacityBefore >>= _ else _) = _
    rw [if_neg hg] at hr ⊢
    cases hr
    rfl

theorem create_keep {e : Entity} (hr : s.createEntity dbg = .ok (s', e)) :
    (s.keep kt ko).createEntity dbg = .ok (s'.keep kt ko, e) := by
  unfold createEntity at hr ⊢
  obtain ⟨⟨s1, e1⟩, hc, hr⟩ := bind_eq_ok.1 hr
  obtain ⟨a, ha, hr⟩ := bind_eq_ok.1 hr
  cases hr
  rw [register_keep hc]
  show (s1.hasArch.setOff e.id >>= _) = _
  rw [show s1.hasArch.setOff e.id = .ok a from ha]
  rfl

theorem keep_of_dress {s1 s' : Store} (ht : s'.tags = s1.tags) (ho : s'.orders = s1.orders) :
    s'.dress (s1.tags.keep kt) (s1.orders.keep ko) = s'.keep kt ko := by
  unfold keep
  rw [ht, ho]

theorem recordRow_same {id : Nat} {loc : Loc} (hr : s.recordRow id loc = .ok s') : s'.tags = s.tags ∧ s'.orders = s.orders := by
  unfold recordRow at hr
  obtain ⟨_, _, hr⟩ := bind_eq_ok.1 hr
  obtain ⟨_, _, hr⟩ := bind_eq_ok.1 hr
  obtain ⟨_, _, hr⟩ := bind_eq_ok.1 hr
  cases hr
  exact ⟨rfl, rfl⟩

theorem createWith_keep {e : Entity} {a : Archetype} (hr : s.createEntityWithArchetype dbg a = .ok (s', e)) :
    (s.keep kt ko).createEntityWithArchetype dbg a = .ok (s'.keep kt ko, e) := by
  unfold createEntityWithArchetype at hr ⊢
  obtain ⟨⟨s1, e1⟩, hc, hr⟩ := bind_eq_ok.1 hr
  obtain ⟨⟨archs, loc⟩, ha, hr⟩ := bind_eq_ok.1 hr
  obtain ⟨s2, hs, hr⟩ := bind_eq_ok.1 hr
  cases hr
  rw [register_keep hc]
  show (s1.archs.addEntity dbg e.id a >>= _) = _
  rw [show s1.archs.addEntity dbg e.id a = .ok (archs, loc) from ha]
  show ((({ s1 with archs := archs } : Store).dress (s1.tags.keep kt) (s1.orders.keep ko)).recordRow e.id loc >>= _) = _
  rw [recordRow_dress, show ({ s1 with archs := archs } : Store).recordRow e.id loc = .ok s' from hs]
  obtain ⟨h1, h2⟩ := recordRow_same hs
  show (Except.ok (s'.dress (s1.tags.keep kt) (s1.orders.keep ko), e) : Res _) = _
  rw [keep_of_dress h1 h2]

theorem destroy_keep {e : Entity} (hr : s.destroyEntity dbg e = .ok s') :
    (s.keep kt ko).destroyEntity dbg e = .ok (s'.keep kt ko) := by
  unfold destroyEntity at hr ⊢
  obtain ⟨s1, h1, hr⟩ := bind_eq_ok.1 hr
  obtain ⟨ents, h2, hr⟩ := bind_eq_ok.1 hr
  obtain ⟨tags, h3, hr⟩ := bind_eq_ok.1 hr
  obtain ⟨orders, h4, hr⟩ := bind_eq_ok.1 hr
  cases hr
  obtain ⟨_, ht, ho, _, _, _⟩ := SameCore.destroyRow h1
  unfold keep
  rw [destroyRow_dress, h1, ← ht, ← ho]
  show (s1.ents.destroy dbg e >>= _) = _
  rw [h2]
  show ((s1.tags.keep kt).removeAllTagsForEntity e.id >>= _) = _
  rw [Tags.removeAll_keep h3]
  show ((s1.orders.keep ko).removeAll e.id >>= _) = _
  rw [Orders.removeAll_keep h4]
  rfl

theorem added_keep {e : Entity} {vals : TupleVal} (hr : s.addComponents U dbg e vals = .ok s') :
    (s.keep kt ko).addComponents U dbg e vals = .ok (s'.keep kt ko) := by
  obtain ⟨_, ht, ho, _, _, _⟩ := SameCore.added hr
  rw [← keep_of_dress ht ho, keep, addComponents_dress, hr]
  rfl

theorem removed_keep {e : Entity} {ts : List TypeId} (hr : s.removeComponents U dbg e ts = .ok s') :
    (s.keep kt ko).removeComponents U dbg e ts = .ok (s'.keep kt ko) := by
  obtain ⟨_, ht, ho, _, _, _⟩ := SameCore.removed hr
  rw [← keep_of_dress ht ho, keep, removeComponents_dress, hr]
  rfl

theorem assigned_keep {e : Entity} {vals : TupleVal} {b : Bool} (hr : s.setComponents U dbg e vals = .ok (s', b)) :
    (s.keep kt ko).setComponents U dbg e vals = .ok (s'.keep kt ko, b) := by
  obtain ⟨_, ht, ho, _, _, _⟩ := SameCore.assigned hr
  rw [← keep_of_dress ht ho, keep, setComponents_dress, hr]
  rfl

theorem tags_keep {t' : Tags} (h : kt = true ∨ t'.entityCapacity = s.tags.entityCapacity) (hk : kt = false) :
    ({ s with tags := t' } : Store).keep kt ko = s.keep kt ko := by
  subst hk
  have h := h.resolve_left (by decide)
  show s.dress (Tags.new t'.entityCapacity) _ = s.dress (Tags.new s.tags.entityCapacity) _
  rw [h]

theorem orders_keep {o' : Orders} (h : o'.entityCapacity = s.orders.entityCapacity) (hk : ko = false) :
    ({ s with orders := o' } : Store).keep kt ko = s.keep kt ko := by
  subst hk
  show s.dress _ (Orders.new o'.entityCapacity) = s.dress _ (Orders.new s.orders.entityCapacity)
  rw [h]

/-- A call about tags. -/
theorem tagCall_keep {f : Tags → Res Tags} (hf : ∀ t t', f t = .ok t' → t'.entityCapacity = t.entityCapacity)
    (hr : (f s.tags >>= fun t => pure { s with tags := t }) = .ok s') :
    if kt then (f (s.keep kt ko).tags >>= fun t => pure { s.keep kt ko with tags := t }) = .ok (s'.keep kt ko)
    else s'.keep kt ko = s.keep kt ko := by
  obtain ⟨t, h1, hr⟩ := bind_eq_ok.1 hr
  cases hr
  cases kt with
  | true =>
    rw [if_pos rfl]
    show (f s.tags >>= _) = _
    rw [h1]
    rfl
  | false =>
    rw [if_neg (by decide)]
    exact tags_keep (.inr (hf _ _ h1)) rfl

/-- A call about order groups. -/
theorem orderCall_keep {f : Orders → Res Orders} (hf : ∀ t t', f t = .ok t' → t'.entityCapacity = t.entityCapacity)
    (hr : (f s.orders >>= fun t => pure { s with orders := t }) = .ok s') :
    if ko then (f (s.keep kt ko).orders >>= fun t => pure { s.keep kt ko with orders := t }) = .ok (s'.keep kt ko)
    else s'.keep kt ko = s.keep kt ko := by
  obtain ⟨t, h1, hr⟩ := bind_eq_ok.1 hr
  cases hr
  cases ko with
  | true =>
    rw [if_pos rfl]
    show (f s.orders >>= _) = _
    rw [h1]
    rfl
  | false =>
    rw [if_neg (by decide)]
    exact orders_keep (hf _ _ h1) rfl

theorem returns_keep {ev : Event} (hr : Returns U dbg s ev s') :
    if ((kt || !aboutTags ev) && (ko || !aboutOrders ev)) = true then Returns U dbg (s.keep kt ko) ev (s'.keep kt ko)
    else s'.keep kt ko = s.keep kt ko := by
  cases ev with
  | created e => cases kt <;> cases ko <;> exact create_keep hr
  | createdWith e ts init =>
    obtain ⟨a, ha, hi, hr⟩ := hr
    have : Returns U dbg (s.keep kt ko) (.createdWith e ts init) (s'.keep kt ko) := ⟨a, ha, hi, createWith_keep hr⟩
    cases kt <;> cases ko <;> exact this
  | destroyed e => cases kt <;> cases ko <;> exact destroy_keep hr
  | added e vals => cases kt <;> cases ko <;> exact added_keep hr
  | removed e ts => cases kt <;> cases ko <;> exact removed_keep hr
  | assigned e vals =>
    obtain ⟨b, hr⟩ := hr
    have : Returns U dbg (s.keep kt ko) (.assigned e vals) (s'.keep kt ko) := ⟨b, assigned_keep hr⟩
    cases kt <;> cases ko <;> exact this
  | tagged tag e =>
    have := tagCall_keep (kt := kt) (ko := ko) (f := fun t => t.addTag tag e.id)
      (fun _ _ => Tags.addTag_cap) hr
    cases kt <;> cases ko <;> exact this
  | untagged tag e =>
    have := tagCall_keep (kt := kt) (ko := ko) (f := fun t => t.removeTag tag e.id)
      (fun _ _ => Tags.removeTag_cap) hr
    cases kt <;> cases ko <;> exact this
  | orderedLast g e =>
    have := orderCall_keep (kt := kt) (ko := ko) (f := fun t => t.add dbg g e.id)
      (fun _ _ => Orders.add_cap) hr
    cases kt <;> cases ko <;> exact this
  | orderedAfter g e x =>
    have := orderCall_keep (kt := kt) (ko := ko) (f := fun t => t.addNextTo dbg g e.id x.id)
      (fun _ _ => Orders.addNextTo_cap) hr
    cases kt <;> cases ko <;> exact this
  | orderedBefore g e x =>
    have := orderCall_keep (kt := kt) (ko := ko) (f := fun t => t.addPreviousTo dbg g e.id x.id)
      (fun _ _ => Orders.addPreviousTo_cap) hr
    cases kt <;> cases ko <;> exact this
  | unordered g e =>
    have := orderCall_keep (kt := kt) (ko := ko) (f := fun t => t.remove g e.id)
      (fun _ _ => Orders.remove_cap) hr
    cases kt <;> cases ko <;> exact this

end Store

open Store

theorem runs_keep {U : Universe} {dbg : Bool} {cap : Nat} (kt ko : Bool) {h : List Event} {s : Store} (hx : Runs U dbg cap h s) :
    Runs U dbg cap (without kt ko h) (s.keep kt ko) := by
  induction hx with
  | @init s hs =>
    refine .init ?_
    unfold Store.withCapacity at hs ⊢
    obtain ⟨_, h1, hs⟩ := bind_eq_ok.1 hs
    rw [h1]
    cases hs
    cases kt <;> cases ko <;> rfl
  | @step h s s' ev _ hr ih =>
    have := returns_keep (kt := kt) (ko := ko) hr
    unfold without at ih ⊢
    rw [List.filter_cons]
    split
    · rename_i hk
      rw [if_pos hk] at this
      exact .step ev ih this
    · rename_i hk
      rw [if_neg hk] at this
      rw [this]
      exact ih

theorem handles_without (kt ko : Bool) (h : List Event) : handles (without kt ko h) = handles h := by
  induction h with
  | nil => rfl
  | cons ev h ih =>
    unfold without at ih ⊢
    rw [List.filter_cons]
    split
    · cases ev <;> simp [handles, ih]
    · rename_i hk
      cases ev <;> first | exact ih | (exact absurd (by simp [aboutTags, aboutOrders]) hk)

theorem handles_one (ev : Event) (h : List Event) : handles (ev :: h) = handles [ev] ++ handles h := by
  cases ev <;> rfl

/-- The same calls do the same. -/
theorem same_returns {U : Universe} {dbg : Bool} {s s1 s2 : Store} {ev ev' : Event} (hs : SameCall ev ev')
    (h1 : Returns U dbg s ev s1) (h2 : Returns U dbg s ev' s2) : s1 = s2 ∧ handles [ev] = handles [ev'] := by
  have key : ∀ {x : Res Store}, x = .ok s1 → x = .ok s2 → s1 = s2 := fun h h' => by rw [h] at h'; cases h'; rfl
  cases ev with
  | created e =>
    cases ev' <;> try cases hs
    rename_i e'
    have h1 : s.createEntity dbg = .ok (s1, e) := h1
    have h2 : s.createEntity dbg = .ok (s2, e') := h2
    rw [h1] at h2; cases h2; exact ⟨rfl, rfl⟩
  | createdWith e ts init =>
    cases ev' <;> try cases hs
    rename_i e' init'
    obtain ⟨a, ha, hi, h1⟩ := h1
    obtain ⟨b, hb, hj, h2⟩ := h2
    have : a = b := ha.wf.ext hb.wf (hi.trans hj.symm)
    subst this
    rw [h1] at h2; cases h2; exact ⟨rfl, rfl⟩
  | assigned e vals =>
    cases hs
    obtain ⟨b, h1⟩ := h1
    obtain ⟨b', h2⟩ := h2
    rw [h1] at h2; cases h2; exact ⟨rfl, rfl⟩
  | _ => cases hs; exact ⟨key h1 h2, rfl⟩

theorem same_runs {U : Universe} {dbg : Bool} {cap : Nat} {h1 h2 : List Event} {s1 s2 : Store} (hx : Runs U dbg cap h1 s1)
    (hy : Runs U dbg cap h2 s2) (hs : List.Forall₂ SameCall h1 h2) : s1 = s2 ∧ handles h1 = handles h2 := by
  induction hx generalizing h2 s2 with
  | init h =>
    cases hs
    cases hy with
    | init h' => rw [h] at h'; cases h'; exact ⟨rfl, rfl⟩
  | @step h s s' ev _ hr ih =>
    cases hs with
    | cons ha hb =>
    cases hy with
    | step ev' hy' hr' =>
    obtain ⟨rfl, hh⟩ := ih hy' hb
    obtain ⟨rfl, hh'⟩ := same_returns ha hr hr'
    refine ⟨rfl, ?_⟩
    rw [handles_one ev, hh', hh, ← handles_one]

theorem map_error {α β : Type} {f : α → β} {r : Res α} {x : Fault} : r.map f = .error x ↔ r = .error x := by
  cases r <;> simp [Except.map]

/-! ### What can be observed -/

section observers
variable {U : Universe} {dbg : Bool} {s : Store} {t : Tags} {o : Orders}

theorem nextFiltered_dress (bv : Words) (fuel : Nat) (it : CompIter) :
    CompIter.nextFiltered dbg (s.dress t o) bv fuel it = CompIter.nextFiltered dbg s bv fuel it := by
  induction fuel generalizing it with
  | zero => rfl
  | succ n ih =>
    unfold CompIter.nextFiltered
    simp only [ih]
    rfl

theorem entityRangeLoop_dress (p : Nat) (rest : List Entity) (n : Nat) :
    entityRangeLoop dbg (s.dress t o) p rest n = entityRangeLoop dbg s p rest n := by
  induction rest generalizing n with
  | nil => rfl
  | cons e rest ih =>
    unfold entityRangeLoop
    rw [ih]
    rfl

theorem entityOuterLoop_dress (acc : Access) (fuel : Nat) (rest : List Entity) (n : Nat) :
    entityOuterLoop U dbg (s.dress t o) acc fuel rest n = entityOuterLoop U dbg s acc fuel rest n := by
  induction fuel generalizing rest n with
  | zero => cases rest <;> rfl
  | succ k ih =>
    cases rest with
    | nil => rfl
    | cons e rest =>
      unfold entityOuterLoop
      simp only [ih, entityRangeLoop_dress]
      rfl

theorem orderedRangeLoop_dress (links : Raw Nat) (p fuel n m : Nat) :
    orderedRangeLoop (s.dress t o) links p fuel n m = orderedRangeLoop s links p fuel n m := by
  induction fuel generalizing n m with
  | zero => rfl
  | succ k ih =>
    unfold orderedRangeLoop
    simp only [ih]
    rfl

theorem orderedOuterLoop_dress (acc : Access) (links : Raw Nat) (fuel n : Nat) :
    orderedOuterLoop U (s.dress t o) acc links fuel n = orderedOuterLoop U s acc links fuel n := by
  induction fuel generalizing n with
  | zero => rfl
  | succ k ih =>
    unfold orderedOuterLoop
    simp only [ih, orderedRangeLoop_dress]
    rfl

theorem entityQueryIter_dress (es : List Entity) (acc : Access) (old : List (Range × IterView)) :
    entityQueryIter U dbg (s.dress t o) es acc old = entityQueryIter U dbg s es acc old := by
  unfold entityQueryIter
  rw [entityOuterLoop_dress]

theorem same_components : SeesSame U dbg s (s.dress t o) where
  capacity := rfl
  alive _ := rfl
  archetype _ := rfl
  refs _ _ := rfl
  values _ _ := rfl
  query _ _ _ := rfl
  queryWithEntities _ _ _ := rfl
  entities es acc old fuel := by
    unfold runEntityQuery
    rw [entityQueryIter_dress]
    rfl
  entitiesWithEntities es acc old fuel := by
    unfold runEntityQueryWithEntities
    rw [entityQueryIter_dress]
    rfl

theorem same_tags : SameTags U dbg s (s.dress s.tags o) where
  has _ _ := rfl
  query acc tag old fuel := by
    unfold runComponentQueryFilterTag
    rw [show CompIter.nextFiltered dbg (s.dress s.tags o) = CompIter.nextFiltered dbg s from
      funext fun bv => funext fun n => funext fun it => nextFiltered_dress bv n it]
    rfl

theorem orderedQueryIter_dress (g : Nat) (acc : Access) (old : List (Range × IterView)) (fuel : Nat) :
    orderedQueryIter U (s.dress t s.orders) g acc old fuel = orderedQueryIter U s g acc old fuel := by
  unfold orderedQueryIter
  simp only [orderedOuterLoop_dress]
  rfl

theorem same_orders : SameOrders U dbg s (s.dress t s.orders) where
  next _ _ := rfl
  previous _ _ := rfl
  first _ := rfl
  last _ := rfl
  query g acc old fuel := by
    unfold runOrderedQuery
    rw [orderedQueryIter_dress]
  queryWithEntities g acc old fuel := by
    unfold runOrderedQueryWithEntities
    rw [orderedQueryIter_dress]
    rfl

end observers

end Ecs
