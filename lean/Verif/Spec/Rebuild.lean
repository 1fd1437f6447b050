import Verif.Spec.BuildUp
import Verif.Spec.Observe
import Mathlib.Data.List.Dedup

/-! Descriptions of worlds, and the programs that make them. -/

namespace Ecs.Spec

/-- A description of a world. The entities are numbered; each has components with their bytes. Tags and order groups are given by pairs
of a name and the number of an entity; the pairs for a group are in the order of the group. -/
structure Plan where
  ents : List TupleVal
  tags : List (Nat × Nat)
  orders : List (Nat × Nat)

/-- The description is meaningful: fewer than `2 ^ 32` entities, their components are of distinct types and have as many bytes as their
types, at least four entities with the same types fit into a page, all numbers are numbers of entities, and no entity is twice in a
group. -/
structure Plan.Ok (U : Universe) (dbg : Bool) (p : Plan) : Prop where
  few : p.ents.length < u32Size
  tuples : ∀ vals ∈ p.ents, TupleOk U vals
  wide : ∀ vals ∈ p.ents, vals ≠ [] → Wide U dbg (vals.map (·.1))
  tagged : ∀ x ∈ p.tags, x.2 < p.ents.length
  ordered : ∀ x ∈ p.orders, x.2 < p.ents.length
  once : p.orders.Nodup

/-- The calls that make entity number `i`. -/
def makeEntity (i : Nat) (vals : TupleVal) : List Event :=
  if vals = [] then [.created ⟨i, 1⟩] else [.created ⟨i, 1⟩, .added ⟨i, 1⟩ vals]

/-- The calls that make the world that is described, the first call first. -/
def Plan.program (p : Plan) : List Event :=
  p.ents.zipIdx.flatMap (fun x => makeEntity x.2 x.1) ++ p.tags.map (fun x => .tagged x.1 ⟨x.2, 1⟩) ++
    p.orders.map (fun x => .orderedLast x.1 ⟨x.2, 1⟩)

/-- The numbers of the members of group `g`. -/
def Plan.members (p : Plan) (g : Nat) : List Nat := (p.orders.filter (·.1 = g)).map (·.2)

/-- The store shows what is described, entity number `i` having the handle `⟨i, 1⟩`. -/
structure Plan.Shown (U : Universe) (dbg : Bool) (p : Plan) (s : Store) : Prop where
  /-- `is_alive` -/
  alive : ∀ i < p.ents.length, s.isAlive dbg ⟨i, 1⟩ = .ok true
  /-- `get_components_refs` and reading: all the components, or nothing if one is missing -/
  read : ∀ i vals, p.ents[i]? = some vals → ∀ ts, ts ≠ [] →
    s.getComponents U dbg ⟨i, 1⟩ ts = .ok (ts.mapM fun t => (TupleVal.find vals t).map (·.map some))
  /-- `get_entity_archetype` -/
  arch : ∀ i vals, p.ents[i]? = some vals → if vals = [] then s.getEntityArchetype dbg ⟨i, 1⟩ = .ok none
    else ∃ a, s.getEntityArchetype dbg ⟨i, 1⟩ = .ok (some a) ∧ ∀ t, t ∈ a.ids ↔ t ∈ vals.map (·.1)
  /-- `has_tag` -/
  tag : ∀ i < p.ents.length, ∀ tag, s.hasTag tag ⟨i, 1⟩ = .ok (decide ((tag, i) ∈ p.tags))
  /-- the four observers of order groups -/
  first : ∀ g, s.getFirstOrdered g = .ok ((p.members g).head?.map (⟨·, 1⟩))
  last : ∀ g, s.getLastOrdered g = .ok ((p.members g).getLast?.map (⟨·, 1⟩))
  next : ∀ i < p.ents.length, ∀ g, s.getNextOrdered g ⟨i, 1⟩ = .ok ((follower (p.members g) i).map (⟨·, 1⟩))
  previous : ∀ i < p.ents.length, ∀ g, s.getPreviousOrdered g ⟨i, 1⟩ = .ok ((preceder (p.members g) i).map (⟨·, 1⟩))

/-! ### Saving a world -/

/-- The tags that were given to entities. -/
def tagNames (h : List Event) : List Nat := (h.filterMap fun | .tagged tag _ => some tag | _ => none).dedup

/-- The groups that entities were put in. -/
def groupNames (h : List Event) : List Nat :=
  (h.filterMap fun | .orderedLast g _ => some g | .orderedAfter g _ _ => some g | .orderedBefore g _ _ => some g | _ => none).dedup

/-- The description of the world after a history (bytes that were never written are left out). The number of an
entity is its position among the living, the youngest first. -/
def saved (h : List Event) : Plan where
  ents := (alive h).map fun e => ((world h).types e).dedup.map fun t => (t, ((world h).value e t).filterMap id)
  tags := (tagNames h).flatMap fun tag => ((alive h).zipIdx.filter fun x => (world h).tags tag x.1).map fun x => (tag, x.2)
  orders := (groupNames h).flatMap fun g => ((world h).order g).map fun e => (g, (alive h).idxOf e)

/-- All components have all their bytes. -/
def AllWritten (h : List Event) : Prop := ∀ e ∈ alive h, ∀ t ∈ (world h).types e, ∀ c ∈ (world h).value e t, c ≠ none

/-- The handle of the entity with the number of `e`. -/
def restoredAs (h : List Event) (e : Entity) : Entity := ⟨(alive h).idxOf e, 1⟩

/-- Store `s'` shows for the handles `f e` what store `s` shows for the handles `e` in `L`. -/
structure Copied (U : Universe) (dbg dbg' : Bool) (s s' : Store) (L : List Entity) (f : Entity → Entity) : Prop where
  /-- different entities stay different -/
  apart : ∀ e ∈ L, ∀ e' ∈ L, f e = f e' → e = e'
  /-- `is_alive` -/
  alive : ∀ e ∈ L, s'.isAlive dbg' (f e) = s.isAlive dbg e
  /-- `get_components_refs` and reading -/
  read : ∀ e ∈ L, ∀ ts, ts ≠ [] → s'.getComponents U dbg' (f e) ts = s.getComponents U dbg e ts
  /-- `get_entity_archetype` -/
  arch : ∀ e ∈ L, s'.getEntityArchetype dbg' (f e) = s.getEntityArchetype dbg e
  /-- `has_tag` -/
  tag : ∀ e ∈ L, ∀ tag, s'.hasTag tag (f e) = s.hasTag tag e
  /-- the four observers of order groups -/
  first : ∀ g, s'.getFirstOrdered g = (s.getFirstOrdered g).map (Option.map f)
  last : ∀ g, s'.getLastOrdered g = (s.getLastOrdered g).map (Option.map f)
  next : ∀ e ∈ L, ∀ g, s'.getNextOrdered g (f e) = (s.getNextOrdered g e).map (Option.map f)
  previous : ∀ e ∈ L, ∀ g, s'.getPreviousOrdered g (f e) = (s.getPreviousOrdered g e).map (Option.map f)

end Ecs.Spec
