import Verif.Spec.Sorting

/-! Programs that empty an order group; they only use the functions of the store. -/

namespace Ecs.Spec

/-- As long as the group has a first member (and at most `fuel` times), the call is made for this member. -/
def emptyOut (call : Store → Entity → Res Store) (g : Nat) : Nat → Store → Res Store
  | 0, s => .ok s
  | fuel + 1, s => do
    match ← s.getFirstOrdered g with
    | none => .ok s
    | some e => emptyOut call g fuel (← call s e)

/-- Follows the links from a member on (at most `fuel` times); before the call is made for a member, it asks for the next one. -/
def emptyAlong (call : Store → Entity → Res Store) (g : Nat) : Nat → Option Entity → Store → Res Store
  | 0, _, s => .ok s
  | _, none, s => .ok s
  | fuel + 1, some e, s => do
    let next ← s.getNextOrdered g e
    emptyAlong call g fuel next (← call s e)

/-- The same, but asks for the next member after the call. -/
def emptyAsking (call : Store → Entity → Res Store) (g : Nat) : Nat → Option Entity → Store → Res Store
  | 0, _, s => .ok s
  | _, none, s => .ok s
  | fuel + 1, some e, s => do
    let s ← call s e
    emptyAsking call g fuel (← s.getNextOrdered g e) s

/-- As long as group `g` has a first member (and at most `fuel` times), this member leaves it and becomes the last one of group `g'`. -/
def moveOver (dbg : Bool) (g g' : Nat) : Nat → Store → Res Store
  | 0, s => .ok s
  | fuel + 1, s => do
    match ← s.getFirstOrdered g with
    | none => .ok s
    | some e =>
      let s ← s.removeOrder g e
      let s ← s.addOrder dbg g' e
      moveOver dbg g g' fuel s

/-- Every group `g` of the store is the sequence `seq g` of live entities. -/
def HasGroups (h : List Event) (s : Store) (seq : Nat → List Entity) : Prop :=
  ∀ g, s.getFirstOrdered g = .ok (seq g).head? ∧ s.getLastOrdered g = .ok (seq g).getLast? ∧
    ∀ e ∈ Spec.alive h, s.getNextOrdered g e = .ok (follower (seq g) e) ∧ s.getPreviousOrdered g e = .ok (preceder (seq g) e)

/-- Store `s'` is `s`, reached by history `h`, without the entities of `l`, as far as handles, tags and groups are concerned: they are dead
and in no group, the tags of the others and the order of the others in the groups have not changed. -/
structure Gone (dbg : Bool) (h : List Event) (s : Store) (l : List Entity) (s' : Store) : Prop where
  alive : ∀ e ∈ handles h, s'.isAlive dbg e = .ok (decide (e ∈ Spec.alive h ∧ e ∉ l))
  tags : ∀ e ∈ Spec.alive h, e ∉ l → ∀ tag, s'.hasTag tag e = s.hasTag tag e
  first : ∀ g, s'.getFirstOrdered g = .ok ((sequence g h).filter (· ∉ l)).head?
  last : ∀ g, s'.getLastOrdered g = .ok ((sequence g h).filter (· ∉ l)).getLast?
  next : ∀ e ∈ Spec.alive h, e ∉ l → ∀ g, s'.getNextOrdered g e = .ok (follower ((sequence g h).filter (· ∉ l)) e)
  previous : ∀ e ∈ Spec.alive h, e ∉ l → ∀ g, s'.getPreviousOrdered g e = .ok (preceder ((sequence g h).filter (· ∉ l)) e)

/-- The same, and the others have their components and archetypes. -/
structure Without (U : Universe) (dbg : Bool) (h : List Event) (s : Store) (l : List Entity) (s' : Store) : Prop where
  gone : Gone dbg h s l s'
  components : ∀ e ∈ Spec.alive h, e ∉ l → ∀ ts, ts ≠ [] → s'.getComponents U dbg e ts = s.getComponents U dbg e ts
  archetype : ∀ e ∈ Spec.alive h, e ∉ l → s'.getEntityArchetype dbg e = s.getEntityArchetype dbg e

end Ecs.Spec
