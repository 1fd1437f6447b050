import Verif.Spec.Rebuild
import Verif.Spec.VisitOrder

/-! The same calls with other handles. -/

namespace Ecs.Spec

/-- The call with its handles replaced. -/
def withHandles (f : Entity → Entity) : Event → Event
  | .created e => .created (f e)
  | .createdWith e ts init => .createdWith (f e) ts init
  | .destroyed e => .destroyed (f e)
  | .added e vals => .added (f e) vals
  | .removed e ts => .removed (f e) ts
  | .assigned e vals => .assigned (f e) vals
  | .tagged tag e => .tagged tag (f e)
  | .untagged tag e => .untagged tag (f e)
  | .orderedLast g e => .orderedLast g (f e)
  | .orderedAfter g e x => .orderedAfter g (f e) (f x)
  | .orderedBefore g e x => .orderedBefore g (f e) (f x)
  | .unordered g e => .unordered g (f e)

/-- `Follows f k k' h f'`: the calls in `k` (made after the history `h`) are made for live entities, or create some, and those in `k'`
are the same with other handles. The handles correspond by `f` at first, and by `f'` in the end; new entities correspond to each other.
An entity created with an archetype has the same contents in both, whatever they are. -/
inductive Follows (f : Entity → Entity) : List Event → List Event → List Event → (Entity → Entity) → Prop
  | start {h} : Follows f [] [] h f
  | call {k k' h f'} (ev : Event) : Follows f k k' h f' → isCreation ev = false → subject ev ∈ alive (k ++ h) →
      Follows f (ev :: k) (withHandles f' ev :: k') h f'
  | created {k k' h f'} (e e' : Entity) : Follows f k k' h f' → Follows f (.created e :: k) (.created e' :: k') h (at' f' e e')
  | createdWith {k k' h f'} (e e' : Entity) (ts : List TypeId) (init : TypeId → List Cell) : Follows f k k' h f' →
      Follows f (.createdWith e ts init :: k) (.createdWith e' ts init :: k') h (at' f' e e')

end Ecs.Spec
