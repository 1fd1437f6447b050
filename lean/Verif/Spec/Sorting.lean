import Verif.Spec.World
import Verif.Spec.Tags

/-! Programs that bring order groups into an order; they only use the functions of the store. -/

namespace Ecs.Spec

/-- Every entity in turn is taken out of the group and put at its end. -/
def rearrange (dbg : Bool) (g : Nat) : List Entity → Store → Res Store
  | [], s => .ok s
  | e :: l, s => do
    let s ← s.removeOrder g e
    let s ← s.addOrder dbg g e
    rearrange dbg g l s

/-- Follows the links from `x` to the first member with a larger key than `k` (in at most `fuel` steps). -/
def findLarger (s : Store) (g : Nat) (key : Entity → Nat) (k : Nat) : Nat → Option Entity → Res (Option Entity)
  | 0, x => .ok x
  | _, none => .ok none
  | fuel + 1, some x => if k < key x then .ok (some x) else do findLarger s g key k fuel (← s.getNextOrdered g x)

/-- Puts `e` in front of the first member with a larger key, or at the end. -/
def insertSorted (dbg : Bool) (s : Store) (g : Nat) (key : Entity → Nat) (e : Entity) (fuel : Nat) : Res Store := do
  match ← findLarger s g key (key e) fuel (← s.getFirstOrdered g) with
  | some x => s.addOrderPreviousTo dbg g e x
  | none => s.addOrder dbg g e

/-- The keys never become smaller along the list. -/
def SortedBy (key : Entity → Nat) (l : List Entity) : Prop := l.Pairwise fun a b => key a ≤ key b

/-- Store `s'` is `s`, reached by history `h`, with the members of group `g` changed to the sequence `l`, and nothing else: it is again
reached by a history, the other groups are the same sequences, and everything but the order container is the same. -/
structure Rearranged (U : Universe) (dbg : Bool) (cap : Nat) (h : List Event) (s : Store) (g : Nat) (l : List Entity) (s' : Store) : Prop where
  first : s'.getFirstOrdered g = .ok l.head?
  last : s'.getLastOrdered g = .ok l.getLast?
  next : ∀ e ∈ alive h, s'.getNextOrdered g e = .ok (follower l e)
  previous : ∀ e ∈ alive h, s'.getPreviousOrdered g e = .ok (preceder l e)
  others : ∀ g', g' ≠ g → s'.getFirstOrdered g' = s.getFirstOrdered g' ∧ s'.getLastOrdered g' = s.getLastOrdered g' ∧
    ∀ e ∈ alive h, s'.getNextOrdered g' e = s.getNextOrdered g' e ∧ s'.getPreviousOrdered g' e = s.getPreviousOrdered g' e
  rest : { s' with orders := s.orders } = s
  reached : ∃ h', LooseExec U dbg cap h' s' ∧ alive h' = alive h ∧ sequence g h' = l

end Ecs.Spec
