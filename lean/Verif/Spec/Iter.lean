import Verif.Model.Mem

/-! Calling an iterator several times. -/

namespace Ecs.Spec

/-- `Taken next k it it'`: `k` calls of `next`, starting with the iterator `it`, all return an item, and leave the
iterator `it'`. -/
inductive Taken {σ α : Type} (next : σ → Res (Option α × σ)) : Nat → σ → σ → Prop
  | none (it : σ) : Taken next 0 it it
  | more {k : Nat} {it it' it'' : σ} {a : α} : next it = .ok (some a, it') → Taken next k it' it'' →
      Taken next (k + 1) it it''

end Ecs.Spec
