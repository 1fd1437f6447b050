import Verif.Proofs.Unchecked
import Verif.Props.Handles
import Verif.Spec.Run

/-! Property C69: handles in programs that pass any handles to `destroy_entity`. -/

namespace Ecs.Props
open Spec

section
variable {cap : Nat} {h : History} {c : Ents}

/-- **C69**, what `is_alive` answers in a release build, whatever was destroyed how often: a handle is alive iff it is the
newest handle of its id and the id was created and destroyed an odd number of times in total. -/
theorem C69_alive_is_parity (hx : AnyExec cap h c) (hb : (issued h).length < u32Size) {e : Entity} (he : e ∈ issued h) :
    c.isAlive false e = .ok (decide (lastWithId e.id h = some e ∧ flips e.id h % 2 = 1)) := (any_inv hx hb).isAlive he false

/-- **C69**: no handle is issued twice, however handles are destroyed. -/
theorem C69_handles_issued_once (hx : AnyExec cap h c) (hb : (issued h).length < u32Size) : (issued h).Nodup :=
  (any_inv hx hb).nodup

/-- **C69**: at any time at most one handle of an id is alive. -/
theorem C69_one_alive_per_id (hx : AnyExec cap h c) (hb : (issued h).length < u32Size) {e e' : Entity} (he : e ∈ issued h)
    (he' : e' ∈ issued h) (h1 : c.isAlive false e = .ok true) (h2 : c.isAlive false e' = .ok true) (hid : e.id = e'.id) :
    e = e' := by
  rw [C69_alive_is_parity hx hb he] at h1
  rw [C69_alive_is_parity hx hb he'] at h2
  have h1 := (of_decide_eq_true (Except.ok.inj h1)).1
  have h2 := (of_decide_eq_true (Except.ok.inj h2)).1
  rw [hid, h2] at h1
  exact (Option.some.inj h1).symm

/-- **C69**: the two calls never fail, and stay inside their arrays. -/
theorem C69_calls_return (hx : AnyExec cap h c) (hb : (issued h).length + 1 < u32Size) :
    (∃ r, c.create false = .ok r) ∧ ∀ e ∈ issued h, ∃ c', c.destroy false e = .ok c' := by
  have hi := any_inv hx (by omega)
  obtain ⟨c', cr, h1, _⟩ := hi.create hb
  exact ⟨⟨_, h1⟩, fun e he => (hi.destroy he).imp fun _ h2 => h2.1⟩

/-- **C69**: a new handle is dead from birth iff its id was created and destroyed an odd number of times before, that is, if
a dead handle of the id was destroyed. -/
theorem C69_dead_at_birth {e : Entity} (hx : AnyExec cap (.created e :: h) c) (hb : (issued h).length + 1 < u32Size) :
    c.isAlive false e = .ok (decide (flips e.id h % 2 = 0)) := by
  rw [C69_alive_is_parity hx hb (by simp [issued])]
  congr 1
  rw [Bool.eq_iff_iff, decide_eq_true_eq, decide_eq_true_eq]
  simp only [lastWithId, issued, List.find?_cons, decide_true, flips, if_true, true_and]
  omega

end

section
variable {U : Universe} {dbg : Bool} {cap : Nat} {h : List Event} {s : Store}

/-- **C69** for the store, release builds: programs may make any calls with any arguments, as long as the handles they
destroy were returned by the store. -/
theorem C69_store_alive_is_parity (hx : FreeExec U false cap h s) (hb : (handles h).length < u32Size) {e : Entity}
    (he : e ∈ handles h) :
    s.isAlive false e = .ok (decide (lastWithId e.id (lifecycle h) = some e ∧ flips e.id (lifecycle h) % 2 = 1)) ∧
    (handles h).Nodup := by
  have h1 : AnyExec cap (lifecycle h) s.ents := free_ents hx
  rw [← issued_lifecycle] at *
  exact ⟨C69_alive_is_parity h1 hb he, C69_handles_issued_once h1 hb⟩

/-- **C69** for the store, debug builds: here the answer is right, for programs that make any calls with any arguments: alive
means created and not destroyed. -/
theorem C69_store_debug_exact (hx : FreeExec U true cap h s) {e : Entity} (he : e ∈ handles h) :
    (∃ b, s.isAlive true e = .ok b ∧ (b = true ↔ Event.destroyed e ∉ h)) ∧ (handles h).Nodup := by
  have h1 : EntsExec true cap (lifecycle h) s.ents := free_ents hx
  rw [← issued_lifecycle] at *
  refine ⟨?_, C01_handles_issued_once h1 (.inl rfl)⟩
  have hd : ∀ h : List Event, EntEvent.destroyed e ∈ lifecycle h ↔ Event.destroyed e ∈ h := by
    intro h
    induction h with
    | nil => simp [lifecycle]
    | cons ev h ih => cases ev <;> simp [lifecycle, ih]
  have hc : ∀ h : History, e ∈ issued h ↔ EntEvent.created e ∈ h := by
    intro h
    induction h with
    | nil => simp [issued]
    | cons ev h ih => cases ev <;> simp [issued, ih]
  refine ⟨_, (C02_is_alive_exact h1 (.inl rfl)).1 e he, ?_⟩
  rw [decide_eq_true_eq, C02_live_iff h1 (.inl rfl), hd, ← hc]
  exact ⟨fun h => h.2, fun h => ⟨he, h⟩⟩

end

/-- A handle that is destroyed was returned before. -/
def destroysReturned (h : List Event) : Event → Bool
  | .destroyed e => decide (e ∈ handles h)
  | _ => true

/-- Run a history, checking that the handles destroyed were returned. -/
def runFree (U : Universe) (dbg : Bool) (cap : Nat) : List Event → Option Store
  | [] => (Store.withCapacity dbg cap).toOption
  | ev :: h =>
    match runFree U dbg cap h with
    | some s => if destroysReturned h ev then perform U dbg s ev else none
    | none => none

theorem runFree_sound {U : Universe} {dbg : Bool} {cap : Nat} {h : List Event} {s : Store}
    (hr : runFree U dbg cap h = some s) : FreeExec U dbg cap h s := by
  induction h generalizing s with
  | nil => exact .init (withCapacity_of hr)
  | cons ev h ih =>
    unfold runFree at hr
    split at hr
    · rename_i s1 h1
      split at hr
      · rename_i h2
        refine .step ev (ih h1) ?_ (perform_returns hr)
        rintro e rfl
        exact of_decide_eq_true h2
      · cases hr
    · cases hr

/-- Entity 0 is destroyed twice. -/
def destroyedTwice : List Event :=
  [.created ⟨0, 2⟩, .tagged 5 ⟨0, 1⟩, .destroyed ⟨0, 1⟩, .destroyed ⟨0, 1⟩, .created ⟨1, 1⟩, .created ⟨0, 1⟩]

/-- **C02 and C03 are false** of a release build if dead handles may be destroyed: the second destruction revives the dead
handle, and the next entity gets its id and is dead from birth. -/
theorem C69_counterexample : ∃ s s', FreeExec demo false 1 (destroyedTwice.drop 2) s ∧ FreeExec demo false 1 destroyedTwice s' ∧
    s.isAlive false ⟨0, 1⟩ = .ok true ∧ s'.isAlive false ⟨0, 1⟩ = .ok false ∧ s'.isAlive false ⟨0, 2⟩ = .ok false := by
  have h : ((runFree demo false 1 (destroyedTwice.drop 2)).any fun s => decide (s.isAlive false ⟨0, 1⟩ = .ok true)) = true := by
    decide
  have h' : ((runFree demo false 1 destroyedTwice).any fun s =>
      decide (s.isAlive false ⟨0, 1⟩ = .ok false ∧ s.isAlive false ⟨0, 2⟩ = .ok false)) = true := by decide
  obtain ⟨s, hs, h⟩ := any_some h
  obtain ⟨s', hs', h'⟩ := any_some h'
  have h' := of_decide_eq_true h'
  exact ⟨s, s', runFree_sound hs, runFree_sound hs', of_decide_eq_true h, h'.1, h'.2⟩

/-- The hypotheses of the theorems above in that state. -/
example : ∃ s, AnyExec 1 (lifecycle destroyedTwice) s ∧ ⟨0, 1⟩ ∈ issued (lifecycle destroyedTwice) ∧
    flips 0 (lifecycle destroyedTwice) = 4 ∧ (issued (lifecycle destroyedTwice)).length + 1 < u32Size := by
  obtain ⟨_, s, _, hx, _⟩ := C69_counterexample
  exact ⟨_, free_ents hx, by decide, by decide, by decide⟩

/-- In a debug build: any arguments, here a dead handle in tag, order and component calls. -/
example : ∃ s, FreeExec demo true 1 [.orderedLast 7 ⟨0, 1⟩, .orderedLast 7 ⟨0, 1⟩, .added ⟨0, 1⟩ [(1, [2])], .tagged 5 ⟨0, 1⟩,
    .destroyed ⟨0, 1⟩, .created ⟨0, 1⟩] s := by
  have h : ((runFree demo true 1 [.orderedLast 7 ⟨0, 1⟩, .orderedLast 7 ⟨0, 1⟩, .added ⟨0, 1⟩ [(1, [2])], .tagged 5 ⟨0, 1⟩,
    .destroyed ⟨0, 1⟩, .created ⟨0, 1⟩]).any fun _ => true) = true := by decide
  obtain ⟨s, hs, _⟩ := any_some h
  exact ⟨s, runFree_sound hs⟩

end Ecs.Props
