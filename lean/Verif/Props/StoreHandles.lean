import Verif.Proofs.History
import Verif.Spec.Run

/-! Properties C01–C04 for the store itself (in `Props/Handles.lean` they are proved for the container
of entities that it shares with `ResourceStore`). Component calls are arbitrary, as long as they return. -/

namespace Ecs.Props
open Spec

section
variable {U : Universe} {dbg : Bool} {cap : Nat} {h : List Event} {s : Store}

/-- **C01** for the store: no creation call returns a handle that was returned before. -/
theorem C01_store_handles_issued_once (hx : LooseExec U dbg cap h s) : (handles h).Nodup := by
  induction hx with
  | init => exact List.nodup_nil
  | @step h s s' ev hx hl hr ih =>
    have hc := loose_core hx
    cases ev with
    | created e =>
      refine List.nodup_cons.2 ⟨?_, ih⟩
      rw [handles_eq]
      exact (hc.created hl hr).1
    | createdWith e ts init =>
      obtain ⟨a, _, _, hr⟩ := hr
      refine List.nodup_cons.2 ⟨?_, ih⟩
      rw [handles_eq]
      exact (hc.createdWith hl hr).1
    | _ => exact ih

/-- **C02** for the store: `is_alive` never fails on an issued handle, and says whether it was created
and not destroyed. -/
theorem C02_store_is_alive_exact (hx : LooseExec U dbg cap h s) {e : Entity} (he : e ∈ handles h) :
    s.isAlive dbg e = .ok (decide (e ∈ alive h)) ∧ (e ∈ alive h ↔ Event.destroyed e ∉ h) := by
  rw [handles_eq] at he
  refine ⟨?_, ?_⟩
  · rw [alive_eq]
    exact (loose_core hx).isAlive ((loose_core hx).ents.issued_id_lt he)
  · rw [alive_iff hx]
    refine ⟨fun h1 => h1.2, fun h1 => ⟨?_, h1⟩⟩
    rw [← handles_eq] at he
    clear h1 hx
    induction h with
    | nil => cases he
    | cons ev h ih =>
      cases ev with
      | created x =>
        rcases List.mem_cons.1 he with rfl | he
        · exact Or.inl List.mem_cons_self
        · exact (ih he).imp (List.mem_cons_of_mem _) (fun ⟨ts, i, h1⟩ => ⟨ts, i, List.mem_cons_of_mem _ h1⟩)
      | createdWith x ts i =>
        rcases List.mem_cons.1 he with rfl | he
        · exact Or.inr ⟨ts, i, List.mem_cons_self⟩
        · exact (ih he).imp (List.mem_cons_of_mem _) (fun ⟨ts, i, h1⟩ => ⟨ts, i, List.mem_cons_of_mem _ h1⟩)
      | _ => exact (ih he).imp (List.mem_cons_of_mem _) (fun ⟨ts, i, h1⟩ => ⟨ts, i, List.mem_cons_of_mem _ h1⟩)

/-- **C03** for the store: after `destroy_entity(e)` the handle is dead in every later state. -/
theorem C03_store_destroyed_stays_dead (hx : LooseExec U dbg cap h s) {e : Entity} (hd : .destroyed e ∈ h)
    (he : e ∈ handles h) : s.isAlive dbg e = .ok false := by
  obtain ⟨h1, h2⟩ := C02_store_is_alive_exact hx he
  rw [h1]
  have : e ∉ alive h := fun h3 => h2.1 h3 hd
  simp [this]

/-- **C04** for the store: live entities have pairwise different ids, all below the capacity. -/
theorem C04_store_live_ids_distinct (hx : LooseExec U dbg cap h s) :
    ((alive h).map (·.id)).Nodup ∧ ∀ e ∈ alive h, e.id < s.entitiesCapacity := by
  rw [alive_eq]
  have hc := loose_core hx
  exact ⟨List.Nodup.map_on (fun x hx y hy hxy => hc.inj x hx y hy hxy) hc.ents.nodup_live, fun e he => hc.ents.id_lt he⟩

end

/-- Creation with and without archetype, destruction, reuse of the id, growth. -/
def handleHistory : List Event :=
  [.createdWith ⟨2, 1⟩ [1, 4] (fun _ => [none]), .created ⟨0, 2⟩, .destroyed ⟨0, 1⟩, .created ⟨1, 1⟩,
   .createdWith ⟨0, 1⟩ [1, 2] (fun _ => [])]

set_option maxRecDepth 20000 in
example : ∃ s, LooseExec demo true 1 handleHistory s ∧ (⟨0, 1⟩ : Entity) ∈ handles handleHistory ∧
    (⟨0, 1⟩ : Entity) ∉ alive handleHistory ∧ ⟨0, 2⟩ ∈ alive handleHistory := by
  have h : (runLoose demo true 1 handleHistory).isSome = true := by decide
  obtain ⟨s, hs⟩ := Option.isSome_iff_exists.1 h
  exact ⟨s, runLoose_sound hs, by decide, by decide, by decide⟩

end Ecs.Props
