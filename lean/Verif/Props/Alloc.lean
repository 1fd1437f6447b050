import Verif.Proofs.EntsOf
import Verif.Spec.Run

/-! Property C57: which handle a creation returns; and C05 for stores. `nextHandle` is in `Spec/Alloc.lean`. -/

namespace Ecs.Props
open Spec

section
variable {U : Universe} {dbg : Bool} {cap : Nat} {h : List Event} {s : Store}

/-- **C57.** The handle returned by a creation is the one the creations and destructions so far determine: the id on top
of the stack of free ids, or else the next new id, with the number of uses of the id as version. Both creation calls
return the same handle. -/
theorem C57_handle_is_determined (hx : LooseExec U dbg cap h s) (hb : (handles h).length + 1 < u32Size) :
    (∀ s' e, s.createEntity dbg = .ok (s', e) → e = nextHandle (entHistory h)) ∧
    (∀ a s' e, s.createEntityWithArchetype dbg a = .ok (s', e) → e = nextHandle (entHistory h)) := by
  have hb' : dbg = true ∨ (issued (entHistory h)).length + 1 < u32Size := Or.inr (by rw [issued_entHistory]; exact hb)
  constructor
  · intro s' e hr
    obtain ⟨cr, h1, rfl⟩ := createEntity_ents hr
    exact create_next (loose_ents hx) h1 hb'
  · intro a s' e hr
    obtain ⟨cr, h1, rfl⟩ := createEntityWithArchetype_ents hr
    exact create_next (loose_ents hx) h1 hb'

/-- **C57**, consequence: two stores, of any initial capacities, in any build modes, with any other calls in between,
that return for the same creations and destructions, return the same handles. -/
theorem C57_same_calls_same_handles (hx : LooseExec U dbg cap h s) {U' : Universe} {dbg' : Bool} {cap' : Nat}
    {h' : List Event} {s' : Store} (hx' : LooseExec U' dbg' cap' h' s') (hh : entHistory h = entHistory h')
    (hb : (handles h).length + 1 < u32Size) {e e' : Entity} {t t' : Store} (hr : s.createEntity dbg = .ok (t, e))
    (hr' : s'.createEntity dbg' = .ok (t', e')) : e = e' := by
  rw [(C57_handle_is_determined hx hb).1 t e hr]
  rw [← issued_entHistory, hh, issued_entHistory] at hb
  rw [(C57_handle_is_determined hx' hb).1 t' e' hr', hh]

/-- **C05**, for stores: the ids of live entities are below the peak number of simultaneously live entities, and
`entities_capacity` is at most twice that number, unless the initial capacity is larger. -/
theorem C05_store_ids_and_capacity (hx : LooseExec U dbg cap h s) (hc : cap < u32Size)
    (hp : peak (entHistory h) < 2147483648) :
    (∀ e ∈ alive h, e.id < peak (entHistory h) ∧ e.id < s.entitiesCapacity) ∧
    s.entitiesCapacity ≤ max cap (2 * peak (entHistory h)) := by
  have hb : dbg = true ∨ (issued (entHistory h)).length < u32Size := Or.inr (by
    rw [issued_entHistory]; exact issued_lt hx)
  have hi := exec_inv (loose_ents hx) hb
  refine ⟨fun e he => ?_, exec_capacity (loose_ents hx) hb hc hp⟩
  rw [← live_entHistory] at he
  have h1 : e.id < s.ents.nextFreeId := (hi.ids e.id).1 (Or.inl (List.mem_map.2 ⟨e, he, rfl⟩))
  have h2 := exec_peak (loose_ents hx) hb
  exact ⟨by omega, hi.id_lt he⟩

end

/-- The stack of free ids: the ids 0 and 1 are freed, so 1 comes next although 2 was freed last. -/
example : ∃ s s', LooseExec demo true 1 [.destroyed ⟨2, 1⟩, .tagged 5 ⟨2, 1⟩, .destroyed ⟨1, 1⟩, .destroyed ⟨0, 1⟩,
      .created ⟨2, 1⟩, .createdWith ⟨1, 1⟩ [4] (fun _ => []), .created ⟨0, 1⟩] s ∧
    s.createEntity true = .ok (s', ⟨1, 2⟩) := by
  have h : ((runLoose demo true 1 [.destroyed ⟨2, 1⟩, .tagged 5 ⟨2, 1⟩, .destroyed ⟨1, 1⟩, .destroyed ⟨0, 1⟩,
      .created ⟨2, 1⟩, .createdWith ⟨1, 1⟩ [4] (fun _ => []), .created ⟨0, 1⟩]).any fun s =>
      okAnd (s.createEntity true) fun r => decide (r.2 = ⟨1, 2⟩)) = true := by decide
  obtain ⟨s, hs, h⟩ := any_some h
  obtain ⟨⟨s', e⟩, h1, h2⟩ := okAnd_iff h
  have := of_decide_eq_true h2
  exact ⟨s, s', runLoose_sound hs, by rw [h1, ← this]⟩

end Ecs.Props
