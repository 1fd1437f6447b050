import Verif.Proofs.Stale
import Verif.Props.Defects
import Verif.Props.StoreHandles

/-! Property C30: `destroy_entity` on handles that are not alive. The property is false of the code
(`C30_counterexample`, `C30_counterexample_debug`); what remains true is proved here. -/

namespace Ecs.Props
open Spec

section
variable {U : Universe} {dbg : Bool} {cap : Nat} {h : List Event} {s s' : Store}

/-- **C30**, the debug half: in a debug build the call panics — it neither returns nor is undefined
behaviour. (Partial: before the panic, a row may have been removed, see `C30_counterexample_debug`. For
`Exec`.) -/
theorem C30_debug_panics_partial (hx : Exec U true cap h s) {e : Entity} (he : e ∈ handles h) (hd : e ∉ alive h) :
    ∃ p, s.destroyEntity true e = .error (.panic p) := by
  have hr := exec_rel hx
  rw [handles_eq] at he
  rw [alive_eq] at hd
  unfold Store.destroyEntity
  rcases hr.destroyRow_defined (loose_shape hx.loose) (hr.ents.issued_id_lt he) ((hasRow hx.loose).2 _) with
    ⟨s', h1, h2⟩ | ⟨p, h1⟩
  · rw [h1]
    simp only [ok_bind, h2, hr.ents.destroy_debug_dead hd]
    exact ⟨_, rfl⟩
  · rw [h1]
    exact ⟨p, rfl⟩

/-- **C30**, for ids that never had components: the call leaves the components of all entities with other ids
as they are, in every state that calls which returned can lead to. (Partial: it is false for ids that had
components. Even here the alive bit of the id is flipped, so a live entity with the same id would be dead
and a dead one alive.) -/
theorem C30_release_untouched_partial (hx : LooseExec U false cap h s) {e : Entity} (he : e ∈ handles h)
    (hn : ∀ x ∈ given h, x.id ≠ e.id) :
    ∃ s', s.destroyEntity false e = .ok s' ∧
      ∀ x ∈ handles h, x.id ≠ e.id → SameComponents U false s s' x := by
  have hc := loose_core hx
  have hnull := issued_ne_null hx e he
  have he' := he
  rw [handles_eq] at he
  have hlt := hc.ents.issued_id_lt he
  have hbit : s.hasArch.bit e.id = false := by
    by_contra hb
    obtain ⟨x, h1, h2⟩ := bit_given hx e.id (by simpa using hb)
    exact hn x h1 h2
  have hrow : s.destroyRow e = .ok s := by
    unfold Store.destroyRow
    rw [Words.isOn_of_lt (by rw [hc.blen]; exact Words.div_lt_getLen hlt), hbit]
    rfl
  obtain ⟨c', k1, k2, k3, k4, k5⟩ := hc.ents.destroy_release hlt
  obtain ⟨tg, t1, _⟩ := Tags.removeAll_spec hc.tags (id := e.id) (by rw [hc.tcap]; exact hlt)
  obtain ⟨od, o1, _⟩ := hc.orders.removeAll (e := e.id) (by rw [hc.ocap]; exact hlt) hnull
  refine ⟨{ s with ents := c', tags := tg, orders := od }, ?_, fun x hxm hne => ?_⟩
  · unfold Store.destroyEntity
    simp only [hrow, k1, t1, o1, ok_bind, pure_ok]
  · rw [handles_eq] at hxm
    have hxl := hc.ents.issued_id_lt hxm
    refine SameComponents.of ?_ rfl rfl rfl rfl
    have hw : x.id / 32 < s.ents.aliveBits.length := by rw [hc.ents.blen]; exact Words.div_lt_getLen hxl
    unfold Store.isAlive Ents.isAlive Ents.validateVersion
    dsimp only
    rw [k2, Words.isOn_of_lt hw, Words.isOn_of_lt (by rw [k4]; exact hw), k5]
    simp only [hne, decide_false, Bool.false_xor]
    rfl

/-- **C30 is false of a release build** for every dead handle whose id has a new owner: the call does exactly what
destroying the owner does, in every state. -/
theorem C30_release_destroys_owner (s : Store) {dead owner : Entity} (hid : dead.id = owner.id) :
    s.destroyEntity false dead = s.destroyEntity false owner := by
  unfold Store.destroyEntity Store.destroyRow Ents.destroy Ents.validateVersionWithPanic
  simp only [Bool.false_eq_true, if_false, hid]

/-- The same for programs: the owner is dead afterwards. -/
theorem C30_release_owner_dies (hx : LooseExec U false cap h s) {dead owner : Entity} (ho : owner ∈ alive h)
    (hid : dead.id = owner.id) (hr : s.destroyEntity false dead = .ok s') : s'.isAlive false owner = .ok false := by
  rw [C30_release_destroys_owner s hid] at hr
  have hx' : LooseExec U false cap (.destroyed owner :: h) s' := .step _ hx (by rw [alive_eq] at ho; exact ho) hr
  have hm : owner ∈ handles h := by
    rw [alive_eq] at ho
    rw [handles_eq]
    exact (loose_core hx).ents.sub _ ho
  obtain ⟨h1, h2⟩ := C02_store_is_alive_exact hx' (e := owner) hm
  rw [h1]
  have : owner ∉ alive (.destroyed owner :: h) := fun h3 => h2.1 h3 (by simp)
  simp [this]

end

/-- The hypotheses of `C30_debug_panics_partial` are met by the history of `C30_counterexample`. -/
example : ∃ s, Exec demo true 1 oneDestroyed s ∧ ⟨0, 1⟩ ∈ handles oneDestroyed ∧ ⟨0, 1⟩ ∉ alive oneDestroyed := by
  have h : ((runExec demo true 1 oneDestroyed).any fun _ => true) = true := by decide
  obtain ⟨s, hs, _⟩ := any_some h
  exact ⟨s, runExec_sound hs, by decide, by decide⟩

/-- A handle that was destroyed, of an id that never had components, beside an entity with a component. -/
example : ∃ s, LooseExec demo false 1 [.added ⟨1, 1⟩ [(5, [50])], .created ⟨1, 1⟩, .created ⟨0, 2⟩, .destroyed ⟨0, 1⟩,
      .created ⟨0, 1⟩] s ∧
    okAnd (s.destroyEntity false ⟨0, 1⟩) (fun s' =>
      decide (s'.getComponents demo false ⟨1, 1⟩ [5] = .ok (some [[some 50]]))) = true := by
  have h : ((runLoose demo false 1 [.added ⟨1, 1⟩ [(5, [50])], .created ⟨1, 1⟩, .created ⟨0, 2⟩, .destroyed ⟨0, 1⟩,
      .created ⟨0, 1⟩]).any fun s => okAnd (s.destroyEntity false ⟨0, 1⟩) (fun s' =>
      decide (s'.getComponents demo false ⟨1, 1⟩ [5] = .ok (some [[some 50]])))) = true := by decide
  obtain ⟨s, hs, h⟩ := any_some h
  exact ⟨s, runLoose_sound hs, h⟩

/-- A dead handle whose id has a new owner with a component. -/
example : ∃ s s', LooseExec demo false 1 [.added ⟨0, 2⟩ [(5, [50])], .created ⟨0, 2⟩, .destroyed ⟨0, 1⟩, .created ⟨0, 1⟩] s ∧
    ⟨0, 2⟩ ∈ alive [.added ⟨0, 2⟩ [(5, [50])], .created ⟨0, 2⟩, .destroyed ⟨0, 1⟩, .created ⟨0, 1⟩] ∧
    s.destroyEntity false ⟨0, 1⟩ = .ok s' := by
  have h : ((runLoose demo false 1 [.added ⟨0, 2⟩ [(5, [50])], .created ⟨0, 2⟩, .destroyed ⟨0, 1⟩, .created ⟨0, 1⟩]).any fun s =>
    okAnd (s.destroyEntity false ⟨0, 1⟩) fun _ => true) = true := by decide
  obtain ⟨s, hs, h⟩ := any_some h
  obtain ⟨s', h, _⟩ := okAnd_iff h
  exact ⟨s, s', runLoose_sound hs, by decide, h⟩

end Ecs.Props
