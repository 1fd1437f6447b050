import Verif.Proofs.DeadDestroy
import Verif.Props.Stale
import Verif.Props.Components
import Verif.Props.Unwind

/-! Properties C30 and C66, `destroy_entity` with a handle that is not alive: exactly what it does. (That the
properties are false of such calls is shown in `Props/Defects.lean` and `Props/Unwind.lean`.) -/

namespace Ecs.Props
open Spec

section
variable {U : Universe} {dbg : Bool} {cap : Nat} {h : List Event} {s s' : Store}

/-- **C66**, `destroy_entity` with a dead handle in a debug build. The call never returns. When it panics, either
nothing has changed, or there is a live entity `y` with components, at the place that was last recorded for the id of
the dead handle, and exactly the rows have changed: pages and row records are as if `y` had been destroyed, and
everything else is as before (so `y` still counts as alive). -/
theorem C66_destroy_dead (hx : LooseExec U true cap h s) {e : Entity} (he : e ∈ handles h) (hd : e ∉ alive h) :
    (∀ s', s.destroyEntity true e ≠ .ok s') ∧
    ∀ s', Panics U true s (.destroy e) s' → s' = s ∨
      ∃ y s2, y ∈ alive h ∧ y ∈ given h ∧ SamePlace s y.id e.id ∧ s.destroyEntity true y = .ok s2 ∧
        s' = { s with archs := s2.archs, toIndex := s2.toIndex } := by
  refine ⟨fun s' hr => ?_, deadDestroyU hx he hd⟩
  have hc := loose_core hx
  rw [alive_eq] at hd
  unfold Store.destroyEntity at hr
  obtain ⟨s1, h1, hr⟩ := bind_eq_ok.1 hr
  obtain ⟨c, h2, hr⟩ := bind_eq_ok.1 hr
  rw [(SameCore.destroyRow h1).ents, hc.ents.destroy_debug_dead hd] at h2
  cases h2

/-- **C66**, `destroy_entity` with any returned handle in a release build: a panic leaves the store exactly as it
was. -/
theorem C66_release_destroy_any (hx : LooseExec U false cap h s) {e : Entity} (he : e ∈ handles h)
    (hp : Panics U false s (.destroy e) s') : s' = s := releaseDestroyU hx he s' hp

/-- Reading an entity depends on its liveness, the pages and the records. -/
theorem sameData_of_parts {s2 : Store} {x : Entity} (h1 : s'.isAlive dbg x = s2.isAlive dbg x) (h2 : s'.archs = s2.archs)
    (h3 : s'.toPage = s2.toPage) (h4 : s'.toIndex = s2.toIndex) (h5 : s'.hasArch = s2.hasArch)
    (h6 : SameData U dbg s s2 x) : SameData U dbg s s' x := by
  obtain ⟨a, b, _, d⟩ := SameComponents.of (U := U) h1 h2 h3 h4 h5
  exact ⟨a.trans h6.1, b.trans h6.2.1, fun ts hts => (d ts).trans (h6.2.2 ts hts)⟩

/-- **C30, C66**, debug builds: such a call harms at most one entity, one at the place last recorded for the id of the
dead handle. All other entities keep liveness, archetype and component values. (For `Exec`, where such values can be
read at all times.) -/
theorem C30_debug_harms_one (hx : Exec U true cap h s) {e : Entity} (he : e ∈ handles h) (hd : e ∉ alive h)
    (hp : Panics U true s (.destroy e) s') :
    s' = s ∨ ∃ y ∈ alive h, SamePlace s y.id e.id ∧ s'.isAlive true y = .ok true ∧
      ∀ x ∈ handles h, x ≠ y → SameData U true s s' x := by
  rcases (C66_destroy_dead hx.loose he hd).2 s' hp with h1 | ⟨y, s2, h1, h2, h3, h4, rfl⟩
  · exact .inl h1
  · right
    obtain ⟨s3, k1, _, _, _, k5, _⟩ := C24_destroy_exact_partial hx h1
    rw [h4] at k1
    cases k1
    obtain ⟨s1, j1, _⟩ := bind_eq_ok.1 (show s.destroyRow y >>= _ = _ from h4)
    obtain ⟨s4, j2, j3, j4, j5, j6⟩ := destroy_of_row hx.loose h1 j1
    rw [h4] at j2
    cases j2
    have hrow := destroyRow_eq j1
    refine ⟨y, h1, h3, ?_, fun x hxm hne => ?_⟩
    · have hyl := h1
      rw [alive_eq] at hyl
      have := (loose_core hx.loose).isAlive (dbg := true) ((loose_core hx.loose).ents.id_lt hyl)
      rw [decide_eq_true hyl] at this
      exact this
    · have hk := k5 x hxm hne
      refine sameData_of_parts (s2 := s2) ?_ rfl ?_ rfl ?_ hk
      · rw [hk.1]; rfl
      · rw [j5, hrow]
      · rw [j6, hrow]

/-- **C30**, release builds: what `destroy_entity` does with any handle, dead or alive. Among the handles with another
id, exactly the same are alive as before; among those with the same id, the last issued one changes between dead and
alive, and no other is alive. If the handle was dead, the pages and row records are as before, or as if a live entity
at the place last recorded for the id had been destroyed. -/
theorem C30_release_dead_exact (hx : LooseExec U false cap h s) {e : Entity} (he : e ∈ handles h)
    (hr : s.destroyEntity false e = .ok s') :
    (∀ x ∈ handles h, ∃ b, s'.isAlive false x = .ok b ∧ (b = true ↔
      if x.id = e.id then x ∉ alive h ∧ ∀ z ∈ handles h, z.id = x.id → z.version ≤ x.version else x ∈ alive h)) ∧
    s'.toPage = s.toPage ∧ s'.hasArch = s.hasArch ∧
    ((s'.archs = s.archs ∧ s'.toIndex = s.toIndex) ∨
      ∃ y s2, y ∈ alive h ∧ y ∈ given h ∧ SamePlace s y.id e.id ∧ s.destroyEntity false y = .ok s2 ∧
        s'.archs = s2.archs ∧ s'.toIndex = s2.toIndex) := by
  refine ⟨deadDestroy_handles hx he hr, ?_⟩
  have he' := he
  rw [handles_eq] at he'
  unfold Store.destroyEntity at hr
  obtain ⟨s1, h1, hr⟩ := bind_eq_ok.1 hr
  obtain ⟨c, h2, hr⟩ := bind_eq_ok.1 hr
  obtain ⟨tg, _, hr⟩ := bind_eq_ok.1 hr
  obtain ⟨_, _, hr⟩ := bind_eq_ok.1 hr
  cases hr
  have hrow := destroyRow_eq h1
  refine ⟨by rw [hrow], by rw [hrow], ?_⟩
  rcases deadRow hx ((loose_core hx).ents.issued_id_lt he') with ⟨_, k2⟩ | ⟨q, k1, k2, k3, _⟩ | ⟨q, y, _, _, k3, k4, k5, _, k7⟩
  · rw [h1] at k2
    cases k2
    exact .inl ⟨rfl, rfl⟩
  · unfold Store.destroyRow at h1
    rw [k1, ok_bind, if_pos rfl, k2, ok_bind, k3] at h1
    cases h1
  · obtain ⟨s2, j1, j2, j3, _⟩ := destroy_of_row hx k3 (k7.trans h1)
    exact .inr ⟨y, s2, k3, k4, k5, j1, j2.symm, j3.symm⟩

/-- **C30**, release builds, destroying twice: if the handle is dead and no later handle has its id, it is alive again
afterwards. -/
theorem C30_release_destroyed_twice_lives (hx : LooseExec U false cap h s) {e : Entity} (he : e ∈ handles h)
    (hd : e ∉ alive h) (hl : ∀ z ∈ handles h, z.id = e.id → z.version ≤ e.version) (hr : s.destroyEntity false e = .ok s') :
    s'.isAlive false e = .ok true := by
  obtain ⟨b, h1, h2⟩ := (C30_release_dead_exact hx he hr).1 e he
  rw [if_pos rfl] at h2
  rw [h1, h2.2 ⟨hd, hl⟩]

end

/-- Two entities in one page; the first is destroyed, so that the second moves to its row. -/
def movedUp : List Event :=
  [.destroyed ⟨0, 1⟩, .added ⟨1, 1⟩ [(5, [60])], .created ⟨1, 1⟩, .added ⟨0, 1⟩ [(5, [50])], .created ⟨0, 1⟩]

/-- Destroying the first once more takes the row of the second away (debug build). -/
example : ∃ s s', Exec demo true 1 movedUp s ∧ (⟨0, 1⟩ : Entity) ∈ handles movedUp ∧ ⟨0, 1⟩ ∉ alive movedUp ∧
    SamePlace s 1 0 ∧ Panics demo true s (.destroy ⟨0, 1⟩) s' ∧ rowId s 4 0 = some 1 ∧ rowId s' 4 0 = none := by
  have h : (runExec demo true 1 movedUp).any (fun s => decide (s.toPage[1]? = s.toPage[0]? ∧ s.toIndex[1]? = s.toIndex[0]? ∧
      rowId s 4 0 = some 1) && panicsAnd ((Store.destroyEntityU true ⟨0, 1⟩).run s) fun s' => decide (rowId s' 4 0 = none)) =
      true := by decide
  obtain ⟨s, h1, h2⟩ := any_some h
  rw [Bool.and_eq_true, decide_eq_true_eq] at h2
  obtain ⟨s', h3, h4⟩ := panicsAnd_iff h2.2
  exact ⟨s, s', runExec_sound h1, by decide, by decide, ⟨h2.1.1, h2.1.2.1⟩, h3, h2.1.2.2, by simpa using h4⟩

/-- An entity destroyed twice in a release build while its page is empty: the second call panics. -/
example : ∃ s s', LooseExec demo false 1 [.destroyed ⟨0, 1⟩, .added ⟨0, 1⟩ [(5, [50])], .created ⟨0, 1⟩] s ∧
    Panics demo false s (.destroy ⟨0, 1⟩) s' := by
  have h : (runLoose demo false 1 [.destroyed ⟨0, 1⟩, .added ⟨0, 1⟩ [(5, [50])], .created ⟨0, 1⟩]).any (fun s =>
      panicsAnd ((Store.destroyEntityU false ⟨0, 1⟩).run s) fun _ => true) = true := by decide
  obtain ⟨s, h1, h2⟩ := any_some h
  obtain ⟨s', h3, _⟩ := panicsAnd_iff h2
  exact ⟨s, s', runLoose_sound h1, h3⟩

/-- The history `movedUp` in a release build: the first is alive again, the second without its row. -/
example : ∃ s s', LooseExec demo false 1 movedUp s ∧ s.destroyEntity false ⟨0, 1⟩ = .ok s' ∧
    (∀ z ∈ handles movedUp, z.id = 0 → z.version ≤ 1) ∧ s'.isAlive false ⟨0, 1⟩ = .ok true ∧ rowId s 4 0 = some 1 ∧
    rowId s' 4 0 = none := by
  have h : (runLoose demo false 1 movedUp).any (fun s => decide (rowId s 4 0 = some 1) &&
      okAnd (s.destroyEntity false ⟨0, 1⟩) fun s' => decide (rowId s' 4 0 = none)) = true := by decide
  obtain ⟨s, h1, h2⟩ := any_some h
  rw [Bool.and_eq_true, decide_eq_true_eq] at h2
  obtain ⟨s', h3, h4⟩ := okAnd_iff h2.2
  have hx := runLoose_sound h1
  have hl : ∀ z ∈ handles movedUp, z.id = 0 → z.version ≤ 1 := by decide
  exact ⟨s, s', hx, h3, hl, C30_release_destroyed_twice_lives hx (by decide) (by decide) hl h3, h2.1, by simpa using h4⟩

end Ecs.Props
