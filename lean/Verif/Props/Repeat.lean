import Verif.Proofs.Repeat
import Verif.Props.Reassign

/-! C110: tuples that name a type more than once. -/

namespace Ecs.Props
open Spec

variable {U : Universe} {dbg : Bool} {cap : Nat} {h : List Event} {s : Store} {e : Entity} {vals : TupleVal}

/-- What can be read of an entity that is alive and has components. -/
def reading (T : List TypeId) (f : TypeId → List Cell) (ts : List TypeId) : Option (List (List Cell)) :=
  if ∀ t ∈ ts, t ∈ T then some (ts.map f) else none

theorem read_live {w : World} (hr : Rel U dbg s w) (he : e ∈ w.live) (hT : w.types e ≠ []) (ts : List TypeId) :
    s.getComponents U dbg e ts = .ok (reading (w.types e) (w.value e) ts) := by
  rw [hr.getComponents (hr.ents.id_lt he)]
  unfold reading
  by_cases hc : ∀ t ∈ ts, t ∈ w.types e
  · rw [if_pos ⟨he, hT, hc⟩, if_pos hc]
  · rw [if_neg fun h0 => hc h0.2.2, if_neg hc]

theorem reading_congr {T : List TypeId} {f g : TypeId → List Cell} (h : ∀ t ∈ T, f t = g t) (ts : List TypeId) :
    reading T f ts = reading T g ts := by
  unfold reading
  split
  · rename_i hc
    rw [List.map_congr_left fun t ht => h t (hc t ht)]
  · rfl

theorem read_others {w w' : World} {s' : Store} (hr : Rel U dbg s w) (hr' : Rel U dbg s' w') (hl : w'.live = w.live)
    (hents : s'.ents = s.ents) {x : Entity} (hx : x.id < s.ents.capacity)
    (hsame : w'.types x = w.types x ∧ w'.value x = w.value x) (ts : List TypeId) :
    s'.getComponents U dbg x ts = s.getComponents U dbg x ts := by
  rw [hr'.getComponents (by rw [hents]; exact hx), hr.getComponents hx, hl, hsame.1, hsame.2]

/-- **C110**, for `Exec`: adding a tuple that may name types repeatedly to an entity that has components, unless the tuple names
only types of the entity and is longer than their number. The call returns; of each type the last value in the tuple is kept; the
other components of the entity and all other entities are as before. -/
theorem C110_last_wins_partial (hx : Exec U dbg cap h s) (he : e ∈ alive h) (hT : (world h).types e ≠ []) (hv : Sized U vals)
    (hl : ¬ TooLong ((world h).types e) vals)
    (hc : ¬ (∀ x ∈ vals, x.1 ∈ (world h).types e) → s.archs.CanHold U dbg (widened ((world h).types e) vals)) :
    ∃ s', s.addComponents U dbg e vals = .ok s' ∧
      (∀ ts, s'.getComponents U dbg e ts =
        .ok (reading (widened ((world h).types e) vals) (overwritten vals ((world h).value e)) ts)) ∧
      ∀ x ∈ handles h, x ≠ e → ∀ ts, s'.getComponents U dbg x ts = s.getComponents U dbg x ts := by
  have hr := exec_rel hx
  rw [alive_eq] at he
  obtain ⟨q, -, -, -, -, -, h1, -⟩ := hr.row he hT
  obtain ⟨s', w', g1, g2, g3, g4, g5, g6, -, g7⟩ := hr.added_any he hT hv (fun h0 => hc (h0.resolve_right hl)) h1
  have hne : w'.types e ≠ [] := by
    rw [g6]
    obtain ⟨t, ht⟩ := List.exists_mem_of_ne_nil _ hT
    exact List.ne_nil_of_mem (Rel.mem_widened.2 (Or.inl ht))
  refine ⟨s', g1, fun ts => ?_, fun x hxh hxe ts => ?_⟩
  · rw [read_live g2 (by rw [g3]; exact he) hne, g6]
    rcases g7 with ⟨h0, -⟩ | ⟨-, h0⟩
    · exact absurd h0 hl
    · rw [reading_congr h0]
  · rw [handles_eq] at hxh
    exact read_others hr g2 g3 g4 (hr.ents.issued_id_lt hxh) (g5 x hxe) ts

/-- **C110**, for `Exec`: adding a tuple that names only types of the entity and is longer than their number. The call returns.
If the components of the entity are in the same page afterwards, then nothing that can be read has changed: the values are lost. If
they are in another page, of each type the last value in the tuple is kept. They are in the same page if this is the last page of
the archetype that has room. -/
theorem C110_too_long_partial (hx : Exec U dbg cap h s) (he : e ∈ alive h) (hT : (world h).types e ≠ []) (hv : Sized U vals)
    (hl : TooLong ((world h).types e) vals) (hc : s.archs.CanHold U dbg ((world h).types e)) :
    ∃ s' p p', s.addComponents U dbg e vals = .ok s' ∧ InPage U dbg s e p ∧ InPage U dbg s' e p' ∧
      (∃ ai ps, s.archs.pageToArch[p]? = some ai ∧ s.archs.archPages[ai]? = some ps ∧ (p' = p ↔ roomIn s ps = some p)) ∧
      (p' = p → ∀ x ∈ handles h, ∀ ts, s'.getComponents U dbg x ts = s.getComponents U dbg x ts) ∧
      (p' ≠ p → ∀ ts, s'.getComponents U dbg e ts =
        .ok (reading ((world h).types e) (overwritten vals ((world h).value e)) ts)) ∧
      ∀ x ∈ handles h, x ≠ e → ∀ ts, s'.getComponents U dbg x ts = s.getComponents U dbg x ts := by
  have hr := exec_rel hx
  rw [alive_eq] at he
  have hwid : widened ((world h).types e) vals = (world h).types e := Rel.addedTypes_eq hl.1
  obtain ⟨q, ai, _, _, ps, _, h1, -, hat, -⟩ := hr.row he hT
  obtain ⟨s', w', g1, g2, g3, g4, g5, g6, g8, g7⟩ := hr.added_any he hT hv (fun _ => by rw [hwid]; exact hc) h1
  rw [hwid] at g6 g7
  have g9 := g8 hl ai ps hat.hto hat.hps
  have hne : w'.types e ≠ [] := by rw [g6]; exact hT
  have he' : e ∈ w'.live := by rw [g3]; exact he
  have hothers : ∀ x ∈ handles h, x ≠ e → ∀ ts, s'.getComponents U dbg x ts = s.getComponents U dbg x ts := by
    intro x hxh hxe ts
    rw [handles_eq] at hxh
    exact read_others hr g2 g3 g4 (hr.ents.issued_id_lt hxh) (g5 x hxe) ts
  rcases g7 with ⟨-, k1, k2⟩ | ⟨⟨q', k1, k2⟩, k3⟩
  · refine ⟨s', q.page, q.page, g1, hr.inPage he hT h1, g2.inPage he' hne k1,
      ⟨ai, ps, hat.hto, hat.hps, fun _ => g9.1 k1, fun _ => rfl⟩, fun _ x hxh ts => ?_, fun h0 => absurd rfl h0,
      hothers⟩
    by_cases hxe : x = e
    · subst hxe
      rw [read_live g2 he' hne, read_live hr he hT, g6, reading_congr k2]
    · exact hothers x hxh hxe ts
  · refine ⟨s', q.page, q'.page, g1, hr.inPage he hT h1, g2.inPage he' hne k1,
      ⟨ai, ps, hat.hto, hat.hps, fun h0 => absurd h0 (k2 hl), fun h0 => by rw [k1.unique (g9.2 h0)]⟩, fun h0 => absurd h0 (k2 hl), fun _ ts => ?_, hothers⟩
    rw [read_live g2 he' hne, g6, reading_congr k3]

/-- **C110**, for `Exec`: assigning a tuple that may name types repeatedly. If the entity has all types, of each the last value in
the tuple is kept, however long the tuple is; everything else is as before. -/
theorem C110_assign_partial (hx : Exec U dbg cap h s) (he : e ∈ alive h) (hT : (world h).types e ≠ []) (hv : Sized U vals)
    (hin : ∀ x ∈ vals, x.1 ∈ (world h).types e) :
    ∃ s', s.setComponents U dbg e vals = .ok (s', true) ∧
      (∀ ts, s'.getComponents U dbg e ts = .ok (reading ((world h).types e) (overwritten vals ((world h).value e)) ts)) ∧
      ∀ x ∈ handles h, x ≠ e → ∀ ts, s'.getComponents U dbg x ts = s.getComponents U dbg x ts := by
  have hr := exec_rel hx
  rw [alive_eq] at he
  obtain ⟨s', g1, g2, g3⟩ := hr.assigned_any he hT hv hin
  refine ⟨s', g1, fun ts => ?_, fun x hxh hxe ts => ?_⟩
  · rw [read_live g3 he hT]
    show Except.ok (reading _ (at' _ e _ e) ts) = _
    rw [Core.at'_self]
  · rw [handles_eq] at hxh
    exact read_others hr g3 rfl g2 (hr.ents.issued_id_lt hxh) ⟨rfl, Core.at'_ne _ _ hxe⟩ ts

/-! ### Examples -/

/-- An entity with the components 1 and 4, and one with the component 1. -/
def couple : List Event :=
  [.added ⟨1, 1⟩ [(1, [3])], .created ⟨1, 1⟩, .added ⟨0, 1⟩ [(1, [5]), (4, [6])], .created ⟨0, 1⟩]

/-- `C110_last_wins_partial` in cases that meet its hypotheses: the tuple names a type repeatedly, in one case only types of the
entity, in the other also a new type. -/
example : ∃ s, Exec demo true 2 couple s ∧ ⟨0, 1⟩ ∈ alive couple ∧ (world couple).types ⟨0, 1⟩ ≠ [] ∧
    Sized demo [(1, [7]), (1, [8])] ∧ ¬ TooLong ((world couple).types ⟨0, 1⟩) [(1, [7]), (1, [8])] ∧
    Sized demo [(5, [7]), (5, [8])] ∧ ¬ TooLong ((world couple).types ⟨0, 1⟩) [(5, [7]), (5, [8])] ∧
    s.archs.CanHold demo true (widened ((world couple).types ⟨0, 1⟩) [(5, [7]), (5, [8])]) := by
  have h : ((runExec demo true 2 couple).any fun s =>
      canHold demo true s.archs (widened ((world couple).types ⟨0, 1⟩) [(5, [7]), (5, [8])])) = true := by decide +kernel
  obtain ⟨s, hs, h⟩ := any_some h
  exact ⟨s, runExec_sound hs, by decide, by decide, by decide, by decide, by decide, by decide, canHold_sound h⟩

/-- **C110**: a tuple can be too long, and its values can be lost. The tuple names the types 1, 4 and 1 of an entity with the types
1 and 4. The entity has the values 5 and 6 before and after. -/
theorem C110_lost : ∃ s s', Exec demo true 2 couple s ∧ ⟨0, 1⟩ ∈ alive couple ∧
    TooLong ((world couple).types ⟨0, 1⟩) [(1, [7]), (4, [8]), (1, [9])] ∧ s.archs.CanHold demo true ((world couple).types ⟨0, 1⟩) ∧
    s.addComponents demo true ⟨0, 1⟩ [(1, [7]), (4, [8]), (1, [9])] = .ok s' ∧
    s.getComponents demo true ⟨0, 1⟩ [1, 4] = .ok (some [[some 5], [some 6]]) ∧
    s'.getComponents demo true ⟨0, 1⟩ [1, 4] = .ok (some [[some 5], [some 6]]) := by
  have h : ((runExec demo true 2 couple).any fun s => canHold demo true s.archs ((world couple).types ⟨0, 1⟩) &&
      decide (s.getComponents demo true ⟨0, 1⟩ [1, 4] = .ok (some [[some 5], [some 6]])) &&
      okAnd (s.addComponents demo true ⟨0, 1⟩ [(1, [7]), (4, [8]), (1, [9])]) fun s' =>
        decide (s'.getComponents demo true ⟨0, 1⟩ [1, 4] = .ok (some [[some 5], [some 6]]))) = true := by decide +kernel
  obtain ⟨s, hs, h⟩ := any_some h
  obtain ⟨h, h3⟩ := Bool.and_eq_true_iff.1 h
  obtain ⟨h1, h2⟩ := Bool.and_eq_true_iff.1 h
  obtain ⟨s', g, h3⟩ := okAnd_iff h3
  exact ⟨s, s', runExec_sound hs, by decide, by decide, canHold_sound h1, g, of_decide_eq_true h2, of_decide_eq_true h3⟩

/-- A type 3 of 2000 bytes; all other types are bytes. -/
def quarters : Universe where
  size := fun t => if t = 3 then 2000 else 1
  align := fun _ => 1
  align_pos := by intro t; omega
  align_dvd := by intro t; simp

/-- Four entities with the types 1 and 3, which fill a page. -/
def fourFull : List Event :=
  [⟨3, 1⟩, ⟨2, 1⟩, ⟨1, 1⟩, ⟨0, 1⟩].map fun e => .createdWith e [1, 3] fun t => List.replicate (if t = 3 then 2000 else 1) none

/-- **C110**: the values of a tuple that is too long can also arrive, if the page of the entity is full. -/
theorem C110_kept : ∃ s s', Exec quarters true 4 fourFull s ∧ ⟨0, 1⟩ ∈ alive fourFull ∧
    TooLong ((world fourFull).types ⟨0, 1⟩) [(1, [7]), (1, [8]), (1, [9])] ∧
    s.archs.CanHold quarters true ((world fourFull).types ⟨0, 1⟩) ∧
    s.addComponents quarters true ⟨0, 1⟩ [(1, [7]), (1, [8]), (1, [9])] = .ok s' ∧
    s'.getComponents quarters true ⟨0, 1⟩ [1] = .ok (some [[some 9]]) := by
  have h : ((runExec quarters true 4 fourFull).any fun s => canHold quarters true s.archs ((world fourFull).types ⟨0, 1⟩) &&
      okAnd (s.addComponents quarters true ⟨0, 1⟩ [(1, [7]), (1, [8]), (1, [9])]) fun s' =>
        decide (s'.getComponents quarters true ⟨0, 1⟩ [1] = .ok (some [[some 9]]))) = true := by decide +kernel
  obtain ⟨s, hs, h⟩ := any_some h
  obtain ⟨h1, h2⟩ := Bool.and_eq_true_iff.1 h
  obtain ⟨s', g, h2⟩ := okAnd_iff h2
  exact ⟨s, s', runExec_sound hs, by decide, by decide, canHold_sound h1, g, of_decide_eq_true h2⟩

/-- **C110**: the entity must have components. For an entity without any, a tuple that names a type twice makes an archetype that
lists this type twice, beside the one that lists it once. -/
theorem C110_listed_twice : ∃ s s', Exec demo true 2 (.created ⟨2, 1⟩ :: couple) s ∧
    s.addComponents demo true ⟨2, 1⟩ [(1, [7]), (1, [8])] = .ok s' ∧
    (∃ a, s'.getEntityArchetype true ⟨2, 1⟩ = .ok (some a) ∧ a.ids = [1, 1]) ∧
    (∃ a, s'.getEntityArchetype true ⟨1, 1⟩ = .ok (some a) ∧ a.ids = [1]) := by
  have h : ((runExec demo true 2 (.created ⟨2, 1⟩ :: couple)).any fun s =>
      okAnd (s.addComponents demo true ⟨2, 1⟩ [(1, [7]), (1, [8])]) fun s' =>
        (okAnd (s'.getEntityArchetype true ⟨2, 1⟩) fun a => a.any fun a => decide (a.ids = [1, 1])) &&
        okAnd (s'.getEntityArchetype true ⟨1, 1⟩) fun a => a.any fun a => decide (a.ids = [1])) = true := by decide +kernel
  obtain ⟨s, hs, h⟩ := any_some h
  obtain ⟨s', g, h⟩ := okAnd_iff h
  obtain ⟨h1, h2⟩ := Bool.and_eq_true_iff.1 h
  obtain ⟨o1, k1, h1⟩ := okAnd_iff h1
  obtain ⟨o2, k2, h2⟩ := okAnd_iff h2
  obtain ⟨a1, rfl, h1⟩ := any_some h1
  obtain ⟨a2, rfl, h2⟩ := any_some h2
  exact ⟨s, s', runExec_sound hs, g, ⟨a1, k1, of_decide_eq_true h1⟩, ⟨a2, k2, of_decide_eq_true h2⟩⟩

end Ecs.Props
