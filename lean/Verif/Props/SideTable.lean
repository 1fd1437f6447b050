import Verif.Proofs.SideTable
import Verif.Props.Alloc
import Verif.Props.Defects

/-! C129: what handles tell, and tables beside a store. -/

namespace Ecs.Props
open Ecs Ecs.Spec

section
variable {U : Universe} {dbg : Bool} {cap : Nat} {h : List Event} {s : Store} {e : Entity}

private theorem few (hx : LooseExec U dbg cap h s) : dbg = true ∨ (issued (entHistory h)).length < u32Size :=
  Or.inr (by rw [issued_entHistory]; exact issued_lt hx)

/-- **C129**, versions: the handles given out for an id have the versions 1, 2, 3 and so on, as many as there are, without gaps. -/
theorem C129_versions (hx : LooseExec U dbg cap h s) (e : Entity) :
    e ∈ handles h ↔ 1 ≤ e.version ∧ e.version ≤ ((handles h).filter (·.id = e.id)).length := by
  have h1 := (numbered (loose_ents hx) (few hx)).1 e
  unfold uses at h1
  rwa [issued_entHistory] at h1

/-- **C129**, the newest: a live entity has the highest version of its id. -/
theorem C129_newest (hx : LooseExec U dbg cap h s) (he : e ∈ alive h) : e.version = ((handles h).filter (·.id = e.id)).length := by
  have h1 := (numbered (loose_ents hx) (few hx)).2.1 e
  unfold uses at h1
  rw [issued_entHistory, live_entHistory] at h1
  exact h1 he

/-- **C129**, ids: the ids given out are exactly the numbers below the largest number of entities that were ever alive at once. -/
theorem C129_ids (hx : LooseExec U dbg cap h s) (i : Nat) : (∃ e ∈ handles h, e.id = i) ↔ i < peak (entHistory h) := by
  have h1 := (numbered (loose_ents hx) (few hx)).2.2 i
  rwa [issued_entHistory] at h1

end

/-! ### Tables beside a store -/

section
variable {α : Type} {U : Universe} {dbg : Bool} {cap : Nat} {s : Store} {k : ClientLog α} {e : Entity}

/-- **C129**, no confusion: whatever was put, and whatever handle is asked for, a table gives out only the value that was put last for
this very handle. -/
theorem C129_table_sound (k : ClientLog α) (e : Entity) {v : α} (h : k.table.get e = some v) : k.lastPut e = some v := by
  induction k with
  | nil => cases h
  | cons x k ih =>
    cases x with
    | inl ev => exact ih h
    | inr p =>
      obtain ⟨x, w⟩ := p
      simp only [ClientLog.table, ClientLog.lastPut, SideTable.get, SideTable.put, at'] at h ⊢
      by_cases hid : e.id = x.id
      · rw [if_pos hid] at h
        simp only at h
        split at h
        · rename_i hv
          rw [if_pos (by cases x; cases e; simp_all)]
          exact h
        · cases h
      · rw [if_neg hid] at h
        rw [if_neg fun h0 => hid (by rw [h0])]
        exact ih h

/-- **C129**, tables: a client keeps a vector indexed by ids, with a version and a value in each cell, and puts values only for entities
that are alive then. The values of entities that died are overwritten by those of entities that got their ids. Nevertheless the table
has, for every entity that is alive, exactly the value that was put last for it, or none if none was put. -/
theorem C129_table (hx : LooseExec U dbg cap k.calls s) (hp : k.Proper) (he : e ∈ alive k.calls) : k.table.get e = k.lastPut e := by
  induction k generalizing s with
  | nil => cases he
  | cons x k ih =>
    cases x with
    | inl ev =>
      show SideTable.get (ClientLog.table k) e = ClientLog.lastPut e k
      have hx0 := hx
      cases hx with
      | step _ hx h1 h2 =>
        have old : e ∈ alive (ClientLog.calls k) → SideTable.get (ClientLog.table k) e = ClientLog.lastPut e k := ih hx hp
        have new : e ∉ handles (ClientLog.calls k) → SideTable.get (ClientLog.table k) e = ClientLog.lastPut e k := by
          intro hn
          have h3 : ClientLog.lastPut e k = none := by
            cases h4 : ClientLog.lastPut e k with
            | none => rfl
            | some v => exact absurd (put_issued hx hp h4) hn
          cases h4 : SideTable.get (ClientLog.table k) e with
          | none => exact h3.symm
          | some v => rw [C129_table_sound k e h4] at h3; cases h3
        have he' : e ∈ alive (ev :: ClientLog.calls k) := he
        cases ev with
        | created x =>
          rcases List.mem_cons.1 he' with rfl | he'
          · refine new ?_
            rw [handles_eq]
            exact ((loose_core hx).created h1 h2).1
          · exact old he'
        | createdWith x ts init =>
          rcases List.mem_cons.1 he' with rfl | he'
          · refine new ?_
            obtain ⟨a, _, _, h2⟩ := h2
            rw [handles_eq]
            exact ((loose_core hx).createdWith h1 h2).1
          · exact old he'
        | destroyed x => exact old (List.mem_of_mem_erase he')
        | _ => exact old he'
    | inr p =>
      obtain ⟨x, w⟩ := p
      have hx' : LooseExec U dbg cap (ClientLog.calls k) s := hx
      have he' : e ∈ alive (ClientLog.calls k) := he
      have ih := ih hx' hp.2 he'
      simp only [ClientLog.table, ClientLog.lastPut]
      by_cases hxe : x = e
      · subst hxe
        simp [SideTable.get, SideTable.put, at']
      · rw [if_neg hxe, ← ih]
        have hid : e.id ≠ x.id := fun h0 => hxe ((loose_core hx').ents.eq_of_id (by rw [← alive_eq]; exact he')
          (by rw [← alive_eq]; exact hp.1) h0).symm
        simp [SideTable.get, SideTable.put, at', hid]

end

/-! ### Examples -/

/-- A client that puts 10 for an entity and 20 for another one, destroys the first, and puts 30 for the one that gets its id. -/
def tableClient : ClientLog Nat :=
  [.inr (⟨0, 2⟩, 30), .inl (.created ⟨0, 2⟩), .inl (.destroyed ⟨0, 1⟩), .inr (⟨1, 1⟩, 20), .inr (⟨0, 1⟩, 10), .inl (.created ⟨1, 1⟩),
   .inl (.created ⟨0, 1⟩)]

/-- The table has the values for both live entities, and none for the dead one. The versions of id 0 are 1 and 2, and the ids
are 0 and 1. -/
example : ∃ s, LooseExec demo true 1 tableClient.calls s ∧ tableClient.Proper ∧ alive tableClient.calls = [⟨0, 2⟩, ⟨1, 1⟩] ∧
    tableClient.table.get ⟨0, 2⟩ = some 30 ∧ tableClient.table.get ⟨1, 1⟩ = some 20 ∧ tableClient.table.get ⟨0, 1⟩ = none ∧
    tableClient.lastPut ⟨0, 1⟩ = some 10 ∧ handles tableClient.calls = [⟨0, 2⟩, ⟨1, 1⟩, ⟨0, 1⟩] ∧
    peak (entHistory tableClient.calls) = 2 := by
  obtain ⟨s, hs⟩ := Option.isSome_iff_exists.1 (show (runLoose demo true 1 tableClient.calls).isSome = true by decide)
  exact ⟨s, runLoose_sound hs, by simp [tableClient, ClientLog.Proper, ClientLog.calls, alive], by decide, by decide, by decide, by decide,
    by decide, by decide, by decide⟩

end Ecs.Props
