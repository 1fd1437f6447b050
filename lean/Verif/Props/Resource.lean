import Verif.Proofs.Resource

/-! Properties C08–C10: `ResourceStore`. -/

namespace Ecs.Props
open Spec
variable {α : Type}

/-- **C08.** `ResourceStore` is a map from live handles to values. For a handle `e` that maps to `v`:
indexing returns `v`, `release` returns `v`, an assignment replaces (and drops) `v`, and all three
succeed. Moreover every `release`/assignment event in the history carried the value of the map at that
moment, and the map never contained the handle returned by a `create`. -/
theorem C08_resource_store_is_a_map {dbg : Bool} {cap : Nat} {h : List (ResEvent α)} {r : ResStore α}
    (hx : ResExec dbg cap h r) (hb : dbg = true ∨ (resIssued h).length < u32Size) :
    (∀ e v, resMap h e = some v → r.index dbg e = .ok v ∧
      (∃ r', r.release dbg e = .ok (r', v)) ∧
      (∀ new, ∃ r', r.assign dbg e new = .ok (r', v))) ∧
    (∀ newer older e v, h = newer ++ .released e v :: older → resMap older e = some v) ∧
    (∀ newer older e old new, h = newer ++ .assigned e old new :: older → resMap older e = some old) ∧
    (∀ newer older e v, h = newer ++ .created e v :: older → resMap older e = none) := by
  refine ⟨?_, ?_⟩
  · obtain ⟨hi, hm, _⟩ := res_exec_inv hx hb
    intro e v hv
    have hmem := (hm e v).1 hv
    have hk : e ∈ (resContents h).map (·.1) := List.mem_map.2 ⟨_, hmem, rfl⟩
    have hval := hi.vals _ hmem
    have hal : r.ents.isAlive dbg e = .ok true := by
      rw [hi.ents.isAlive_of_lt (hi.ents.id_lt hk)]; simp [hk]
    have hread := Raw.read_of_some hval
    simp only at hread
    obtain ⟨c', hd, _⟩ := hi.ents.destroy_live (dbg := dbg) hk
    have hlt : e.id < r.elements.length := by rw [hi.elen]; exact hi.ents.id_lt hk
    refine ⟨?_, ⟨{ r with ents := c' }, ?_⟩, fun new => ⟨{ r with elements := r.elements.set e.id (some new) }, ?_⟩⟩
    · unfold ResStore.index; cases dbg <;> simp [hal, hread]
    · unfold ResStore.release; cases dbg <;> simp [hal, hread, hd]
    · unfold ResStore.assign; cases dbg <;> simp [hal, hread, Raw.write_of_lt, hlt]
  · have hpart : ∀ {h : List (ResEvent α)} {r : ResStore α}, ResExec dbg cap h r →
        (dbg = true ∨ (resIssued h).length < u32Size) → ∀ newer ev older, h = newer ++ ev :: older →
        ∃ r1, ResExec dbg cap (ev :: older) r1 ∧
          (dbg = true ∨ (resIssued (ev :: older)).length < u32Size) := by
      intro h r hx
      induction hx with
      | init => intro _ newer ev older hh; simp at hh
      | @create h r r' e v hx hr ih =>
        intro hb newer ev older hh
        cases newer with
        | nil => cases hh; exact ⟨_, .create v hx hr, hb⟩
        | cons a t => cases hh; exact ih (hb.imp id (fun h => by simp only [resIssued, List.length_cons] at h; omega)) _ _ _ rfl
      | @release h r r' v e hx hr he ih =>
        intro hb newer ev older hh
        cases newer with
        | nil => cases hh; exact ⟨_, .release e hx hr he, hb⟩
        | cons a t => cases hh; exact ih hb _ _ _ rfl
      | @assign h r r' old e new hx hr he ih =>
        intro hb newer ev older hh
        cases newer with
        | nil => cases hh; exact ⟨_, .assign e new hx hr he, hb⟩
        | cons a t => cases hh; exact ih hb _ _ _ rfl
    have hlive : ∀ {h : List (ResEvent α)} {r : ResStore α} {e : Entity}, ResExec dbg cap h r →
        (dbg = true ∨ (resIssued h).length < u32Size) → (dbg = true ∨ (resMap h e).isSome) →
        dbg = true ∨ e ∈ (resContents h).map (·.1) := by
      intro h r e hx hb he
      refine he.imp id (fun hs => ?_)
      obtain ⟨w, hw⟩ := Option.isSome_iff_exists.1 hs
      exact List.mem_map.2 ⟨_, ((res_exec_inv hx hb).2.1 _ _).1 hw, rfl⟩
    refine ⟨fun newer older e v hh => ?_, fun newer older e old new hh => ?_,
      fun newer older e v hh => ?_⟩
    · obtain ⟨r1, h1, hb1⟩ := hpart hx hb _ _ _ hh
      cases h1 with
      | release _ hx' hr he =>
        obtain ⟨hi, hm, _⟩ := res_exec_inv hx' hb1
        exact (hm _ _).2 (hi.release hr (hlive hx' hb1 he)).1
    · obtain ⟨r1, h1, hb1⟩ := hpart hx hb _ _ _ hh
      cases h1 with
      | assign _ _ hx' hr he =>
        obtain ⟨hi, hm, _⟩ := res_exec_inv hx' hb1
        exact (hm _ _).2 (hi.assign hr (hlive hx' hb1 he)).1
    · obtain ⟨r1, h1, hb1⟩ := hpart hx hb _ _ _ hh
      cases h1 with
      | create _ hx' hr =>
        have hb0 : dbg = true ∨ (resIssued older).length < u32Size :=
          hb1.imp id (fun h => by simp only [resIssued, List.length_cons] at h; omega)
        obtain ⟨hi, hm, _⟩ := res_exec_inv hx' hb0
        obtain ⟨_, hn⟩ := hi.create hr hb1
        cases hq : resMap older e with
        | none => rfl
        | some w =>
          exact absurd (hi.ents.sub _ (List.mem_map.2 ⟨_, (hm e w).1 hq, rfl⟩)) hn

/-- **C08**, creation never fails before the 32-bit limits are reached. -/
theorem C08_create_succeeds {dbg : Bool} {cap : Nat} {h : List (ResEvent α)} {r : ResStore α}
    (hx : ResExec dbg cap h r) (hb : (resIssued h).length + 1 < u32Size) (v : α) :
    ∃ r' e, r.create dbg v = .ok (r', e) := by
  obtain ⟨hi, _, _⟩ := res_exec_inv hx (Or.inr (by omega))
  obtain ⟨c', cr, hc⟩ := hi.ents.create_ok (dbg := dbg) hb
  obtain ⟨_, _, hcb, hca, hle, hlt, _⟩ := hi.ents.create_spec hc (Or.inr hb)
  unfold ResStore.create
  rw [hc]
  simp only [ok_bind]
  split
  · rw [Raw.realloc_of hi.elen hle]
    simp only [ok_bind]
    rw [Raw.write_of_lt _ (by simp [hi.elen]; omega)]
    exact ⟨_, _, rfl⟩
  · rename_i hw
    have : c'.capacity = r.ents.capacity := by
      simp [EntityCreation.wasGrow, hcb, hca] at hw
      omega
    simp only [pure_ok, ok_bind]
    rw [Raw.write_of_lt _ (by rw [hi.elen, ← this]; exact hlt)]
    exact ⟨_, _, rfl⟩

/-- `ResourceStore::new()` is the store with capacity 0, so C08–C10 cover it. -/
theorem C08_new_eq : (ResStore.new : ResStore α) = ResStore.withCapacity 0 := rfl

/-- **C09.** The store's `drop` succeeds, and the values ever handed to the store (by `create` or an
assignment) are, with multiplicity, exactly the values returned by `release`, dropped by assignments,
and dropped by the store's `drop`. -/
theorem C09_values_leave_exactly_once {dbg : Bool} {cap : Nat} {h : List (ResEvent α)}
    {r : ResStore α} (hx : ResExec dbg cap h r)
    (hb : dbg = true ∨ (resIssued h).length < u32Size) :
    ∃ dropped, r.drop = .ok dropped ∧ (valuesIn h).Perm (valuesOut h ++ dropped) := by
  obtain ⟨hi, _, hp⟩ := res_exec_inv hx hb
  obtain ⟨vs, hd, hv⟩ := hi.drop
  exact ⟨vs, hd, hp.trans (hv.symm.append_left _)⟩

/-- **C10.** In a debug build, indexing, assigning or releasing with any handle value that is not live
panics. -/
theorem C10_debug_rejects_stale {cap : Nat} {h : List (ResEvent α)} {r : ResStore α}
    (hx : ResExec true cap h r) (e : Entity) (he : resMap h e = none) :
    r.index true e = .error (.panic .debugAssert) ∧
    r.release true e = .error (.panic .debugAssert) ∧
    (∀ v, r.assign true e v = .error (.panic .debugAssert)) := by
  obtain ⟨hi, hm, _⟩ := res_exec_inv hx (Or.inl rfl)
  have hk : e ∉ (resContents h).map (·.1) := by
    intro hk
    obtain ⟨⟨d, v⟩, hp, rfl⟩ := List.mem_map.1 hk
    rw [(hm _ _).2 hp] at he; cases he
  by_cases hid : e.id < r.ents.capacity
  · have hal := hi.ents.isAlive_of_lt (dbg := true) hid
    simp only [hk, decide_false] at hal
    refine ⟨?_, ?_, fun v => ?_⟩
    · unfold ResStore.index; simp [hal, dassert]
    · unfold ResStore.release; simp [hal, dassert]
    · unfold ResStore.assign; simp [hal, dassert]
  · have hal := EntInv.isAlive_debug_oob hid
    refine ⟨?_, ?_, fun v => ?_⟩
    · unfold ResStore.index; simp [hal]
    · unfold ResStore.release; simp [hal]
    · unfold ResStore.assign; simp [hal]

/-- A history that grows the store from capacity 0, assigns, releases and recycles. -/
theorem resource_example (dbg : Bool) : ∃ r : ResStore String,
    ResExec dbg 0 [.created ⟨0, 2⟩ "c", .released ⟨0, 1⟩ "a", .assigned ⟨1, 1⟩ "b" "b2",
      .created ⟨1, 1⟩ "b", .created ⟨0, 1⟩ "a"] r := by
  have s0 := ResExec.init (α := String) (dbg := dbg) (cap := 0)
  have s1 := ResExec.create (e := ⟨0, 1⟩) "a" s0 (by cases dbg <;> rfl)
  have s2 := ResExec.create (e := ⟨1, 1⟩) "b" s1 (by cases dbg <;> rfl)
  have s3 := ResExec.assign (old := "b") ⟨1, 1⟩ "b2" s2 (by cases dbg <;> rfl) (Or.inr (by decide))
  have s4 := ResExec.release (v := "a") ⟨0, 1⟩ s3 (by cases dbg <;> rfl) (Or.inr (by decide))
  have s5 := ResExec.create (e := ⟨0, 2⟩) "c" s4 (by cases dbg <;> rfl)
  exact ⟨_, s5⟩

example (r : ResStore String) (hx : ResExec true 0 [.created ⟨0, 2⟩ "c", .released ⟨0, 1⟩ "a",
      .assigned ⟨1, 1⟩ "b" "b2", .created ⟨1, 1⟩ "b", .created ⟨0, 1⟩ "a"] r) :
    r.index true ⟨1, 1⟩ = .ok "b2" ∧ r.index true ⟨0, 1⟩ = .error (.panic .debugAssert) :=
  ⟨((C08_resource_store_is_a_map hx (Or.inl rfl)).1 ⟨1, 1⟩ "b2" (by decide)).1,
   (C10_debug_rejects_stale hx ⟨0, 1⟩ (by decide)).1⟩

end Ecs.Props
