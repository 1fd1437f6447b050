import Verif.Proofs.ResourceStale
import Verif.Props.Resource

/-! Property C58: `ResourceStore` in release builds, where handles are not checked. -/

namespace Ecs.Props
open Spec
variable {α : Type}

/-- **C58**, exact behaviour: in a release build only the id of a handle counts. With a handle that was
ever issued, stale or not, indexing, `release` and assignment all succeed, and all three find the value
that was stored last under that id, by whichever handle. That value either belongs to a live handle with
the same id or has left the store before. -/
theorem C58_release_build_ignores_versions {cap : Nat} {h : List (ResEvent α)} {r : ResStore α}
    (hx : ResExec false cap h r) (hb : (resIssued h).length < u32Size) (e : Entity)
    (he : e ∈ resIssued h) :
    ∃ v, lastStored h e.id = some v ∧ r.index false e = .ok v ∧
      (∃ r', r.release false e = .ok (r', v)) ∧
      (∀ new, ∃ r', r.assign false e new = .ok (r', v)) ∧
      ((∃ e' : Entity, e'.id = e.id ∧ resMap h e' = some v) ∨ v ∈ valuesOut h) := by
  obtain ⟨v, hl, hv⟩ := res_cells hx (Or.inr hb) e he
  obtain ⟨hi, hmap, _⟩ := res_exec_inv hx (Or.inr hb)
  obtain ⟨c', hd, _⟩ := destroy_release hi.ents he
  have hlt : e.id < r.elements.length := by rw [hi.elen]; exact hi.ents.issued_id_lt he
  refine ⟨v, hl, ?_, ⟨{ r with ents := c' }, ?_⟩, fun new => ⟨{ r with elements := r.elements.set e.id (some new) }, ?_⟩, ?_⟩
  · unfold ResStore.index; simp [Raw.read_of_some hv]
  · unfold ResStore.release; simp [Raw.read_of_some hv, hd]
  · unfold ResStore.assign; simp [Raw.read_of_some hv, Raw.write_of_lt, hlt]
  · rcases res_lastStored hx (Or.inr hb) _ _ hl with ⟨d, hd, hm⟩ | ho
    · exact Or.inl ⟨d, hd, (hmap _ _).2 hm⟩
    · exact Or.inr ho

/-- **C58**, handles of other stores: in a release build handles with the same id are the same handle, in every state. So
`C58_release_build_ignores_versions` is about every handle whose id was issued. -/
theorem C58_id_only (r : ResStore α) {e d : Entity} (hid : e.id = d.id) :
    r.index false e = r.index false d ∧ r.release false e = r.release false d ∧
    ∀ new, r.assign false e new = r.assign false d new := by
  refine ⟨?_, ?_, fun new => ?_⟩
  · unfold ResStore.index; simp only [Bool.false_eq_true, if_false, hid]
  · unfold ResStore.release Ents.destroy Ents.validateVersionWithPanic
    simp only [Bool.false_eq_true, if_false, hid]
  · unfold ResStore.assign; simp only [Bool.false_eq_true, if_false, hid]

/-- **C58**, the other handles: in a release build, with a handle whose id was never issued, indexing, `release` and
assignment are undefined behaviour: they read memory no value was written to, or memory that is not the store's. -/
theorem C58_never_issued {cap : Nat} {h : List (ResEvent α)} {r : ResStore α} (hx : ResExec false cap h r)
    (hb : (resIssued h).length < u32Size) (e : Entity) (hn : ∀ x ∈ resIssued h, x.id ≠ e.id) :
    (∃ u, r.index false e = .error (.ub u)) ∧ (∃ u, r.release false e = .error (.ub u)) ∧
    ∀ new, ∃ u, r.assign false e new = .error (.ub u) := by
  have hread : ∃ u, Raw.read r.elements e.id = .error (.ub u) := by
    unfold Raw.read
    split
    · rename_i v hv
      obtain ⟨x, h1, h2⟩ := res_cell_issued hx (.inr hb) _ _ hv
      exact absurd h2 (hn x h1)
    · exact ⟨_, rfl⟩
    · exact ⟨_, rfl⟩
  obtain ⟨u, hu⟩ := hread
  refine ⟨⟨u, ?_⟩, ?_, fun new => ⟨u, ?_⟩⟩
  · unfold ResStore.index
    simp only [Bool.false_eq_true, if_false, hu]
  · unfold ResStore.release Ents.destroy Ents.validateVersionWithPanic Words.toggle
    obtain ⟨n, hs⟩ : ∃ n, subU32 false r.ents.nextFreeId 1 = .ok n := by
      unfold subU32; split <;> exact ⟨_, rfl⟩
    simp only [Bool.false_eq_true, if_false, pure_ok, ok_bind, hs]
    cases r.ents.aliveBits[e.id / 32]? with
    | none => exact ⟨_, rfl⟩
    | some w =>
      simp only [ok_bind]
      by_cases hl : e.id = n
      · simp only [if_pos hl, ok_bind, hu]; exact ⟨_, rfl⟩
      · simp only [if_neg hl, ok_bind, hu]; exact ⟨_, rfl⟩
  · unfold ResStore.assign
    simp only [Bool.false_eq_true, if_false, pure_ok, hu]
    rfl

/-- Id 1 was never issued by the store of `C58_release_build_counterexample`'s first step. -/
example : ∃ r : ResStore String, ResExec false 2 [.created ⟨0, 1⟩ "a"] r ∧
    ∀ x ∈ resIssued ([.created ⟨0, 1⟩ "a"] : List (ResEvent String)), x.id ≠ (⟨1, 1⟩ : Entity).id :=
  ⟨_, .create (e := ⟨0, 1⟩) "a" .init rfl, by decide⟩

/-- **C58**, the consequence for ownership (C09 fails): in a release build, releasing with a handle whose
id is free moves a value out that has left the store before, and the store's `drop` will drop that same
value once more in addition to the values of the live handles. -/
theorem C58_double_release_duplicates {cap : Nat} {h : List (ResEvent α)} {r : ResStore α}
    (hx : ResExec false cap h r) (hb : (resIssued h).length < u32Size) (e : Entity)
    (he : e ∈ resIssued h) (hfree : ∀ e' : Entity, e'.id = e.id → resMap h e' = none) :
    ∃ v r' before after, r.release false e = .ok (r', v) ∧ v ∈ valuesOut h ∧
      r.drop = .ok before ∧ r'.drop = .ok after ∧ after.Perm (v :: before) := by
  obtain ⟨v, hl, hv⟩ := res_cells hx (Or.inr hb) e he
  obtain ⟨hi, hmap, _⟩ := res_exec_inv hx (Or.inr hb)
  obtain ⟨before, hbd, hbp⟩ := hi.drop
  obtain ⟨r', after, hr, had, hap⟩ := hi.release_free he (fun p hp hid => by
    have := hfree p.1 hid
    rw [(hmap p.1 p.2).2 hp] at this; cases this) hv
  refine ⟨v, r', before, after, hr, ?_, hbd, had, hap.trans (hbp.symm.cons v)⟩
  rcases res_lastStored hx (Or.inr hb) _ _ hl with ⟨d, hd, hm⟩ | ho
  · have := hfree d hd
    rw [(hmap _ _).2 hm] at this; cases this
  · exact ho

/-- **C58**, the property itself holds in debug builds only: a handle that is not live gives no access. -/
theorem C58_stale_gives_nothing_partial {cap : Nat} {h : List (ResEvent α)} {r : ResStore α}
    (hx : ResExec true cap h r) (e : Entity) (he : resMap h e = none) :
    (∀ v, r.index true e ≠ .ok v) ∧ (∀ x, r.release true e ≠ .ok x) ∧
    (∀ new x, r.assign true e new ≠ .ok x) := by
  obtain ⟨h1, h2, h3⟩ := C10_debug_rejects_stale hx e he
  refine ⟨fun v => ?_, fun x => ?_, fun new x => ?_⟩
  · rw [h1]; exact nofun
  · rw [h2]; exact nofun
  · rw [h3]; exact nofun

/-- **C58** fails in release builds: after `"a"` was released and its id was recycled for `"c"`, the old
handle reads `"c"`. -/
theorem C58_release_build_counterexample : ∃ (h : List (ResEvent String)) (r : ResStore String) (e : Entity),
    ResExec false 0 h r ∧ resMap h e = none ∧ r.index false e = .ok "c" := by
  obtain ⟨r, hx⟩ := resource_example false
  refine ⟨_, r, ⟨0, 1⟩, hx, by decide, ?_⟩
  obtain ⟨v, hl, hv, _⟩ := C58_release_build_ignores_versions hx (by decide) ⟨0, 1⟩ (by decide)
  cases hl
  exact hv

/-- **C58**, double release: `"a"` is handed out twice and dropped a third time by the store. -/
example : ∃ (r r' : ResStore String), ResExec false 0 [.released ⟨0, 1⟩ "a", .created ⟨0, 1⟩ "a"] r ∧
    r.release false ⟨0, 1⟩ = .ok (r', "a") ∧ r'.drop = .ok ["a"] := by
  have s0 := ResExec.init (α := String) (dbg := false) (cap := 0)
  have s1 := ResExec.create (e := ⟨0, 1⟩) "a" s0 rfl
  have s2 := ResExec.release (v := "a") ⟨0, 1⟩ s1 rfl (Or.inr (by decide))
  exact ⟨_, _, s2, rfl, rfl⟩

example (r : ResStore String) (hx : ResExec false 0 [.released ⟨0, 1⟩ "a", .created ⟨0, 1⟩ "a"] r) :
    ∃ v r' before after, r.release false ⟨0, 1⟩ = .ok (r', v) ∧ v ∈ ["a"] ∧
      r.drop = .ok before ∧ r'.drop = .ok after ∧ after.Perm (v :: before) :=
  C58_double_release_duplicates hx (by decide) ⟨0, 1⟩ (by decide) (fun e' _ => by
    simp only [resMap]; split <;> simp_all)

end Ecs.Props
