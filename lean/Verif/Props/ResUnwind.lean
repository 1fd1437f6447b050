import Verif.Proofs.ResUnwind
import Verif.Props.Resource

/-! Property C83: panics and the resource store, both panics of its calls and panics of the destructors of
the values in it. -/

namespace Ecs.Props
open Spec
variable {α : Type}

/-- **C83**, the model used here, which keeps the state when a call panics, is otherwise the model of
C08–C10 and C58. This holds for every state. -/
theorem C83_models_agree (dbg : Bool) (r : ResStore α) :
    (∀ v, (ResStore.createU dbg v).result r = r.create dbg v) ∧
    (∀ e, (ResStore.releaseU dbg e).result r = r.release dbg e) ∧
    (∀ bad e v, (ResStore.assignU dbg bad e v).result r = (r.assign dbg e v).map fun p => (p.1, (p.2, bad p.2))) ∧
    r.dropU (fun _ => false) = r.drop.map fun vs => (vs, false) := by
  refine ⟨fun v => ResStore.createU_result dbg v r, fun e => ResStore.releaseU_result dbg e r, fun bad e v => ?_, ?_⟩
  · rw [ResStore.assignU_result]; cases r.assign dbg e v <;> rfl
  · have key : ∀ is, r.dropLoopU (fun _ => false) is = (r.dropLoop is).map fun vs => (vs, false) := by
      intro is
      induction is with
      | nil => rfl
      | cons i is ih =>
        unfold ResStore.dropLoopU ResStore.dropLoop
        cases r.ents.isAliveAtIndex i with
        | error e => rfl
        | ok b =>
          cases b
          · exact ih
          · cases Raw.read r.elements i with
            | error e => rfl
            | ok v =>
              simp only [ok_bind, ih]
              cases r.dropLoop is <;> rfl
    unfold ResStore.dropU ResStore.drop
    rw [key]
    cases r.dropLoop (List.range r.ents.capacity) with
    | error e => rfl
    | ok vs => cases h : r.ents.drop <;> simp [h, Except.map]

/-- **C83**, release builds: no call panics, whatever the state and whatever the handle. -/
theorem C83_release_build_never_panics (r r' : ResStore α) :
    (∀ v, ¬ (ResStore.createU false v).Panics r r') ∧ (∀ e, ¬ (ResStore.releaseU false e).Panics r r') ∧
    ∀ bad e v, ¬ (ResStore.assignU false bad e v).Panics r r' := by
  refine ⟨fun v hp => hp.not_calm ?_, fun e hp => hp.not_calm ?_, fun bad e v hp => hp.not_calm ?_⟩
  · rw [ResStore.createU_result]; exact r.calm_create v
  · rw [ResStore.releaseU_result]; exact r.calm_release e
  · rw [ResStore.assignU_result]; exact (r.calm_assign e v).bind fun _ _ => .ok _

/-- **C83.** In a debug build every call may be made with every handle. If `release` or an assignment panics,
the store is exactly as it was; `create` does not panic until `2 ^ 32 - 1` handles were issued.
Missing: `create` after that, see `C83_create_panic` and `C83_counterexample_dropped_twice`. -/
theorem C83_panic_changes_nothing_partial {cap : Nat} {h : List (ResEvent α)} {r r' : ResStore α}
    (hx : ResExec true cap h r) :
    (∀ e, (ResStore.releaseU true e).Panics r r' → r' = r) ∧
    (∀ bad e v, (ResStore.assignU true bad e v).Panics r r' → r' = r) ∧
    ((resIssued h).length + 1 < u32Size → ∀ v, ¬ (ResStore.createU true v).Panics r r') := by
  have hi := (res_exec_inv hx (.inl rfl)).1
  refine ⟨fun e hp => ?_, fun bad e v hp => ?_, fun hb v hp => ?_⟩
  · have key : (ResStore.releaseU true e).OnPanic r (· = r) := by
      unfold ResStore.releaseU ResStore.onEnts
      simp only [if_true]
      refine .get (.bind (.lift (.inr rfl)) fun r1 b h1 => .bind (.lift ?_) fun r2 _ h2 => ?_)
      · obtain ⟨_, _, h1⟩ := bind_eq_ok.1 ((Unw.result_lift _ _).symm.trans h1)
        cases h1; exact .inr rfl
      · obtain ⟨_, ha, h1⟩ := bind_eq_ok.1 ((Unw.result_lift _ _).symm.trans h1)
        cases h1
        obtain ⟨_, hd, h2⟩ := bind_eq_ok.1 ((Unw.result_lift _ _).symm.trans h2)
        cases h2
        have hb := dassert_ok.1 hd rfl
        subst hb
        obtain ⟨c', hc, _⟩ := hi.ents.destroy_live (dbg := true) (hi.live_of (dbg := true) (fun _ => ha) (.inl rfl))
        have hok : (Unw.on (·.ents) (fun (r : ResStore α) c => { r with ents := c }) (Ents.destroyU true e)).result r =
            .ok ({ r with ents := c' }, ()) := by
          rw [Unw.result_on, Ents.destroyU_result, hc]; rfl
        exact .bind (.of_ok hok) fun _ _ _ => .get (.lift (.inl (.read _ _)))
    exact key r' hp
  · have key : (ResStore.assignU true bad e v).OnPanic r (· = r) := by
      unfold ResStore.assignU
      simp only [if_true]
      refine .get (.bind (.lift (.inr rfl)) fun r1 b h1 => .bind (.lift ?_) fun r2 _ h2 => ?_)
      · obtain ⟨_, _, h1⟩ := bind_eq_ok.1 ((Unw.result_lift _ _).symm.trans h1)
        cases h1; exact .inr rfl
      · exact .get (.bind (.lift (.inl (.read _ _))) fun _ _ _ =>
          .bind (.step (.inl ((Calm.write _ _ _).bind fun _ _ => .pure _))) fun _ _ _ => .pure _)
    exact key r' hp
  · obtain ⟨r1, e, hr⟩ := C08_create_succeeds hx hb v
    exact absurd (Calm.of_ok ((ResStore.createU_result true v r).trans hr)) hp.not_calm

/-- **C83**, every panic of `create`: the store is as it was, or the next drop of the store (in particular
the one of the unwinding itself) drops a value again that had left the store before, in addition to the
values it would have dropped. -/
theorem C83_create_panic {cap : Nat} {h : List (ResEvent α)} {r r' : ResStore α} (hx : ResExec true cap h r)
    {v : α} (hp : (ResStore.createU true v).Panics r r') :
    r' = r ∨ ∃ w ∈ valuesOut h, ∃ before after, r.drop = .ok before ∧ r'.drop = .ok after ∧
      after.Perm (w :: before) := by
  obtain ⟨hi, hmap, _⟩ := res_exec_inv hx (.inl rfl)
  have key : (ResStore.createU true v).OnPanic r fun r' => r' = r ∨ ∃ w ∈ valuesOut h, ∃ before after,
      r.drop = .ok before ∧ r'.drop = .ok after ∧ after.Perm (w :: before) := by
    unfold ResStore.createU ResStore.onEnts
    refine .get (.bind (.on hi.ents.createU_onPanic fun c' hc => ?_) fun r1 cr _ => ?_)
    · rcases hc with rfl | ⟨id, hid, hn, hv, hcap, hvl, hbl, hbits⟩
      · exact .inl rfl
      · obtain ⟨e, he, rfl⟩ := res_issued hx (.inl rfl) id _ hv (by decide)
        obtain ⟨w, hl, hw⟩ := res_cells hx (.inl rfl) e he
        obtain ⟨before, hbd, hbp⟩ := hi.drop
        have hfree : ∀ p ∈ resContents h, p.1.id ≠ e.id := fun p hp hid =>
          hn (List.mem_map.2 ⟨p.1, List.mem_map.2 ⟨p, hp, rfl⟩, hid⟩)
        obtain ⟨after, had, hap⟩ := hi.drop_extra hid hfree hw hcap hvl hbl hbits
        refine .inr ⟨w, ?_, before, after, hbd, had, hap.trans (hbp.symm.cons w)⟩
        rcases res_lastStored hx (.inl rfl) _ _ hl with ⟨d, hd, hm⟩ | ho
        · exact absurd hd (hfree _ hm)
        · exact ho
    · refine .ite (fun _ => .bind (.step (.inl ((Calm.realloc _ _ _).bind fun _ _ => .pure _))) fun _ _ _ => ?_) fun _ => ?_
      · exact .bind (.step (.inl ((Calm.write _ _ _).bind fun _ _ => .pure _))) fun _ _ _ => .pure _
      · exact .bind (.step (.inl ((Calm.write _ _ _).bind fun _ _ => .pure _))) fun _ _ _ => .pure _
  exact key r' hp

/-- **C83**, destructors that panic while the store is dropped: no value is dropped twice, and values are
forgotten only after a panic, which ends the loop. -/
theorem C83_destructor_panics_in_drop {dbg : Bool} {cap : Nat} {h : List (ResEvent α)} {r : ResStore α}
    (hx : ResExec dbg cap h r) (hb : dbg = true ∨ (resIssued h).length < u32Size) (bad : α → Bool) :
    ∃ dropped forgotten panicked, r.dropU bad = .ok (dropped, panicked) ∧
      (valuesIn h).Perm (valuesOut h ++ (dropped ++ forgotten)) ∧
      (panicked = false → forgotten = [] ∧ ∀ v ∈ dropped, bad v = false) ∧
      (panicked = true → ∃ l v, dropped = l ++ [v] ∧ bad v = true ∧ ∀ w ∈ l, bad w = false) := by
  obtain ⟨all, hd, hp⟩ := C09_values_leave_exactly_once hx hb
  unfold ResStore.drop at hd
  obtain ⟨vs, hl, hd⟩ := bind_eq_ok.1 hd
  obtain ⟨_, he, hd⟩ := bind_eq_ok.1 hd
  cases hd
  obtain ⟨d, f, p, h1, rfl, h3, h4⟩ := ResStore.dropLoopU_of bad hl
  refine ⟨d, f, p, ?_, hp, h3, h4⟩
  unfold ResStore.dropU
  rw [h1]
  simp only [ok_bind, he]
  rfl

/-- **C83**, destructors that panic during an assignment: the old value is dropped once, and the new value is
in the store all the same, which goes on as after any other assignment. -/
theorem C83_destructor_panics_in_assignment {dbg : Bool} {cap : Nat} {h : List (ResEvent α)} {r : ResStore α}
    (hx : ResExec dbg cap h r) (hb : dbg = true ∨ (resIssued h).length < u32Size) (bad : α → Bool)
    {e : Entity} {old : α} (he : resMap h e = some old) (new : α) :
    ∃ r', (ResStore.assignU dbg bad e new).result r = .ok (r', (old, bad old)) ∧
      ResExec dbg cap (.assigned e old new :: h) r' := by
  obtain ⟨r', hr⟩ := ((C08_resource_store_is_a_map hx hb).1 e old he).2.2 new
  exact ⟨r', by rw [ResStore.assignU_result, hr]; rfl, .assign e new hx hr (.inr (by rw [he]; rfl))⟩

/-- `n` times `create(v)` followed by `release`, on a store with capacity 1. -/
def cycled (v : α) : Nat → List (ResEvent α)
  | 0 => []
  | n + 1 => .released ⟨0, n + 1⟩ v :: .created ⟨0, n + 1⟩ v :: cycled v n

/-- The store after these calls. -/
def cycledStore (v : α) (n : Nat) : ResStore α where
  elements := [if n = 0 then none else some v]
  ents := { gapIds := [], capacity := 1, versions := [some n], aliveBits := [0#32], nextFreeId := 0 }

theorem cycled_exec (v : α) : ∀ n, n < u32Size → ResExec true 1 (cycled v n) (cycledStore v n)
  | 0, _ => .init
  | n + 1, hn => by
    have hc : (cycledStore v n).create true v = .ok
        ({ elements := [some v]
           ents := { gapIds := [], capacity := 1, versions := [some (n + 1)], aliveBits := [1#32], nextFreeId := 1 } },
         ⟨0, n + 1⟩) := by
      have hadd : addU32 true n 1 = .ok (n + 1) := by unfold addU32; rw [if_pos hn]
      have he : (cycledStore v n).ents.create true = .ok
          ({ gapIds := [], capacity := 1, versions := [some (n + 1)], aliveBits := [1#32], nextFreeId := 1 },
            { entity := ⟨0, n + 1⟩, capacityBefore := 1, capacityAfter := 1 }) := by
        have ht : (cycledStore v n).ents.takeId true =
            .ok (0, { (cycledStore v n).ents with nextFreeId := 1 }) := rfl
        have hg : Words.toggle [0#32] 0 = .ok [1#32] := rfl
        unfold Ents.create
        rw [ht]
        simp only [ok_bind, cycledStore, hg, Raw.read, List.getElem?_cons_zero, hadd]
        rfl
      unfold ResStore.create
      rw [he]; rfl
    refine .release ⟨0, n + 1⟩ (.create v (cycled_exec v n (by omega)) hc) ?_ (.inl rfl)
    have ha : ∀ bits next, Ents.isAlive true { gapIds := [], capacity := 1, versions := [some (n + 1)], aliveBits := bits, nextFreeId := next }
        ⟨0, n + 1⟩ = bits.isOn 0 := by
      intro bits next
      show (bits.isOn 0 >>= fun bit => Except.ok ((n + 1 == n + 1) && bit)) = _
      rw [beq_self_eq_true]
      cases bits.isOn 0 <;> rfl
    have hv : Ents.validateVersionWithPanic true
        { gapIds := [], capacity := 1, versions := [some (n + 1)], aliveBits := [1#32], nextFreeId := 1 } ⟨0, n + 1⟩ = .ok () := by
      show dassert true (n + 1 == n + 1) = _
      rw [beq_self_eq_true]; rfl
    unfold ResStore.release Ents.destroy
    simp only [if_true, ha, hv]
    rfl

theorem cycled_empty (v : α) (n : Nat) (e : Entity) : resMap (cycled v n) e = none := by
  induction n with
  | zero => rfl
  | succ n ih =>
    show (if e = ⟨0, n + 1⟩ then none else if e = ⟨0, n + 1⟩ then some v else resMap (cycled v n) e) = none
    split
    · rfl
    · exact ih

/-- **C83**, the missing part of `C83_panic_changes_nothing_partial` is false: after `2 ^ 32 - 1` values were
stored under the only id and released again, everything has left the store, and dropping it drops nothing. The
next `create` panics in a debug build, and after that (or by the unwinding itself) dropping the store drops the
value that was released last once more. -/
theorem C83_counterexample_dropped_twice (v v' : α) : ∃ (h : List (ResEvent α)) (r r' : ResStore α),
    ResExec true 1 h r ∧ (∀ e, resMap h e = none) ∧ v ∈ valuesOut h ∧ r.drop = .ok [] ∧
    (ResStore.createU true v').Panics r r' ∧ r'.drop = .ok [v] := by
  refine ⟨_, _, ⟨(cycledStore v 4294967295).elements, { gapIds := [], capacity := 1, versions := [some 4294967295], aliveBits := [1#32], nextFreeId := 1 }⟩,
    cycled_exec v 4294967295 (by decide), cycled_empty v _, ?_, ?_, ⟨.arithOverflow, ?_⟩, ?_⟩
  · exact List.mem_cons_self
  · have hoff : Words.isOn [0#32] 0 = .ok false := by rfl
    unfold ResStore.drop
    simp [cycledStore, ResStore.dropLoop, Ents.isAliveAtIndex, hoff, Ents.drop, Words.dealloc, Raw.dealloc, Words.getLen]
  · have he : (Ents.createU true).run (cycledStore v 4294967295).ents = (.error (.panic .arithOverflow),
        { gapIds := [], capacity := 1, versions := [some 4294967295], aliveBits := [1#32], nextFreeId := 1 }) := by
      with_unfolding_all rfl
    have ho : ResStore.onEnts (Ents.createU true) (cycledStore v 4294967295) = (.error (.panic .arithOverflow),
        ⟨(cycledStore v 4294967295).elements, { gapIds := [], capacity := 1, versions := [some 4294967295], aliveBits := [1#32], nextFreeId := 1 }⟩) := by
      unfold ResStore.onEnts Unw.on
      rw [show Ents.createU true (cycledStore v 4294967295).ents = _ from he]
    exact Unw.bind_fault (m := ResStore.onEnts (Ents.createU true)) ho
  · have hon : Words.isOn [1#32] 0 = .ok true := by rfl
    unfold ResStore.drop
    simp [cycledStore, ResStore.dropLoop, Ents.isAliveAtIndex, hon, Raw.read, Ents.drop, Words.dealloc, Raw.dealloc, Words.getLen]

/-- Non-vacuity: a debug build, three values of which the second has a destructor that panics. A wrong handle
makes `release` panic; dropping the store forgets the last value. -/
example : ∃ (h : List (ResEvent Nat)) (r : ResStore Nat), ResExec true 0 h r ∧
    (∃ r', (ResStore.releaseU true ⟨7, 1⟩).Panics r r') ∧ r.dropU (· == 20) = .ok ([10, 20], true) := by
  have s0 := ResExec.init (α := Nat) (dbg := true) (cap := 0)
  have s1 := ResExec.create (e := ⟨0, 1⟩) 10 s0 rfl
  have s2 := ResExec.create (e := ⟨1, 1⟩) 20 s1 rfl
  have s3 := ResExec.create (e := ⟨2, 1⟩) 30 s2 rfl
  exact ⟨_, _, s3, ⟨_, _, rfl⟩, rfl⟩

end Ecs.Props
