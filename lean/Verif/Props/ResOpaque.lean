import Verif.Proofs.ResOpaque
import Verif.Props.Resource
import Verif.Props.Alloc
import Verif.Props.StoreHandles

/-! Property C116: a `ResourceStore` never looks at its values, and its handles are those of a store. -/

namespace Ecs.Props
open Spec
variable {α β : Type} {dbg : Bool} {cap : Nat}

/-- **C116.** Two programs that make the same calls with related values — of whatever types, related
by whatever relation, with any handles, live or not — end in the same way: both fail with the same
fault, or both return the same handles and related values, and the end of the stores drops related
values in the same order. -/
theorem C116_opaque (R : α → β → Prop) {cs : List (ResCall α)} {cs' : List (ResCall β)}
    (hc : List.Forall₂ (ResCallLike R) cs cs') :
    Both (fun x y => List.Forall₂ (ResResultLike R) x.1 y.1 ∧ List.Forall₂ R x.2 y.2)
      (resProgram dbg cap cs) (resProgram dbg cap cs') :=
  (ResLike.init cap).rest hc

/-- **C116**, as an equation: a program with every value replaced by `f` of it is the program, with
every result replaced likewise. -/
theorem C116_natural (f : α → β) (cs : List (ResCall α)) :
    resProgram dbg cap (cs.map (ResCall.map f)) =
      (resProgram dbg cap cs).map fun x => (x.1.map (ResResult.map f), x.2.map f) := by
  have hc : List.Forall₂ (ResCallLike (fun v w => w = f v)) cs (cs.map (ResCall.map f)) := by
    induction cs with
    | nil => exact .nil
    | cons c cs ih =>
      refine .cons ?_ ih
      cases c with
      | create v => exact .create rfl
      | release e => exact .release e
      | read e => exact .read e
      | assign e v => exact .assign e rfl
  have hvals : ∀ {l : List α} {l' : List β}, List.Forall₂ (fun v w => w = f v) l l' → l' = l.map f := by
    intro l l' h
    induction h with
    | nil => rfl
    | cons h1 _ ih => rw [h1, ih]; rfl
  have hres : ∀ {l : List (ResResult α)} {l' : List (ResResult β)},
      List.Forall₂ (ResResultLike (fun v w => w = f v)) l l' → l' = l.map (ResResult.map f) := by
    intro l l' h
    induction h with
    | nil => rfl
    | cons h1 _ ih =>
      rw [ih]
      cases h1 with
      | handle e => rfl
      | value h1 => rw [h1]; rfl
  have h := C116_opaque (dbg := dbg) (cap := cap) _ hc
  revert h
  generalize resProgram dbg cap cs = x
  generalize resProgram dbg cap (cs.map (ResCall.map f)) = y
  intro h
  cases x with
  | error x =>
    cases y with
    | error y => exact congrArg Except.error (show x = y from h).symm
    | ok y => exact h.elim
  | ok x =>
    cases y with
    | error y => exact h.elim
    | ok y => exact congrArg Except.ok (Prod.ext (hres h.1) (hvals h.2))

/-- **C116**, handles: the handle returned by a creation is determined by the creations and releases
made so far. -/
theorem C116_next_handle {h : List (ResEvent α)} {r r' : ResStore α} {v : α} {e : Entity}
    (hx : ResExec dbg cap h r) (hb : (resIssued h).length + 1 < u32Size) (hr : r.create dbg v = .ok (r', e)) :
    e = nextHandle (resEntHistory h) :=
  res_create_next hx hr (Or.inr hb)

/-- **C116**, resource stores and stores: when a store of entities (of any capacity, in any build) has
made the same creations and destructions, the next handles of the two are the same, and the store says
of every handle that it is alive exactly when the resource store has a value for it. -/
theorem C116_same_as_store {U : Universe} {dbg' : Bool} {cap' : Nat} {h : List (ResEvent α)} {r : ResStore α}
    {g : List Event} {s : Store} (hx : ResExec dbg cap h r) (hs : LooseExec U dbg' cap' g s)
    (hg : entHistory g = resEntHistory h) (hb : (resIssued h).length + 1 < u32Size) :
    (∀ v r' e s' e', r.create dbg v = .ok (r', e) → s.createEntity dbg' = .ok (s', e') → e = e') ∧
    (∀ e ∈ resIssued h, s.isAlive dbg' e = .ok (resMap h e).isSome) ∧
    (∀ e ∈ resIssued h, s.isAlive dbg' e = .ok true → ∃ v, r.index dbg e = .ok v) := by
  have hi : handles g = resIssued h := by rw [← issued_entHistory, hg, issued_resEntHistory]
  have hb0 : dbg = true ∨ (resIssued h).length < u32Size := Or.inr (by omega)
  have hal : ∀ e ∈ resIssued h, s.isAlive dbg' e = .ok (resMap h e).isSome := by
    intro e he
    rw [(C02_store_is_alive_exact hs (hi ▸ he)).1, ← live_entHistory, hg]
    have hp := (res_ents hx hb0).2
    have hm := (res_exec_inv hx hb0).2.1
    congr 1
    rw [Bool.eq_iff_iff, decide_eq_true_iff, hp.mem_iff, Option.isSome_iff_exists, List.mem_map]
    constructor
    · rintro ⟨⟨d, v⟩, h1, rfl⟩
      exact ⟨v, (hm _ _).2 h1⟩
    · rintro ⟨v, h1⟩
      exact ⟨(e, v), (hm _ _).1 h1, rfl⟩
  refine ⟨fun v r' e s' e' h1 h2 => ?_, hal, fun e he h1 => ?_⟩
  · rw [C116_next_handle hx hb h1, (C57_handle_is_determined hs (by rw [hi]; exact hb)).1 _ _ h2, hg]
  · rw [hal e he] at h1
    obtain ⟨v, hv⟩ := Option.isSome_iff_exists.1 (Except.ok.inj h1)
    exact ⟨v, ((C08_resource_store_is_a_map hx hb0).1 e v hv).1⟩

/-- **C116**, order of the drops: the end of the store drops the values still in it, each once, in the
order of the ids of their handles. -/
theorem C116_drop_order {h : List (ResEvent α)} {r : ResStore α} (hx : ResExec dbg cap h r)
    (hb : dbg = true ∨ (resIssued h).length < u32Size) :
    ∃ l : List (Entity × α), r.drop = .ok (l.map (·.2)) ∧ l.Pairwise (fun p q => p.1.id < q.1.id) ∧
      ∀ e v, (e, v) ∈ l ↔ resMap h e = some v := by
  obtain ⟨hi, hm, _⟩ := res_exec_inv hx hb
  obtain ⟨l, h1, h2, h3⟩ := hi.drop_sorted
  exact ⟨l, h1, h2, fun e v => by rw [h3, hm]⟩

/-- **C116**, capacities: the capacity given to `with_capacity` is only a hint. The same calls can be
made on a store of any other capacity, where they return the same handles and values; afterwards the
two stores read the same under every handle that may be used, and drop the same values in the same
order. -/
theorem C116_capacity {h : List (ResEvent α)} {r : ResStore α} (hx : ResExec dbg cap h r)
    (hb : (resIssued h).length < u32Size) (cap' : Nat) :
    ∃ r', ResExec dbg cap' h r' ∧
      (∀ e, dbg = true ∨ (resMap h e).isSome → r'.index dbg e = r.index dbg e) ∧ r'.drop = r.drop := by
  have hex : ∃ r' : ResStore α, ResExec dbg cap' h r' := by
    induction hx with
    | init => exact ⟨_, .init⟩
    | @create h r r1 e v hx hr ih =>
      have hb' : (resIssued h).length + 1 < u32Size := by simpa [resIssued] using hb
      obtain ⟨r', hx'⟩ := ih (by omega)
      obtain ⟨r2, e', h2⟩ := C08_create_succeeds hx' hb' v
      rw [C116_next_handle hx hb' hr, ← C116_next_handle hx' hb' h2]
      exact ⟨r2, .create v hx' h2⟩
    | @release h r r1 v e hx hr he ih =>
      obtain ⟨r', hx'⟩ := ih hb
      have hv := (C08_resource_store_is_a_map (.release e hx hr he) (Or.inr hb)).2.1 [] h e v rfl
      obtain ⟨r2, h2⟩ := ((C08_resource_store_is_a_map hx' (Or.inr hb)).1 e v hv).2.1
      exact ⟨r2, .release e hx' h2 he⟩
    | @assign h r r1 old e new hx hr he ih =>
      obtain ⟨r', hx'⟩ := ih hb
      have hv := (C08_resource_store_is_a_map (.assign e new hx hr he) (Or.inr hb)).2.2.1 [] h e old new rfl
      obtain ⟨r2, h2⟩ := ((C08_resource_store_is_a_map hx' (Or.inr hb)).1 e old hv).2.2 new
      exact ⟨r2, .assign e new hx' h2 he⟩
  obtain ⟨r', hx'⟩ := hex
  refine ⟨r', hx', fun e he => ?_, ?_⟩
  · cases hv : resMap h e with
    | some v =>
      rw [((C08_resource_store_is_a_map hx (Or.inr hb)).1 e v hv).1,
        ((C08_resource_store_is_a_map hx' (Or.inr hb)).1 e v hv).1]
    | none =>
      rw [hv] at he
      rcases he with rfl | he
      · rw [(C10_debug_rejects_stale hx e hv).1, (C10_debug_rejects_stale hx' e hv).1]
      · cases he
  · obtain ⟨l, h1, h2, h3⟩ := C116_drop_order hx (Or.inr hb)
    obtain ⟨l', h1', h2', h3'⟩ := C116_drop_order hx' (Or.inr hb)
    rw [h1, h1', sorted_unique h2' h2 fun p => by rw [h3, h3']]

/-! ### Cases -/

/-- A program with every kind of call, over numbers. -/
def resDemo : List (ResCall Nat) :=
  [.create 10, .create 20, .create 30, .assign ⟨1, 1⟩ 21, .release ⟨0, 1⟩, .create 40, .read ⟨0, 2⟩, .release ⟨2, 1⟩]

/-- What the program returns and drops. -/
def resDemoResult : List (ResResult Nat) × List Nat :=
  ([.handle ⟨0, 1⟩, .handle ⟨1, 1⟩, .handle ⟨2, 1⟩, .value 20, .value 10, .handle ⟨0, 2⟩, .value 40, .value 30], [40, 21])

theorem res_demo (dbg : Bool) : resProgram dbg 0 resDemo = .ok resDemoResult := by
  cases dbg <;> rfl

/-- The program over strings: the same handles. -/
example (f : Nat → String) : resProgram dbg 0 (resDemo.map (ResCall.map f)) =
    .ok ([.handle ⟨0, 1⟩, .handle ⟨1, 1⟩, .handle ⟨2, 1⟩, .value (f 20), .value (f 10), .handle ⟨0, 2⟩, .value (f 40), .value (f 30)],
      [f 40, f 21]) := by
  rw [C116_natural, res_demo]
  rfl

/-- A program that fails: with all other values it fails in the same way. -/
example : resProgram true 0 [ResCall.create 10, .release ⟨0, 1⟩, .read ⟨0, 1⟩] = .error (.panic .debugAssert) ∧
    (∀ v : String, resProgram true 0 [ResCall.create v, .release ⟨0, 1⟩, .read ⟨0, 1⟩] = .error (.panic .debugAssert)) := by
  have h : resProgram true 0 [ResCall.create 10, .release ⟨0, 1⟩, .read ⟨0, 1⟩] = .error (.panic .debugAssert) := by rfl
  refine ⟨h, fun v => ?_⟩
  have := C116_natural (dbg := true) (cap := 0) (fun _ : Nat => v) [.create 10, .release ⟨0, 1⟩, .read ⟨0, 1⟩]
  rw [h] at this
  exact this

/-- The history of `resource_example` on a store of capacity 100. -/
example (dbg : Bool) : ∃ r : ResStore String,
    ResExec dbg 100 [.created ⟨0, 2⟩ "c", .released ⟨0, 1⟩ "a", .assigned ⟨1, 1⟩ "b" "b2",
      .created ⟨1, 1⟩ "b", .created ⟨0, 1⟩ "a"] r ∧ r.index dbg ⟨1, 1⟩ = .ok "b2" := by
  obtain ⟨r, hx⟩ := resource_example dbg
  obtain ⟨r', hx', hi, _⟩ := C116_capacity hx (by decide) 100
  refine ⟨r', hx', ?_⟩
  rw [hi _ (Or.inr (by decide))]
  exact ((C08_resource_store_is_a_map hx (Or.inr (by decide))).1 ⟨1, 1⟩ "b2" (by decide)).1

/-- That resource store and a store of entities that went through the same creations and destructions. -/
example (dbg : Bool) : ∃ (r : ResStore String) (s : Store), ∀ v r' e s' e',
    r.create dbg v = .ok (r', e) → s.createEntity true = .ok (s', e') → e = e' := by
  obtain ⟨r, hx⟩ := resource_example dbg
  have h : ((runLoose demo true 1 [.created ⟨0, 2⟩, .destroyed ⟨0, 1⟩, .createdWith ⟨1, 1⟩ [4] (fun _ => []), .created ⟨0, 1⟩]).any
      fun s => okAnd (s.createEntity true) fun r => decide (r.2 = ⟨2, 1⟩)) = true := by decide
  obtain ⟨s, hs, _⟩ := any_some h
  exact ⟨r, s, (C116_same_as_store hx (runLoose_sound hs) rfl (by decide)).1⟩

end Ecs.Props
