import Verif.Props.Queries
import Verif.Props.QueryCompAny
import Verif.Props.Tags
import Verif.Props.Components

/-! Property C65: how deep `FilterTagIter::next` nests. It calls itself for every item that it skips, and in the model
`nextFiltered` has the number of nested calls as a parameter (`fuel`): with less than it needs, it ends in `outOfFuel`. -/

namespace Ecs.Props
open Spec

/-- The iterator after `n` items were taken from it. -/
def takeItems (dbg : Bool) (s : Store) : Nat → CompIter → Res CompIter
  | 0, it => .ok it
  | n + 1, it => do
    let (_, it) ← it.nextWithEntity dbg s
    takeItems dbg s n it

theorem takeItems_pending {dbg : Bool} {s : Store} (n : Nat) {it it' : CompIter} {l : List (Nat × List Ref)}
    (hp : it.Pending s l) (hr : takeItems dbg s n it = .ok it') : it'.Pending s (l.drop n) := by
  induction n generalizing it l with
  | zero => cases hr; exact hp
  | succ n ih =>
    unfold takeItems at hr
    obtain ⟨⟨o, it1⟩, h1, hr⟩ := bind_eq_ok.1 hr
    cases l with
    | nil =>
      obtain ⟨it2, h2, h3⟩ := CompIter.Pending.nextWithEntity_nil (dbg := dbg) s hp
      rw [h2] at h1
      cases h1
      have := ih h3 hr
      simpa using this
    | cons x l =>
      obtain ⟨it2, h2, h3⟩ := CompIter.Pending.nextWithEntity_cons (dbg := dbg) hp
      rw [h2] at h1
      cases h1
      exact ih h3 hr

theorem nextFiltered_depth {dbg : Bool} {s : Store} {bv : Words} {P : Nat × List Ref → Bool} {l : List (Nat × List Ref)}
    (hbv : ∀ x ∈ l, bv.isOn x.1 = .ok (P x)) {it : CompIter} (hr : it.Pending s l) (d : Nat) :
    it.nextFiltered dbg s bv d = .error .outOfFuel ↔ d ≤ (l.takeWhile fun x => !P x).length := by
  induction l generalizing it d with
  | nil =>
    cases d with
    | zero => simp [CompIter.nextFiltered]
    | succ n =>
      obtain ⟨it', h1, h2⟩ := CompIter.Pending.nextWithEntity_nil (dbg := dbg) s hr
      unfold CompIter.nextFiltered
      simp [h1]
  | cons y l ih =>
    cases d with
    | zero => simp [CompIter.nextFiltered]
    | succ n =>
      obtain ⟨it', h1, h2⟩ := CompIter.Pending.nextWithEntity_cons (dbg := dbg) hr
      have hy := hbv y List.mem_cons_self
      by_cases hp : P y = true
      · unfold CompIter.nextFiltered
        simp [h1, Store.entOf, hy, hp]
      · have hstep : it.nextFiltered dbg s bv (n + 1) = it'.nextFiltered dbg s bv n := by
          conv_lhs => unfold CompIter.nextFiltered
          simp only [h1, ok_bind, Store.entOf, hy, hp, if_false, Bool.false_eq_true]
        rw [hstep, ih (fun x hx => hbv x (List.mem_cons_of_mem _ hx)) h2]
        simp [List.takeWhile_cons, hp]

section
variable {U : Universe} {dbg : Bool} {cap : Nat} {h : List Event} {s : Store}

/-- **C65.** A call of `next` on a `filter_tag` iterator whose underlying iterator has returned `n` items needs one
nested call for every item it skips: it nests more than `d` calls deep exactly when at least `d` items without the tag
come next. In every state, for arbitrary tuples. -/
theorem C65_filter_tag_depth (hx : LooseExec U dbg cap h s) (acc : Access) (old : List IterView)
    {fuel : Nat} (hf : (alive h).length < fuel) {tag : Nat} (ht : ∃ e, .tagged tag e ∈ h) :
    ∃ it bv items, componentQueryIter U s acc old = .ok it ∧ s.tags.hasTagBitvec tag = .ok bv ∧
      runComponentQueryWithEntities U dbg s acc old fuel = .ok items ∧
      ∀ n it', takeItems dbg s n it = .ok it' → ∀ d,
        (it'.nextFiltered dbg s bv d = .error .outOfFuel ↔
          d ≤ ((items.drop n).takeWhile fun x => decide (s.hasTag tag x.1 = .ok false)).length) := by
  have hc := loose_core hx
  obtain ⟨it, items, h1, h2, h3, h4, h5, h6, h7, h8⟩ := component_any hx acc old (Nat.lt_of_le_of_lt (coveredRows_le hx acc) hf)
  obtain ⟨bv, b1, b2, b3⟩ := Tags.hasTagBitvec_spec hc.tags ((registered_iff hx tag).2 ht)
  refine ⟨it, bv, _, h1, b1, h7, fun n it' hn d => ?_⟩
  have hp := takeItems_pending n h2 hn
  have hbv : ∀ x ∈ items.drop n, bv.isOn x.1 = .ok (s.tags.on tag x.1) := by
    intro x hx
    rw [Words.isOn_of_lt, b3]
    rw [b2, hc.tcap]
    exact Words.div_lt_getLen (h5 x (List.mem_of_mem_drop hx))
  rw [nextFiltered_depth hbv hp, ← List.map_drop, List.takeWhile_map, List.length_map]
  have : ∀ l : List (Nat × List Ref), (∀ x ∈ l, x.1 < s.ents.capacity) →
      (l.takeWhile fun x => !s.tags.on tag x.1).length =
        (l.takeWhile ((fun x : Entity × List Ref => decide (s.hasTag tag x.1 = .ok false)) ∘ fun x => (s.entOf x.1, x.2))).length := by
    intro l hl
    induction l with
    | nil => rfl
    | cons y l ih =>
      have hy : s.hasTag tag (s.entOf y.1) = .ok (s.tags.on tag y.1) :=
        Tags.hasTag_spec hc.tags tag (by rw [hc.tcap]; exact hl y List.mem_cons_self)
      have ih := ih fun x hx => hl x (List.mem_cons_of_mem _ hx)
      simp only [List.takeWhile_cons, Function.comp_apply, hy]
      cases s.tags.on tag y.1 with
      | true => simp
      | false => simpa using ih
  rw [this _ fun x hx => h5 x (List.mem_of_mem_drop hx)]

end

/-- The state of the world in the example below: `n` entities, all with component 1 only, which nobody ever left. -/
structure Uniform (n : Nat) (h : List Event) : Prop where
  count : (handles h).length = n
  nodup : (handles h).Nodup
  all : ∀ e, e ∈ handles h ↔ e ∈ alive h
  types : ∀ e ∈ alive h, (world h).types e = [1]
  used : ∀ S ∈ (world h).used, S = [1]
  left : (world h).left = []
  tag : ∀ e, lastTag 5 e h = false

/-- There are well-behaved executions that create any number of entities with component 1. -/
theorem uniform_exists (dbg : Bool) (n : Nat) (hn : n + 1 < u32Size) :
    ∃ h s, SafeExec demo dbg 1 h s ∧ Uniform n h := by
  induction n with
  | zero =>
    have h : ((Store.withCapacity dbg 1).toOption.any fun _ => true) = true := by cases dbg <;> decide
    obtain ⟨s, hs, _⟩ := any_some h
    exact ⟨[], s, .init (withCapacity_of hs), ⟨rfl, List.nodup_nil, fun _ => Iff.rfl, fun e he => (by cases he), fun S hS => (by cases hS), rfl,
      fun _ => rfl⟩⟩
  | succ n ih =>
    obtain ⟨h, s, hx, hu⟩ := ih (by omega)
    obtain ⟨⟨s1, e, h1, h2, hx1⟩, -⟩ := (C46_safe_calls_return_partial hx).2 (by rw [hu.count]; omega)
    have he : e ∈ (world (.created e :: h)).live := List.mem_cons_self
    have ht : (world (.created e :: h)).types e = [] := by simp [world, World.apply, World.birth, at']
    have hneed : needs (world (.created e :: h)) (.added e [(1, [7])]) = some [1] := by
      simp only [needs, ht]
      rw [if_pos ⟨he, by simp⟩]
      simp
    have hallow : Allowed demo (world (.created e :: h)) (.added e [(1, [7])]) := by
      refine ⟨List.mem_cons_self, by simp, ?_⟩
      unfold TupleOk
      refine ⟨by simp, ?_⟩
      intro p hp
      rw [List.mem_singleton.1 hp]
      decide
    have htarget : Target demo dbg (world (.created e :: h)) [1] := by
      have hrows : ∃ c, rowsPerPage demo dbg [1] = some c ∧ 4 ≤ c := by
        have : ((rowsPerPage demo dbg [1]).any fun c => decide (4 ≤ c)) = true := by cases dbg <;> decide
        obtain ⟨c, hc, h4⟩ := any_some this
        exact ⟨c, hc, of_decide_eq_true h4⟩
      obtain ⟨c, hc, h4⟩ := hrows
      unfold Target
      rw [hc]
      refine ⟨by omega, .inr ⟨h4, ?_⟩, .inr (.inr fun S hS => .inl ?_)⟩
      · intro S hS
        have : (world (.created e :: h)).left = [] := hu.left
        rw [this] at hS
        cases hS
      · rw [hu.used S hS]
        exact ⟨fun _ h => h, fun _ h => h⟩
    obtain ⟨s2, -, hx2⟩ := (C46_safe_calls_return_partial hx1).1 (.added e [(1, [7])]) rfl hallow
      (fun T hT => by rw [hneed] at hT; cases hT; exact htarget)
    have hw : world (.added e [(1, [7])] :: .created e :: h) =
        { (world (.created e :: h)).setTypes e [1] with
          value := at' (world (.created e :: h)).value e (store [(1, [7])] ((world (.created e :: h)).value e)) } := by
      show (world (.created e :: h)).apply _ = _
      simp only [World.apply]
      rw [if_pos he, if_neg (by simp [ht]), ht]
      rfl
    refine ⟨_, s2, hx2, ⟨?_, ?_, ?_, ?_, ?_, ?_, ?_⟩⟩
    · simp [handles, hu.count]
    · exact List.nodup_cons.2 ⟨h1, hu.nodup⟩
    · intro x
      simp only [handles, alive, List.mem_cons, hu.all x]
    · intro x hxm
      rw [hw]
      simp only [World.setTypes]
      by_cases hxe : x = e
      · simp [at', hxe]
      · have : x ∈ alive h := by simpa [alive, hxe] using hxm
        have := hu.types x this
        simp [at', hxe, world, World.apply, World.birth, this]
    · intro S hS
      rw [hw] at hS
      simp only [World.setTypes] at hS
      rw [if_neg (by simp)] at hS
      rcases List.mem_cons.1 hS with rfl | hS
      · rfl
      · exact hu.used S hS
    · rw [hw]
      simp only [World.setTypes]
      rw [if_pos ht]
      exact hu.left
    · intro x
      simp only [lastTag]
      exact hu.tag x

/-- **C65**, consequence: no stack is deep enough for `filter_tag`. For every `n` (below the number of handles) there is a
well-behaved execution after which the first call of `next` nests more than `n` calls deep. -/
theorem C65_unbounded (dbg : Bool) (n : Nat) (hn : n + 2 < u32Size) :
    ∃ h s it bv, SafeExec demo dbg 1 h s ∧ componentQueryIter demo s (.readonly [1]) [] = .ok it ∧
      s.tags.hasTagBitvec 5 = .ok bv ∧ it.nextFiltered dbg s bv n = .error .outOfFuel := by
  obtain ⟨h, s, hx, hu⟩ := uniform_exists dbg (n + 1) (by omega)
  obtain ⟨e, he⟩ : ∃ e, e ∈ handles h := List.exists_mem_of_length_pos (by rw [hu.count]; omega)
  have he := (hu.all e).1 he
  have he' := he
  rw [alive_eq] at he'
  obtain ⟨s1, -, hx1⟩ := (C46_safe_calls_return_partial hx).1 (.tagged 5 e) rfl he' (fun T hT => by cases hT)
  obtain ⟨s2, -, hx2⟩ := (C46_safe_calls_return_partial hx1).1 (.untagged 5 e) rfl he' (fun T hT => by cases hT)
  have hl := hx2.exec.loose
  obtain ⟨it, bv, items, h1, h2, h3, h4⟩ := C65_filter_tag_depth hl (.readonly [1]) []
    (fuel := (alive h).length + 1) (Nat.lt_succ_self _) (tag := 5) ⟨e, by simp⟩
  refine ⟨_, s2, it, bv, hx2, h1, h2, (h4 0 it rfl n).2 ?_⟩
  obtain ⟨items', k1, -, -, k4, -⟩ := C31_visits_once_partial hl (acc := .readonly [1]) (by decide) []
    (fuel := (alive h).length + 1) (Nat.lt_succ_self _)
  rw [h3] at k1
  cases k1
  have hall : ∀ x ∈ items, decide (s2.hasTag 5 x.1 = .ok false) = true := by
    intro x hxi
    have hxa := ((k4 x.1).1 (List.mem_map.2 ⟨x, hxi, rfl⟩)).1
    rw [C39_has_tag_is_last_change hl 5 hxa]
    simp only [lastTag]
    by_cases hxe : e = x.1
    · simp [hxe]
    · rw [if_neg (fun k => hxe k.2), if_neg (fun k => hxe k.2), hu.tag]
      rfl
  have hself : (items.takeWhile fun x => decide (s2.hasTag 5 x.1 = .ok false)) = items := by
    clear h4 k4 h3
    induction items with
    | nil => rfl
    | cons y l ih =>
      rw [List.takeWhile_cons, if_pos (hall y List.mem_cons_self), ih fun x hx => hall x (List.mem_cons_of_mem _ hx)]
  rw [List.drop_zero, hself]
  have hsub : ∀ x ∈ handles h, x ∈ items.map (·.1) := by
    intro x hxm
    have hxa := (hu.all x).1 hxm
    have hty := hu.types x hxa
    obtain ⟨a, j1, j2⟩ := (C27_archetype_is_type_set_partial hx2.exec (e := x) hxm).2 hxa (by
      show (world h).types x ≠ []
      rw [hty]; simp)
    refine (k4 x).2 ⟨hxa, a, j1, fun t ht => (j2 t).2 ?_⟩
    show t ∈ (world h).types x
    rw [hty]
    exact ht
  have := (List.subperm_of_subset hu.nodup hsub).length_le
  rw [hu.count, List.length_map] at this
  omega

/-- The hypotheses of `C65_filter_tag_depth` are met: one entity without the tag is skipped before one that has it, so the
first `next` nests two calls deep. -/
example : ∃ s, LooseExec demo true 1 [.tagged 5 ⟨1, 1⟩, .added ⟨1, 1⟩ [(1, [7])], .added ⟨0, 1⟩ [(1, [6])], .created ⟨1, 1⟩,
      .created ⟨0, 1⟩] s ∧
    okAnd (componentQueryIter demo s (.readonly [1]) []) (fun it => okAnd (s.tags.hasTagBitvec 5) fun bv =>
      decide ((it.nextFiltered true s bv 1).toOption.isNone ∧ (it.nextFiltered true s bv 2).toOption.isSome)) = true := by
  have h : ((runLoose demo true 1 [.tagged 5 ⟨1, 1⟩, .added ⟨1, 1⟩ [(1, [7])], .added ⟨0, 1⟩ [(1, [6])], .created ⟨1, 1⟩,
      .created ⟨0, 1⟩]).any fun s =>
    okAnd (componentQueryIter demo s (.readonly [1]) []) (fun it => okAnd (s.tags.hasTagBitvec 5) fun bv =>
      decide ((it.nextFiltered true s bv 1).toOption.isNone ∧ (it.nextFiltered true s bv 2).toOption.isSome))) = true := by
    decide
  obtain ⟨s, hs, h⟩ := any_some h
  exact ⟨s, runLoose_sound hs, h⟩

end Ecs.Props
