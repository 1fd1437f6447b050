import Verif.Proofs.Archetype

/-! Properties C11–C16: archetypes as sets of component types. -/

namespace Ecs.Props
open Spec

/-- **C11.** The archetype of a non-empty tuple of distinct types exists and contains exactly those
types; `component_count`, `has_component` and `find_component_index` agree with that set. -/
theorem C11_archetype_is_a_set (U : Universe) (ts : List TypeId) (hn : ts.Nodup) (hne : ts ≠ []) :
    ∃ a, Archetype.withComponents U ts = .ok a ∧
      (∀ t, t ∈ a.ids ↔ t ∈ ts) ∧ a.ids.Nodup ∧
      a.componentCount = ts.length ∧
      (∀ t, a.hasComponent t = true ↔ t ∈ ts) ∧
      (∀ t i, a.findComponentIndex t = some i ↔ a.ids[i]? = some t) ∧
      (∀ t, a.findComponentIndex t = none ↔ t ∉ ts) ∧
      (∀ (i : Nat) t, a.ids[i]? = some t → a.sizes[i]? = some (U.size t) ∧ a.aligns[i]? = some (U.align t)) := by
  obtain ⟨a, h1, h2, h3⟩ := Archetype.withComponents_spec (U := U) hn hne
  refine ⟨a, h1, fun t => h3.mem_iff, h2.incr.nodup, h3.length_eq, fun t => ?_, fun t i => ?_,
    fun t => ?_, fun i t hi => ?_⟩
  · rw [Archetype.hasComponent_iff h2.incr, h3.mem_iff]
  · exact Archetype.findComponentIndex_iff h2.incr
  · rw [Archetype.findComponentIndex_none_iff h2.incr, h3.mem_iff]
  · rw [h2.sizes, h2.aligns]; simp [hi]

/-- **C11**, order independence: the order of the types in the tuple is irrelevant. -/
theorem C11_order_irrelevant (U : Universe) (ts us : List TypeId) (hn : ts.Nodup) (hp : ts.Perm us) :
    Archetype.withComponents U ts = Archetype.withComponents U us := by
  by_cases hne : ts = []
  · subst hne; rw [hp.symm.eq_nil]
  · have hne' : us ≠ [] := fun h => hne (by subst h; exact hp.eq_nil)
    obtain ⟨a, h1, h2, h3⟩ := Archetype.withComponents_spec (U := U) hn hne
    obtain ⟨b, g1, g2, g3⟩ := Archetype.withComponents_spec (U := U) (hp.nodup_iff.1 hn) hne'
    rw [h1, g1, h2.ext g2]
    exact h2.incr.ext g2.incr (fun t => by rw [h3.mem_iff, g3.mem_iff, hp.mem_iff])

/-- **C11** for every archetype the public API can produce, also by a builder: it stores a set of types with their sizes
and alignments, and lookups answer for this set. -/
theorem C11_built_is_a_set {U : Universe} {a : Archetype} (ha : Built U a) :
    a.ids ≠ [] ∧ a.ids.Nodup ∧ a.componentCount = a.ids.length ∧
      (∀ t, a.hasComponent t = true ↔ t ∈ a.ids) ∧
      (∀ t i, a.findComponentIndex t = some i ↔ a.ids[i]? = some t) ∧
      (∀ t, a.findComponentIndex t = none ↔ t ∉ a.ids) ∧
      (∀ (i : Nat) t, a.ids[i]? = some t → a.sizes[i]? = some (U.size t) ∧ a.aligns[i]? = some (U.align t)) ∧
      Archetype.withComponents U a.ids = .ok a := by
  have h := ha.wf
  refine ⟨h.ne, h.incr.nodup, rfl, fun t => Archetype.hasComponent_iff h.incr, fun t i => Archetype.findComponentIndex_iff h.incr,
    fun t => Archetype.findComponentIndex_none_iff h.incr, fun i t hi => ?_, ?_⟩
  · rw [h.sizes, h.aligns]; simp [hi]
  · obtain ⟨c, g1, g2, g3⟩ := Archetype.withComponents_spec (U := U) h.incr.nodup h.ne
    rw [g1, g2.ext h]
    exact g2.incr.ext h.incr (fun t => g3.mem_iff)

/-- A universe used in the examples: type `t` has size `4 * (t + 1)` and alignment 4. -/
def exampleUniverse : Universe where
  size t := 4 * (t + 1)
  align _ := 4
  align_pos _ := by omega
  align_dvd t := ⟨t + 1, rfl⟩

example : Archetype.withComponents exampleUniverse [7, 2, 5] =
    .ok ⟨[2, 5, 7], [12, 24, 32], [4, 4, 4]⟩ := by decide

/-- **C12.** `is_same_as` is set equality (and same set means same archetype data). -/
theorem C12_is_same_as_is_set_equality {U : Universe} {a b : Archetype} (ha : Built U a)
    (hb : Built U b) :
    (a.isSameAs b = true ↔ ∀ t, t ∈ a.ids ↔ t ∈ b.ids) ∧
    (a.isSameAs b = true ↔ a = b) := by
  have h1 := ha.wf; have h2 := hb.wf
  have hids : a.isSameAs b = true ↔ a.ids = b.ids := by
    unfold Archetype.isSameAs Archetype.componentCount
    by_cases hl : a.ids.length = b.ids.length
    · simp [hl]
    · simp only [bne_iff_ne, ne_eq, hl, not_false_eq_true, if_true, Bool.false_eq_true, false_iff]
      exact fun h => hl (by rw [h])
  refine ⟨?_, ?_⟩
  · rw [hids]
    exact ⟨fun h t => by rw [h], fun h => h1.incr.ext h2.incr h⟩
  · rw [hids]
    exact ⟨fun h => h1.ext h2 h, fun h => by rw [h]⟩

/-- **C13.** `is_include`, `is_include_ids` and `is_include_only_ids` decide inclusion and equality of
type sets; the id lists may be in any order. -/
theorem C13_include_decides_inclusion {U : Universe} {a : Archetype} (ha : Built U a) :
    (∀ b, Built U b → (a.isInclude b = true ↔ ∀ t ∈ b.ids, t ∈ a.ids)) ∧
    (∀ ids : List TypeId, ids.Nodup → (a.isIncludeIds ids = true ↔ ∀ t ∈ ids, t ∈ a.ids)) ∧
    (∀ ids : List TypeId, ids.Nodup → (a.isIncludeOnlyIds ids = true ↔ ids.Perm a.ids)) :=
  ⟨fun _ hb => Archetype.isIncludeIds_iff ha.wf.incr hb.wf.incr.nodup,
   fun _ hn => Archetype.isIncludeIds_iff ha.wf.incr hn,
   fun _ hn => Archetype.isIncludeOnlyIds_iff ha.wf.incr hn⟩

/-- **C13**, for arbitrary id lists: both functions also compare lengths. -/
theorem C13_include_any_ids {U : Universe} {a : Archetype} (ha : Built U a) (ids : List TypeId) :
    (a.isIncludeIds ids = true ↔ ids.length ≤ a.ids.length ∧ ∀ t ∈ ids, t ∈ a.ids) ∧
    (a.isIncludeOnlyIds ids = true ↔ ids.length = a.ids.length ∧ ∀ t ∈ ids, t ∈ a.ids) := by
  have hf := Archetype.allFound_iff ha.wf.incr ids
  unfold Archetype.isIncludeIds Archetype.isIncludeOnlyIds
  constructor
  · split
    · rename_i hlt
      simp only [Bool.false_eq_true, false_iff]
      intro h0; omega
    · rw [hf]
      exact ⟨fun h0 => ⟨by omega, h0⟩, fun h0 => h0.2⟩
  · split
    · rename_i hne
      simp only [Bool.false_eq_true, false_iff]
      exact fun h0 => hne h0.1.symm
    · rename_i hne
      rw [hf]
      exact ⟨fun h0 => ⟨by omega, h0⟩, fun h0 => h0.2⟩

/-- **C13**, why ids must be distinct: with a repeated id the length test makes both functions wrong. -/
theorem C13_counterexample_repeated_ids :
    ∃ a, Built exampleUniverse a ∧
      (a.isIncludeIds [1, 1, 1] = false ∧ ∀ t ∈ [1, 1, 1], t ∈ a.ids) ∧
      (a.isIncludeOnlyIds [1, 1] = true ∧ ¬ [1, 1].Perm a.ids) :=
  ⟨⟨[1, 2], [8, 12], [4, 4]⟩, .tuple [1, 2] (by decide) (by decide), by decide, by decide⟩

/-- **C14** for `is_exclude`: it never panics and decides disjointness. -/
theorem C14_is_exclude_decides_disjointness {U : Universe} {a b : Archetype} (ha : Built U a)
    (hb : Built U b) : a.isExclude b = .ok (decide (∀ t ∈ b.ids, t ∉ a.ids)) :=
  Archetype.isExcludeIds_sorted ha.wf.incr hb.wf.incr.le

/-- **C14** for `is_exclude_ids`. Full statement: for *every* id list `ids`,
`a.isExcludeIds ids = .ok (decide (∀ t ∈ ids, t ∉ a.ids))`. The code satisfies it only for
lists in ascending order (repetitions allowed); `C14_counterexample_unsorted_ids` refutes the rest. -/
theorem C14_is_exclude_ids_sorted_partial {U : Universe} {a : Archetype} (ha : Built U a)
    (ids : List TypeId) (hs : ids.Pairwise (· ≤ ·)) :
    a.isExcludeIds ids = .ok (decide (∀ t ∈ ids, t ∉ a.ids)) :=
  Archetype.isExcludeIds_sorted ha.wf.incr hs

/-- **C14** fails for unsorted id lists: the archetype {1, 5} is reported to exclude both 3 and 1. -/
theorem C14_counterexample_unsorted_ids :
    ∃ a, Built exampleUniverse a ∧ 1 ∈ a.ids ∧ a.isExcludeIds [3, 1] = .ok true :=
  ⟨⟨[1, 5], [8, 24], [4, 4]⟩, .tuple [5, 1] (by decide) (by decide), by decide, by decide⟩

/-- What `is_exclude_ids` guarantees for every id list: it never panics, and a negative answer is
always right. -/
theorem C14_is_exclude_ids_negative_partial {U : Universe} {a : Archetype} (_ha : Built U a)
    (ids : List TypeId) :
    ∃ r, a.isExcludeIds ids = .ok r ∧ (r = false → ∃ t ∈ ids, t ∈ a.ids) := by
  have key : ∀ (ids : List TypeId) (left : Nat), left ≤ a.ids.length →
      ∃ r, Archetype.excludeLoop a.ids left ids = .ok r ∧ (r = false → ∃ t ∈ ids, t ∈ a.ids) := by
    intro ids
    induction ids with
    | nil => intro left _; exact ⟨true, rfl, by simp⟩
    | cons x l ih =>
      intro left hle
      unfold Archetype.excludeLoop
      rw [if_pos hle]
      cases hs : binarySearch (a.ids.drop left) x with
      | found j =>
        exact ⟨false, rfl, fun _ => ⟨x, by simp,
          List.mem_of_mem_drop (List.mem_of_getElem? (binarySearch_found hs))⟩⟩
      | notFound j =>
        dsimp only
        split
        · exact ⟨true, rfl, by simp⟩
        · obtain ⟨r, h1, h2⟩ := ih j (by omega)
          refine ⟨r, h1, fun hr => ?_⟩
          obtain ⟨t, ht, hm⟩ := h2 hr
          exact ⟨t, List.mem_cons_of_mem _ ht, hm⟩
  exact key ids 0 (by omega)

/-- What `is_exclude_ids` guarantees for every id list: the answer is negative if the archetype has one of the ids
that are at least as large as all ids before them in the list. -/
theorem C14_is_exclude_ids_finds_partial {U : Universe} {a : Archetype} (ha : Built U a) (before after : List TypeId)
    {t : TypeId} (hm : ∀ x ∈ before, x ≤ t) (ht : t ∈ a.ids) :
    a.isExcludeIds (before ++ t :: after) = .ok false :=
  Archetype.excludeLoop_finds ha.wf.incr _ 0 (by omega) rfl ht hm fun _ _ hi => by omega

/-- An unsorted list that meets the hypotheses. -/
example : ∃ a, Built exampleUniverse a ∧ (∀ x ∈ [0, 4, 3], x ≤ 5) ∧ 5 ∈ a.ids ∧
    a.isExcludeIds ([0, 4, 3] ++ 5 :: [2]) = .ok false :=
  ⟨⟨[1, 5], [8, 24], [4, 4]⟩, .tuple [5, 1] (by decide) (by decide), by decide, by decide, by decide⟩

/-- The loop on a one-element archetype `x`, with ids smaller than `x` first and then a larger one. -/
private theorem excludeLoop_singleton {x y : TypeId} (hxy : x < y) (after : List TypeId) : ∀ before : List TypeId,
    (∀ z ∈ before, z < x) → Archetype.excludeLoop [x] 0 (before ++ y :: after) = .ok true := by
  have hbs : ∀ z : TypeId, binarySearch [x] z = if x = z then .found 0 else .notFound (if x < z then 1 else 0) := by
    intro z; simp [binarySearch, bsLoop]
  intro before
  induction before with
  | nil =>
    intro _
    simp only [List.nil_append]
    unfold Archetype.excludeLoop
    simp only [List.length_singleton, Nat.zero_le, if_true, List.drop_zero]
    rw [hbs, if_neg (by omega), if_pos hxy]
    simp
  | cons z l ih =>
    intro hz
    have h1 := hz z (by simp)
    simp only [List.cons_append]
    unfold Archetype.excludeLoop
    simp only [List.length_singleton, Nat.zero_le, if_true, List.drop_zero]
    rw [hbs, if_neg (by omega), if_neg (by omega)]
    simpa using ih (fun w hw => hz w (by simp [hw]))

/-- **C14** for `is_exclude_ids`, exactly: the answer for the id list is right for all archetypes if and only if every id
that was not named before in the list is larger than all ids before it. -/
theorem C14_is_exclude_ids_right_iff {U : Universe} (ids : List TypeId) :
    (∀ a, Built U a → a.isExcludeIds ids = .ok (decide (∀ t ∈ ids, t ∉ a.ids))) ↔
    ∀ before t after, ids = before ++ t :: after → t ∉ before → ∀ x ∈ before, x < t := by
  constructor
  · intro h before t after he hn x hx
    by_contra hlt
    have hxt : t < x := by
      rcases Nat.lt_trichotomy x t with h1 | h1 | h1
      · exact (hlt h1).elim
      · subst h1; exact (hn hx).elim
      · exact h1
    -- the first id that is larger than `t`
    obtain ⟨b, y, c, hb, h1, h2⟩ : ∃ b y c, before = b ++ y :: c ∧ t < y ∧ ∀ z ∈ b, ¬ t < z := by
      clear h he hn hlt
      induction before with
      | nil => simp at hx
      | cons z l ih =>
        by_cases hz : t < z
        · exact ⟨[], z, l, rfl, hz, by simp⟩
        · rcases List.mem_cons.1 hx with rfl | hx
          · exact (hz hxt).elim
          · obtain ⟨b, y, c, e1, e2, e3⟩ := ih hx
            exact ⟨z :: b, y, c, by rw [e1]; rfl, e2, by
              intro w hw
              rcases List.mem_cons.1 hw with rfl | hw
              · exact hz
              · exact e3 w hw⟩
    obtain ⟨a, ha⟩ : ∃ a, Archetype.withComponents U [t] = .ok a ∧ a.ids = [t] := ⟨_, rfl, rfl⟩
    have hr := h a (.tuple [t] (by simp) ha.1)
    unfold Archetype.isExcludeIds at hr
    rw [ha.2, he, hb, List.append_assoc, List.cons_append, excludeLoop_singleton h1] at hr
    · exact of_decide_eq_true (Except.ok.inj hr).symm t (by simp) (by simp)
    · intro z hz
      have h3 := h2 z hz
      have h4 : z ≠ t := by rintro rfl; exact hn (by rw [hb]; simp [hz])
      omega
  · intro h a ha
    by_cases hex : ∃ t ∈ ids, t ∈ a.ids
    · obtain ⟨t, h1, h2⟩ := hex
      obtain ⟨b, c, he, hn⟩ := List.eq_append_cons_of_mem h1
      subst he
      rw [C14_is_exclude_ids_finds_partial ha b c (fun x hx => Nat.le_of_lt (h b t c rfl hn x hx)) h2]
      congr 1
      symm
      rw [decide_eq_false_iff_not]
      exact fun h3 => h3 t h1 h2
    · obtain ⟨r, h1, h2⟩ := C14_is_exclude_ids_negative_partial ha ids
      rw [h1]
      cases r with
      | false => exact (hex (h2 rfl)).elim
      | true =>
        congr 1
        symm
        rw [decide_eq_true_eq]
        exact fun t ht hm => hex ⟨t, ht, hm⟩

/-- Both sides hold for a list with repetitions, and fail for an unsorted one. -/
example : (∀ a, Built exampleUniverse a → a.isExcludeIds [1, 1, 3, 1] = .ok (decide (∀ t ∈ ([1, 1, 3, 1] : List TypeId), t ∉ a.ids))) ∧
    ¬ ∀ a, Built exampleUniverse a → a.isExcludeIds [3, 1] = .ok (decide (∀ t ∈ ([3, 1] : List TypeId), t ∉ a.ids)) := by
  rw [C14_is_exclude_ids_right_iff, C14_is_exclude_ids_right_iff]
  refine ⟨?_, fun h => absurd (h [3] 1 [] rfl (by decide) 3 (by decide)) (by decide)⟩
  intro b t c he hn x hx
  match b, he with
  | [], _ => simp at hx
  | [y], he => simp at he; obtain ⟨rfl, rfl, _⟩ := he; simp at hn
  | [y, z], he => simp at he; obtain ⟨rfl, rfl, rfl, _⟩ := he; simp at hx; subst hx; decide
  | [y, z, w], he => simp at he; obtain ⟨rfl, rfl, rfl, rfl, _⟩ := he; simp at hn
  | y :: z :: w :: v :: b, he => simp at he

/-- **C15.** After any sequence of builder calls that returned, `build` panics iff the set expression
denotes the empty set, and otherwise returns the archetype of that set, the same one that
`Archetype::with_components` makes of a tuple of these types. -/
theorem C15_builder_computes_set_expression {U : Universe} (ops : List BuilderOp)
    (hops : ∀ x, .includeArchetype x ∈ ops → Built U x) {b : ArchetypeBuilder}
    (hr : runBuilder U .new ops = .ok b) :
    (b.build = .error (.panic .assertFailed) ↔ ∀ t, ¬ exprSet (fun _ => False) ops t) ∧
    ((∃ t, exprSet (fun _ => False) ops t) → ∃ a b', b.build = .ok (a, b') ∧
      (∀ t, t ∈ a.ids ↔ exprSet (fun _ => False) ops t) ∧ a.ids.Nodup ∧
      ∀ ts, ts.Nodup → (∀ t, t ∈ ts ↔ exprSet (fun _ => False) ops t) → Archetype.withComponents U ts = .ok a) := by
  obtain ⟨r, h1, h2⟩ := runBuilder_rep ops (BuilderRep.new U) (S := fun _ => False) (by simp)
    (fun x hx => (hops x hx).wf) hr
  refine ⟨?_, ?_⟩
  · constructor
    · intro hb t ht
      have hne : r ≠ [] := fun h => by rw [← h2, h] at ht; simp at ht
      obtain ⟨a, b', h3, _⟩ := h1.build hne
      rw [h3] at hb; cases hb
    · intro hn
      have : r = [] := List.eq_nil_iff_forall_not_mem.2 (fun t ht => hn t ((h2 t).1 ht))
      subst this
      exact h1.build_nil
  · rintro ⟨t, ht⟩
    have hne : r ≠ [] := fun h => by rw [← h2, h] at ht; simp at ht
    obtain ⟨a, b', h3, h4, h5, _⟩ := h1.build hne
    have hm : ∀ t, t ∈ a.ids ↔ exprSet (fun _ => False) ops t := fun t => by rw [h5.mem_iff, h2]
    refine ⟨a, b', h3, hm, h4.incr.nodup, fun ts hn hts => ?_⟩
    obtain ⟨c, g1, g2, g3⟩ := Archetype.withComponents_spec (U := U) hn (List.ne_nil_of_mem ((hts t).2 ht))
    rw [g1, g2.ext h4]
    exact g2.incr.ext h4.incr (fun t => by rw [g3.mem_iff, hts, hm])

/-- **C15**, failures of the call sequence itself: it panics iff some intermediate `build` found the
set empty; there is no other failure. -/
theorem C15_builder_calls_fail_iff {U : Universe} (ops : List BuilderOp)
    (hops : ∀ x, .includeArchetype x ∈ ops → Built U x) :
    (∃ b, runBuilder U .new ops = .ok b) ∨
    (runBuilder U .new ops = .error (.panic .assertFailed) ∧
      ∃ before after, ops = before ++ .build :: after ∧
        ∀ t, ¬ exprSet (fun _ => False) before t) := by
  have key : ∀ (done todo : List BuilderOp), (∀ x, .includeArchetype x ∈ done ++ todo → Built U x) →
      ∀ b, runBuilder U .new done = .ok b →
      (∃ b', runBuilder U b todo = .ok b') ∨
      (runBuilder U b todo = .error (.panic .assertFailed) ∧
        ∃ before after, done ++ todo = before ++ .build :: after ∧
          ∀ t, ¬ exprSet (fun _ => False) before t) := by
    intro done todo
    induction todo generalizing done with
    | nil => intro _ b _; exact Or.inl ⟨b, rfl⟩
    | cons op todo ih =>
      intro hw b hb
      have happ : ∀ b1, op.run U b = .ok b1 → runBuilder U .new (done ++ [op]) = .ok b1 := by
        intro b1 hb1
        rw [runBuilder_append, hb]
        simp [runBuilder, hb1]
      have hw' : ∀ x, .includeArchetype x ∈ done ++ [op] ++ todo → Built U x := by
        simpa using hw
      have step : ∀ b1, op.run U b = .ok b1 →
          (∃ b', runBuilder U b (op :: todo) = .ok b') ∨
          (runBuilder U b (op :: todo) = .error (.panic .assertFailed) ∧
            ∃ before after, done ++ op :: todo = before ++ .build :: after ∧
              ∀ t, ¬ exprSet (fun _ => False) before t) := by
        intro b1 hb1
        have := ih (done ++ [op]) hw' b1 (happ b1 hb1)
        simpa [runBuilder, hb1] using this
      cases op with
      | includeTypes ts => exact step _ rfl
      | excludeTypes ts => exact step _ rfl
      | includeArchetype a => exact step _ rfl
      | build =>
        have hdone : ∀ x, .includeArchetype x ∈ done → Built U x := fun x hx => hw x (by simp [hx])
        obtain ⟨h1, h2⟩ := C15_builder_computes_set_expression done hdone hb
        by_cases he : ∃ t, exprSet (fun _ => False) done t
        · obtain ⟨a, b', h3, _⟩ := h2 he
          exact step b' (by simp [BuilderOp.run, h3])
        · have hn : ∀ t, ¬ exprSet (fun _ => False) done t := fun t ht => he ⟨t, ht⟩
          right
          refine ⟨?_, done, todo, rfl, hn⟩
          simp [runBuilder, BuilderOp.run, h1.2 hn]
  simpa using key [] ops (by simpa using hops) .new rfl
where
  runBuilder_append {U : Universe} (b : ArchetypeBuilder) (xs ys : List BuilderOp) :
      runBuilder U b (xs ++ ys) = (runBuilder U b xs >>= fun b' => runBuilder U b' ys) := by
    induction xs generalizing b with
    | nil => rfl
    | cons x xs ih =>
      simp only [List.cons_append, runBuilder]
      cases x.run U b with
      | error e => rfl
      | ok b1 => simp [ih]

example : ∃ b b', runBuilder exampleUniverse .new
      [.includeTypes [3, 1, 3], .build, .excludeTypes [1, 9],
       .includeArchetype ⟨[2, 5], [12, 24], [4, 4]⟩] = .ok b ∧
      b.build = .ok (⟨[2, 3, 5], [12, 16, 24], [4, 4, 4]⟩, b') :=
  ⟨_, _, rfl, rfl⟩

example : ∃ b, runBuilder exampleUniverse .new [.includeTypes [3], .excludeTypes [3]] = .ok b ∧
    b.build = .error (.panic .assertFailed) :=
  ⟨_, rfl, ((C15_builder_computes_set_expression (U := exampleUniverse)
    [.includeTypes [3], .excludeTypes [3]] (by simp) rfl).1).2 (by
      intro t; simp [exprSet])⟩

/-- **C16.** The union of two archetypes pairs the indices of each shared type exactly once and pairs
nothing else. -/
theorem C16_union_pairs_shared_types {U : Universe} {a b : Archetype} (ha : Built U a)
    (hb : Built U b) :
    let u := ArchetypesUnion.calculate a b
    u.lhsIndices.length = u.rhsIndices.length ∧ u.len = u.rhsIndices.length ∧
    (u.lhsIndices.zip u.rhsIndices).Nodup ∧
    (∀ i j, (i, j) ∈ u.lhsIndices.zip u.rhsIndices ↔ ∃ t, a.ids[i]? = some t ∧ b.ids[j]? = some t) ∧
    (∀ t, t ∈ a.ids → t ∈ b.ids → ∃ i j, (i, j) ∈ u.lhsIndices.zip u.rhsIndices ∧
      a.ids[i]? = some t ∧ b.ids[j]? = some t ∧
      ∀ i' j', (i', j') ∈ u.lhsIndices.zip u.rhsIndices → a.ids[i']? = some t → (i', j') = (i, j)) := by
  obtain ⟨h1, h2, h3⟩ := ArchetypesUnion.calculate_spec ha.wf.incr hb.wf.incr
  refine ⟨h1, h1, h2, h3, fun t hta htb => ?_⟩
  obtain ⟨i, hi, hti⟩ := List.getElem_of_mem hta
  obtain ⟨j, hj, htj⟩ := List.getElem_of_mem htb
  have e1 : a.ids[i]? = some t := by rw [List.getElem?_eq_getElem hi, hti]
  have e2 : b.ids[j]? = some t := by rw [List.getElem?_eq_getElem hj, htj]
  refine ⟨i, j, (h3 i j).2 ⟨t, e1, e2⟩, e1, e2, fun i' j' hm hi' => ?_⟩
  obtain ⟨t', g1, g2⟩ := (h3 i' j').1 hm
  rw [hi'] at g1; cases g1
  rw [ha.wf.incr.getElem?_inj hi' e1, hb.wf.incr.getElem?_inj g2 e2]

example : ArchetypesUnion.calculate ⟨[1, 4, 9], [], []⟩ ⟨[0, 4, 7, 9], [], []⟩ = ⟨[1, 2], [1, 3]⟩ := by
  decide

/-- Two archetypes built in different ways that meet the hypotheses of C12–C16. -/
example : Built exampleUniverse ⟨[1, 5], [8, 24], [4, 4]⟩ ∧
    Built exampleUniverse ⟨[1, 2, 5], [8, 12, 24], [4, 4, 4]⟩ :=
  ⟨.tuple [5, 1] (by decide) (by decide),
   .builder [.includeTypes [2, 3], .includeArchetype ⟨[1, 5], [8, 24], [4, 4]⟩, .excludeTypes [3]]
     (by
       intro x hx
       simp only [List.mem_cons, reduceCtorEq, BuilderOp.includeArchetype.injEq, List.not_mem_nil,
         false_or, or_false] at hx
       subst hx
       exact .tuple [5, 1] (by decide) (by decide)) rfl rfl⟩

private theorem copyArray_eq (l : List Nat) {n : Nat} (h : n = l.length) :
    (List.range n).mapM (fun i => idxUnchecked l i) = .ok l := by
  subst h
  rw [← List.mapM'_eq_mapM]
  have : ∀ k, k ≤ l.length → (List.range' (l.length - k) k).mapM' (fun i => idxUnchecked l i) = .ok (l.drop (l.length - k)) := by
    intro k
    induction k with
    | zero => intro _; simp
    | succ k ih =>
      intro hk
      have hlt : l.length - (k + 1) < l.length := by omega
      rw [List.range'_succ, List.mapM'_cons, show l.length - (k + 1) + 1 = l.length - k by omega, ih (by omega),
        idxUnchecked_of_some (List.getElem?_eq_getElem hlt), List.drop_eq_getElem_cons hlt,
        show l.length - (k + 1) + 1 = l.length - k by omega]
      rfl
  have := this l.length (Nat.le_refl _)
  rw [Nat.sub_self, ← List.range_eq_range', List.drop_zero] at this
  exact this

/-- **C53.** Cloning an archetype returns the same archetype (so `is_same_as` holds), reading within the
arrays; and two archetypes feed the same data to a hasher exactly if `is_same_as` holds. -/
theorem C53_clone_and_hash {U : Universe} {a b : Archetype} (ha : Built U a) (hb : Built U b) :
    a.clone = .ok a ∧ ∃ x y, a.hashed = .ok x ∧ b.hashed = .ok y ∧ (x = y ↔ a.isSameAs b = true) := by
  have h1 := ha.wf; have h2 := hb.wf
  refine ⟨?_, a.ids, b.ids, copyArray_eq _ rfl, copyArray_eq _ rfl, ?_⟩
  · have e1 := copyArray_eq a.ids (n := a.componentCount) rfl
    have e2 := copyArray_eq a.sizes (n := a.componentCount) (by rw [h1.sizes]; simp [Archetype.componentCount])
    have e3 := copyArray_eq a.aligns (n := a.componentCount) (by rw [h1.aligns]; simp [Archetype.componentCount])
    unfold Archetype.clone Archetype.copyArray
    simp only [e1, e2, e3, ok_bind, pure_ok]
  · rw [(C12_is_same_as_is_set_equality ha hb).2]
    exact ⟨fun h => h1.ext h2 h, fun h => by rw [h]⟩

/-- The two archetypes above are cloned, and hash different data. -/
example : Archetype.clone ⟨[1, 5], [8, 24], [4, 4]⟩ = .ok ⟨[1, 5], [8, 24], [4, 4]⟩ ∧
    Archetype.hashed ⟨[1, 5], [8, 24], [4, 4]⟩ = .ok [1, 5] ∧
    Archetype.hashed ⟨[1, 2, 5], [8, 12, 24], [4, 4, 4]⟩ = .ok [1, 2, 5] := by decide

end Ecs.Props
