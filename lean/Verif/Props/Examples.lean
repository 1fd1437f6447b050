import Verif.Proofs.Examples
import Verif.Props.Archetypes
import Verif.Props.Layout

/-! C75: the example programs of the repository. -/

namespace Ecs.Props
open Spec

variable {U : Universe} {dbg : Bool} {ts : List TypeId} {tag : Nat} {data : List (List (List UInt8))}

private theorem data_ok {d : List (List UInt8)} (hn : ts.Nodup) (hd : d.map List.length = ts.map U.size) :
    d.length = ts.length ∧ TupleOk U (ts.zip d) := by
  have hl : d.length = ts.length := by simpa using congrArg List.length hd
  refine ⟨hl, by rw [List.map_fst_zip (by omega)]; exact hn, fun p hp => ?_⟩
  obtain ⟨i, h1, h2⟩ := List.mem_iff_getElem.1 hp
  rw [List.getElem_zip] at h2
  subst h2
  have h3 : i < ts.length := by rw [List.length_zip] at h1; omega
  have := congrArg (·[i]?) hd
  simpa [List.getElem?_eq_getElem h3, List.getElem?_eq_getElem (show i < d.length by omega)] using this

private theorem new_ok (dbg : Bool) : ∃ s, Store.new dbg = .ok s := by
  cases dbg <;> exact ⟨_, rfl⟩

private theorem populate_fills {T : List TypeId} {a : Archetype} (ha : Built U a) (hT : T = a.ids) (hts : ∀ t, t ∈ a.ids ↔ t ∈ ts)
    (hn : ts.Nodup) (hne : ts ≠ []) (hw : Wide U dbg a.ids) :
    ∀ {data : List (List (List UInt8))} {h : List Event} {s : Store} {rows : List (Entity × List (List UInt8))},
    (∀ d ∈ data, d.map List.length = ts.map U.size) → Filled U dbg T ts h s rows → rows.length + data.length < u32Size →
    ∃ s' h', ∃ es : List Entity, populateLoop U dbg ts a data s = .ok s' ∧ es.length = data.length ∧
      Filled U dbg T ts h' s' (rows ++ es.zip data)
  | [], h, s, rows, _, hf, _ => ⟨s, h, [], rfl, rfl, by simpa using hf⟩
  | d :: data, h, s, rows, hd, hf, hl => by
    obtain ⟨k1, k2⟩ := data_ok hn (hd d List.mem_cons_self)
    rw [List.length_cons] at hl
    obtain ⟨s1, e, s2, h', h1, h2, h3⟩ := hf.populate ha hT hts hn hne hw k2 k1 (by omega)
    obtain ⟨s', h'', es, h4, h5, h6⟩ := populate_fills ha hT hts hn hne hw (fun x hx => hd x (List.mem_cons_of_mem _ hx)) h3
      (by rw [List.length_append, List.length_singleton]; omega)
    refine ⟨s', h'', e :: es, ?_, by simp [h5], by simpa using h6⟩
    unfold populateLoop
    simp only [h1, h2, ok_bind]
    exact h4

private theorem sum_mod : ∀ (l : List Nat) (r : Nat),
    l.foldl (fun r x => (r + x) % u32Size) (r % u32Size) = (r + l.sum) % u32Size
  | [], r => by simp
  | x :: l, r => by
    rw [List.foldl_cons, Nat.mod_add_mod, sum_mod l, List.sum_cons, Nat.add_assoc]

/-- **C75**, `examples/cache_test.rs`: for component types of any sizes of which four rows fit into a page, and any number of
records below `u32::MAX`, the program returns. `iterate_ecs` reads the components of the records, bytes unchanged, in the order of
the array, and `warmup_ecs` sums up the ids 0, 1, 2, ... -/
theorem C75_cache_test (hn : ts.Nodup) (hne : ts ≠ []) (hw : Wide U dbg ts)
    (hd : ∀ d ∈ data, d.map List.length = ts.map U.size) (hl : data.length < u32Size) :
    cacheTest U dbg ts data =
      .ok ((List.range data.length).sum % u32Size, data.map fun d => d.map fun bytes => bytes.map some) := by
  obtain ⟨t0, ht0⟩ := List.exists_mem_of_ne_nil _ hne
  obtain ⟨a, b', hb, hm, _, _⟩ := (C15_builder_computes_set_expression (U := U) [.includeTypes ts] (by simp) rfl).2
    ⟨t0, by simpa [exprSet] using ht0⟩
  have hts : ∀ t, t ∈ a.ids ↔ t ∈ ts := fun t => by simpa [exprSet] using hm t
  have ha : Built U a := .builder [.includeTypes ts] (by simp) rfl hb
  have hw' : Wide U dbg a.ids := by
    obtain ⟨c, h1, h2⟩ := hw
    refine ⟨c, ?_, h2⟩
    rw [← h1, rowsPerPage_of ha.wf (T := a.ids) (fun _ => Iff.rfl), rowsPerPage_of ha.wf (T := ts) hts]
  obtain ⟨s0, hs0⟩ := new_ok dbg
  obtain ⟨s, h, es, k1, k2, k3⟩ := populate_fills (T := a.ids) (data := data) ha rfl hts hn hne hw' hd (Filled.init hs0) (by simpa using hl)
  rw [List.nil_append] at k3
  have hfst : (es.zip data).map (·.1) = es := List.map_fst_zip (by omega)
  have hlen : (es.zip data).length = data.length := by rw [List.length_zip]; omega
  have hids : es.map (·.id) = List.range data.length := by
    have := k3.ids
    rw [hlen] at this
    rw [← this, ← hfst, List.map_map, hfst]
    rfl
  have hvisit : visitOrder h (.readonly ts) = es := by
    unfold visitOrder
    rcases k3.groups with ⟨h1, h2⟩ | h1
    · rw [h2, ← hfst, h1]; rfl
    · rw [h1, hfst, List.filter_cons_of_pos (by exact decide_eq_true (Filled.covers hn fun t ht => (hts t).2 ht))]
      simp
  have halive : (alive h).length < data.length + 1 := by
    rw [k3.alive.length_eq, List.length_map, hlen]
    omega
  obtain ⟨items, q1, _, q3, _⟩ := C74_visit_order k3.safe.well k3.up (.readonly ts) [] halive
  unfold runComponentQueryWithEntities at q1
  obtain ⟨query, q1, q2⟩ := bind_eq_ok.1 q1
  obtain ⟨items', _, p2, p3, p4⟩ := C74_visit_order k3.safe.well k3.up (.readonly ts) query.pageViews halive
  have hread : readItems s (items'.map (·.2)) = .ok ((es.zip data).map fun x => x.2.map (·.map some)) := by
    refine k3.readAll hne (fun x hx => hx) ?_
    rw [hvisit] at p3
    have hl1 : items'.length = es.length := by rw [← p3, List.length_map]
    rw [List.forall₂_iff_get]
    refine ⟨by rw [hlen, List.length_map]; omega, fun i h1 h2 => ?_⟩
    simp only [List.get_eq_getElem, List.getElem_zip, List.getElem_map]
    have h3 : i < items'.length := by simpa using h2
    have := p4 _ (List.getElem_mem h3)
    have he : items'[i].1 = es[i]'(by omega) := by
      have := congrArg (·[i]?) p3
      simpa [List.getElem?_eq_getElem h3, List.getElem?_eq_getElem (show i < es.length by omega)] using this
    rw [he] at this
    exact this
  have hsum : items.foldl (fun r x => (r + x.1.id) % u32Size) 0 = (List.range data.length).sum % u32Size := by
    rw [hvisit] at q3
    have := sum_mod (es.map (·.id)) 0
    rw [Nat.zero_mod, Nat.zero_add, ← q3, List.foldl_map, List.foldl_map] at this
    rw [this, q3, hids]
  have hsnd : (es.zip data).map (fun x => x.2.map (·.map some)) = data.map fun d => d.map fun bytes => bytes.map (some : UInt8 → Cell) := by
    conv_rhs => rw [← List.map_snd_zip (l₁ := es) (l₂ := data) (by omega)]
    rw [List.map_map]
    rfl
  unfold cacheTest populateEcs
  simp only [hs0, ok_bind, hb, k1, q1, q2, p2, hread, hsum, hsnd, pure_ok]

private theorem bench_fills (hn : ts.Nodup) (hne : ts ≠ []) (hw : Wide U dbg ts) :
    ∀ {data : List (List (List UInt8))} {h : List Event} {s : Store} {rows : List (Entity × List (List UInt8))},
    (∀ d ∈ data, d.map List.length = ts.map U.size) → Benched U dbg ts tag h s rows → rows.length + data.length < u32Size →
    ∃ s' h', ∃ es : List Entity, benchLoop U dbg ts tag rows.length data s = .ok s' ∧ es.length = data.length ∧
      Benched U dbg ts tag h' s' (rows ++ es.zip data)
  | [], h, s, rows, _, hf, _ => ⟨s, h, [], rfl, rfl, by simpa using hf⟩
  | d :: data, h, s, rows, hd, hf, hl => by
    obtain ⟨k1, k2⟩ := data_ok hn (hd d List.mem_cons_self)
    rw [List.length_cons] at hl
    obtain ⟨s1, e, s2, h1, h2, h3⟩ := hf.step hn hne hw k2 k1 (by omega)
    have hrows : (rows ++ [(e, d)]).length = rows.length + 1 := by simp
    unfold benchLoop
    simp only [h1, h2, ok_bind]
    split at h3
    · next hi =>
      obtain ⟨s3, s4, h', h4, h5, h6⟩ := h3
      obtain ⟨s', h'', es, j1, j2, j3⟩ := bench_fills hn hne hw (fun x hx => hd x (List.mem_cons_of_mem _ hx)) h6
        (by rw [hrows]; omega)
      refine ⟨s', h'', e :: es, ?_, by simp [j2], by simpa using j3⟩
      rw [hrows] at j1
      rw [if_pos hi, h4]
      simp only [ok_bind, h5]
      exact j1
    · next hi =>
      obtain ⟨h', h6⟩ := h3
      obtain ⟨s', h'', es, j1, j2, j3⟩ := bench_fills hn hne hw (fun x hx => hd x (List.mem_cons_of_mem _ hx)) h6
        (by rw [hrows]; omega)
      refine ⟨s', h'', e :: es, ?_, by simp [j2], by simpa using j3⟩
      rw [hrows] at j1
      rw [if_neg hi]
      exact j1

private theorem filter_ids {l : List (Entity × List (List UInt8))} : ∀ {k : Nat}, l.map (·.1.id) = List.range' k l.length →
    (l.filter fun x => decide (x.1.id % 10 ≠ 0)).map (·.2) =
      (((l.map (·.2)).zipIdx k).filter fun x => decide (x.2 % 10 ≠ 0)).map (·.1) := by
  induction l with
  | nil => intro k _; rfl
  | cons x l ih =>
    intro k hk
    rw [List.map_cons, List.length_cons, List.range'_succ, List.cons_eq_cons] at hk
    have ih := ih hk.2
    rw [List.map_cons, List.zipIdx_cons]
    by_cases h10 : k % 10 ≠ 0
    · rw [List.filter_cons_of_pos (by simpa [hk.1] using h10), List.filter_cons_of_pos (by simpa using h10), List.map_cons,
        List.map_cons, ih]
    · rw [List.filter_cons_of_neg (by simpa [hk.1] using h10), List.filter_cons_of_neg (by simpa using h10), ih]

/-- The records at the positions that are not multiples of ten. -/
def notTenth (data : List (List (List UInt8))) : List (List (List UInt8)) :=
  ((data.zipIdx).filter fun x => decide (x.2 % 10 ≠ 0)).map (·.1)

/-- **C75**, `examples/query_bench.rs`: for component types of any sizes of which four rows fit into a page, and any number of
entities from 2 to `u32::MAX - 1`, the program returns, and both loops read the same values in the same order: the components of
the entities at the positions that are not multiples of ten. (In the second loop the entity delivered together with the
components can be another one, `C37_counterexample`; the program does not use it.) -/
theorem C75_query_bench (hn : ts.Nodup) (hne : ts ≠ []) (hw : Wide U dbg ts)
    (hd : ∀ d ∈ data, d.map List.length = ts.map U.size) (h2 : 2 ≤ data.length) (hl : data.length < u32Size) :
    queryBench U dbg ts tag data =
      .ok ((notTenth data).map fun d => d.map fun bytes => bytes.map some,
        (notTenth data).map fun d => d.map fun bytes => bytes.map some) := by
  obtain ⟨s0, hs0⟩ := new_ok dbg
  obtain ⟨s, h, es, k1, k2, k3⟩ := bench_fills (tag := tag) (data := data) hn hne hw hd
    ⟨Filled.init hs0, rfl, by simp, by simp⟩ (by simpa using hl)
  rw [List.nil_append] at k3
  have hlen : (es.zip data).length = data.length := by rw [List.length_zip]; omega
  have hsnd : (es.zip data).map (·.2) = data := List.map_snd_zip (by omega)
  have hfst : (es.zip data).map (·.1) = es := List.map_fst_zip (by omega)
  have halive : (alive h).length < data.length + 1 := by
    rw [k3.alive.length_eq, List.length_map, hlen]
    omega
  have hvals : ((es.zip data).filter fun x => decide (x.1.id % 10 ≠ 0)).map (fun x => x.2.map (·.map some)) =
      (notTenth data).map fun d => d.map fun bytes => bytes.map (some : UInt8 → Cell) := by
    have hids := k3.ids
    rw [List.range_eq_range'] at hids
    have := filter_ids hids
    rw [hsnd] at this
    unfold notTenth
    rw [← this, List.map_map]
    rfl
  -- the first loop
  obtain ⟨items, q1, q2⟩ := C33_filter_tag_partial k3.safe.exec.loose (.readonly ts) [] halive
    (k3.reg.2 (by rw [hlen]; omega))
  obtain ⟨items', p1, _, p3, p4⟩ := C74_visit_order k3.safe.well k3.up (.readonly ts) [] halive
  rw [q1] at p1
  cases p1
  have hvisit : visitOrder h (.readonly ts) = es := by
    unfold visitOrder
    rcases k3.groups with ⟨h1, h2⟩ | h1
    · rw [h2, ← hfst, h1]; rfl
    · rw [h1, hfst, List.filter_cons_of_pos (by exact decide_eq_true (Filled.covers hn fun t ht => ht))]
      simp
  rw [hvisit] at p3
  have htag : ∀ x ∈ es.zip data, s.hasTag tag x.1 = .ok (decide (x.1.id % 10 ≠ 0)) := fun x hx => by
    rw [(C49_store_refines_world_partial k3.safe.exec).tag x.1 (k3.data x hx).live, k3.tags x hx]
  have hfirst : List.Forall₂ (fun (x : Entity × List (List UInt8)) refs => s.getComponentsRefs U dbg x.1 ts = .ok (some refs))
      ((es.zip data).filter fun x => decide (x.1.id % 10 ≠ 0))
      ((items.filter fun x => decide (s.hasTag tag x.1 = .ok true)).map (·.2)) := by
    have key : ∀ (rows : List (Entity × List (List UInt8))) (items : List (Entity × List Ref)),
        items.map (·.1) = rows.map (·.1) → (∀ x ∈ items, s.getComponentsRefs U dbg x.1 ts = .ok (some x.2)) →
        (∀ x ∈ rows, s.hasTag tag x.1 = .ok (decide (x.1.id % 10 ≠ 0))) →
        List.Forall₂ (fun (x : Entity × List (List UInt8)) refs => s.getComponentsRefs U dbg x.1 ts = .ok (some refs))
          (rows.filter fun x => decide (x.1.id % 10 ≠ 0))
          ((items.filter fun x => decide (s.hasTag tag x.1 = .ok true)).map (·.2)) := by
      intro rows
      induction rows with
      | nil => intro items h1 _ _; rw [List.map_eq_nil_iff.1 h1]; exact .nil
      | cons r rows ih =>
        intro items h1 h2 h3
        cases items with
        | nil => cases h1
        | cons x items =>
          rw [List.map_cons, List.map_cons, List.cons_eq_cons] at h1
          have ih := ih items h1.2 (fun y hy => h2 y (List.mem_cons_of_mem _ hy)) fun y hy => h3 y (List.mem_cons_of_mem _ hy)
          have hr := h3 r List.mem_cons_self
          by_cases h10 : r.1.id % 10 ≠ 0
          · rw [List.filter_cons_of_pos (by simpa using h10), List.filter_cons_of_pos (by rw [h1.1, hr]; simpa using h10),
              List.map_cons]
            exact .cons (by rw [← h1.1]; exact h2 x List.mem_cons_self) ih
          · rw [List.filter_cons_of_neg (by simpa using h10), List.filter_cons_of_neg (by rw [h1.1, hr]; simpa using h10)]
            exact ih
    exact key _ _ (by rw [p3, hfst]) p4 htag
  have hread1 := k3.readAll hne (fun x hx => (List.mem_filter.1 hx).1) hfirst
  -- the second loop
  obtain ⟨items2, r1, r2⟩ := k3.ordered hn hne hw (fuel := data.length + 1) (by rw [hlen]; omega)
  have hread2 := k3.readAll hne (fun x hx => (List.mem_filter.1 hx).1) r2
  rw [hvals] at hread1 hread2
  unfold queryBench
  simp only [List.length_nil] at k1
  simp only [hs0, ok_bind, k1, q2, hread1, r1, hread2, pure_ok]

/-- **C75**, `examples/query_bench.rs` with fewer than two entities: no entity is tagged, and the first loop panics. -/
theorem C75_query_bench_too_few (hn : ts.Nodup) (hne : ts ≠ []) (hw : Wide U dbg ts)
    (hd : ∀ d ∈ data, d.map List.length = ts.map U.size) (h2 : data.length < 2) :
    queryBench U dbg ts tag data = .error (.panic .missingTag) := by
  obtain ⟨s0, hs0⟩ := new_ok dbg
  obtain ⟨s, h, es, k1, k2, k3⟩ := bench_fills (tag := tag) (data := data) hn hne hw hd
    ⟨Filled.init hs0, rfl, by simp, by simp⟩ (by simp only [List.length_nil]; omega)
  rw [List.nil_append] at k3
  have hlen : (es.zip data).length = data.length := by rw [List.length_zip]; omega
  have := C33_unused_tag_panics k3.safe.exec.loose (.readonly ts) [] (data.length + 1) (tag := tag)
    (fun h0 => by have := k3.reg.1 h0; omega)
  unfold queryBench
  simp only [List.length_nil] at k1
  simp only [hs0, ok_bind, k1, this]
  rfl

/-- The component types of `examples/cache_test.rs` (8, 4 and 12 bytes of `f32`s): 454 rows in a page. -/
theorem C75_cache_test_types {p r m : TypeId} (hn : [p, r, m].Nodup) (h1 : U.size p = 8 ∧ U.align p = 4)
    (h2 : U.size r = 4 ∧ U.align r = 4) (h3 : U.size m = 12 ∧ U.align m = 4) :
    rowsPerPage U dbg [p, r, m] = some 454 := by
  obtain ⟨a, k1, k2, k3⟩ := Archetype.withComponents_spec (U := U) hn (by simp)
  have hmem : ∀ t, t ∈ a.ids ↔ t = p ∨ t = r ∨ t = m := fun t => by rw [k3.mem_iff]; simp
  have hlen : a.ids.length = 3 := k3.length_eq
  obtain ⟨l, al, sz, l1, ⟨t1, l2, rfl⟩, l3, ⟨t2, l4, rfl⟩, l5, l6⟩ := C19_small_alignments_partial (dbg := dbg) (.tuple _ hn k1)
    (fun t ht => by rcases (hmem t).1 ht with rfl | rfl | rfl <;> simp [h1, h2, h3])
    (fun t ht => by rcases (hmem t).1 ht with rfl | rfl | rfl <;> simp [h1, h2, h3]) (by omega)
  rw [rowsPerPage_of k2 (T := [p, r, m]) (fun t => k3.mem_iff), l1]
  dsimp only
  rw [l6, hlen]
  have e1 : U.align t1 = 4 := by rcases (hmem t1).1 l2 with rfl | rfl | rfl <;> simp [h1, h2, h3]
  have e2 : U.size t2 = 12 := by
    have := l5 m ((hmem m).2 (by simp))
    rw [h3.1] at this
    rcases (hmem t2).1 l4 with rfl | rfl | rfl
    · rw [h1.1] at this; omega
    · rw [h2.1] at this; omega
    · exact h3.1
  rw [e1, e2]

/-- The component types of `examples/query_bench.rs` (12 bytes with alignment 4, 24 bytes with alignment 8): 341 rows in a page. -/
theorem C75_query_bench_types {x y : TypeId} (hn : [x, y].Nodup) (h1 : U.size x = 12 ∧ U.align x = 4)
    (h2 : U.size y = 24 ∧ U.align y = 8) : rowsPerPage U dbg [x, y] = some 341 := by
  obtain ⟨a, k1, k2, k3⟩ := Archetype.withComponents_spec (U := U) hn (by simp)
  rw [rowsPerPage_of k2 (T := [x, y]) (fun t => k3.mem_iff)]
  have hs := k2.sizes
  have hal := k2.aligns
  have hids : a.ids = [x, y] ∨ a.ids = [y, x] := by
    have hlen : a.ids.length = 2 := k3.length_eq
    match ha : a.ids, hlen with
    | [u, v], _ =>
      rw [ha] at k3
      have := k3.nodup_iff.2 hn
      have hu := k3.mem_iff.1 (show u ∈ [u, v] by simp)
      have hv := k3.mem_iff.1 (show v ∈ [u, v] by simp)
      simp only [List.mem_cons, List.not_mem_nil, or_false] at hu hv
      simp only [List.nodup_cons, List.mem_singleton] at this
      rcases hu with rfl | rfl <;> rcases hv with rfl | rfl <;> simp_all
  rcases a with ⟨ids, sizes, aligns⟩
  simp only at hs hal hids
  rcases hids with rfl | rfl <;> subst hs <;> subst hal <;>
    simp only [List.map_cons, List.map_nil, h1, h2]
  · have : Layout.new dbg ⟨[x, y], [12, 24], [4, 8]⟩ = Layout.new dbg ⟨[0, 1], [12, 24], [4, 8]⟩ := by unfold Layout.new; rfl
    rw [this]
    cases dbg <;> decide
  · have : Layout.new dbg ⟨[y, x], [24, 12], [8, 4]⟩ = Layout.new dbg ⟨[0, 1], [24, 12], [8, 4]⟩ := by unfold Layout.new; rfl
    rw [this]
    cases dbg <;> decide

/-! ### Examples -/

/-- The component types of the two programs: `Position`, `Rotation`, `MovingUnit`, and (from 3 on) `TestComponent1`,
`TestComponent2`. -/
def exampleTypes : Universe where
  size t := if t = 0 then 8 else if t = 1 then 4 else if t = 2 ∨ t = 3 then 12 else 24
  align t := if t < 4 then 4 else 8
  align_pos t := by split <;> omega
  align_dvd t := by
    split
    · next h =>
      split
      · exact ⟨2, rfl⟩
      · split
        · exact ⟨1, rfl⟩
        · split
          · exact ⟨3, rfl⟩
          · exact ⟨6, rfl⟩
    · next h =>
      rw [if_neg (by omega), if_neg (by omega), if_neg (by omega)]
      exact ⟨3, rfl⟩

/-- `examples/cache_test.rs` as it is, with its 20 000 000 records. -/
example (data : List (List (List UInt8))) (hc : data.length = 20000000)
    (hd : ∀ d ∈ data, d.map List.length = [8, 4, 12]) :
    cacheTest exampleTypes dbg [0, 1, 2] data =
      .ok ((List.range 20000000).sum % u32Size, data.map fun d => d.map fun bytes => bytes.map some) := by
  rw [← hc]
  exact C75_cache_test (by decide) (by decide)
    ⟨454, C75_cache_test_types (by decide) (by decide) (by decide) (by decide), by decide⟩ hd (by rw [hc]; decide)

/-- `examples/query_bench.rs` as it is, with its 2 000 000 entities. -/
example (data : List (List (List UInt8))) (hc : data.length = 2000000) (hd : ∀ d ∈ data, d.map List.length = [12, 24]) :
    ∃ values, queryBench exampleTypes dbg [3, 4] 0 data = .ok (values, values) ∧
      values = (notTenth data).map fun d => d.map fun bytes => bytes.map some :=
  ⟨_, C75_query_bench (by decide) (by decide)
    ⟨341, C75_query_bench_types (by decide) (by decide) (by decide), by decide⟩ hd (by omega) (by omega), rfl⟩

/-- Records as the programs use them. -/
example : ∀ d ∈ ([[[1, 2, 3, 4, 5, 6, 7, 8], [9, 10, 11, 12], [13, 14, 15, 16, 17, 18, 19, 20, 21, 22, 23, 24]]] :
    List (List (List UInt8))), d.map List.length = [8, 4, 12] := by decide

/-- What is skipped. -/
example : (notTenth ((List.range 23).map fun n => [[n.toUInt8]])).map (fun d => d.map fun bytes => bytes.map (·.toNat)) =
    ([1, 2, 3, 4, 5, 6, 7, 8, 9, 11, 12, 13, 14, 15, 16, 17, 18, 19, 21, 22].map fun n => [[n]]) := by decide

/-- The programs, run on small data. -/
example : cacheTest demo true [4, 1] [[[1], [2]], [[3], [4]], [[5], [6]]] =
    .ok (3, [[[some 1], [some 2]], [[some 3], [some 4]], [[some 5], [some 6]]]) := by decide

example : queryBench demo true [1] 7 [[[1]], [[2]], [[3]]] = .ok ([[[some 2]], [[some 3]]], [[[some 2]], [[some 3]]]) := by decide

end Ecs.Props
