import Verif.Spec.Agree
import Verif.Props.QueryAny
import Verif.Props.QueryCompAny
import Verif.Props.Together

/-! Property C111: the kinds of queries agree with one another, in every state reached by calls that returned
(`LooseExec`, see `Spec/World.lean`). -/

namespace Ecs.Props
open Spec

section
variable {U : Universe} {dbg : Bool} {cap : Nat} {h : List Event} {s : Store}

theorem stored_of_given {e : Entity} : ∀ {h : List Event}, e ∈ given h → e.id ∈ stored h
  | [], he => by cases he
  | ev :: h, he => by
    have ih := stored_of_given (e := e) (h := h)
    cases ev with
    | createdWith e' a v =>
      rcases List.mem_cons.1 he with rfl | he
      · exact List.mem_cons_self
      · exact List.mem_cons_of_mem _ (ih he)
    | added e' v =>
      unfold given at he
      unfold stored
      by_cases ha : e' ∈ alive h
      · rw [if_pos ha] at he ⊢
        rcases List.mem_cons.1 he with rfl | he
        · exact List.mem_cons_self
        · exact List.mem_cons_of_mem _ (ih he)
      · rw [if_neg ha] at he ⊢
        exact ih he
    | _ => exact ih he

private theorem not_misled {acc : Access} {L : List Entity} (hL : ∀ e ∈ L, Usable cap h s e) : ¬ Misled dbg cap h s acc L := by
  rintro ⟨⟨y, x⟩, h1, -, h3⟩
  have hx : x ∈ L := List.mem_of_mem_tail (List.of_mem_zip h1).2
  obtain ⟨-, k1, k2⟩ := hL x hx
  rcases h3 with h3 | h3
  · exact h3 k1
  · exact h3.2.1 (k2 h3.1)

private theorem flatMap_sublist {α β : Type} {f g : α → List β} (hfg : ∀ a, (f a).Sublist (g a)) : ∀ l : List α,
    (l.flatMap f).Sublist (l.flatMap g)
  | [] => .slnil
  | a :: l => by
    rw [List.flatMap_cons, List.flatMap_cons]
    exact (hfg a).append (flatMap_sublist hfg l)

private theorem forall₂_map_eq {α β γ : Type} {R : α → β → Prop} {f : α → γ} {g : β → γ} (hR : ∀ a b, R a b → f a = g b) :
    ∀ {l : List α} {m : List β}, List.Forall₂ R l m → l.map f = m.map g
  | _, _, .nil => rfl
  | _, _, .cons hd tl => by rw [List.map_cons, List.map_cons, hR _ _ hd, forall₂_map_eq hR tl]

private theorem forall₂_right {α β : Type} {R : α → β → Prop} {P : β → Prop} (hR : ∀ a b, R a b → P b) :
    ∀ {l : List α} {m : List β}, List.Forall₂ R l m → ∀ b ∈ m, P b
  | _, _, .nil, _, hb => by cases hb
  | _, _, .cons hd tl, b, hb => by
    rcases List.mem_cons.1 hb with rfl | hb
    · exact hR _ _ hd
    · exact forall₂_right hR tl b hb

/-- What `get_components_refs` returns, if it returns references. -/
private def refsIf (U : Universe) (dbg : Bool) (s : Store) (acc : Access) (e : Entity) : List Ref :=
  match s.getComponentsRefs U dbg e acc.types with
  | .ok (some rs) => rs
  | _ => []

private theorem refsIf_of {acc : Access} {e : Entity} {rs : List Ref} (h : s.getComponentsRefs U dbg e acc.types = .ok (some rs)) :
    refsIf U dbg s acc e = rs := by
  unfold refsIf; rw [h]

private theorem entity_map (hx : LooseExec U dbg cap h s) {acc : Access} {L : List Entity} (hL : ∀ e ∈ L, Usable cap h s e)
    (old : List (Range × IterView)) {fuel : Nat} (hf : L.length < fuel) :
    runEntityQueryWithEntities U dbg s L acc old fuel =
      .ok ((L.filter (selected dbg s acc)).map fun e => (e, refsIf U dbg s acc e)) ∧
    runEntityQuery U dbg s L acc old fuel = .ok ((L.filter (selected dbg s acc)).map (refsIf U dbg s acc)) := by
  obtain ⟨items, h1, h2, h3, h4⟩ := (C35_entity_query_iff hx (fun e he => (hL e he).1) old hf).2 (not_misled hL)
  have key : items = (L.filter (selected dbg s acc)).map fun e => (e, refsIf U dbg s acc e) := by
    rw [← h3, List.map_map]
    symm
    refine (List.map_congr_left fun x hx => ?_).trans (List.map_id _)
    show (x.1, refsIf U dbg s acc x.1) = x
    rw [refsIf_of (h4 x hx)]
  refine ⟨by rw [h1, key], ?_⟩
  rw [h2, key, List.map_map]
  rfl

/-- **C111**, entity queries: the query over two lists, one after the other, returns what the query over the first returns
followed by what the query over the second returns. -/
theorem C111_append (hx : LooseExec U dbg cap h s) {acc : Access} {L M : List Entity} (hL : ∀ e ∈ L, Usable cap h s e)
    (hM : ∀ e ∈ M, Usable cap h s e) (old : List (Range × IterView)) {fuel : Nat} (hf : L.length + M.length < fuel) :
    ∃ ls ms, runEntityQueryWithEntities U dbg s L acc old fuel = .ok ls ∧ runEntityQueryWithEntities U dbg s M acc old fuel = .ok ms ∧
      runEntityQueryWithEntities U dbg s (L ++ M) acc old fuel = .ok (ls ++ ms) := by
  refine ⟨_, _, (entity_map hx hL old (by omega)).1, (entity_map hx hM old (by omega)).1, ?_⟩
  rw [(entity_map hx (fun e he => (List.mem_append.1 he).elim (hL e) (hM e)) old (by rw [List.length_append]; exact hf)).1,
    List.filter_append, List.map_append]

/-- **C111**, entity queries: the query over a part of a list returns the items of the entities in this part. -/
theorem C111_part (hx : LooseExec U dbg cap h s) {acc : Access} {L : List Entity} (hL : ∀ e ∈ L, Usable cap h s e)
    (keep : Entity → Bool) (old : List (Range × IterView)) {fuel : Nat} (hf : L.length < fuel) :
    ∃ ls, runEntityQueryWithEntities U dbg s L acc old fuel = .ok ls ∧
      runEntityQueryWithEntities U dbg s (L.filter keep) acc old fuel = .ok (ls.filter fun x => keep x.1) := by
  refine ⟨_, (entity_map hx hL old hf).1, ?_⟩
  rw [(entity_map hx (fun e he => hL e (List.mem_filter.1 he).1) old (Nat.lt_of_le_of_lt (List.length_filter_le _ _) hf)).1,
    List.filter_map, List.filter_filter, List.filter_filter]
  exact congrArg (fun l => Except.ok (List.map _ l)) (List.filter_congr fun e _ => by
    show (selected dbg s acc e && keep e) = (keep e && selected dbg s acc e)
    rw [Bool.and_comm])

/-- **C111**, entity queries: changing the order of the list changes only the order of the items. -/
theorem C111_reorder (hx : LooseExec U dbg cap h s) {acc : Access} {L M : List Entity} (hL : ∀ e ∈ L, Usable cap h s e)
    (hp : L.Perm M) (old : List (Range × IterView)) {fuel : Nat} (hf : L.length < fuel) :
    ∃ ls ms, runEntityQueryWithEntities U dbg s L acc old fuel = .ok ls ∧ runEntityQueryWithEntities U dbg s M acc old fuel = .ok ms ∧
      ls.Perm ms :=
  ⟨_, _, (entity_map hx hL old hf).1, (entity_map hx (fun e he => hL e (hp.mem_iff.2 he)) old (hp.length_eq ▸ hf)).1,
    (hp.filter _).map _⟩

/-- The live entities that were given components are usable. -/
theorem furnished_usable (hx : LooseExec U dbg cap h s) {e : Entity} (ha : e ∈ alive h) (hg : e ∈ given h) : Usable cap h s e := by
  have := (loose_core hx).ents.sub e (alive_eq h ▸ ha)
  exact ⟨(loose_core hx).ents.issued_id_lt this, .inr (stored_of_given hg), fun _ => hg⟩

/-- **C111**, ordered and entity queries: if every member of the group was given components, the ordered query returns exactly what an
entity query returns for the list of the members. -/
theorem C111_ordered_is_entity (hx : LooseExec U dbg cap h s) {acc : Access} {g : Nat} (hg : ∀ e ∈ sequence g h, e ∈ given h)
    (old old' : List (Range × IterView)) {fuel : Nat} (hf : (sequence g h).length < fuel) :
    ∃ items, runOrderedQuery U dbg s g acc old fuel = .ok items ∧ runEntityQuery U dbg s (sequence g h) acc old' fuel = .ok items := by
  obtain ⟨items, h1, h2⟩ := (C36_ordered_query_iff (dbg := dbg) (acc := acc) hx old hf).2 fun x hx hn => (hn (hg x hx)).elim
  have hal : ∀ e ∈ sequence g h, e ∈ alive h := fun e he => by
    rw [alive_eq]
    exact (loose_core hx).ordLive g e (sequence_eq g h ▸ he)
  refine ⟨items, h1, ?_⟩
  rw [(entity_map hx (fun e he => furnished_usable hx (hal e he) (hg e he)) old' hf).2]
  congr 1
  refine (forall₂_map_eq (g := id) (fun e rs hr => ?_) h2).trans (List.map_id _)
  exact refsIf_of hr

/-- **C111**, the same with `with_entities`: here the two queries agree exactly when no two neighbours in consecutive rows come after a
selected member in another page (C37). -/
theorem C111_ordered_entities_iff (hx : LooseExec U dbg cap h s) {acc : Access} {g : Nat} (hg : ∀ e ∈ sequence g h, e ∈ given h)
    (old old' : List (Range × IterView)) {fuel : Nat} (hf : (sequence g h).length < fuel) :
    runOrderedQueryWithEntities U dbg s g acc old fuel = runEntityQueryWithEntities U dbg s (sequence g h) acc old' fuel ↔
      ¬ TurnsPage dbg acc s (sequence g h) := by
  have hal : ∀ e ∈ sequence g h, e ∈ alive h := fun e he => by
    rw [alive_eq]
    exact (loose_core hx).ordLive g e (sequence_eq g h ▸ he)
  have hu : ∀ e ∈ sequence g h, Usable cap h s e := fun e he => furnished_usable hx (hal e he) (hg e he)
  have h37 := C37_ordered_with_entities_iff (dbg := dbg) (acc := acc) hx old hf
  rw [and_iff_right (fun x hx hn => (hn (hg x hx)).elim)] at h37
  rw [← h37]
  constructor
  · intro heq
    obtain ⟨items, h1, -, h3, h4⟩ := (C35_entity_query_iff (acc := acc) hx (fun e he => (hu e he).1) old' hf).2 (not_misled hu)
    exact ⟨items, heq.trans h1, h3, h4⟩
  · rintro ⟨items, h1, h3, h4⟩
    rw [h1, (entity_map hx hu old' hf).1, ← h3, List.map_map]
    congr 1
    symm
    refine (List.map_congr_left fun x hx => ?_).trans (List.map_id _)
    show (x.1, refsIf U dbg s acc x.1) = x
    rw [refsIf_of (h4 x hx)]

/-- **C111**, component and entity queries: a component query returns what an entity query returns for the list of all live entities that
were given components, perhaps in another order. -/
theorem C111_component_is_entity (hx : LooseExec U dbg cap h s) (acc : Access) (old : List IterView) (old' : List (Range × IterView))
    {fuel : Nat} (hf : (alive h).length < fuel) :
    ∃ items items', runComponentQueryWithEntities U dbg s acc old fuel = .ok items ∧
      runEntityQueryWithEntities U dbg s (furnished h) acc old' fuel = .ok items' ∧ items.Perm items' := by
  obtain ⟨items, h1, -, h3, h4, h5⟩ := C31_visits_covered hx acc old hf
  have hu : ∀ e ∈ furnished h, Usable cap h s e := fun e he =>
    furnished_usable hx (List.mem_filter.1 he).1 (of_decide_eq_true (List.mem_filter.1 he).2)
  refine ⟨items, _, h1, (entity_map hx hu old' (Nat.lt_of_le_of_lt (List.length_filter_le _ _) hf)).1, ?_⟩
  have key : items = (items.map (·.1)).map fun e => (e, refsIf U dbg s acc e) := by
    rw [List.map_map]
    symm
    refine (List.map_congr_left fun x hx => ?_).trans (List.map_id _)
    show (x.1, refsIf U dbg s acc x.1) = x
    rw [refsIf_of (h5 x hx)]
  rw [key]
  refine List.Perm.map _ ((List.perm_ext_iff_of_nodup h3 ?_).2 fun e => ?_)
  · have : (alive h).Nodup := by
      rw [alive_eq]
      exact (List.nodup_append.1 (loose_core hx).ents.nodup).1.of_map _
    exact (this.filter _).filter _
  · rw [h4 e, List.mem_filter]
    unfold furnished
    rw [List.mem_filter, decide_eq_true_eq]
    have hsel : selected dbg s acc e = true ↔ ∃ a, s.getEntityArchetype dbg e = .ok (some a) ∧ Covers a.ids acc := by
      unfold selected
      split
      · next a ha => simp [ha]
      · next hn => simp only [Bool.false_eq_true, false_iff]; rintro ⟨a, ha, -⟩; exact hn a ha
    rw [hsel]
    constructor
    · rintro ⟨ha, a, k1, k2⟩
      refine ⟨⟨ha, ?_⟩, a, k1, k2⟩
      have hid := (loose_core hx).ents.issued_id_lt ((loose_core hx).ents.sub e (alive_eq h ▸ ha))
      have := ((loose_readable hx).selected_iff (dbg := dbg) hid).1 (hsel.2 ⟨a, k1, k2⟩)
      exact ((given_bit hx).2 e ha).1 this.2.1
    · rintro ⟨⟨ha, _⟩, h0⟩
      exact ⟨ha, h0⟩

/-- **C111**, component queries: a query for more types returns some of the entities which the query for fewer types returns, in the same
order, and for the types that both name the same references. (`acc` names distinct types; `acc'` names them too, and perhaps others.) -/
theorem C111_narrower (hx : LooseExec U dbg cap h s) {acc acc' : Access} (hd : DistinctTypes acc)
    (hsub : ∀ t ∈ acc.types, t ∈ acc'.types) (old old' : List IterView) {fuel : Nat} (hf : (alive h).length < fuel) :
    ∃ items items', runComponentQueryWithEntities U dbg s acc old fuel = .ok items ∧
      runComponentQueryWithEntities U dbg s acc' old' fuel = .ok items' ∧
      (items'.map (·.1)).Sublist (items.map (·.1)) ∧
      ∀ e rs rs', (e, rs) ∈ items → (e, rs') ∈ items' → ∀ i j t : Nat, acc.types[i]? = some t → acc'.types[j]? = some t →
        rs[i]? = rs'[j]? := by
  obtain ⟨items, h1, -, h3⟩ := C31_visits_rows (dbg := dbg) hx acc old hf
  obtain ⟨items', h1', -, h3'⟩ := C31_visits_rows (dbg := dbg) hx acc' old' hf
  obtain ⟨_, k1, -, -, -, k5⟩ := C31_visits_covered (dbg := dbg) hx acc old hf
  obtain ⟨_, k1', -, -, -, k5'⟩ := C31_visits_covered (dbg := dbg) hx acc' old' hf
  rw [h1] at k1
  cases k1
  rw [h1'] at k1'
  cases k1'
  have hent : ∀ (row : Row) (x : Entity × List Ref), x.1.id = row.id ∧ s.ents.versions[row.id]? = some (some x.1.version) → 
      s.entOf row.id = x.1 := by
    rintro row ⟨⟨i, v⟩, rs⟩ ⟨e1, e2⟩
    unfold Store.entOf
    rw [e2]
    show (⟨row.id, v⟩ : Entity) = _
    rw [← e1]
  refine ⟨items, items', h1, h1', ?_, ?_⟩
  · rw [← forall₂_map_eq (f := fun r : Row => s.entOf r.id) (g := fun x : Entity × List Ref => x.1)
        (fun r x hrx => hent r x ⟨hrx.1, hrx.2.1⟩) h3,
      ← forall₂_map_eq (f := fun r : Row => s.entOf r.id) (g := fun x : Entity × List Ref => x.1)
        (fun r x hrx => hent r x ⟨hrx.1, hrx.2.1⟩) h3']
    refine List.Sublist.map _ (flatMap_sublist (fun x => ?_) _)
    by_cases hc : Covers x.1.1.ids acc'
    · rw [if_pos hc, if_pos ((covers_iff hd).2 fun t ht => hc.mem t (hsub t ht))]
    · rw [if_neg hc]
      exact List.nil_sublist _
  · intro e rs rs' m1 m2 i j t hi hj
    have r1 := k5 _ m1
    have r2 := k5' _ m2
    have l1 : acc.types.length = rs.length := forall₂_right
      (P := fun x : Entity × List Ref => acc.types.length = x.2.length) (fun _ _ hrx => hrx.2.2.length_eq) h3 _ m1
    have l2 : acc'.types.length = rs'.length := forall₂_right
      (P := fun x : Entity × List Ref => acc'.types.length = x.2.length) (fun _ _ hrx => hrx.2.2.length_eq) h3' _ m2
    have hi' := (List.getElem?_eq_some_iff.1 hi).1
    have hj' := (List.getElem?_eq_some_iff.1 hj).1
    obtain ⟨r, hr⟩ : ∃ r, rs[i]? = some r := ⟨_, List.getElem?_eq_getElem (by omega)⟩
    obtain ⟨r', hr'⟩ : ∃ r, rs'[j]? = some r := ⟨_, List.getElem?_eq_getElem (by omega)⟩
    rw [hr, hr', C85_same_place r1 r2 hi hj hr hr']

end

/-! ### Reading and writing -/

section
variable {U : Universe} {dbg : Bool} {s : Store}

private theorem allFound_append (ids l m : List TypeId) :
    Archetype.allFound ids (l ++ m) = (Archetype.allFound ids l && Archetype.allFound ids m) := by
  induction l with
  | nil => rfl
  | cons x l ih =>
    simp only [List.cons_append, Archetype.allFound]
    cases binarySearch ids x with
    | found j => exact ih
    | notFound j => rfl

private theorem allFound_mem {ids l : List TypeId} (h : Archetype.allFound ids l = true) : ∀ t ∈ l, t ∈ ids := by
  induction l with
  | nil => intro t ht; cases ht
  | cons x l ih =>
    unfold Archetype.allFound at h
    cases hb : binarySearch ids x with
    | found j =>
      rw [hb] at h
      intro t ht
      rcases List.mem_cons.1 ht with rfl | ht
      · exact List.mem_of_getElem? (binarySearch_found hb)
      · exact ih h t ht
    | notFound j => rw [hb] at h; cases h

private theorem isIncludeIds_nodup {a : Archetype} {l : List TypeId} (hn : l.Nodup) : a.isIncludeIds l = Archetype.allFound a.ids l := by
  unfold Archetype.isIncludeIds
  split
  · next hlt =>
    symm
    rw [← Bool.not_eq_true]
    intro h0
    have := (List.subperm_of_subset hn (allFound_mem h0)).length_le
    omega
  · rfl

private theorem included_types {acc : Access} (hn : acc.types.Nodup) (a : Archetype) :
    acc.included a = Archetype.allFound a.ids acc.types := by
  cases acc with
  | readonly r => exact isIncludeIds_nodup hn
  | write w => exact isIncludeIds_nodup hn
  | readWrite r w =>
    have hr : r.Nodup := (List.nodup_append.1 hn).1
    have hw : w.Nodup := (List.nodup_append.1 hn).2.1
    show (a.isIncludeIds r && a.isIncludeIds w) = Archetype.allFound a.ids (r ++ w)
    rw [isIncludeIds_nodup hr, isIncludeIds_nodup hw, allFound_append]

private theorem view_types {acc acc' : Access} (ht : acc.types = acc'.types) : IterView.new U acc = IterView.new U acc' := by
  funext p pg offs
  unfold IterView.new Access.getPtrs
  rw [ht]

private theorem collectPages_types {acc acc' : Access} (ht : acc.types = acc'.types) (pages : List Page) (offs : List Nat) (l : List Nat) :
    ∀ r, collectPages U acc pages offs l r = collectPages U acc' pages offs l r := by
  induction l with
  | nil => intro r; rfl
  | cons p l ih =>
    intro r
    unfold collectPages
    simp only [ih, view_types ht]

private theorem collectArchetypes_types {acc acc' : Access} (ht : acc.types = acc'.types) (hn : acc.types.Nodup) (c : Archs) (l : List Nat) :
    ∀ r, collectArchetypes U acc c l r = collectArchetypes U acc' c l r := by
  induction l with
  | nil => intro r; rfl
  | cons i l ih =>
    intro r
    unfold collectArchetypes
    simp only [ih, collectPages_types ht, Access.getOffsets_eq, included_types hn, included_types (ht ▸ hn : acc'.types.Nodup), ht]

private theorem entityOuter_types {acc acc' : Access} (ht : acc.types = acc'.types) (hn : acc.types.Nodup) (fuel : Nat) :
    ∀ (l : List Entity) (n : Nat), entityOuterLoop U dbg s acc fuel l n = entityOuterLoop U dbg s acc' fuel l n := by
  induction fuel with
  | zero => intro l n; cases l <;> rfl
  | succ fuel ih =>
    intro l n
    cases l with
    | nil => rfl
    | cons e l =>
      unfold entityOuterLoop isValidEntityForQuery
      simp only [ih, Access.getOffsets_eq, included_types hn, included_types (ht ▸ hn : acc'.types.Nodup), ht, view_types ht]

private theorem orderedOuter_types {acc acc' : Access} (ht : acc.types = acc'.types) (hn : acc.types.Nodup) (links : Raw Nat) (fuel : Nat) :
    ∀ e, orderedOuterLoop U s acc links fuel e = orderedOuterLoop U s acc' links fuel e := by
  induction fuel with
  | zero => intro e; rfl
  | succ fuel ih =>
    intro e
    unfold orderedOuterLoop
    simp only [ih, Access.getOffsets_eq, included_types hn, included_types (ht ▸ hn : acc'.types.Nodup), ht, view_types ht]

/-- **C111**, reading and writing, in every state, reachable or not: queries of all three kinds for the same distinct types in the same order do
the same, whichever of the types are read and which are written. -/
theorem C111_access {acc acc' : Access} (ht : acc.types = acc'.types) (hn : acc.types.Nodup) :
    (∀ old, componentQueryIter U s acc old = componentQueryIter U s acc' old) ∧
    (∀ L old, entityQueryIter U dbg s L acc old = entityQueryIter U dbg s L acc' old) ∧
    ∀ g old fuel, orderedQueryIter U s g acc old fuel = orderedQueryIter U s g acc' old fuel := by
  refine ⟨fun old => ?_, fun L old => ?_, fun g old fuel => ?_⟩
  · unfold componentQueryIter
    simp only [collectArchetypes_types ht hn]
  · unfold entityQueryIter
    rw [entityOuter_types ht hn]
  · unfold orderedQueryIter
    simp only [orderedOuter_types ht hn]

end

/-! ### Examples, and what happens otherwise -/

/-- The hypotheses of C111 are met by a list with a stale handle, a repeated one and one without the queried component, and by
group 11; the ordered query for it returns what the entity query returns. -/
example : ∃ s, LooseExec demo true 1 queryHistory s ∧
    (∀ e ∈ [(⟨0, 1⟩ : Entity), ⟨2, 1⟩, ⟨1, 1⟩, ⟨1, 2⟩, ⟨2, 1⟩, ⟨3, 1⟩], Usable 1 queryHistory s e) ∧
    sequence 11 queryHistory = [⟨0, 1⟩, ⟨1, 2⟩, ⟨2, 1⟩] ∧ (∀ e ∈ sequence 11 queryHistory, e ∈ given queryHistory) ∧
    runOrderedQuery demo true s 11 (.readonly [4]) [] 10 = .ok [[⟨2, 6820, 1⟩], [⟨3, 0, 1⟩], [⟨3, 1, 1⟩]] ∧
    runEntityQuery demo true s [⟨0, 1⟩, ⟨1, 2⟩, ⟨2, 1⟩] (.write [4]) [] 10 = .ok [[⟨2, 6820, 1⟩], [⟨3, 0, 1⟩], [⟨3, 1, 1⟩]] := by
  have h : ((runLoose demo true 1 queryHistory).any fun s =>
      decide (∀ e ∈ [(⟨0, 1⟩ : Entity), ⟨2, 1⟩, ⟨1, 1⟩, ⟨1, 2⟩, ⟨2, 1⟩, ⟨3, 1⟩], Usable 1 queryHistory s e) &&
      decide (runOrderedQuery demo true s 11 (.readonly [4]) [] 10 = .ok [[⟨2, 6820, 1⟩], [⟨3, 0, 1⟩], [⟨3, 1, 1⟩]] ∧
        runEntityQuery demo true s [⟨0, 1⟩, ⟨1, 2⟩, ⟨2, 1⟩] (.write [4]) [] 10 = .ok [[⟨2, 6820, 1⟩], [⟨3, 0, 1⟩], [⟨3, 1, 1⟩]])) = true := by
    decide +kernel
  obtain ⟨s, hs, h⟩ := any_some h
  rw [Bool.and_eq_true, decide_eq_true_eq, decide_eq_true_eq] at h
  exact ⟨s, runLoose_sound hs, h.1, by decide, by decide, h.2⟩

/-- The query for type 4 visits entities 1, 2 and 0, the one for types 1 and 4 only entity 0, at the same place. -/
example : ∃ s, LooseExec demo true 1 queryHistory s ∧ DistinctTypes (.readonly [4]) ∧ (alive queryHistory).length < 10 ∧
    runComponentQueryWithEntities demo true s (.readonly [4]) [] 10 =
      .ok [(⟨1, 2⟩, [⟨3, 0, 1⟩]), (⟨2, 1⟩, [⟨3, 1, 1⟩]), (⟨0, 1⟩, [⟨2, 6820, 1⟩])] ∧
    runComponentQueryWithEntities demo true s (.readWrite [1] [4]) [] 10 = .ok [(⟨0, 1⟩, [⟨2, 0, 1⟩, ⟨2, 6820, 1⟩])] := by
  have h : ((runLoose demo true 1 queryHistory).any fun s =>
      decide (runComponentQueryWithEntities demo true s (.readonly [4]) [] 10 =
        .ok [(⟨1, 2⟩, [⟨3, 0, 1⟩]), (⟨2, 1⟩, [⟨3, 1, 1⟩]), (⟨0, 1⟩, [⟨2, 6820, 1⟩])] ∧
      runComponentQueryWithEntities demo true s (.readWrite [1] [4]) [] 10 = .ok [(⟨0, 1⟩, [⟨2, 0, 1⟩, ⟨2, 6820, 1⟩])])) = true := by
    decide +kernel
  obtain ⟨s, hs, h⟩ := any_some h
  exact ⟨s, runLoose_sound hs, by decide, by decide, of_decide_eq_true h⟩

/-- **C111 without its conditions**: entity 1 was never given components. The entity query over the list of the members of group 9 returns
nothing, the ordered query reads memory that was never written. Asked about entity 0 and about entity 1 an entity query returns;
asked about both, one after the other, it reads memory that was never written. -/
theorem C111_counterexample : ∃ s r, Exec demo true 1 bare s ∧ sequence 9 bare = [⟨1, 1⟩] ∧ ⟨1, 1⟩ ∉ given bare ∧
    runOrderedQuery demo true s 9 (.readonly [1]) [] 10 = .error (.ub .uninit) ∧
    runEntityQuery demo true s [⟨1, 1⟩] (.readonly [1]) [] 10 = .ok [] ∧
    runEntityQuery demo true s [⟨0, 1⟩] (.readonly [1]) [] 10 = .ok [[r]] ∧
    runEntityQuery demo true s [⟨0, 1⟩, ⟨1, 1⟩] (.readonly [1]) [] 10 = .error (.ub .uninit) ∧
    runEntityQuery demo true s [⟨1, 1⟩, ⟨0, 1⟩] (.readonly [1]) [] 10 = .ok [[r]] := by
  have h : ((runExec demo true 1 bare).any fun s =>
      decide (runOrderedQuery demo true s 9 (.readonly [1]) [] 10 = .error (.ub .uninit) ∧
        runEntityQuery demo true s [⟨1, 1⟩] (.readonly [1]) [] 10 = .ok [] ∧
        runEntityQuery demo true s [⟨0, 1⟩] (.readonly [1]) [] 10 = .ok [[⟨4, 0, 1⟩]] ∧
        runEntityQuery demo true s [⟨0, 1⟩, ⟨1, 1⟩] (.readonly [1]) [] 10 = .error (.ub .uninit) ∧
        runEntityQuery demo true s [⟨1, 1⟩, ⟨0, 1⟩] (.readonly [1]) [] 10 = .ok [[⟨4, 0, 1⟩]])) = true := by decide +kernel
  obtain ⟨s, hs, h⟩ := any_some h
  exact ⟨s, ⟨4, 0, 1⟩, runExec_sound hs, by decide, by decide, of_decide_eq_true h⟩

/-- Types must be distinct in `C111_access`: reading a type twice finds nothing where reading and writing it finds an entity with only
this type. -/
theorem C111_repeated : ∃ s r, Exec demo true 1 bare s ∧ (Access.readonly [1, 1]).types = (Access.readWrite [1] [1]).types ∧
    runComponentQuery demo s (.readonly [1, 1]) [] 10 = .ok [] ∧ runComponentQuery demo s (.readWrite [1] [1]) [] 10 = .ok [[r, r]] := by
  have h : ((runExec demo true 1 bare).any fun s =>
      decide (runComponentQuery demo s (.readonly [1, 1]) [] 10 = .ok [] ∧
        runComponentQuery demo s (.readWrite [1] [1]) [] 10 = .ok [[⟨4, 0, 1⟩, ⟨4, 0, 1⟩]])) = true := by decide +kernel
  obtain ⟨s, hs, h⟩ := any_some h
  exact ⟨s, ⟨4, 0, 1⟩, runExec_sound hs, rfl, of_decide_eq_true h⟩

end Ecs.Props
