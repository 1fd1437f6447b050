import Verif.Proofs.TogetherWhole
import Verif.Props.InOrder
import Verif.Props.QueryCompAny

/-! Properties C85 and C86: references and loops of several queries at the same time. The query functions borrow the store
with `&self`, also for write access (`src/query/component.rs:62-65`, `src/query/entity_component.rs:59-63`,
`src/query/ordered_component.rs:66-69`), so safe code may hold the items of several queries at once. `LooseExec`,
`DistinctAdds` and `RowsFit` are explained in `Props/Loose.lean` and `Props/InOrder.lean`; `fuel` in `Props/Queries.lean`. -/

namespace Ecs.Props
open Spec

section
variable {U : Universe} {dbg : Bool} {cap : Nat} {h : List Event} {s : Store}

/-- The query is not misled by entities without components, returns the right entities, and its tag was given to some entity before: the
conditions of C33, C35, C36 and C37. -/
def Clear (dbg : Bool) (cap : Nat) (h : List Event) (s : Store) : Query → Prop
  | .component _ | .componentWith _ => True
  | .tagged t _ => ∃ e, .tagged t e ∈ h
  | .entities L acc | .entitiesWith L acc => (∀ e ∈ L, e ∈ handles h) ∧ ¬ Misled dbg cap h s acc L
  | .ordered g acc => ∀ x ∈ sequence g h, x ∉ given h → ∃ a, recordedArchetype s x.id = some a ∧ ¬ Covers a.ids acc
  | .orderedWith g acc => (∀ x ∈ sequence g h, x ∉ given h → ∃ a, recordedArchetype s x.id = some a ∧ ¬ Covers a.ids acc) ∧
      ¬ TurnsPage dbg acc s (sequence g h)

private theorem query_items (hx : LooseExec U dbg cap h s) {q : Query} (hq : Clear dbg cap h s q) {fuel : Nat}
    (hf : mostItems h q < fuel) :
    ∃ items, q.run U dbg s fuel = .ok items ∧ ∀ item ∈ items, ItemFor U dbg h s q.access.types item.refs := by
  have hc := loose_core hx
  have hal : ∀ e ∈ alive h, e ∈ handles h := by
    intro e he
    rw [alive_eq] at he
    rw [handles_eq]
    exact hc.ents.sub _ he
  have hseq : ∀ g, ∀ x ∈ sequence g h, x ∈ handles h := by
    intro g x hx'
    rw [sequence_eq] at hx'
    rw [handles_eq]
    exact hc.ents.sub _ (hc.ordLive g _ hx')
  cases q with
  | component acc =>
    obtain ⟨items, h1, h2, h3, h4, h5⟩ := C31_visits_covered hx acc [] hf
    refine ⟨_, by simp only [Query.run, h2]; rfl, fun item hr => ?_⟩
    replace hr : item ∈ (items.map (·.2)).map (Item.mk none) := hr
    rw [List.map_map] at hr
    obtain ⟨x, hxm, rfl⟩ := List.mem_map.1 hr
    exact ⟨x.1, hal _ ((h4 x.1).1 (List.mem_map_of_mem hxm)).1, h5 x hxm⟩
  | componentWith acc =>
    obtain ⟨items, h1, h2, h3, h4, h5⟩ := C31_visits_covered hx acc [] hf
    refine ⟨_, by simp only [Query.run, h1]; rfl, fun item hr => ?_⟩
    obtain ⟨x, hxm, rfl⟩ := List.mem_map.1 hr
    exact ⟨x.1, hal _ ((h4 x.1).1 (List.mem_map_of_mem hxm)).1, h5 x hxm⟩
  | tagged t acc =>
    obtain ⟨items, h1, h2, h3, h4, h5⟩ := C31_visits_covered hx acc [] hf
    obtain ⟨items', k1, k2⟩ := C33_filter_tag_partial hx acc [] hf hq
    rw [h1] at k1
    injection k1 with k1
    subst k1
    refine ⟨_, by simp only [Query.run, k2]; rfl, fun item hr => ?_⟩
    obtain ⟨x, hxm, rfl⟩ := List.mem_map.1 hr
    have hxm := (List.mem_filter.1 hxm).1
    exact ⟨x.1, hal _ ((h4 x.1).1 (List.mem_map_of_mem hxm)).1, h5 x hxm⟩
  | entities L acc =>
    obtain ⟨hL, hm⟩ := hq
    obtain ⟨items, _, h2, h3, h4⟩ := (C35_entity_query_iff hx (fun e he => handle_inside hx (hL e he)) [] hf).2 hm
    refine ⟨_, by simp only [Query.run, h2]; rfl, fun item hr => ?_⟩
    replace hr : item ∈ (items.map (·.2)).map (Item.mk none) := hr
    rw [List.map_map] at hr
    obtain ⟨x, hxm, rfl⟩ := List.mem_map.1 hr
    have : x.1 ∈ L.filter (selected dbg s acc) := by rw [← h3]; exact List.mem_map_of_mem hxm
    exact ⟨x.1, hL _ (List.mem_filter.1 this).1, h4 x hxm⟩
  | entitiesWith L acc =>
    obtain ⟨hL, hm⟩ := hq
    obtain ⟨items, h1, _, h3, h4⟩ := (C35_entity_query_iff hx (fun e he => handle_inside hx (hL e he)) [] hf).2 hm
    refine ⟨_, by simp only [Query.run, h1]; rfl, fun item hr => ?_⟩
    obtain ⟨x, hxm, rfl⟩ := List.mem_map.1 hr
    have : x.1 ∈ L.filter (selected dbg s acc) := by rw [← h3]; exact List.mem_map_of_mem hxm
    exact ⟨x.1, hL _ (List.mem_filter.1 this).1, h4 x hxm⟩
  | ordered g acc =>
    obtain ⟨items, h1, h2⟩ := (C36_ordered_query_iff (U := U) (dbg := dbg) hx [] hf).2 hq
    refine ⟨_, by simp only [Query.run, h1]; rfl, fun item hr => ?_⟩
    obtain ⟨refs, hr', rfl⟩ := List.mem_map.1 hr
    obtain ⟨i, hi, rfl⟩ := List.mem_iff_getElem.1 hr'
    have hl := h2.length_eq
    have h3 := (List.forall₂_iff_get.1 h2).2 i (by omega) hi
    have h4 : ((sequence g h).filter (selected dbg s acc))[i]'(by omega) ∈ sequence g h := (List.mem_filter.1 (List.getElem_mem _)).1
    exact ⟨((sequence g h).filter (selected dbg s acc))[i]'(by omega), hseq g _ h4, h3⟩
  | orderedWith g acc =>
    obtain ⟨items, h1, h2, h3⟩ := (C37_ordered_with_entities_iff (U := U) (dbg := dbg) hx [] hf).2 hq
    refine ⟨_, by simp only [Query.run, h1]; rfl, fun item hr => ?_⟩
    obtain ⟨x, hxm, rfl⟩ := List.mem_map.1 hr
    have : x.1 ∈ (sequence g h).filter (selected dbg s acc) := by rw [← h2]; exact List.mem_map_of_mem hxm
    exact ⟨x.1, hseq g _ (List.mem_filter.1 this).1, h3 x hxm⟩

/-- **C85**, in every state without overfull pages: of two queries neither of which writes a component that the other reads or
writes, no mutable reference of the one shares a byte with any reference of the other. -/
theorem C85_compatible_apart_partial (hx : LooseExec U dbg cap h s) (hd : DistinctAdds h) (hr : RowsFit s) {q q' : Query}
    (hc : Compatible q.access q'.access) (hq : Clear dbg cap h s q) (hq' : Clear dbg cap h s q') {fuel : Nat}
    (hf : mostItems h q < fuel) (hf' : mostItems h q' < fuel) :
    ∃ items items', q.run U dbg s fuel = .ok items ∧ q'.run U dbg s fuel = .ok items' ∧
      ∀ item ∈ items, ∀ item' ∈ items', ∀ i j r r', item.refs[i]? = some r → item'.refs[j]? = some r' →
        (q.access.reads.length ≤ i ∨ q'.access.reads.length ≤ j) → Apart r r' := by
  obtain ⟨items, h1, h2⟩ := query_items hx hq hf
  obtain ⟨items', h3, h4⟩ := query_items hx hq' hf'
  refine ⟨items, items', h1, h3, fun refs hrefs refs' hrefs' i j r r' hi hj hm => ?_⟩
  have k1 := h2 refs hrefs
  have k2 := h4 refs' hrefs'
  have key : ∀ {l : List Ref} {n i : Nat} {r : Ref}, l[i]? = some r → n ≤ i → r ∈ l.drop n := by
    intro l n i r h5 h6
    refine List.mem_of_getElem? (i := i - n) ?_
    rw [List.getElem?_drop, Nat.add_sub_cancel' h6]
    exact h5
  rcases hm with hm | hm
  · exact refOf_apart hx hd hr hc.1 (k1.writes.refOf hx hd (key hi hm)) (k2.refOf hx hd (List.mem_of_getElem? hj))
  · exact apart_swap (refOf_apart hx hd hr hc.2 (k2.writes.refOf hx hd (key hj hm)) (k1.refOf hx hd (List.mem_of_getElem? hi)))

/-- **C85**, for the references of `get_components_refs` and the items of a query: if the query does not write the component, or
the component is not queried at all, the references share no byte with the mutable ones, or with any of the query. -/
theorem C85_refs_apart_partial (hx : LooseExec U dbg cap h s) (hd : DistinctAdds h) (hr : RowsFit s) {q : Query}
    (hq : Clear dbg cap h s q) {fuel : Nat} (hf : mostItems h q < fuel) {e : Entity} (he : e ∈ handles h) {ts : List TypeId}
    {rs : List Ref} (hrs : s.getComponentsRefs U dbg e ts = .ok (some rs)) :
    ∃ items, q.run U dbg s fuel = .ok items ∧
      ((∀ t ∈ ts, t ∉ q.access.writes) → ∀ item ∈ items, ∀ r ∈ item.refs.drop q.access.reads.length, ∀ r' ∈ rs, Apart r r') ∧
      ((∀ t ∈ ts, t ∉ q.access.types) → ∀ item ∈ items, ∀ r ∈ item.refs, ∀ r' ∈ rs, Apart r r') := by
  obtain ⟨items, h1, h2⟩ := query_items hx hq hf
  have hi : ItemFor U dbg h s ts rs := ⟨e, he, hrs⟩
  refine ⟨items, h1, fun hn refs hrefs r hr1 r' hr2 => ?_, fun hn refs hrefs r hr1 r' hr2 => ?_⟩
  · exact apart_swap (refOf_apart hx hd hr hn (hi.refOf hx hd hr2) ((h2 refs hrefs).writes.refOf hx hd hr1))
  · exact apart_swap (refOf_apart hx hd hr hn (hi.refOf hx hd hr2) ((h2 refs hrefs).refOf hx hd hr1))

/-- **C85**, the same component is at the same place, whatever else is asked for with it. -/
theorem C85_same_place {e : Entity} {ts ts' : List TypeId} {rs rs' : List Ref} (hr : s.getComponentsRefs U dbg e ts = .ok (some rs))
    (hr' : s.getComponentsRefs U dbg e ts' = .ok (some rs')) {i j : Nat} {t : TypeId} {r r' : Ref} (hi : ts[i]? = some t)
    (hj : ts'[j]? = some t) (hri : rs[i]? = some r) (hrj : rs'[j]? = some r') : r = r' := by
  have h1 := Store.getComponentsRefs_single hr hi hri
  rw [Store.getComponentsRefs_single hr' hj hrj] at h1
  injection h1 with h1
  injection h1 with h1
  injection h1 with h1
  exact h1.symm

/-- **C85, the condition is needed**: if one access writes a component which the other reads or writes, and a live entity has
all the components of both, then the two queries give the same reference, which is mutable in the one. -/
theorem C85_conflict (hx : LooseExec U dbg cap h s) (hd : DistinctAdds h) {acc acc' : Access} {t : TypeId} (ht : t ∈ acc.writes)
    (ht' : t ∈ acc'.types) {e : Entity} (he : e ∈ alive h) {a : Archetype} (ha : s.getEntityArchetype dbg e = .ok (some a))
    (hc : Covers a.ids acc) (hc' : Covers a.ids acc') {fuel : Nat} (hf : (alive h).length < fuel) :
    ∃ (items items' : List Item) (item item' : Item) (i j : Nat) (r : Ref), (Query.component acc).run U dbg s fuel = .ok items ∧
      (Query.component acc').run U dbg s fuel = .ok items' ∧ item ∈ items ∧ item' ∈ items' ∧
      acc.reads.length ≤ i ∧ item.refs[i]? = some r ∧ item'.refs[j]? = some r ∧ r.size = U.size t := by
  obtain ⟨_, items, _, _, _, _, h5, _, h7, _, h9⟩ := component_selected (dbg := dbg) hx acc [] hf
  obtain ⟨_, items', _, _, _, _, k5, _, k7, _, k9⟩ := component_selected (dbg := dbg) hx acc' [] hf
  obtain ⟨x, hxm, hxe⟩ := List.mem_map.1 ((h7 e).2 ⟨he, a, ha, hc⟩)
  obtain ⟨y, hym, hye⟩ := List.mem_map.1 ((k7 e).2 ⟨he, a, ha, hc'⟩)
  have r1 := (h5 x hxm).2
  have r2 := (k5 y hym).2
  rw [hxe] at r1
  rw [hye] at r2
  have hh : e ∈ handles h := by
    rw [alive_eq] at he
    rw [handles_eq]
    exact (loose_core hx).ents.sub _ he
  have p1 := loose_refs_placed hx hd hh r1
  have p2 := loose_refs_placed hx hd hh r2
  obtain ⟨k, hk, hkt⟩ := List.mem_iff_getElem.1 ht
  obtain ⟨j, hj, hjt⟩ := List.mem_iff_getElem.1 ht'
  have hlen : acc.types.length = acc.reads.length + acc.writes.length := by rw [access_types_eq, List.length_append]
  have l1 := p1.length_eq
  have l2 := p2.length_eq
  have hit : acc.types[acc.reads.length + k]? = some t := by
    rw [access_types_eq, List.getElem?_append_right (Nat.le_add_right _ _), Nat.add_sub_cancel_left, List.getElem?_eq_getElem hk, hkt]
  have hi1 : acc.reads.length + k < x.2.length := by omega
  have hj1 : j < y.2.length := by omega
  have hsame := C85_same_place r1 r2 hit (List.getElem?_eq_some_iff.2 ⟨hj, hjt⟩) (List.getElem?_eq_getElem hi1)
    (List.getElem?_eq_getElem hj1)
  refine ⟨_, _, ⟨none, x.2⟩, ⟨none, y.2⟩, acc.reads.length + k, j, y.2[j], by simp only [Query.run, h9]; rfl,
    by simp only [Query.run, k9]; rfl, List.mem_map_of_mem (List.mem_map_of_mem hxm), List.mem_map_of_mem (List.mem_map_of_mem hym),
    Nat.le_add_right _ _, ?_, List.getElem?_eq_getElem hj1, ?_⟩
  · rw [List.getElem?_eq_getElem hi1, hsame]
  · have := ((List.forall₂_iff_get.1 p2).2 j hj hj1).2.1
    simp only [List.get_eq_getElem] at this
    rw [this, hjt]

/-- A loop that has not begun. -/
abbrev fresh {ι τ : Type} (x : ι → τ) (i : ι) : Loop τ := ⟨.waiting, x i⟩

variable {ι τ : Type} [DecidableEq ι]

omit [DecidableEq ι] in
private theorem fine (hx : LooseExec U dbg cap h s) {query : ι → Query} (hq : ∀ i, Clear dbg cap h s (query i)) {fuel : Nat}
    (hf : ∀ i, mostItems h (query i) < fuel) (x : ι → τ) (i : ι) :
    Left U dbg fuel s (query i) (fun item => ItemFor U dbg h s (query i).access.types item.refs) (fresh x i) := by
  obtain ⟨items, h1, h2⟩ := query_items hx (hq i) (hf i)
  rw [Query.run_eq] at h1
  obtain ⟨it, h3, h4⟩ := bind_eq_ok.1 h1
  exact ⟨it, h3, fuel, items, h4, h2⟩

/-- **C86**, in every state without overfull pages: loops over queries none of which writes what another reads or writes may run
at the same time. Whatever the order of their turns, there is no panic and no undefined behaviour, liveness and component sets
stay as they are, and only components that some loop may write change. -/
theorem C86_returns_partial (hx : LooseExec U dbg cap h s) (hd : DistinctAdds h) (hr : RowsFit s) {query : ι → Query}
    {body : ι → Body τ} (hc : ∀ i j, i ≠ j → Compatible (query i).access (query j).access)
    (hq : ∀ i, Clear dbg cap h s (query i)) (hb : ∀ i e vs x, Gives U (query i).access.writes (body i e vs x).1) {fuel : Nat}
    (hf : ∀ i, mostItems h (query i) < fuel) (turns : List ι) (x : ι → τ) :
    ∃ s' l, together U dbg fuel query body turns s (fresh x) = .ok (s', l) ∧
      (∀ e, s'.isAlive dbg e = s.isAlive dbg e ∧ s'.getEntityArchetype dbg e = s.getEntityArchetype dbg e) ∧
      ∀ e ∈ handles h, ∀ t, (∀ i, t ∉ (query i).access.writes) → s'.getComponents U dbg e [t] = s.getComponents U dbg e [t] := by
  obtain ⟨p, k, h1, h2, h3⟩ := (split_loose hx hd hr hc hb).untouched
    (N := fun r => ∃ e ∈ handles h, ∃ t, (∀ i, t ∉ (query i).access.writes) ∧ s.getComponentsRefs U dbg e [t] = .ok (some [r]))
    (fun i r r' hw hn => by
      obtain ⟨e, he, t, ht, h4⟩ := hn
      refine refOf_apart hx hd hr (ts' := [t]) (fun t' ht' hm => ?_) hw ⟨e, he, t, List.mem_singleton_self t, h4⟩
      rw [List.mem_singleton.1 hm] at ht'
      exact ht i ht') turns (pages := s.archs.pages) (fine hx hq hf x) (Like.refl s) fun _ _ _ _ _ => rfl
  refine ⟨_, k, h1, fun e => ⟨rfl, rfl⟩, fun e he t ht => ?_⟩
  refine getComponents_like (pages' := s.archs.pages) hx hd hr h2 (Like.refl s) he fun r hr' => ?_
  exact cells_of_agree h3 h2.len ⟨e, he, t, ht, hr'⟩

/-- **C86**, continued: the order of the turns does not matter, neither for the store nor for the variables of the loops. In
particular the loops may run one after the other. -/
theorem C86_any_order_partial (hx : LooseExec U dbg cap h s) (hd : DistinctAdds h) (hr : RowsFit s) {query : ι → Query}
    {body : ι → Body τ} (hc : ∀ i j, i ≠ j → Compatible (query i).access (query j).access)
    (hq : ∀ i, Clear dbg cap h s (query i)) (hb : ∀ i e vs x, Gives U (query i).access.writes (body i e vs x).1) {fuel : Nat}
    (hf : ∀ i, mostItems h (query i) < fuel) {turns turns' : List ι} (hp : turns.Perm turns') (x : ι → τ) :
    together U dbg fuel query body turns s (fresh x) = together U dbg fuel query body turns' s (fresh x) :=
  (split_loose hx hd hr hc hb).perm hp ⟨⟨_, rfl, Like.refl s⟩, fine hx hq hf x⟩

/-- **C86**, continued: a loop does what it would do if there were no other loops. Its variables and the components it
reads or writes are the same as after its own turns alone. -/
theorem C86_alone_partial (hx : LooseExec U dbg cap h s) (hd : DistinctAdds h) (hr : RowsFit s) {query : ι → Query}
    {body : ι → Body τ} (hc : ∀ i j, i ≠ j → Compatible (query i).access (query j).access)
    (hq : ∀ i, Clear dbg cap h s (query i)) (hb : ∀ i e vs x, Gives U (query i).access.writes (body i e vs x).1) {fuel : Nat}
    (hf : ∀ i, mostItems h (query i) < fuel) (turns : List ι) (x : ι → τ) (i : ι) :
    ∃ s' l s'' l', together U dbg fuel query body turns s (fresh x) = .ok (s', l) ∧
      together U dbg fuel query body (turns.filter (· = i)) s (fresh x) = .ok (s'', l') ∧ l i = l' i ∧
      ∀ e ∈ handles h, ∀ t ∈ (query i).access.types, s'.getComponents U dbg e [t] = s''.getComponents U dbg e [t] := by
  obtain ⟨p, p', k, k', h1, h2, h3, h4, h5, h6⟩ := (split_loose hx hd hr hc hb).alone i turns (pages := s.archs.pages)
    (pages' := s.archs.pages) (fine hx hq hf x) (fine hx hq hf x) (Like.refl s) (Like.refl s) rfl fun _ _ _ _ _ => rfl
  refine ⟨_, k, _, k', h1, h2, h5, fun e he t ht => getComponents_like hx hd hr h3 h4 he fun r hr' => ?_⟩
  exact cells_of_agree h6 (by rw [h3.len, h4.len]) ⟨e, he, t, ht, hr'⟩

/-- The body that computes the new values of an item with entity `e` by `f e`. -/
def bodyOf (f : Entity → List (List Cell) → List (List UInt8)) : Body τ := fun e vs x => (f (e.getD .null) vs, x)

/-- **C86**, continued: a loop that is given enough turns does what the loops of C51 do, and ends. -/
theorem C86_whole_component {query : ι → Query} {body : ι → Body τ} {i : ι} {acc : Access} (hq : query i = .componentWith acc)
    {f : Entity → List (List Cell) → List (List UInt8)} (hb : body i = bodyOf f) {fuel : Nat} {s' : Store}
    (h : updateComponents U dbg s acc [] f fuel = .ok s') (x : ι → τ) :
    ∃ l, together U dbg fuel query body (List.replicate (fuel + 1) i) s (fresh x) = .ok (s', l) ∧ (l i).phase = .ended := by
  obtain ⟨it, h1, h2⟩ := bind_eq_ok.1 h
  rw [← show (query i).access = acc by rw [hq]; rfl] at h2
  have h3 := together_loop (U := U) (fuel := fuel) (query := query) (body := body) (refs := Prod.snd)
    (l := fun j => if j = i then ⟨.running (.componentWith it), x j⟩ else fresh x j) (v := x i) Iter.componentWith
    (fun a : Entity × List Ref => ⟨some a.1, a.2⟩) (fun _ => rfl) (fun _ _ => rfl) (fun a vs v => by rw [hb]; rfl) fuel (if_pos rfl) h2
  refine ⟨_, together_start (query := query) (i := i) (l := fresh x) (v := x i) (it := .componentWith it) rfl (by rw [hq, Query.start, h1]; rfl)
    (Eq.trans ?_ h3), by simp⟩
  congr 1
  funext j
  by_cases hj : j = i
  · simp [hj]
  · simp [hj]

/-- **C86**, continued, for entity queries. -/
theorem C86_whole_entities {query : ι → Query} {body : ι → Body τ} {i : ι} {L : List Entity} {acc : Access}
    (hq : query i = .entitiesWith L acc) {f : Entity → List (List Cell) → List (List UInt8)} (hb : body i = bodyOf f) {fuel : Nat}
    {s' : Store} (h : updateEntities U dbg s L acc [] f fuel = .ok s') (x : ι → τ) :
    ∃ l, together U dbg fuel query body (List.replicate (fuel + 1) i) s (fresh x) = .ok (s', l) ∧ (l i).phase = .ended := by
  obtain ⟨it, h1, h2⟩ := bind_eq_ok.1 h
  rw [← show (query i).access = acc by rw [hq]; rfl] at h2
  have h3 := together_loop (U := U) (fuel := fuel) (query := query) (body := body) (refs := Prod.snd)
    (l := fun j => if j = i then ⟨.running (.entitiesWith it), x j⟩ else fresh x j) (v := x i) Iter.entitiesWith
    (fun a : Entity × List Ref => ⟨some a.1, a.2⟩) (fun _ => rfl) (fun _ _ => rfl) (fun a vs v => by rw [hb]; rfl) fuel (if_pos rfl) h2
  refine ⟨_, together_start (query := query) (i := i) (l := fresh x) (v := x i) (it := .entitiesWith it) rfl (by rw [hq, Query.start, h1]; rfl)
    (Eq.trans ?_ h3), by simp⟩
  congr 1
  funext j
  by_cases hj : j = i
  · simp [hj]
  · simp [hj]

/-- **C86**, continued, for ordered queries. -/
theorem C86_whole_ordered {query : ι → Query} {body : ι → Body τ} {i : ι} {g : Nat} {acc : Access}
    (hq : query i = .ordered g acc) {f : List (List Cell) → List (List UInt8)} (hb : body i = bodyOf fun _ => f) {fuel : Nat}
    {s' : Store} (h : updateOrdered U dbg s g acc [] f fuel = .ok s') (x : ι → τ) :
    ∃ l, together U dbg fuel query body (List.replicate (fuel + 1) i) s (fresh x) = .ok (s', l) ∧ (l i).phase = .ended := by
  obtain ⟨it, h1, h2⟩ := bind_eq_ok.1 h
  rw [← show (query i).access = acc by rw [hq]; rfl] at h2
  have h3 := together_loop (U := U) (fuel := fuel) (query := query) (body := body) (refs := id)
    (l := fun j => if j = i then ⟨.running (.ordered it), x j⟩ else fresh x j) (v := x i) Iter.ordered
    (fun a : List Ref => ⟨none, a⟩) (fun _ => rfl) (fun _ _ => rfl) (fun a vs v => by rw [hb]; rfl) fuel (if_pos rfl) h2
  refine ⟨_, together_start (query := query) (i := i) (l := fresh x) (v := x i) (it := .ordered it) rfl (by rw [hq, Query.start, h1]; rfl)
    (Eq.trans ?_ h3), by simp⟩
  congr 1
  funext j
  by_cases hj : j = i
  · simp [hj]
  · simp [hj]

/-- **C86**, continued, for queries of all kinds: a loop that collects the entities and values it finds, and writes nothing, is given
the items of the query, in the order of the query, each once. -/
theorem C86_whole_collect {query : ι → Query} {body : ι → Body (List (Option Entity × List (List Cell)))} {i : ι}
    (hb : body i = fun e vs x => ([], x ++ [(e, vs)])) {fuel : Nat} {items : List Item} {rows : List (List (List Cell))}
    (h : (query i).run U dbg s fuel = .ok items) (hv : items.mapM (fun x => x.refs.mapM (readRef s.archs.pages)) = .ok rows)
    (x : ι → List (Option Entity × List (List Cell))) :
    ∃ l, together U dbg fuel query body (List.replicate (fuel + 1) i) s (fresh x) = .ok (s, l) ∧ (l i).phase = .ended ∧
      (l i).vars = x i ++ (items.map (·.entity)).zip rows := by
  rw [Query.run_eq] at h
  obtain ⟨it, h1, h2⟩ := bind_eq_ok.1 h
  exact ⟨_, together_start (query := query) (i := i) (l := fresh x) (v := x i) rfl h1
    (together_collect (U := U) (query := query) hb fuel (v := x i) (if_pos rfl) h2 hv), by simp, by simp⟩

end

/-- Two entities with three small components each, in a group. -/
def paired : List Event :=
  [.orderedLast 9 ⟨0, 1⟩, .orderedLast 9 ⟨1, 1⟩, .added ⟨1, 1⟩ [(1, [3]), (4, [4]), (5, [6])], .created ⟨1, 1⟩,
   .added ⟨0, 1⟩ [(1, [1]), (4, [2]), (5, [5])], .created ⟨0, 1⟩]

/-- The first byte of the `i`-th value. -/
def byteOf (vs : List (List Cell)) (i : Nat) : UInt8 :=
  match vs[i]? with
  | some (some b :: _) => b
  | _ => 0

/-- One loop adds component 1 to component 4, the other, over the group, to component 5; they count their items. -/
def addBoth (b : Bool) : Query := if b then .ordered 9 (.readWrite [1] [5]) else .component (.readWrite [1] [4])

def addFirst : Body Nat := fun _ vs n => ([[byteOf vs 0 + byteOf vs 1]], n + 1)

/-- One loop doubles component 4, the other increments it; they add up what they find. -/
def doubleOrBump (b : Bool) : Body Nat :=
  if b then fun _ vs n => ([[byteOf vs 0 * 2]], n + (byteOf vs 0).toNat)
  else fun _ vs n => ([[byteOf vs 0 + 1]], n + (byteOf vs 0).toNat)

/-- **C85 is false of the code**: a query that writes and one that only reads the same component can be held at the same time,
and all references of the one are also references of the other. -/
theorem C85_counterexample : ∃ s items r, Exec demo true 1 paired s ∧
    (Query.component (.write [4])).run demo true s 10 = .ok items ∧ (Query.component (.readonly [4])).run demo true s 10 = .ok items ∧
    ⟨none, [r]⟩ ∈ items ∧ r.size = 1 ∧ ¬ Apart r r := by
  have h : ((runExec demo true 1 paired).any fun s =>
      decide ((Query.component (.write [4])).run demo true s 10 = .ok [⟨none, [⟨4, 5460, 1⟩]⟩, ⟨none, [⟨4, 5461, 1⟩]⟩] ∧
        (Query.component (.readonly [4])).run demo true s 10 = .ok [⟨none, [⟨4, 5460, 1⟩]⟩, ⟨none, [⟨4, 5461, 1⟩]⟩])) = true := by decide +kernel
  obtain ⟨s, hs, h⟩ := any_some h
  obtain ⟨h1, h2⟩ := of_decide_eq_true h
  exact ⟨s, _, ⟨4, 5460, 1⟩, runExec_sound hs, h1, h2, by decide, rfl, by decide⟩

/-- **C86 is false without the condition on the accesses**: if both loops write component 4, the order of their turns matters
for the component and for what the loops find. -/
theorem C86_counterexample : ∃ s s1 s2 l1 l2, Exec demo true 1 paired s ∧
    together demo true 10 (fun _ => .component (.write [4])) doubleOrBump [true, true, false, false] s (fresh fun _ => 0) = .ok (s1, l1) ∧
    together demo true 10 (fun _ => .component (.write [4])) doubleOrBump [true, false, false, true] s (fresh fun _ => 0) = .ok (s2, l2) ∧
    s1.getComponents demo true ⟨0, 1⟩ [4] = .ok (some [[some 5]]) ∧ s2.getComponents demo true ⟨0, 1⟩ [4] = .ok (some [[some 6]]) ∧
    (l1 true).vars = 2 ∧ (l2 true).vars = 3 := by
  have h : ((runExec demo true 1 paired).any fun s =>
      okAnd (together demo true 10 (fun _ => .component (.write [4])) doubleOrBump [true, true, false, false] s (fresh fun _ => 0)) (fun x =>
        decide (x.1.getComponents demo true ⟨0, 1⟩ [4] = .ok (some [[some 5]]) ∧ (x.2 true).vars = 2)) &&
      okAnd (together demo true 10 (fun _ => .component (.write [4])) doubleOrBump [true, false, false, true] s (fresh fun _ => 0)) (fun x =>
        decide (x.1.getComponents demo true ⟨0, 1⟩ [4] = .ok (some [[some 6]]) ∧ (x.2 true).vars = 3))) = true := by decide +kernel
  obtain ⟨s, hs, h⟩ := any_some h
  rw [Bool.and_eq_true] at h
  obtain ⟨⟨s1, l1⟩, h1, h2⟩ := okAnd_iff h.1
  obtain ⟨⟨s2, l2⟩, h3, h4⟩ := okAnd_iff h.2
  obtain ⟨h5, h6⟩ := of_decide_eq_true h2
  obtain ⟨h7, h8⟩ := of_decide_eq_true h4
  exact ⟨s, s1, s2, l1, l2, runExec_sound hs, h1, h3, h5, h7, h6, h8⟩

/-- The hypotheses of the theorems above, for the loops `addBoth`. -/
example : ∃ s s' l, LooseExec demo true 1 paired s ∧ DistinctAdds paired ∧ RowsFit s ∧
    (∀ i j, i ≠ j → Compatible (addBoth i).access (addBoth j).access) ∧ (∀ i, Clear true 1 paired s (addBoth i)) ∧
    (∀ i e vs x, Gives demo (addBoth i).access.writes (addFirst e vs x).1) ∧ (∀ i, mostItems paired (addBoth i) < 10) ∧
    together demo true 10 addBoth (fun _ => addFirst) [true, false, false, true, false, true] s (fresh fun _ => 0) = .ok (s', l) ∧
    s'.getComponents demo true ⟨0, 1⟩ [1, 4, 5] = .ok (some [[some 1], [some 3], [some 6]]) ∧
    s'.getComponents demo true ⟨1, 1⟩ [1, 4, 5] = .ok (some [[some 3], [some 7], [some 9]]) ∧ (l true).vars = 2 := by
  have h : ((runLoose demo true 1 paired).any fun s => decide (RowsFit s) &&
      okAnd (together demo true 10 addBoth (fun _ => addFirst) [true, false, false, true, false, true] s (fresh fun _ => 0)) (fun x =>
        decide (x.1.getComponents demo true ⟨0, 1⟩ [1, 4, 5] = .ok (some [[some 1], [some 3], [some 6]]) ∧
          x.1.getComponents demo true ⟨1, 1⟩ [1, 4, 5] = .ok (some [[some 3], [some 7], [some 9]]) ∧ (x.2 true).vars = 2))) = true := by
    decide +kernel
  obtain ⟨s, hs, h⟩ := any_some h
  rw [Bool.and_eq_true] at h
  obtain ⟨⟨s', l⟩, h1, h2⟩ := okAnd_iff h.2
  obtain ⟨h3, h4, h5⟩ := of_decide_eq_true h2
  refine ⟨s, s', l, runLoose_sound hs, ?_, of_decide_eq_true h.1, by decide, fun i => ?_, fun i e vs x => ?_, by decide,
    h1, h3, h4, h5⟩
  · intro e vals hm
    simp only [paired, List.mem_cons, Event.added.injEq, reduceCtorEq, false_or, List.not_mem_nil, or_false] at hm
    rcases hm with ⟨_, rfl⟩ | ⟨_, rfl⟩ <;> decide
  · cases i
    · trivial
    · have hg : ∀ x ∈ sequence 9 paired, x ∈ given paired := by decide
      exact fun x hx hn => (hn (hg x hx)).elim
  · cases i <;> exact .cons rfl .nil

/-- The hypotheses of the theorems about whole loops, and the end of such a loop. -/
example : ∃ s s' s'' l, Exec demo true 1 paired s ∧
    updateComponents demo true s (.readWrite [1] [4]) [] (fun _ vs => [[byteOf vs 0 + byteOf vs 1]]) 10 = .ok s' ∧
    s'.getComponents demo true ⟨1, 1⟩ [4] = .ok (some [[some 7]]) ∧
    updateOrdered demo true s 9 (.readWrite [1] [5]) [] (fun vs => [[byteOf vs 0 + byteOf vs 1]]) 10 = .ok s'' ∧
    s''.getComponents demo true ⟨0, 1⟩ [5] = .ok (some [[some 6]]) ∧
    together demo true 10 (fun _ : Unit => .componentWith (.readWrite [1] [4]))
      (fun _ => bodyOf fun _ vs => [[byteOf vs 0 + byteOf vs 1]]) (List.replicate 11 ()) s (fresh fun _ => ()) = .ok (s', l) ∧
    (l ()).phase = .ended := by
  have h : ((runExec demo true 1 paired).any fun s =>
      okAnd (updateComponents demo true s (.readWrite [1] [4]) [] (fun _ vs => [[byteOf vs 0 + byteOf vs 1]]) 10) (fun s' =>
        decide (s'.getComponents demo true ⟨1, 1⟩ [4] = .ok (some [[some 7]]))) &&
      okAnd (updateOrdered demo true s 9 (.readWrite [1] [5]) [] (fun vs => [[byteOf vs 0 + byteOf vs 1]]) 10) (fun s' =>
        decide (s'.getComponents demo true ⟨0, 1⟩ [5] = .ok (some [[some 6]])))) = true := by decide +kernel
  obtain ⟨s, hs, h⟩ := any_some h
  rw [Bool.and_eq_true] at h
  obtain ⟨s', h1, h2⟩ := okAnd_iff h.1
  obtain ⟨s'', h3, h4⟩ := okAnd_iff h.2
  obtain ⟨l, h5, h6⟩ := C86_whole_component (query := fun _ : Unit => .componentWith (.readWrite [1] [4]))
    (body := fun _ => bodyOf fun _ vs => [[byteOf vs 0 + byteOf vs 1]]) (i := ()) rfl rfl h1 fun _ => ()
  exact ⟨s, s', s'', l, runExec_sound hs, h1, of_decide_eq_true h2, h3, of_decide_eq_true h4, h5, h6⟩

/-- The hypotheses of `C86_whole_collect`, for a list of two handles that is not in the order of the pages. -/
example : ∃ s items l, Exec demo true 1 paired s ∧
    (Query.entities [⟨1, 1⟩, ⟨0, 1⟩] (.readonly [4])).run demo true s 10 = .ok items ∧
    items.mapM (fun x => x.refs.mapM (readRef s.archs.pages)) = .ok [[[some 4]], [[some 2]]] ∧
    together demo true 10 (fun _ : Unit => .entities [⟨1, 1⟩, ⟨0, 1⟩] (.readonly [4])) (fun _ e vs x => ([], x ++ [(e, vs)]))
      (List.replicate 11 ()) s (fresh fun _ => []) = .ok (s, l) ∧
    (l ()).vars = [(none, [[some 4]]), (none, [[some 2]])] := by
  have h : ((runExec demo true 1 paired).any fun s =>
      okAnd ((Query.entities [⟨1, 1⟩, ⟨0, 1⟩] (.readonly [4])).run demo true s 10) (fun items =>
        decide (items.mapM (fun x => x.refs.mapM (readRef s.archs.pages)) = .ok [[[some 4]], [[some 2]]] ∧
          items.map (·.entity) = [none, none]))) = true := by decide +kernel
  obtain ⟨s, hs, h⟩ := any_some h
  obtain ⟨items, h1, h2⟩ := okAnd_iff h
  obtain ⟨h3, h4⟩ := of_decide_eq_true h2
  obtain ⟨l, h5, _, h6⟩ := C86_whole_collect (query := fun _ : Unit => .entities [⟨1, 1⟩, ⟨0, 1⟩] (.readonly [4]))
    (body := fun _ e vs x => ([], x ++ [(e, vs)])) (i := ()) rfl h1 h3 fun _ => []
  exact ⟨s, items, l, runExec_sound hs, h1, h3, h5, by rw [h6, h4]; rfl⟩

/-- Two entities as above, the second of them tagged. -/
def pairedTagged : List Event := .tagged 7 ⟨1, 1⟩ :: paired

/-- Loops with entities: over all entities, over the tagged ones, and over the group. -/
def withIds (i : Fin 3) : Query :=
  if i = 0 then .componentWith (.readWrite [1] [4]) else if i = 1 then .tagged 7 (.readWrite [1] [5]) else .orderedWith 9 (.readonly [1])

/-- Each loop collects its entities; the first two add component 1 to the component they write. -/
def collect (i : Fin 3) : Body (List (Option Entity)) := fun e vs l =>
  (if i = 2 then [] else [[byteOf vs 0 + byteOf vs 1]], l ++ [e])

/-- The hypotheses of the theorems above, for loops with entities and with a tag. -/
example : ∃ s s' l, LooseExec demo true 1 pairedTagged s ∧ DistinctAdds pairedTagged ∧ RowsFit s ∧
    (∀ i j, i ≠ j → Compatible (withIds i).access (withIds j).access) ∧ (∀ i, Clear true 1 pairedTagged s (withIds i)) ∧
    (∀ i e vs x, Gives demo (withIds i).access.writes (collect i e vs x).1) ∧ (∀ i, mostItems pairedTagged (withIds i) < 10) ∧
    together demo true 10 withIds collect [1, 0, 2, 0, 1, 2, 2, 0, 1] s (fresh fun _ => []) = .ok (s', l) ∧
    s'.getComponents demo true ⟨0, 1⟩ [1, 4, 5] = .ok (some [[some 1], [some 3], [some 5]]) ∧
    s'.getComponents demo true ⟨1, 1⟩ [1, 4, 5] = .ok (some [[some 3], [some 7], [some 9]]) ∧
    (l 0).vars = [some ⟨0, 1⟩, some ⟨1, 1⟩] ∧ (l 1).vars = [some ⟨1, 1⟩] ∧ (l 2).vars = [some ⟨1, 1⟩, some ⟨0, 1⟩] := by
  have h : ((runLoose demo true 1 pairedTagged).any fun s => decide (RowsFit s) &&
      okAnd (together demo true 10 withIds collect [1, 0, 2, 0, 1, 2, 2, 0, 1] s (fresh fun _ => [])) (fun x =>
        decide (x.1.getComponents demo true ⟨0, 1⟩ [1, 4, 5] = .ok (some [[some 1], [some 3], [some 5]]) ∧
          x.1.getComponents demo true ⟨1, 1⟩ [1, 4, 5] = .ok (some [[some 3], [some 7], [some 9]]) ∧
          (x.2 0).vars = [some ⟨0, 1⟩, some ⟨1, 1⟩] ∧ (x.2 1).vars = [some ⟨1, 1⟩] ∧ (x.2 2).vars = [some ⟨1, 1⟩, some ⟨0, 1⟩]))) = true := by
    decide +kernel
  obtain ⟨s, hs, h⟩ := any_some h
  rw [Bool.and_eq_true] at h
  obtain ⟨⟨s', l⟩, h1, h2⟩ := okAnd_iff h.2
  obtain ⟨h3, h4, h5⟩ := of_decide_eq_true h2
  refine ⟨s, s', l, runLoose_sound hs, ?_, of_decide_eq_true h.1, by decide, fun i => ?_, fun i e vs x => ?_, by decide,
    h1, h3, h4, h5⟩
  · intro e vals hm
    simp only [pairedTagged, paired, List.mem_cons, Event.added.injEq, reduceCtorEq, false_or, List.not_mem_nil, or_false] at hm
    rcases hm with ⟨_, rfl⟩ | ⟨_, rfl⟩ <;> decide
  · match i with
    | 0 => trivial
    | 1 => exact ⟨_, List.mem_cons_self⟩
    | 2 =>
      have hg : ∀ x ∈ sequence 9 pairedTagged, x ∈ given pairedTagged := by decide
      refine ⟨fun x hx hn => (hn (hg x hx)).elim, ?_⟩
      rintro ⟨before, x, y, after, z, page, row, h6, _, _, _, _, _, h7, _⟩
      have h8 := congrArg List.length h6
      rw [show (sequence 9 pairedTagged).length = 2 by decide, List.length_append, List.length_cons, List.length_cons] at h8
      rw [List.length_eq_zero_iff.1 (show before.length = 0 by omega)] at h7
      cases h7
  · match i with
    | 0 | 1 => exact .cons rfl .nil
    | 2 => exact .nil

/-- The hypotheses of `C85_conflict` and `C85_refs_apart_partial`. -/
example : ∃ s a rs, LooseExec demo true 1 paired s ∧ (⟨1, 1⟩ : Entity) ∈ alive paired ∧
    s.getEntityArchetype true ⟨1, 1⟩ = .ok (some a) ∧ Covers a.ids (.write [4]) ∧ Covers a.ids (.readWrite [1, 4] [5]) ∧
    s.getComponentsRefs demo true ⟨1, 1⟩ [5, 1] = .ok (some rs) ∧ rs.length = 2 := by
  have h : ((runLoose demo true 1 paired).any fun s =>
      okAnd (s.getEntityArchetype true ⟨1, 1⟩) (fun o => o.any fun a => decide (Covers a.ids (.write [4]) ∧ Covers a.ids (.readWrite [1, 4] [5]))) &&
      okAnd (s.getComponentsRefs demo true ⟨1, 1⟩ [5, 1]) (fun o => o.any fun rs => decide (rs.length = 2))) = true := by decide +kernel
  obtain ⟨s, hs, h⟩ := any_some h
  rw [Bool.and_eq_true] at h
  obtain ⟨o, h1, h2⟩ := okAnd_iff h.1
  obtain ⟨a, rfl, h2⟩ := any_some h2
  obtain ⟨o', h3, h4⟩ := okAnd_iff h.2
  obtain ⟨rs, rfl, h4⟩ := any_some h4
  obtain ⟨h5, h6⟩ := of_decide_eq_true h2
  exact ⟨s, a, rs, runLoose_sound hs, by decide, h1, h5, h6, h3, of_decide_eq_true h4⟩

end Ecs.Props
