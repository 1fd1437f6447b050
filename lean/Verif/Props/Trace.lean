import Verif.Spec.Trace
import Verif.Spec.InOrder
import Verif.Proofs.AsideStore
import Verif.Proofs.VisitOrderQuery
import Verif.Props.Hint
import Verif.Props.Life
import Verif.Props.Orders
import Verif.Props.AnyState
import Verif.Props.Defects
import Verif.Props.Queries
import Verif.Props.QueryDefects
import Verif.Props.Tags

/-! Property C112: the components of an entity stay where they are, and the entities are visited in the same order, until components
are added to one of them, removed from one of them, or one of them is destroyed. -/

namespace Ecs.Props
open Spec

section
variable {U : Universe} {dbg : Bool} {cap : Nat} {h mid : List Event} {s s' : Store}

theorem mem_furnished {x : Entity} : x ∈ furnished h ↔ x ∈ alive h ∧ x ∈ given h := by
  unfold furnished
  rw [List.mem_filter, decide_eq_true_eq]

theorem given_grows : ∀ {mid : List Event} {x : Entity}, x ∈ given h → x ∈ given (mid ++ h)
  | [], _, hg => hg
  | ev :: mid, x, hg => by
    have ih := given_grows (mid := mid) hg
    cases ev with
    | createdWith y ts init => exact List.mem_cons_of_mem _ ih
    | added y v =>
      show x ∈ (if y ∈ alive (mid ++ h) then y :: given (mid ++ h) else given (mid ++ h))
      split
      · exact List.mem_cons_of_mem _ ih
      · exact ih
    | _ => exact ih

theorem furnished_stays : ∀ {mid : List Event}, LeavesInPlace h mid → ∀ {x : Entity}, x ∈ furnished h → x ∈ furnished (mid ++ h)
  | [], _, _, hx => hx
  | ev :: mid, ha, x, hx => by
    have ih := furnished_stays (mid := mid) (fun ev hev => ha ev (List.mem_cons_of_mem _ hev)) hx
    refine mem_furnished.2 ⟨?_, given_grows (mid := ev :: mid) (mem_furnished.1 hx).2⟩
    have ih := (mem_furnished.1 ih).1
    cases ev with
    | created y => exact List.mem_cons_of_mem _ ih
    | createdWith y ts init => exact List.mem_cons_of_mem _ ih
    | destroyed y =>
      rcases ha _ List.mem_cons_self with h0 | h0
      · cases h0
      · exact (List.mem_erase_of_ne (fun he => h0 (by rw [← show x = y from he]; exact hx))).2 ih
    | _ => exact ih

/-- The ids of no entity that had components. -/
def freshIds (h : List Event) (i : Nat) : Bool := !((furnished h).any fun x => decide (x.id = i))

theorem freshIds_false {i : Nat} : freshIds h i = false ↔ ∃ x ∈ furnished h, x.id = i := by
  unfold freshIds
  simp

private theorem loose_inj (hx : LooseExec U dbg cap h s) : ∀ e ∈ alive h, ∀ x ∈ alive h, e.id = x.id → e = x := by
  rw [alive_eq]; exact (loose_core hx).inj

theorem aside_calls (hx : LooseExec U dbg cap h s) (hu : UsedNotFree s) :
    ∀ {mid : List Event} {s' : Store}, LooseExec U dbg cap (mid ++ h) s' → LeavesInPlace h mid →
      s'.archs.Aside (freshIds h) ∧ s'.archs.others (freshIds h) = s.archs.others (freshIds h)
  | [], s', hx', _ => by
    rw [loose_unique hx' hx]
    refine ⟨aside_start hx (fun i hi ⟨x, h1, h2, h3⟩ => ?_) hu, rfl⟩
    rw [freshIds_false.2 ⟨x, mem_furnished.2 ⟨h1, h2⟩, h3⟩] at hi
    cases hi
  | ev :: mid, s', .step _ hx' hl hr, hs => by
    have hs' : LeavesInPlace h mid := fun ev hev => hs ev (List.mem_cons_of_mem _ hev)
    obtain ⟨k1, k2⟩ := aside_calls hx hu hx' hs'
    have hstep : LooseExec U dbg cap (ev :: (mid ++ h)) s' := .step _ hx' hl hr
    obtain ⟨m1, m2⟩ := aside_step hx' hl hr k1 fun hm hal => by
      have hsub := (hs ev List.mem_cons_self).resolve_left (by rw [hm]; simp)
      cases hT : freshIds h (subject ev).id with
      | true => rfl
      | false =>
        obtain ⟨x, hx1, hx2⟩ := freshIds_false.1 hT
        rcases hal with hal | hal
        · have := loose_inj hx' _ (mem_furnished.1 (furnished_stays hs' hx1)).1 _ hal hx2
          exact absurd (this ▸ hx1) hsub
        · have := loose_inj hstep _ (mem_furnished.1 (furnished_stays hs hx1)).1 _ hal hx2
          exact absurd (this ▸ hx1) hsub
    exact ⟨m1, m2.trans k2⟩

private theorem forall₂_filter {α β : Type} {R : α → β → Prop} {p : α → Bool} {q : β → Bool} (hR : ∀ a b, R a b → p a = q b) :
    ∀ {l : List α} {m : List β}, List.Forall₂ R l m → List.Forall₂ R (l.filter p) (m.filter q)
  | _, _, .nil => .nil
  | _, _, .cons (a := a) (b := b) hd tl => by
    rw [List.filter_cons, List.filter_cons, ← hR _ _ hd]
    split
    · exact .cons hd (forall₂_filter hR tl)
    · exact forall₂_filter hR tl

private theorem forall₂_mem {α β : Type} {R : α → β → Prop} : ∀ {l : List α} {m : List β}, List.Forall₂ R l m →
    List.Forall₂ (fun a b => a ∈ l ∧ b ∈ m ∧ R a b) l m
  | _, _, .nil => .nil
  | _, _, .cons hd tl => .cons ⟨List.mem_cons_self, List.mem_cons_self, hd⟩ ((forall₂_mem tl).imp fun _ _ h =>
      ⟨List.mem_cons_of_mem _ h.1, List.mem_cons_of_mem _ h.2.1, h.2.2⟩)

private theorem forall₂_det {α β : Type} {R S : α → β → Prop} : ∀ {l : List α} {m m' : List β}, List.Forall₂ R l m → List.Forall₂ S l m' →
    (∀ a ∈ l, ∀ b b', R a b → S a b' → b = b') → m = m'
  | _, _, _, .nil, .nil, _ => rfl
  | _, _, _, .cons hd tl, .cons hd' tl', h => by
    rw [h _ List.mem_cons_self _ _ hd hd', forall₂_det tl tl' fun a ha => h a (List.mem_cons_of_mem _ ha)]

/-- The references in an item are those which the layout gives for its row. -/
def RowRefs (U : Universe) (acc : Access) (row : Row) (rs : List Ref) : Prop :=
  ∃ offs, getOffsetsUnchecked row.arch row.layout acc.types = .ok offs ∧ rs = getRefs U row.loc.page row.loc.index acc.types offs

/-- The items of a query belong to live entities with components; their rows give the references. -/
private theorem visits_exact (hx : LooseExec U dbg cap h s) {acc : Access} {old : List IterView} {fuel : Nat}
    (hf : (alive h).length < fuel) {items : List (Entity × List Ref)}
    (hq : runComponentQueryWithEntities U dbg s acc old fuel = .ok items) :
    List.Forall₂ (fun row x => row ∈ coveredRows s acc ∧ x.1 ∈ furnished h ∧ x.1.id = row.id ∧ RowRefs U acc row x.2)
      (coveredRows s acc) items := by
  obtain ⟨it, items0, h1, h2, h3, h4, h5, h6, h7, h8⟩ := component_any hx acc old (Nat.lt_of_le_of_lt (coveredRows_le hx acc) hf)
  obtain ⟨_, g1, _, _, g4, _⟩ := C31_visits_covered (dbg := dbg) hx acc old hf
  rw [hq] at h7 g1
  cases g1
  rw [Except.ok.injEq] at h7
  have h6' : List.Forall₂ (fun row x => x.1.id = row.id ∧ RowRefs U acc row x.2) (coveredRows s acc) items := by
    rw [h7, List.forall₂_map_right_iff]
    refine h6.imp fun row x hi => ⟨?_, hi.2.2⟩
    rw [← hi.1]
    rfl
  refine (forall₂_mem h6').imp fun row x hi => ⟨hi.1, ?_, hi.2.2⟩
  have hal := ((g4 x.1).1 (List.mem_map_of_mem hi.2.1)).1
  have hm : row.id ∈ s.order acc := by
    rw [← coveredRows_order (loose_shape hx).archs]
    exact List.mem_map_of_mem hi.1
  obtain ⟨y, y1, y2, y3⟩ := order_holder hx hm
  have := loose_inj hx y y1 x.1 hal (y3.trans hi.2.2.1.symm)
  exact mem_furnished.2 ⟨hal, this ▸ y2⟩

/-- The rows of the entities that had components are those which they had. -/
private theorem rows_stay (hx : LooseExec U dbg cap h s) (hx' : LooseExec U dbg cap (mid ++ h) s') (ha : LeavesInPlace h mid)
    (hu : UsedNotFree s) (acc : Access) :
    (coveredRows s' acc).filter (fun r => !freshIds h r.id) = coveredRows s acc := by
  rw [coveredRows_but, (aside_calls hx hu hx' ha).2, ← coveredRows_but, List.filter_eq_self]
  intro r hr
  have hm : r.id ∈ s.order acc := by
    rw [← coveredRows_order (loose_shape hx).archs]
    exact List.mem_map_of_mem hr
  obtain ⟨y, y1, y2, y3⟩ := order_holder hx hm
  rw [freshIds_false.2 ⟨y, mem_furnished.2 ⟨y1, y2⟩, y3⟩]
  rfl

/-- **C112, what holds** of the items of component queries: if no archetype in use is on the list of free archetypes, then whatever is done
with other entities, every query returns the same items for the entities that had components, in the same order, with references to the
same places, among those for the other entities. -/
theorem C112_query_partial (hx : LooseExec U dbg cap h s) (hx' : LooseExec U dbg cap (mid ++ h) s') (ha : LeavesInPlace h mid)
    (hu : UsedNotFree s) {acc : Access} {old old' : List IterView} {fuel fuel' : Nat}
    (hf : (alive h).length < fuel) (hf' : (alive (mid ++ h)).length < fuel') {items items' : List (Entity × List Ref)}
    (hq : runComponentQueryWithEntities U dbg s acc old fuel = .ok items)
    (hq' : runComponentQueryWithEntities U dbg s' acc old' fuel' = .ok items') :
    items'.filter (fun x => decide (x.1 ∈ furnished h)) = items := by
  have k := visits_exact hx hf hq
  have k' : List.Forall₂ (fun row x => x.1 ∈ furnished (mid ++ h) ∧ x.1.id = row.id ∧ RowRefs U acc row x.2)
      (coveredRows s acc) (items'.filter fun x => decide (x.1 ∈ furnished h)) := by
    rw [← rows_stay hx hx' ha hu acc]
    refine (forall₂_filter (fun row x hrx => ?_) (visits_exact hx' hf' hq')).imp fun row x hi => hi.2
    obtain ⟨_, m2, m3, _⟩ := hrx
    rw [Bool.eq_iff_iff, Bool.not_eq_true', freshIds_false, decide_eq_true_eq]
    constructor
    · rintro ⟨y, y1, y2⟩
      have := loose_inj hx' y (mem_furnished.1 (furnished_stays ha y1)).1 x.1 (mem_furnished.1 m2).1 (y2.trans m3.symm)
      exact this ▸ y1
    · exact fun hm => ⟨x.1, hm, m3⟩
  refine forall₂_det k' k fun row hrow x y ⟨m1, m3, m4⟩ ⟨_, n1, n2, n3⟩ => ?_
  refine Prod.ext (loose_inj hx' _ (mem_furnished.1 m1).1 _ (mem_furnished.1 (furnished_stays ha n1)).1 (m3.trans n2.symm)) ?_
  obtain ⟨o1, p1, q1⟩ := m4
  obtain ⟨o2, p2, q2⟩ := n3
  rw [p1] at p2
  cases p2
  rw [q1, q2]

/-- **C112, what holds** of temporary entities: if all entities that were given components in between are destroyed again, every query
returns exactly the items it returned before. -/
theorem C112_temporary_partial (hx : LooseExec U dbg cap h s) (hx' : LooseExec U dbg cap (mid ++ h) s') (ha : LeavesInPlace h mid)
    (hd : ∀ x ∈ alive (mid ++ h), x ∈ given (mid ++ h) → x ∈ alive h ∧ x ∈ given h)
    (hu : UsedNotFree s) {acc : Access} {old old' : List IterView}
    {fuel fuel' : Nat} (hf : (alive h).length < fuel) (hf' : (alive (mid ++ h)).length < fuel') {items items' : List (Entity × List Ref)}
    (hq : runComponentQueryWithEntities U dbg s acc old fuel = .ok items)
    (hq' : runComponentQueryWithEntities U dbg s' acc old' fuel' = .ok items') : items' = items := by
  rw [← C112_query_partial hx hx' ha hu hf hf' hq hq']
  symm
  rw [List.filter_eq_self]
  intro x hxm
  have : ∀ {l : List Row} {m : List (Entity × List Ref)}, List.Forall₂ (fun row x => row ∈ coveredRows s' acc ∧ x.1 ∈ furnished (mid ++ h) ∧
      x.1.id = row.id ∧ RowRefs U acc row x.2) l m → ∀ x ∈ m, x.1 ∈ furnished (mid ++ h) := by
    intro l m hf
    induction hf with
    | nil => simp
    | cons h0 _ ih =>
      intro x hx
      rcases List.mem_cons.1 hx with rfl | hx
      · exact h0.2.1
      · exact ih x hx
  have := mem_furnished.1 (this (visits_exact hx' hf' hq') x hxm)
  exact decide_eq_true (mem_furnished.2 (hd _ this.1 this.2))

/-- What is read of an entity, from its row. -/
private theorem read_row (hx : LooseExec U dbg cap h s) {acc : Access} {row : Row} (hrow : row ∈ coveredRows s acc) {x : Entity}
    (hf : x ∈ furnished h) (hid : x.id = row.id) :
    (∀ ts, s.getComponentsRefs U dbg x ts = do
      match ← getOffsets row.arch row.layout ts with
      | none => return none
      | some offsets => return some (getRefs U row.loc.page row.loc.index ts offsets)) ∧
    s.getEntityArchetype dbg x = .ok (some row.arch) := by
  have hc := loose_core hx
  have hal := (mem_furnished.1 hf).1
  have hbit := ((given_bit hx).2 x hal).2 (mem_furnished.1 hf).2
  have hlt : x.id < s.ents.capacity := hc.ents.id_lt (alive_eq h ▸ hal)
  have hv : s.isValidEntityWithArchetype dbg x = .ok true := by
    unfold Store.isValidEntityWithArchetype
    rw [hc.isAlive hlt, ok_bind, if_pos (by rw [← alive_eq]; simpa using hal)]
    rw [Words.isOn_of_lt (by rw [hc.blen]; exact Words.div_lt_getLen hlt), hbit]
  unfold coveredRows at hrow
  obtain ⟨z, hz, hrow⟩ := List.mem_flatMap.1 hrow
  obtain ⟨ai, hai⟩ := List.mem_iff_getElem?.1 hz
  obtain ⟨h1, h2⟩ := List.getElem?_zip_eq_some.1 hai
  obtain ⟨h3, h4⟩ := List.getElem?_zip_eq_some.1 h1
  split at hrow
  · obtain ⟨p, hp, hrow⟩ := List.mem_flatMap.1 hrow
    unfold rowsOfPage at hrow
    split at hrow
    · cases hrow
    · next pg hpg =>
      obtain ⟨y, hy, rfl⟩ := List.mem_map.1 hrow
      dsimp only at hid ⊢
      have hr : s.archs.row ⟨p, y.2⟩ = some y.1 := by
        unfold Archs.row
        rw [hpg]
        exact List.mk_mem_zipIdx_iff_getElem?.1 hy
      have hpos : Pos s.toPage s.toIndex x.id ⟨p, y.2⟩ := by
        rcases (loose_rows hx).rows _ _ hr with h0 | ⟨_, h0⟩
        · cases h0
        · rw [hid]; exact h0
      have hown := (loose_rows hx).use.owner ai z.2 p h2 hp
      constructor
      · intro ts
        unfold Store.getComponentsRefs Store.getPageViewUnchecked
        rw [hv, ok_bind, if_pos rfl, Raw.read_ok.2 hpos.page, ok_bind, idxUnchecked_ok.2 hown, ok_bind, idxUnchecked_ok.2 h3, ok_bind,
          idxUnchecked_ok.2 h4, ok_bind, idxUnchecked_ok.2 hpg, ok_bind]
        show (do
          let index ← Raw.read s.toIndex x.id
          _) = _
        rw [Raw.read_ok.2 hpos.index, ok_bind]
        rfl
      · unfold Store.getEntityArchetype
        rw [hv, ok_bind]
        simp only [Bool.not_true, Bool.false_eq_true, if_false]
        rw [Raw.read_ok.2 hpos.page, ok_bind, idx_ok.2 hown, ok_bind, idx_ok.2 h3, ok_bind]
        rfl
  · cases hrow

/-- **C112, what holds** of reading: if no archetype in use is on the list of free archetypes, then whatever is done with other entities,
`get_components_refs` and `get_entity_archetype` return the same for an entity that had components. So references to its components, once
obtained, still point to its components. -/
theorem C112_refs_partial (hx : LooseExec U dbg cap h s) (hx' : LooseExec U dbg cap (mid ++ h) s') (ha : LeavesInPlace h mid)
    (hu : UsedNotFree s) {x : Entity} (hal : x ∈ alive h) (hg : x ∈ given h) :
    (∀ ts, s'.getComponentsRefs U dbg x ts = s.getComponentsRefs U dbg x ts) ∧
      s'.getEntityArchetype dbg x = s.getEntityArchetype dbg x := by
  have hf := mem_furnished.2 ⟨hal, hg⟩
  obtain ⟨items, g1, _, _, g4, _⟩ := C31_visits_covered (dbg := dbg) hx (.readonly []) [] (Nat.lt_succ_self _)
  have hm : x ∈ items.map (·.1) := by
    rw [g4]
    obtain ⟨o, o1, o2⟩ := C27_none_iff hx (e := x) (by
      rw [handles_eq]
      rw [alive_eq] at hal
      exact (loose_core hx).ents.sub x hal)
    cases o with
    | none => exact absurd (o2.1 rfl) (by simp [hal, hg])
    | some a => exact ⟨hal, a, o1, by simp [Covers]⟩
  obtain ⟨row, h1, h2⟩ : ∃ row ∈ coveredRows s (.readonly []), x.id = row.id := by
    obtain ⟨y, hy, rfl⟩ := List.mem_map.1 hm
    have key : ∀ {l : List Row} {m : List (Entity × List Ref)}, List.Forall₂ (fun row x => row ∈ coveredRows s (.readonly []) ∧
        x.1 ∈ furnished h ∧ x.1.id = row.id ∧ RowRefs U (.readonly []) row x.2) l m →
        ∀ x ∈ m, ∃ row ∈ coveredRows s (.readonly []), x.1.id = row.id := by
      intro l m hf
      induction hf with
      | nil => simp
      | cons h0 _ ih =>
        intro x hx
        rcases List.mem_cons.1 hx with rfl | hx
        · exact ⟨_, h0.1, h0.2.2.1⟩
        · exact ih x hx
    exact key (visits_exact hx (Nat.lt_succ_self _) g1) y hy
  have h1' : row ∈ coveredRows s' (.readonly []) := by
    have h0 := h1
    rw [← rows_stay hx hx' ha hu] at h0
    exact (List.mem_filter.1 h0).1
  obtain ⟨k1, k2⟩ := read_row hx h1 hf h2
  obtain ⟨k1', k2'⟩ := read_row hx' h1' (furnished_stays ha hf) h2
  exact ⟨fun ts => (k1' ts).trans (k1 ts).symm, k2'.trans k2.symm⟩

theorem life_apart {x : Entity} : ∀ {mid : List Event}, x ∉ subjects mid → life x (mid ++ h) = life x h
  | [], _ => rfl
  | ev :: mid, hn => by
    have ih := life_apart (mid := mid) (fun hm => hn (List.mem_cons_of_mem _ hm))
    have hne : subject ev ≠ x := fun he => hn (List.mem_cons.2 (.inl he.symm))
    have hd : deed x ev = none := by
      cases ev <;> first | exact if_neg hne | rfl
    unfold life at ih ⊢
    rw [List.cons_append, List.filterMap_cons_none hd]
    exact ih

/-- **C112, what holds** of values: in executions of well-behaved programs with room for all rows (`Exec`), calls that are not about an
entity leave its values and tags as they are. -/
theorem C112_values_partial (hx : Exec U dbg cap h s) (hx' : Exec U dbg cap (mid ++ h) s') {x : Entity} (hh : x ∈ handles h)
    (hn : x ∉ subjects mid) :
    s'.isAlive dbg x = s.isAlive dbg x ∧ (∀ ts, ts ≠ [] → s'.getComponents U dbg x ts = s.getComponents U dbg x ts) ∧
      (x ∈ alive h → ∀ tag, s'.hasTag tag x = s.hasTag tag x) := by
  obtain ⟨h1, h2, _, h4⟩ := C84_same_life_same_data_partial hx hx' hh (life_apart (h := h) hn).symm
  exact ⟨h1, h2, h4⟩

theorem filter_insertAfter {e x : Entity} {p : Entity → Bool} (hp : p e = false) : ∀ l : List Entity,
    (insertAfter x e l).filter p = l.filter p
  | [] => rfl
  | a :: l => by
    unfold insertAfter
    split
    · rw [List.filter_cons, List.filter_cons, List.filter_cons, hp]; simp
    · rw [List.filter_cons, List.filter_cons, filter_insertAfter hp l]

theorem filter_insertBefore {e x : Entity} {p : Entity → Bool} (hp : p e = false) : ∀ l : List Entity,
    (insertBefore x e l).filter p = l.filter p
  | [] => rfl
  | a :: l => by
    unfold insertBefore
    split
    · rw [List.filter_cons, hp]; simp
    · rw [List.filter_cons, List.filter_cons, filter_insertBefore hp l]

theorem filter_erase_out {e : Entity} {p : Entity → Bool} (hp : p e = false) : ∀ l : List Entity, (l.erase e).filter p = l.filter p
  | [] => rfl
  | a :: l => by
    by_cases ha : a = e
    · subst ha
      rw [List.erase_cons_head, List.filter_cons, hp]; simp
    · rw [List.erase_cons_tail (by simpa using ha), List.filter_cons, List.filter_cons, filter_erase_out hp l]

theorem sequence_apart (g : Nat) {p : Entity → Bool} : ∀ {mid : List Event}, (∀ x ∈ subjects mid, p x = false) →
    (sequence g (mid ++ h)).filter p = (sequence g h).filter p
  | [], _ => rfl
  | ev :: mid, hp => by
    have ih := sequence_apart g (mid := mid) (fun x hx => hp x (List.mem_cons_of_mem _ hx))
    have he : p (subject ev) = false := hp _ List.mem_cons_self
    rw [← ih]
    cases ev with
    | orderedLast g' e =>
      show (if g' = g then _ else _ : List Entity).filter p = _
      split
      · rw [List.filter_append, List.filter_cons, show p e = false from he]; simp
      · rfl
    | orderedAfter g' e x =>
      show (if g' = g then _ else _ : List Entity).filter p = _
      split
      · exact filter_insertAfter he _
      · rfl
    | orderedBefore g' e x =>
      show (if g' = g then _ else _ : List Entity).filter p = _
      split
      · exact filter_insertBefore he _
      · rfl
    | unordered g' e =>
      show (if g' = g then _ else _ : List Entity).filter p = _
      split
      · exact filter_erase_out he _
      · rfl
    | destroyed e => exact filter_erase_out he _
    | _ => rfl

/-- **C112** for groups, in every state: walking through a group passes the entities which the calls in between were not about in the same
order as before, and none of them has entered or left. -/
theorem C112_groups (hx : LooseExec U dbg cap h s) (hx' : LooseExec U dbg cap (mid ++ h) s') (g : Nat) :
    ∃ first first' l l', s.getFirstOrdered g = .ok first ∧ s'.getFirstOrdered g = .ok first' ∧ WalksForward s g first l ∧
      WalksForward s' g first' l' ∧ l'.filter (fun x => decide (x ∉ subjects mid)) = l.filter (fun x => decide (x ∉ subjects mid)) := by
  obtain ⟨first, _, l, k1, _, k3, _, _, _, k7, _⟩ := C42_walks_agree hx g
  obtain ⟨first', _, l', k1', _, k3', _, _, _, k7', _⟩ := C42_walks_agree hx' g
  refine ⟨first, first', l, l', k1, k1', k3, k3', ?_⟩
  rw [k7, k7']
  exact sequence_apart g fun x hx => by simpa using hx

theorem lastTag_apart (tag : Nat) {x : Entity} : ∀ {mid : List Event}, x ∉ subjects mid → lastTag tag x (mid ++ h) = lastTag tag x h
  | [], _ => rfl
  | ev :: mid, hn => by
    have ih := lastTag_apart tag (mid := mid) (fun hm => hn (List.mem_cons_of_mem _ hm))
    have hne : subject ev ≠ x := fun he => hn (List.mem_cons.2 (.inl he.symm))
    cases ev with
    | tagged t y => exact (if_neg (fun h0 => hne h0.2)).trans ih
    | untagged t y => exact (if_neg (fun h0 => hne h0.2)).trans ih
    | _ => exact ih

theorem alive_apart {x : Entity} : ∀ {mid : List Event}, x ∉ subjects mid → (x ∈ alive (mid ++ h) ↔ x ∈ alive h)
  | [], _ => Iff.rfl
  | ev :: mid, hn => by
    have ih := alive_apart (mid := mid) (fun hm => hn (List.mem_cons_of_mem _ hm))
    have hne : x ≠ subject ev := fun he => hn (List.mem_cons.2 (.inl he))
    cases ev with
    | created y => exact List.mem_cons.trans ⟨fun h => h.elim (fun h => absurd h hne) ih.1, fun h => .inr (ih.2 h)⟩
    | createdWith y ts init => exact List.mem_cons.trans ⟨fun h => h.elim (fun h => absurd h hne) ih.1, fun h => .inr (ih.2 h)⟩
    | destroyed y => exact (List.mem_erase_of_ne hne).trans ih
    | _ => exact ih

/-- **C112** for tags, in every state: calls that are not about an entity leave its tags as they are. -/
theorem C112_tags (hx : LooseExec U dbg cap h s) (hx' : LooseExec U dbg cap (mid ++ h) s') {x : Entity} (ha : x ∈ alive h)
    (hn : x ∉ subjects mid) (tag : Nat) : s'.hasTag tag x = s.hasTag tag x := by
  rw [C39_has_tag_is_last_change hx tag ha, C39_has_tag_is_last_change hx' tag ((alive_apart hn).2 ha), lastTag_apart tag hn]

end

/-! ### Where the property fails -/

/-- **C112 is false of the code** where the archetype of entity 1 is on the list of free archetypes: giving the first component to entity 4
takes entity 1 out of the query for its component, and the references to it with it. -/
theorem C112_counterexample : ∃ s s' rs, WellExec demo true 1 refilled s ∧
    WellExec demo true 1 ([.added ⟨4, 1⟩ [(8, [80])]] ++ refilled) s' ∧ LeavesInPlace refilled [.added ⟨4, 1⟩ [(8, [80])]] ∧
    (⟨1, 2⟩ : Entity) ∈ furnished refilled ∧ s.getComponentsRefs demo true ⟨1, 2⟩ [5] = .ok (some rs) ∧
    s'.getComponentsRefs demo true ⟨1, 2⟩ [5] = .ok none ∧ ¬ UsedNotFree s := by
  have h : ((runWell demo true 1 refilled).any fun s => !decide (UsedNotFree s) &&
      (runWell demo true 1 ([.added ⟨4, 1⟩ [(8, [80])]] ++ refilled)).any fun s' =>
      okAnd (s.getComponentsRefs demo true ⟨1, 2⟩ [5]) fun o => o.isSome &&
        decide (s'.getComponentsRefs demo true ⟨1, 2⟩ [5] = .ok none)) = true := by decide
  obtain ⟨s, hs, h⟩ := any_some h
  rw [Bool.and_eq_true, Bool.not_eq_true', decide_eq_false_iff_not] at h
  obtain ⟨s', hs', h'⟩ := any_some h.2
  obtain ⟨o, h1, h2⟩ := okAnd_iff h'
  rw [Bool.and_eq_true, decide_eq_true_eq] at h2
  obtain ⟨rs, rfl⟩ := Option.isSome_iff_exists.1 h2.1
  exact ⟨s, s', rs, runWell_sound hs, runWell_sound hs', by decide, by decide, h1, h2.2, h.1⟩

/-! ### Examples -/

/-- Three entities with the same component. -/
def settled : List Event :=
  [.added ⟨2, 1⟩ [(4, [30])], .added ⟨1, 1⟩ [(4, [20])], .added ⟨0, 1⟩ [(4, [10])], .created ⟨2, 1⟩, .created ⟨1, 1⟩, .created ⟨0, 1⟩]

/-- Two more come, change, exchange rows and go; one of the three is assigned to. -/
def visit : List Event :=
  [.destroyed ⟨4, 1⟩, .removed ⟨4, 1⟩ [5], .destroyed ⟨3, 1⟩, .added ⟨3, 1⟩ [(5, [7])], .assigned ⟨1, 1⟩ [(4, [21])],
   .added ⟨4, 1⟩ [(4, [50]), (5, [51])], .added ⟨3, 1⟩ [(4, [40])], .created ⟨4, 1⟩, .created ⟨3, 1⟩]

example : LeavesInPlace settled visit ∧ ¬ LeavesInPlace settled [.destroyed ⟨0, 1⟩] ∧
    (∀ x ∈ alive (visit ++ settled), x ∈ given (visit ++ settled) → x ∈ alive settled ∧ x ∈ given settled) := by decide

/-- The hypotheses hold, and a query returns the three items before and after. -/
example : ((runLoose demo true 1 settled).any fun s => decide (UsedNotFree s) && (runLoose demo true 1 (visit ++ settled)).any fun s' =>
    okAnd (runComponentQueryWithEntities demo true s (.readonly [4]) [] 10) fun items =>
    okAnd (runComponentQueryWithEntities demo true s' (.readonly [4]) [] 10) fun items' =>
      decide (items' = items) && decide (items.map (·.1) = [⟨0, 1⟩, ⟨1, 1⟩, ⟨2, 1⟩])) = true := by decide

/-- Destroying one of the three is not such a call: another one takes its place, and its references are others. -/
example : ((runLoose demo true 1 settled).any fun s => (runLoose demo true 1 (.destroyed ⟨0, 1⟩ :: settled)).any fun s' =>
    okAnd (s.getComponentsRefs demo true ⟨2, 1⟩ [4]) fun rs => okAnd (s'.getComponentsRefs demo true ⟨2, 1⟩ [4]) fun rs' =>
      decide (rs ≠ rs')) = true := by decide

/-- A group of two: an entity is put between them, and taken out again with its destruction. -/
example : sequence 1 [.destroyed ⟨2, 1⟩, .orderedAfter 1 ⟨2, 1⟩ ⟨0, 1⟩, .created ⟨2, 1⟩, .orderedLast 1 ⟨1, 1⟩, .orderedLast 1 ⟨0, 1⟩,
    .created ⟨1, 1⟩, .created ⟨0, 1⟩] = [⟨0, 1⟩, ⟨1, 1⟩] := by decide

end Ecs.Props
