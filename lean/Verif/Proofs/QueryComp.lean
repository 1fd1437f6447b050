import Verif.Proofs.StoreAgrees
import Verif.Spec.Query

/-! Component queries over a store that represents a world. -/

namespace Ecs
open Spec

/-! ### Draining an iterator -/

/-- An iterator state from which exactly the items `l` come. -/
theorem drain_of {σ α β : Type} {next : σ → Res (Option α × σ)} {f : β → α} (R : σ → List β → Prop)
    (hnil : ∀ it, R it [] → ∃ it', next it = .ok (none, it'))
    (hcons : ∀ it x l, R it (x :: l) → ∃ it', next it = .ok (some (f x), it') ∧ R it' l)
    {it : σ} {l : List β} (h : R it l) {fuel : Nat} (hf : l.length < fuel) :
    drain next fuel it = .ok (l.map f) := by
  induction l generalizing it fuel with
  | nil =>
    cases fuel with
    | zero => cases hf
    | succ n =>
      obtain ⟨it', h1⟩ := hnil it h
      simp only [drain, h1, ok_bind, pure_ok, List.map_nil]
  | cons x l ih =>
    cases fuel with
    | zero => cases hf
    | succ n =>
      obtain ⟨it', h1, h2⟩ := hcons it x l h
      simp only [drain, h1, ok_bind, ih h2 (Nat.lt_of_succ_lt_succ hf), pure_ok, List.map_cons]

/-- The same for finitely many calls: the items in order, then nothing, as long as one calls. -/
theorem calls_of {σ α β : Type} {next : σ → Res (Option α × σ)} {f : β → α} (R : σ → List β → Prop)
    (hnil : ∀ it, R it [] → ∃ it', next it = .ok (none, it') ∧ R it' [])
    (hcons : ∀ it x l, R it (x :: l) → ∃ it', next it = .ok (some (f x), it') ∧ R it' l)
    {it : σ} {l : List β} (h : R it l) (n : Nat) :
    ∃ it', calls next n it = .ok ((l.take n).map (fun x => some (f x)) ++ List.replicate (n - l.length) none, it') ∧
      R it' (l.drop n) := by
  induction n generalizing it l with
  | zero => exact ⟨it, by simp [calls], h⟩
  | succ n ih =>
    cases l with
    | nil =>
      obtain ⟨it1, h1, h2⟩ := hnil it h
      obtain ⟨it2, h3, h4⟩ := ih h2
      refine ⟨it2, ?_, by simpa using h4⟩
      simp only [calls, h1, ok_bind, h3, pure_ok]
      simp [List.replicate_succ]
    | cons x l =>
      obtain ⟨it1, h1, h2⟩ := hcons it x l h
      obtain ⟨it2, h3, h4⟩ := ih h2
      refine ⟨it2, ?_, h4⟩
      simp only [calls, h1, ok_bind, h3, pure_ok]
      simp

/-! ### References and access -/

theorem addToPtrs_getRefs (U : Universe) (page i : Nat) (ts offs : List Nat) :
    addToPtrs (getRefs U page 0 ts offs) i = getRefs U page i ts offs := by
  unfold addToPtrs getRefs Page.dataPtr
  rw [List.map_map]
  refine List.map_congr_left fun p _ => ?_
  simp

theorem getOffsetsUnchecked_append {a : Archetype} {l : Layout} (r w : List Nat) :
    getOffsetsUnchecked a l (r ++ w) = (do
      let ro ← getOffsetsUnchecked a l r
      let wo ← getOffsetsUnchecked a l w
      return ro ++ wo) := by
  induction r with
  | nil =>
    simp only [List.nil_append, getOffsetsUnchecked, ok_bind]
    cases getOffsetsUnchecked a l w <;> rfl
  | cons t r ih =>
    simp only [List.cons_append, getOffsetsUnchecked]
    cases a.findComponentIndex t with
    | none => rfl
    | some i =>
      simp only [ih]
      cases idxUnchecked l.offsets i with
      | error e => rfl
      | ok o =>
        cases getOffsetsUnchecked a l r with
        | error e => rfl
        | ok ro =>
          cases getOffsetsUnchecked a l w with
          | error e => rfl
          | ok wo => rfl

theorem Access.getOffsets_eq (acc : Access) (a : Archetype) (l : Layout) :
    acc.getOffsets a l = getOffsetsUnchecked a l acc.types := by
  cases acc with
  | readonly r => rfl
  | write w => rfl
  | readWrite r w => simp only [Access.getOffsets, Access.types, getOffsetsUnchecked_append]

theorem Access.included_iff {U : Universe} {acc : Access} {a : Archetype} (hd : DistinctTypes acc) (hw : a.WF U) :
    acc.included a = true ↔ ∀ t ∈ acc.types, t ∈ a.ids := by
  cases acc with
  | readonly r => exact Archetype.isIncludeIds_iff hw.incr hd
  | write r => exact Archetype.isIncludeIds_iff hw.incr hd
  | readWrite r w =>
    simp only [Access.included, Access.types, Bool.and_eq_true, tupleIncluded,
      Archetype.isIncludeIds_iff hw.incr hd.1, Archetype.isIncludeIds_iff hw.incr hd.2, List.mem_append]
    exact ⟨fun h t ht => ht.elim (h.1 t) (h.2 t), fun h => ⟨fun t ht => h t (.inl ht), fun t ht => h t (.inr ht)⟩⟩

/-! ### Archetypes that are only known to be sorted -/

theorem allFound_sorted {ids : List Nat} (h : ids.Pairwise (· ≤ ·)) (l : List Nat) :
    Archetype.allFound ids l = true ↔ ∀ t ∈ l, t ∈ ids := by
  induction l with
  | nil => simp [Archetype.allFound]
  | cons x l ih =>
    unfold Archetype.allFound
    cases hb : binarySearch ids x with
    | found j => simp [ih, List.mem_of_getElem? (binarySearch_found hb)]
    | notFound j => simp [binarySearch_notFound_not_mem h hb]

theorem isIncludeIds_sorted {a : Archetype} (h : a.ids.Pairwise (· ≤ ·)) (l : List Nat) :
    a.isIncludeIds l = true ↔ (∀ t ∈ l, t ∈ a.ids) ∧ l.length ≤ a.ids.length := by
  unfold Archetype.isIncludeIds
  split
  · next hlt => simp; intro _; omega
  · next hlt => rw [allFound_sorted h]; exact ⟨fun h0 => ⟨h0, by omega⟩, fun h0 => h0.1⟩

theorem Access.included_covers {acc : Access} {a : Archetype} (h : a.ids.Pairwise (· ≤ ·)) :
    acc.included a = true ↔ Covers a.ids acc := by
  cases acc with
  | readonly r => exact isIncludeIds_sorted h r
  | write r => exact isIncludeIds_sorted h r
  | readWrite r w =>
    simp only [Access.included, Bool.and_eq_true, tupleIncluded, isIncludeIds_sorted h, Covers, List.mem_append]
    constructor
    · rintro ⟨⟨h1, h2⟩, h3, h4⟩
      exact ⟨fun t ht => ht.elim (h1 t) (h3 t), h2, h4⟩
    · rintro ⟨h1, h2, h3⟩
      exact ⟨⟨fun t ht => h1 t (.inl ht), h2⟩, fun t ht => h1 t (.inr ht), h3⟩

theorem Spec.Covers.mem {acc : Access} {ids : List TypeId} (h : Covers ids acc) : ∀ t ∈ acc.types, t ∈ ids := by
  cases acc with
  | readonly r => exact h.1
  | write r => exact h.1
  | readWrite r w => exact h.1

theorem Spec.covers_iff {acc : Access} {ids : List TypeId} (hd : DistinctTypes acc) :
    Covers ids acc ↔ ∀ t ∈ acc.types, t ∈ ids := by
  refine ⟨Covers.mem, fun h => ?_⟩
  have key : ∀ l : List TypeId, l.Nodup → (∀ t ∈ l, t ∈ ids) → l.length ≤ ids.length := fun l hl hm =>
    (List.subperm_of_subset hl hm).length_le
  cases acc with
  | readonly r => exact ⟨h, key r hd h⟩
  | write r => exact ⟨h, key r hd h⟩
  | readWrite r w =>
    exact ⟨h, key r hd.1 fun t ht => h t (List.mem_append_left _ ht), key w hd.2 fun t ht => h t (List.mem_append_right _ ht)⟩

theorem Access.included_wf {U : Universe} {acc : Access} {a : Archetype} (hw : a.WF U) :
    acc.included a = true ↔ Covers a.ids acc :=
  Access.included_covers (hw.incr.imp Nat.le_of_lt)

/-! ### Iterating over page views -/

/-- Entity ids and references of a page view. -/
def IterView.items (v : IterView) : List (Nat × List Ref) :=
  v.entityIds.zipIdx.map fun p => (p.1, addToPtrs v.ptrs p.2)

theorem IterView.items_length (v : IterView) : v.items.length = v.entityIds.length := by simp [IterView.items]

theorem IterView.items_drop {v : IterView} {i id : Nat} (h : v.entityIds[i]? = some id) :
    v.items.drop i = (id, addToPtrs v.ptrs i) :: v.items.drop (i + 1) := by
  have hlt := (List.getElem?_eq_some_iff.1 h).1
  have hlt' : i < v.items.length := by rw [v.items_length]; exact hlt
  rw [List.drop_eq_getElem_cons hlt']
  congr 1
  have : v.entityIds[i] = id := (List.getElem?_eq_some_iff.1 h).2
  simp [IterView.items, this]

/-- The view is not of an empty page and its count is right. -/
def IterView.Ok (v : IterView) : Prop := v.entityCount = v.entityIds.length ∧ v.entityIds ≠ []

/-- The items still to come from a component iterator. -/
def CompIter.Remaining (it : CompIter) (l : List (Nat × List Ref)) : Prop :=
  (∀ v ∈ it.pageViews, v.Ok) ∧ it.cur.view.entityCount = it.cur.view.entityIds.length ∧
  l = it.cur.view.items.drop it.cur.nextEntityIndex ++ (it.pageViews.drop (it.currentPageIndex + 1)).flatMap (·.items)

/-- The entity id of the item returned last. -/
def CompIter.Last (it : CompIter) (id : Nat) : Prop :=
  0 < it.cur.nextEntityIndex ∧ it.cur.view.entityIds[it.cur.nextEntityIndex - 1]? = some id

theorem PageIter.next_some {it : PageIter} (hc : it.view.entityCount = it.view.entityIds.length) {id : Nat}
    (h : it.view.entityIds[it.nextEntityIndex]? = some id) :
    it.next = (some (addToPtrs it.view.ptrs it.nextEntityIndex), { it with nextEntityIndex := it.nextEntityIndex + 1 }) := by
  have hlt := (List.getElem?_eq_some_iff.1 h).1
  unfold PageIter.next
  rw [if_neg (by omega)]

theorem PageIter.next_none {it : PageIter} (h : it.view.entityCount ≤ it.nextEntityIndex) : it.next = (none, it) := by
  unfold PageIter.next
  rw [if_pos h]

theorem CompIter.next_cons {it : CompIter} {x : Nat × List Ref} {l : List (Nat × List Ref)} (h : it.Remaining (x :: l)) :
    ∃ it', it.next = .ok (some x.2, it') ∧ it'.Remaining l ∧ it'.Last x.1 ∧
      it'.queriedEntitiesCount = it.queriedEntitiesCount := by
  obtain ⟨h1, h2, h3⟩ := h
  cases hi : it.cur.view.entityIds[it.cur.nextEntityIndex]? with
  | some id =>
    rw [IterView.items_drop hi, List.cons_append] at h3
    obtain ⟨rfl, rfl⟩ := List.cons.inj h3
    refine ⟨{ it with cur := { it.cur with nextEntityIndex := it.cur.nextEntityIndex + 1 } }, ?_,
      ⟨h1, h2, rfl⟩, ⟨Nat.succ_pos _, by simpa using hi⟩, rfl⟩
    unfold CompIter.next
    rw [PageIter.next_some h2 hi]
    rfl
  | none =>
    have hle := List.getElem?_eq_none_iff.1 hi
    rw [List.drop_eq_nil_of_le (by rw [IterView.items_length]; exact hle), List.nil_append] at h3
    cases hv : it.pageViews[it.currentPageIndex + 1]? with
    | none =>
      rw [List.drop_eq_nil_of_le (List.getElem?_eq_none_iff.1 hv)] at h3
      cases h3
    | some v =>
      have hlt := (List.getElem?_eq_some_iff.1 hv).1
      have hok := h1 v (List.mem_of_getElem? hv)
      rw [List.drop_eq_getElem_cons hlt, (List.getElem?_eq_some_iff.1 hv).2, List.flatMap_cons] at h3
      cases hids : v.entityIds[0]? with
      | none =>
        have := List.getElem?_eq_none_iff.1 hids
        exact absurd (List.length_eq_zero_iff.1 (Nat.le_zero.1 this)) hok.2
      | some id =>
        have hd := IterView.items_drop hids
        rw [List.drop_zero] at hd
        rw [hd, List.cons_append] at h3
        obtain ⟨rfl, rfl⟩ := List.cons.inj h3
        refine ⟨{ it with cur := ⟨v, 1⟩, currentPageIndex := it.currentPageIndex + 1 }, ?_,
          ⟨h1, hok.1, rfl⟩, ⟨Nat.one_pos, hids⟩, rfl⟩
        unfold CompIter.next
        rw [PageIter.next_none (by rw [h2]; exact hle)]
        simp only [hlt, if_true, idxUnchecked_of_some hv, ok_bind]
        rw [PageIter.next_some (it := PageIter.new v) hok.1 hids]
        rfl

theorem CompIter.next_nil {it : CompIter} (h : it.Remaining []) :
    ∃ it', it.next = .ok (none, it') ∧ it'.Remaining [] ∧ it'.queriedEntitiesCount = it.queriedEntitiesCount := by
  obtain ⟨h1, h2, h3⟩ := h
  have h3 := List.append_eq_nil_iff.1 h3.symm
  have hle : it.cur.view.entityIds.length ≤ it.cur.nextEntityIndex := by
    have := List.drop_eq_nil_iff.1 h3.1
    rw [IterView.items_length] at this
    exact this
  have hle2 : ¬ it.currentPageIndex + 1 < it.pageViews.length := by
    intro hlt
    have hv : it.pageViews[it.currentPageIndex + 1]? = some it.pageViews[it.currentPageIndex + 1] :=
      List.getElem?_eq_getElem hlt
    have hok := h1 _ (List.mem_of_getElem? hv)
    have := h3.2
    rw [List.drop_eq_getElem_cons hlt, List.flatMap_cons] at this
    have := congrArg List.length (List.append_eq_nil_iff.1 this).1
    rw [IterView.items_length] at this
    exact hok.2 (List.length_eq_zero_iff.1 this)
  refine ⟨{ it with cur := PageIter.empty, currentPageIndex := it.currentPageIndex + 1 }, ?_, ⟨h1, rfl, ?_⟩, rfl⟩
  · unfold CompIter.next
    rw [PageIter.next_none (by rw [h2]; exact hle)]
    simp only [hle2, if_false]
    rfl
  · have : it.pageViews.drop (it.currentPageIndex + 1 + 1) = [] := List.drop_eq_nil_of_le (by omega)
    simp only [this]
    rfl

/-- The current handle with id `id`. -/
def Store.entOf (s : Store) (id : Nat) : Entity := ⟨id, ((s.ents.versions[id]?).getD none).getD 0⟩

namespace Rel
variable {U : Universe} {dbg : Bool} {s : Store} {w : World}

theorem entOf (h : Rel U dbg s w) {e : Entity} (he : e ∈ w.live) : s.entOf e.id = e := by
  unfold Store.entOf
  rw [h.ents.lver e he]
  rfl

/-- The entity of a row. -/
theorem row_owner (h : Rel U dbg s w) {q : Loc} {id : Nat} (hq : s.archs.row q = some id) :
    ∃ e ∈ w.live, e.id = id ∧ w.types e ≠ [] ∧ Pos s.toPage s.toIndex id q := by
  rcases h.places.rows q id hq with h1 | h1
  · cases h1
  · exact h1

theorem row_inj (h : Rel U dbg s w) {q q' : Loc} {id : Nat} (hq : s.archs.row q = some id)
    (hq' : s.archs.row q' = some id) : q = q' := by
  obtain ⟨_, _, _, _, h1⟩ := h.row_owner hq
  obtain ⟨_, _, _, _, h2⟩ := h.row_owner hq'
  exact h1.unique h2

/-- The references to the components in a row. -/
theorem row_refs (h : Rel U dbg s w) {q : Loc} {id ai : Nat} {a : Archetype} {l : Layout} {ps : List Nat} {pg : Page}
    {ts offs : List Nat} (hq : s.archs.row q = some id) (hat : s.archs.At q.page ai a l ps pg)
    (hts : ∀ t ∈ ts, t ∈ a.ids) (ho : getOffsetsUnchecked a l ts = .ok offs) :
    ∃ e ∈ w.live, e.id = id ∧ w.types e ≠ [] ∧ (∀ t ∈ ts, t ∈ w.types e) ∧ Pos s.toPage s.toIndex id q ∧
      s.getComponentsRefs U dbg e ts = .ok (some (getRefs U q.page q.index ts offs)) := by
  obtain ⟨e, he, rfl, hT, hpos⟩ := h.row_owner hq
  obtain ⟨q', ai', a', l', ps', pg', h1, h2, hat', hw, hg, h5, h6, _, h8⟩ := h.row he hT
  have := h.row_inj hq h2
  subst this
  have e1 := hat.hto; rw [hat'.hto] at e1; cases e1
  have e1 := hat.ha; rw [hat'.ha] at e1; cases e1
  have e1 := hat.hl; rw [hat'.hl] at e1; cases e1
  obtain ⟨offs', g1, g2, _⟩ := getOffsets_present hw hg ts hts
  rw [ho] at g2
  cases g2
  refine ⟨e, he, rfl, hT, fun t ht => (h5 t).1 (hts t ht), hpos, ?_⟩
  unfold Store.getComponentsRefs
  simp only [h.isValid (h.ents.id_lt he), ok_bind, he, hT, ne_eq, not_false_eq_true, and_self, decide_true, if_true,
    Raw.read_of_some h1.page, Raw.read_of_some h1.index, h8, g1, pure_ok]

/-- Two different components of live entities do not share a byte. -/
theorem refs_apart (h : Rel U dbg s w) {e e' : Entity} {ts ts' : List Nat} {rs rs' : List Ref}
    (hr : s.getComponentsRefs U dbg e ts = .ok (some rs)) (hr' : s.getComponentsRefs U dbg e' ts' = .ok (some rs'))
    (hlt : e.id < s.ents.capacity) (hlt' : e'.id < s.ents.capacity) {i j : Nat} {t t' : TypeId} {r r' : Ref}
    (ht : ts[i]? = some t) (ht' : ts'[j]? = some t') (hri : rs[i]? = some r) (hrj : rs'[j]? = some r')
    (hne : ¬ (e = e' ∧ t = t')) : Apart r r' := by
  have key : ∀ {e : Entity} {ts : List Nat} {rs : List Ref}, s.getComponentsRefs U dbg e ts = .ok (some rs) →
      e.id < s.ents.capacity → e ∈ w.live ∧ w.types e ≠ [] ∧ ∀ t ∈ ts, t ∈ w.types e := by
    intro e ts rs hr hlt
    by_contra hc
    rw [h.getRefs_none hlt hc] at hr
    cases hr
  obtain ⟨k1, k2, k3⟩ := key hr hlt
  obtain ⟨k1', k2', k3'⟩ := key hr' hlt'
  obtain ⟨q, ai, a, l, ps, pg, offs, g1, g2, hat, _, _, g5, g6⟩ := h.getRefs_some k1 k2 k3
  obtain ⟨q', ai', a', l', ps', pg', offs', g1', g2', hat', _, _, g5', g6'⟩ := h.getRefs_some k1' k2' k3'
  rw [hr] at g5
  rw [hr'] at g5'
  cases g5
  cases g5'
  have key2 : ∀ {ts offs : List Nat} {a : Archetype} {l : Layout} {p i n : Nat} {t : TypeId} {r : Ref},
      List.Forall₂ (fun t o => ∃ k : Nat, a.ids[k]? = some t ∧ l.offsets[k]? = some o) ts offs →
      ts[i]? = some t → (getRefs U p n ts offs)[i]? = some r →
      ∃ k o : Nat, a.ids[k]? = some t ∧ l.offsets[k]? = some o ∧ r = ⟨p, o + n * U.size t, U.size t⟩ := by
    intro ts offs a l p i n t r hf
    induction hf generalizing i with
    | nil => intro h1; simp at h1
    | @cons t0 o0 ts offs h0 _ ih =>
      intro h1 h2
      cases i with
      | zero =>
        simp only [List.getElem?_cons_zero, Option.some.injEq, getRefs, List.zip_cons_cons, List.map_cons] at h1 h2
        subst h1
        obtain ⟨k, h3, h4⟩ := h0
        exact ⟨k, o0, h3, h4, h2.symm⟩
      | succ i => exact ih (by simpa using h1) (by simpa [getRefs] using h2)
  obtain ⟨k, o, m1, m2, rfl⟩ := key2 g6 ht hri
  obtain ⟨k', o', m1', m2', rfl⟩ := key2 g6' ht' hrj
  unfold Apart
  by_cases hp : q.page = q'.page
  · right
    rw [← hp] at hat'
    have e1 := hat'.hto; rw [hat.hto] at e1; cases e1
    have e1 := hat'.ha; rw [hat.ha] at e1; cases e1
    have e1 := hat'.hl; rw [hat.hl] at e1; cases e1
    obtain ⟨hw, hg, _, hfit⟩ := h.places.inv.at_wf hat
    have hi1 : pg.ids.items[q.index]? = some e.id := by rw [← hat.row]; exact g2
    have hi2 : pg.ids.items[q'.index]? = some e'.id := by
      rw [← hat.row, hp]; exact g2'
    refine Archs.slot_disj hw hg m1 m2 (Nat.lt_of_lt_of_le (List.getElem?_eq_some_iff.1 hi1).1 hfit) m1' m2'
      (Nat.lt_of_lt_of_le (List.getElem?_eq_some_iff.1 hi2).1 hfit) ?_
    rintro ⟨hii, htt⟩
    refine hne ⟨h.places.inj e k1 e' k1' ?_, htt⟩
    rw [hii, hi2] at hi1
    exact (Option.some.inj hi1).symm
  · exact .inl hp

end Rel
end Ecs
