import Verif.Proofs.Pages
import Verif.Proofs.QueryOrd

/-! Entity queries in every state reached by calls that returned. -/

namespace Ecs
open Spec

/-! ### Archetypes that are only known to be sorted -/

theorem offsets_even {a : Archetype} {l : Layout} (ha : a.Even) (hl : l.offsets.length = a.ids.length)
    (ts : List TypeId) (h : ∀ t ∈ ts, t ∈ a.ids) :
    ∃ offs, getOffsets a l ts = .ok (some offs) ∧ getOffsetsUnchecked a l ts = .ok offs := by
  induction ts with
  | nil => exact ⟨[], rfl, rfl⟩
  | cons t ts ih =>
    obtain ⟨offs, h1, h2⟩ := ih fun x hx => h x (List.mem_cons_of_mem _ hx)
    obtain ⟨i, hb, hi⟩ := binarySearch_of_mem ha.sorted (h t List.mem_cons_self)
    have hlt := (List.getElem?_eq_some_iff.1 hi).1
    obtain ⟨x, hx⟩ : ∃ x, l.offsets[i]? = some x := ⟨_, List.getElem?_eq_getElem (by omega)⟩
    refine ⟨x :: offs, ?_, ?_⟩
    · simp only [getOffsets, Archetype.findComponentIndex, hb, idxUnchecked_of_some hx, h1, ok_bind, pure_ok]
    · simp only [getOffsetsUnchecked, Archetype.findComponentIndex, hb, idxUnchecked_of_some hx, h2, ok_bind, pure_ok]

/-! ### What the store records about an entity -/

/-- What can be relied on after any calls that returned. -/
structure Readable (s : Store) (w : World) : Prop where
  core : Core s w
  shape : s.Shape
  both : ∀ i, Inited s.toPage i → Inited s.toIndex i
  row : ∀ i, s.hasArch.bit i = true → s.HasRow i

theorem loose_readable {U : Universe} {dbg : Bool} {cap : Nat} {h : List Event} {s : Store} (hx : LooseExec U dbg cap h s) :
    Readable s (world h) where
  core := loose_core hx
  shape := loose_shape hx
  both i hi := ((hasRow hx).1 i ((page_inited hx i).1 hi)).2
  row := (hasRow hx).2

/-- Page `p` is a page of archetype `a` with layout `l`. -/
def PageOf (s : Store) (p : Nat) (a : Archetype) (l : Layout) (pg : Page) : Prop :=
  ∃ ai, s.archs.pageToArch[p]? = some ai ∧ s.archs.archetypes[ai]? = some a ∧ s.archs.layouts[ai]? = some l ∧
    s.archs.pages[p]? = some pg

theorem PageOf.unique {s : Store} {p : Nat} {a a' : Archetype} {l l' : Layout} {pg pg' : Page} (h : PageOf s p a l pg)
    (h' : PageOf s p a' l' pg') : a' = a ∧ l' = l ∧ pg' = pg := by
  obtain ⟨ai, h1, h2, h3, h4⟩ := h
  obtain ⟨ai', h1', h2', h3', h4'⟩ := h'
  rw [h1] at h1'; cases h1'
  rw [h2] at h2'; cases h2'
  rw [h3] at h3'; cases h3'
  rw [h4] at h4'; cases h4'
  exact ⟨rfl, rfl, rfl⟩

/-- The page recorded for `e` is of an archetype that satisfies the access, and these are the offsets of its types. -/
structure Lies (s : Store) (acc : Access) (e : Entity) (p n : Nat) (pg : Page) (offs : List Nat) : Prop where
  pos : Pos s.toPage s.toIndex e.id ⟨p, n⟩
  arch : ∃ a l, PageOf s p a l pg ∧ Covers a.ids acc ∧ getOffsets a l acc.types = .ok (some offs) ∧
    getOffsetsUnchecked a l acc.types = .ok offs

namespace Readable
variable {U : Universe} {dbg : Bool} {s : Store} {w : World}

theorem isAlive (h : Readable s w) {e : Entity} (he : e.id < s.ents.capacity) : s.isAlive dbg e = .ok (decide (e ∈ w.live)) :=
  h.core.isAlive he

theorem read_uninit (h : Readable s w) {e : Entity} (he : e.id < s.ents.capacity) (hi : ¬ Inited s.toPage e.id) :
    Raw.read s.toPage e.id = .error (.ub .uninit) := by
  have hlt : e.id < s.toPage.length := by
    rw [h.core.plen]
    exact he
  unfold Raw.read
  cases hg : s.toPage[e.id]? with
  | none => rw [List.getElem?_eq_none_iff] at hg; omega
  | some o =>
    cases o with
    | none => rfl
    | some v => exact (hi ⟨v, hg⟩).elim

theorem isOn (h : Readable s w) {e : Entity} (he : e.id < s.ents.capacity) : s.hasArch.isOn e.id = .ok (s.hasArch.bit e.id) :=
  Words.isOn_of_lt (by rw [h.core.blen]; exact Words.div_lt_getLen he)

theorem even (h : Readable s w) {p : Nat} {a : Archetype} {l : Layout} {pg : Page} (hp : PageOf s p a l pg) :
    a.Even ∧ l.offsets.length = a.ids.length := by
  obtain ⟨ai, _, h2, h3, _⟩ := hp
  exact h.shape.archs.even ai a l h2 h3

theorem archetype (h : Readable s w) {e : Entity} (he : e.id < s.ents.capacity) :
    (¬ (e ∈ w.live ∧ s.hasArch.bit e.id = true) ∧ s.getEntityArchetype dbg e = .ok none) ∨
    (e ∈ w.live ∧ s.hasArch.bit e.id = true ∧ ∃ p n a l pg, Pos s.toPage s.toIndex e.id ⟨p, n⟩ ∧ PageOf s p a l pg ∧
      s.getEntityArchetype dbg e = .ok (some a)) := by
  have hal := h.isAlive (dbg := dbg) he
  have hon := h.isOn he
  by_cases hlive : e ∈ w.live ∧ s.hasArch.bit e.id = true
  · refine .inr ⟨hlive.1, hlive.2, ?_⟩
    obtain ⟨p, n, ai, a, l, pg, h1, h2, h3, h4, h5, h6, _, _⟩ := h.shape.found hlive.2 (h.row _ hlive.2)
    refine ⟨p, n, a, l, pg, ⟨Raw.read_ok.1 h1, Raw.read_ok.1 h2⟩, ⟨ai, h3, h4, h5, h6⟩, ?_⟩
    unfold Store.getEntityArchetype Store.isValidEntityWithArchetype
    simp [hal, hlive.1, hon, hlive.2, h1, idx_of_some h3, idx_of_some h4]
  · refine .inl ⟨hlive, ?_⟩
    unfold Store.getEntityArchetype Store.isValidEntityWithArchetype
    by_cases h0 : e ∈ w.live
    · have : s.hasArch.bit e.id = false := by simpa [h0] using hlive
      simp [hal, h0, hon, this]
    · simp [hal, h0]

/-- The selected entities are alive, have an archetype, and their page satisfies the access. -/
theorem selected_iff (h : Readable s w) {acc : Access} {e : Entity} (he : e.id < s.ents.capacity) :
    selected dbg s acc e = true ↔
      e ∈ w.live ∧ s.hasArch.bit e.id = true ∧ ∃ p n pg offs, Lies s acc e p n pg offs := by
  unfold selected
  rcases h.archetype (dbg := dbg) he with ⟨h1, h2⟩ | ⟨h1, h2, p, n, a, l, pg, h3, h4, h5⟩
  · rw [h2]
    simp only [Bool.false_eq_true, false_iff]
    exact fun h0 => h1 ⟨h0.1, h0.2.1⟩
  · rw [h5]
    simp only [decide_eq_true_eq]
    constructor
    · intro hc
      obtain ⟨k1, k2⟩ := h.even h4
      obtain ⟨offs, g1, g2⟩ := offsets_even k1 k2 acc.types hc.mem
      exact ⟨h1, h2, p, n, pg, offs, h3, a, l, h4, hc, g1, g2⟩
    · rintro ⟨_, _, p', n', pg', offs, h6, a', l', h7, h8, _⟩
      have := h3.unique h6
      cases this
      obtain ⟨rfl, rfl, rfl⟩ := h4.unique h7
      exact h8

theorem valid (h : Readable s w) {acc : Access} {e : Entity} (he : e.id < s.ents.capacity) :
    isValidEntityForQuery dbg s acc e = .ok (selected dbg s acc e) := by
  unfold isValidEntityForQuery selected
  rcases h.archetype (dbg := dbg) he with ⟨h1, h2⟩ | ⟨h1, h2, p, n, a, l, pg, h3, h4, h5⟩
  · simp [h2]
  · simp only [h5, ok_bind, pure_ok]
    congr 1
    rw [Bool.eq_iff_iff, Access.included_covers (h.even h4).1.sorted, decide_eq_true_eq]

/-- The references that the records of a live entity with an archetype lead to are those of `get_components_refs`. -/
theorem refs (h : Readable s w) {acc : Access} {e : Entity} (he : e.id < s.ents.capacity) (hl : e ∈ w.live)
    (hb : s.hasArch.bit e.id = true) {p n : Nat} {pg : Page} {offs : List Nat} (hp : Lies s acc e p n pg offs) :
    s.getComponentsRefs U dbg e acc.types = .ok (some (getRefs U p n acc.types offs)) := by
  obtain ⟨⟨h1, h2⟩, a, l, ⟨ai, h3, h4, h5, h6⟩, h7, h8, _⟩ := hp
  unfold Store.getComponentsRefs Store.isValidEntityWithArchetype Store.getPageViewUnchecked
  simp only [h.isAlive he, hl, h.isOn he, hb, Raw.read_of_some h1, Raw.read_of_some h2, idxUnchecked_of_some h3,
    idxUnchecked_of_some h4, idxUnchecked_of_some h5, idxUnchecked_of_some h6, ok_bind, pure_ok, decide_true, if_true, h8]

/-- For distinct types the selected entities are those for which `get_components_refs` returns something. -/
theorem selected_some (h : Readable s w) {acc : Access} (hd : DistinctTypes acc) {e : Entity} (he : e.id < s.ents.capacity) :
    selected dbg s acc e = true ↔ ∃ rs, s.getComponentsRefs U dbg e acc.types = .ok (some rs) := by
  constructor
  · intro hs
    obtain ⟨h1, h2, p, n, pg, offs, h3⟩ := (h.selected_iff he).1 hs
    exact ⟨_, h.refs he h1 h2 h3⟩
  · rintro ⟨rs, hr⟩
    rcases h.archetype (dbg := dbg) he with ⟨h1, h2⟩ | ⟨h1, h2, p, n, a, l, pg, h3, h4, h5⟩
    · exfalso
      unfold Store.getComponentsRefs Store.isValidEntityWithArchetype at hr
      simp only [h.isAlive he, ok_bind] at hr
      by_cases h0 : e ∈ w.live
      · have : s.hasArch.bit e.id = false := by simpa [h0] using h1
        simp [h0, h.isOn he, this] at hr
      · simp [h0] at hr
    · unfold selected
      rw [h5]
      simp only [decide_eq_true_eq]
      rw [covers_iff hd]
      obtain ⟨ai, g3, g4, g5, g6⟩ := h4
      obtain ⟨k1, k2⟩ := h.even ⟨ai, g3, g4, g5, g6⟩
      obtain ⟨o, k3, k4⟩ := getOffsets_even k1 k2 acc.types
      refine k4.1 ?_
      unfold Store.getComponentsRefs Store.isValidEntityWithArchetype Store.getPageViewUnchecked at hr
      simp only [h.isAlive he, h1, h.isOn he, h2, Raw.read_of_some h3.page, Raw.read_of_some h3.index,
        idxUnchecked_of_some g3, idxUnchecked_of_some g4, idxUnchecked_of_some g5, idxUnchecked_of_some g6, ok_bind, pure_ok,
        decide_true, if_true, k3] at hr
      cases o with
      | none => cases hr
      | some o => rfl

end Readable

/-! ### Ranges -/

/-- A range of positions of `L` whose entities, according to their records, are all stored in the page of the view. -/
structure RangeAt (U : Universe) (s : Store) (acc : Access) (L : List Entity) (p : Range × IterView) : Prop where
  lt : p.1.start < p.1.stop
  le : p.1.stop ≤ L.length
  item : ∃ q pg offs, p.2.ptrs = getRefs U q 0 acc.types offs ∧ ∀ i e, p.1.start ≤ i → i < p.1.stop → L[i]? = some e →
    ∃ n, Lies s acc e q n pg offs

/-- The references that the records of `e` lead to. -/
noncomputable def recordRefs (U : Universe) (s : Store) (acc : Access) (e : Entity) : List Ref :=
  open Classical in
  if h : ∃ x : Nat × Nat × Page × List Nat, Lies s acc e x.1 x.2.1 x.2.2.1 x.2.2.2 then
    getRefs U h.choose.1 h.choose.2.1 acc.types h.choose.2.2.2
  else []

theorem recordRefs_eq {U : Universe} {s : Store} {acc : Access} {e : Entity} {p n : Nat} {pg : Page} {offs : List Nat}
    (h : Lies s acc e p n pg offs) : recordRefs U s acc e = getRefs U p n acc.types offs := by
  have hx : ∃ x : Nat × Nat × Page × List Nat, Lies s acc e x.1 x.2.1 x.2.2.1 x.2.2.2 := ⟨(p, n, pg, offs), h⟩
  unfold recordRefs
  rw [dif_pos hx]
  have hc := hx.choose_spec
  obtain ⟨h1, a, l, h2, _, h3, _⟩ := h
  obtain ⟨h1', a', l', h2', _, h3', _⟩ := hc
  have := h1.unique h1'
  generalize hx.choose = y at *
  obtain ⟨y1, y2, y3, y4⟩ := y
  cases this
  obtain ⟨rfl, rfl, _⟩ := h2.unique h2'
  rw [h3] at h3'
  cases h3'
  rfl

/-- The entities still to come from an entity query iterator. -/
def EntIter.Coming (U : Universe) (s : Store) (acc : Access) (it : EntIter) (l : List Entity) : Prop :=
  (∀ p ∈ it.ranges, RangeAt U s acc it.entities p) ∧
  l = ((it.ranges.drop it.nextRangeIndex).flatMap (Rel.seg it.entities)).drop it.nextOffsetFromRange ∧
  (it.nextOffsetFromRange = 0 ∨
    ∃ p, it.ranges[it.nextRangeIndex]? = some p ∧ p.1.start + it.nextOffsetFromRange < p.1.stop)

namespace EntIter
variable {U : Universe} {dbg : Bool} {s : Store} {acc : Access}

theorem coming_nil {it : EntIter} (h : it.Coming U s acc []) : it.next dbg s = .ok (none, it) := by
  obtain ⟨h1, h2, h3⟩ := h
  have hge : it.nextRangeIndex ≥ it.ranges.length := by
    by_contra hlt
    have hlt := Nat.not_le.1 hlt
    have hp : it.ranges[it.nextRangeIndex]? = some it.ranges[it.nextRangeIndex] := List.getElem?_eq_getElem hlt
    have hok := h1 _ (List.mem_of_getElem? hp)
    have hoff : it.ranges[it.nextRangeIndex].1.start + it.nextOffsetFromRange < it.ranges[it.nextRangeIndex].1.stop := by
      rcases h3 with h3 | ⟨p, h3, h4⟩
      · rw [h3]; exact hok.lt
      · rw [hp] at h3; cases h3; exact h4
    rw [List.drop_eq_getElem_cons hlt, List.flatMap_cons, List.drop_append_of_le_length (by
      rw [seg_length hok.le]; omega)] at h2
    have := congrArg List.length h2
    rw [List.length_append, List.length_drop, seg_length hok.le] at this
    simp only [List.length_nil] at this
    omega
  unfold EntIter.next
  rw [if_pos hge]
  rfl

theorem coming_cons {it : EntIter} {e : Entity} {l : List Entity} (h : it.Coming U s acc (e :: l)) :
    ∃ it', it.next dbg s = .ok (some (recordRefs U s acc e), it') ∧ it'.Coming U s acc l ∧
      it'.entities = it.entities ∧ it.entities[it'.currentEntityIndex]? = some e := by
  obtain ⟨h1, h2, h3⟩ := h
  have hlt : it.nextRangeIndex < it.ranges.length := by
    by_contra hc
    rw [List.drop_eq_nil_of_le (Nat.not_lt.1 hc)] at h2
    simp at h2
  obtain ⟨p, hp⟩ : ∃ p, it.ranges[it.nextRangeIndex]? = some p := ⟨_, List.getElem?_eq_getElem hlt⟩
  have hok := h1 _ (List.mem_of_getElem? hp)
  have hoff : p.1.start + it.nextOffsetFromRange < p.1.stop := by
    rcases h3 with h3 | ⟨p', h3, h4⟩
    · rw [h3]; exact hok.lt
    · rw [hp] at h3; cases h3; exact h4
  have hdrop : it.ranges.drop it.nextRangeIndex = p :: it.ranges.drop (it.nextRangeIndex + 1) := by
    rw [List.drop_eq_getElem_cons hlt, (List.getElem?_eq_some_iff.1 hp).2]
  have hlen := seg_length (p := p) hok.le
  have hle := hok.le
  have hcur : it.entities[p.1.start + it.nextOffsetFromRange]? = some e := by
    have := congrArg (·[0]?) h2
    simp only [List.getElem?_cons_zero, hdrop, List.flatMap_cons, List.getElem?_drop, Nat.add_zero] at this
    rw [List.getElem?_append_left (by omega)] at this
    unfold Rel.seg at this
    rw [List.getElem?_drop, List.getElem?_take_of_lt (by omega)] at this
    exact this.symm
  have hl : l = ((it.ranges.drop it.nextRangeIndex).flatMap (Rel.seg it.entities)).drop (it.nextOffsetFromRange + 1) := by
    have := congrArg (List.drop 1) h2
    rw [List.drop_drop] at this
    exact this
  obtain ⟨q, pg, offs, hptrs, hitem⟩ := hok.item
  obtain ⟨n, hn⟩ := hitem _ _ (Nat.le_add_right _ _) hoff hcur
  have hrefs' : recordRefs U s acc e = addToPtrs p.2.ptrs n := by
    rw [recordRefs_eq hn, hptrs, addToPtrs_getRefs]
  have hn' := Raw.read_of_some hn.pos.index
  have hsub : subUsize dbg p.1.stop 1 = .ok (p.1.stop - 1) := by
    unfold subUsize
    rw [if_pos (by omega)]
  by_cases hlast : p.1.start + it.nextOffsetFromRange ≥ p.1.stop - 1
  · refine ⟨{ it with currentEntityIndex := p.1.start + it.nextOffsetFromRange,
                      nextRangeIndex := it.nextRangeIndex + 1, nextOffsetFromRange := 0 }, ?_, ⟨h1, ?_, .inl rfl⟩, rfl, hcur⟩
    · unfold EntIter.next
      rw [if_neg (Nat.not_le.2 hlt)]
      simp only [idxUnchecked_of_some hp, ok_bind, idxUnchecked_of_some hcur, hn', hsub, hlast, if_true, pure_ok, hrefs']
    · rw [hl, hdrop, List.flatMap_cons, List.drop_append, List.drop_eq_nil_of_le (by omega), List.nil_append, hlen]
      have h0 : it.nextOffsetFromRange + 1 - (p.1.stop - p.1.start) = 0 := by omega
      rw [h0]
  · refine ⟨{ it with currentEntityIndex := p.1.start + it.nextOffsetFromRange,
                      nextOffsetFromRange := it.nextOffsetFromRange + 1 }, ?_, ⟨h1, hl, .inr ⟨p, hp, ?_⟩⟩, rfl, hcur⟩
    · unfold EntIter.next
      rw [if_neg (Nat.not_le.2 hlt)]
      simp only [idxUnchecked_of_some hp, ok_bind, idxUnchecked_of_some hcur, hn', hsub, hlast, if_false, pure_ok, hrefs']
    · simp only; omega

end EntIter

namespace Readable
variable {U : Universe} {dbg : Bool} {s : Store} {w : World}

/-- The entity `x` after the selected entity `y` misleads the query: nothing is recorded for its id, or it is alive without
components and its record names the page of `y`. -/
def Misleads (s : Store) (w : World) (y x : Entity) : Prop :=
  ¬ Inited s.toPage x.id ∨ (x ∈ w.live ∧ s.hasArch.bit x.id = false ∧ s.toPage[x.id]? = s.toPage[y.id]?)

/-- From position `k` on there is a misleading entity. -/
def MisledFrom (dbg : Bool) (s : Store) (w : World) (acc : Access) (L : List Entity) (k : Nat) : Prop :=
  ∃ i y x, k ≤ i ∧ L[i]? = some y ∧ L[i + 1]? = some x ∧ selected dbg s acc y = true ∧ Misleads s w y x

theorem MisledFrom.mono {acc : Access} {L : List Entity} {k k' : Nat} (hk : k ≤ k') (h : MisledFrom dbg s w acc L k') :
    MisledFrom dbg s w acc L k := by
  obtain ⟨i, y, x, h1, h2⟩ := h
  exact ⟨i, y, x, Nat.le_trans hk h1, h2⟩

/-- The inner loop: it fails at the first entity without a record, or stops at the first that is dead or recorded elsewhere. -/
theorem rangeLoop (h : Readable s w) {L : List Entity} (hL : ∀ e ∈ L, e.id < s.ents.capacity) (page : Nat) (rest : List Entity) (k : Nat)
    (hk : rest = L.drop k) (hle : k ≤ L.length) :
    ∃ k', k ≤ k' ∧ k' ≤ L.length ∧
      (∀ i e, k ≤ i → i < k' → L[i]? = some e → e ∈ w.live ∧ s.toPage[e.id]? = some (some page)) ∧
      ((entityRangeLoop dbg s page rest k = .ok (k', L.drop k') ∧
        ∀ e, L[k']? = some e → Inited s.toPage e.id ∧ ¬ (e ∈ w.live ∧ s.toPage[e.id]? = some (some page))) ∨
       (entityRangeLoop dbg s page rest k = .error (.ub .uninit) ∧ ∃ e, L[k']? = some e ∧ ¬ Inited s.toPage e.id)) := by
  induction rest generalizing k with
  | nil =>
    have hlen : L.length ≤ k := by
      by_contra hc
      rw [List.drop_eq_getElem_cons (Nat.not_le.1 hc)] at hk
      cases hk
    refine ⟨k, Nat.le_refl _, hle, fun i e h1 h2 => by omega, .inl ⟨?_, fun e he => ?_⟩⟩
    · unfold entityRangeLoop
      rw [← hk]
    · rw [List.getElem?_eq_none hlen] at he
      cases he
  | cons e rest ih =>
    have hlt : k < L.length := by
      by_contra hc
      rw [List.drop_eq_nil_of_le (Nat.not_lt.1 hc)] at hk
      cases hk
    rw [List.drop_eq_getElem_cons hlt] at hk
    obtain ⟨he, hrest⟩ := List.cons.inj hk
    have hget : L[k]? = some e := by rw [List.getElem?_eq_getElem hlt, he]
    have ha := hL e (List.mem_of_getElem? hget)
    have hal := h.isAlive (dbg := dbg) ha
    by_cases hi : Inited s.toPage e.id
    · obtain ⟨pg, hpg⟩ := hi
      by_cases hc : e ∈ w.live ∧ page = pg
      · obtain ⟨hc1, rfl⟩ := hc
        obtain ⟨k', h2, h3, h4, h5⟩ := ih (k + 1) hrest hlt
        have hstep : entityRangeLoop dbg s page (e :: rest) k = entityRangeLoop dbg s page rest (k + 1) := by
          conv_lhs => unfold entityRangeLoop
          simp [Raw.read_of_some hpg, hal, hc1]
        rw [hstep]
        refine ⟨k', by omega, h3, fun i e' hi hi' hge => ?_, h5⟩
        by_cases hik : i = k
        · subst hik
          rw [hget] at hge
          cases hge
          exact ⟨hc1, hpg⟩
        · exact h4 i e' (by omega) hi' hge
      · refine ⟨k, Nat.le_refl _, hle, fun i e h1 h2 => by omega, .inl ⟨?_, fun e' he' => ?_⟩⟩
        · have : (!decide (e ∈ w.live) || page != pg) = true := by
            by_cases h1 : e ∈ w.live
            · have h2 : page ≠ pg := fun h2 => hc ⟨h1, h2⟩
              simp [h2]
            · simp [h1]
          unfold entityRangeLoop
          simp only [Raw.read_of_some hpg, ok_bind, hal, this, if_true, pure_ok]
          rw [List.drop_eq_getElem_cons hlt, ← he, hrest]
        · rw [hget] at he'
          cases he'
          refine ⟨⟨pg, hpg⟩, fun h0 => hc ⟨h0.1, ?_⟩⟩
          have := h0.2
          rw [hpg] at this
          cases this
          rfl
    · refine ⟨k, Nat.le_refl _, hle, fun i e h1 h2 => by omega, .inr ⟨?_, e, hget, hi⟩⟩
      unfold entityRangeLoop
      rw [h.read_uninit ha hi]
      rfl

theorem seg_split {L : List Entity} {k k' : Nat} (h1 : k ≤ k') (h2 : k' ≤ L.length) (v : IterView) :
    L.drop k = Rel.seg L (⟨k, k'⟩, v) ++ L.drop k' := by
  unfold Rel.seg
  simp only
  conv_lhs => rw [← List.take_append_drop k' L]
  rw [List.drop_append_of_le_length (by rw [List.length_take]; omega)]

theorem seg_get {L : List Entity} {k k' : Nat} {v : IterView} {x : Entity} (h : x ∈ Rel.seg L (⟨k, k'⟩, v)) :
    ∃ i, k ≤ i ∧ i < k' ∧ L[i]? = some x := by
  unfold Rel.seg at h
  simp only at h
  obtain ⟨i, hi⟩ := List.mem_iff_getElem?.1 h
  rw [List.getElem?_drop, List.getElem?_take] at hi
  split at hi
  · next hik => exact ⟨k + i, by omega, hik, hi⟩
  · cases hi

/-- The outer loop: without misleading entities it finds exactly the selected ones, otherwise it fails or finds more. -/
theorem outerLoop (h : Readable s w) {acc : Access} {L : List Entity} (hL : ∀ e ∈ L, e.id < s.ents.capacity)
    (fuel : Nat) (k : Nat) (hf : L.length - k ≤ fuel) (hle : k ≤ L.length) :
    (entityOuterLoop U dbg s acc fuel (L.drop k) k = .error (.ub .uninit) ∧ MisledFrom dbg s w acc L k) ∨
    ∃ rs, entityOuterLoop U dbg s acc fuel (L.drop k) k = .ok rs ∧ (∀ p ∈ rs, RangeAt U s acc L p) ∧
      (rs.flatMap (Rel.seg L)).length ≤ L.length - k ∧
      ((¬ MisledFrom dbg s w acc L k ∧ rs.flatMap (Rel.seg L) = (L.drop k).filter (selected dbg s acc)) ∨
       (MisledFrom dbg s w acc L k ∧
        ((L.drop k).filter (selected dbg s acc)).length < (rs.flatMap (Rel.seg L)).length)) := by
  induction fuel generalizing k with
  | zero =>
    have : L.drop k = [] := List.drop_eq_nil_of_le (by omega)
    refine .inr ⟨[], by rw [this]; rfl, by simp, by simp, .inl ⟨?_, by simp [this]⟩⟩
    rintro ⟨i, y, x, h1, h2, _⟩
    rw [List.getElem?_eq_none (by omega)] at h2
    cases h2
  | succ fuel ih =>
    by_cases hlt : k < L.length
    · have hget : L[k]? = some L[k] := List.getElem?_eq_getElem hlt
      have hdrop : L.drop k = L[k] :: L.drop (k + 1) := List.drop_eq_getElem_cons hlt
      have ha := hL _ (List.mem_of_getElem? hget)
      rw [hdrop]
      generalize hge : L[k] = e at *
      have hv := h.valid (dbg := dbg) (acc := acc) ha
      unfold entityOuterLoop
      simp only [hv, ok_bind]
      by_cases hm : selected dbg s acc e = true
      · simp only [hm, Bool.true_eq_false, if_false]
        obtain ⟨g1, g2, q, n, pg, offs, hlie⟩ := (h.selected_iff ha).1 hm
        obtain ⟨hpos, a, l, hpo, hcov, go1, go2⟩ := id hlie
        obtain ⟨ai, h3, h4, h5, h6⟩ := id hpo
        simp only [Raw.read_of_some hpos.page, ok_bind, idx_of_some h3, idxUnchecked_of_some h4,
          idxUnchecked_of_some h5, idxUnchecked_of_some h6, Access.getOffsets_eq, go2]
        obtain ⟨k', r2, r3, r4, r5⟩ := h.rangeLoop (dbg := dbg) hL q (L.drop (k + 1)) (k + 1) rfl hlt
        -- the entities of the range are alive, in the page, and either selected or bare
        have hin : ∀ i x, k ≤ i → i < k' → L[i]? = some x → x ∈ w.live ∧ s.toPage[x.id]? = some (some q) ∧
            (∃ n, Lies s acc x q n pg offs) ∧ (s.hasArch.bit x.id = true → selected dbg s acc x = true) := by
          intro i x hi hi' hx
          have hpage : x ∈ w.live ∧ s.toPage[x.id]? = some (some q) := by
            by_cases hik : i = k
            · subst hik
              rw [hget] at hx
              cases hx
              exact ⟨g1, hpos.page⟩
            · exact r4 i x (by omega) hi' hx
          obtain ⟨m, hm⟩ := h.both x.id ⟨q, hpage.2⟩
          have hl : Lies s acc x q m pg offs := ⟨⟨hpage.2, hm⟩, a, l, hpo, hcov, go1, go2⟩
          exact ⟨hpage.1, hpage.2, ⟨m, hl⟩, fun hb =>
            (h.selected_iff (hL x (List.mem_of_getElem? hx))).2 ⟨hpage.1, hb, q, m, pg, offs, hl⟩⟩
        -- a bare entity in the range comes directly after a selected one, somewhere
        have hbare : ∀ j, k ≤ j → j < k' → (∃ x, L[j]? = some x ∧ s.hasArch.bit x.id = false) →
            MisledFrom dbg s w acc L k := by
          intro j hj
          obtain ⟨d, rfl⟩ := Nat.le.dest hj
          clear hj
          induction d with
          | zero =>
            rintro _ ⟨x, hx, hb⟩
            rw [Nat.add_zero, hget] at hx
            cases hx
            rw [g2] at hb
            cases hb
          | succ d ihj =>
            rw [← Nat.add_assoc]
            have hj : k ≤ k + d := Nat.le_add_right _ _
            revert ihj hj
            generalize k + d = j
            intro ihj hj
            rintro hjk ⟨x, hx, hb⟩
            obtain ⟨y, hy⟩ : ∃ y, L[j]? = some y := ⟨_, List.getElem?_eq_getElem (by omega)⟩
            obtain ⟨y1, y2, _, y4⟩ := hin j y hj (by omega) hy
            obtain ⟨x1, x2, _, _⟩ := hin (j + 1) x (by omega) hjk hx
            cases hby : s.hasArch.bit y.id with
            | false => exact ihj (by omega) ⟨y, hy, hby⟩
            | true => exact ⟨j, y, x, hj, hy, hx, y4 hby, .inr ⟨x1, hb, by rw [x2, y2]⟩⟩
        rcases r5 with ⟨r5, r6⟩ | ⟨r5, e', r6, r7⟩
        · simp only [r5, ok_bind]
          have hmis : MisledFrom dbg s w acc L k ↔
              (∃ j x, k ≤ j ∧ j < k' ∧ L[j]? = some x ∧ s.hasArch.bit x.id = false) ∨ MisledFrom dbg s w acc L k' := by
            constructor
            · rintro ⟨i, y, x, i1, i2, i3, i4, i5⟩
              by_cases hik : i + 1 < k'
              · rcases i5 with i5 | i5
                · obtain ⟨_, x2, _⟩ := hin (i + 1) x (by omega) hik i3
                  exact (i5 ⟨q, x2⟩).elim
                · exact .inl ⟨i + 1, x, by omega, hik, i3, i5.2.1⟩
              · by_cases hik' : i + 1 = k'
                · subst hik'
                  obtain ⟨k1, k2⟩ := r6 x i3
                  rcases i5 with i5 | i5
                  · exact (i5 k1).elim
                  · obtain ⟨_, y2, _⟩ := hin i y i1 (by omega) i2
                    exact (k2 ⟨i5.1, by rw [i5.2.2, y2]⟩).elim
                · exact .inr ⟨i, y, x, by omega, i2, i3, i4, i5⟩
            · rintro (⟨j, x, j1, j2, j3, j4⟩ | hm)
              · exact hbare j j1 j2 ⟨x, j3, j4⟩
              · exact hm.mono (by omega)
          rcases ih k' (by omega) r3 with ⟨i1, i2⟩ | ⟨rs, i1, i2, ilen, i3⟩
          · refine .inl ⟨?_, i2.mono (by omega)⟩
            rw [i1]
            rfl
          · refine .inr ⟨(⟨k, k'⟩, IterView.new U acc q pg offs) :: rs, by simp only [i1, ok_bind, pure_ok], ?_, ?_, ?_⟩
            · intro p hp
              rcases List.mem_cons.1 hp with rfl | hp
              · exact ⟨by simp only; omega, r3, q, pg, offs, rfl, fun i x hi hi' hx => (hin i x hi hi' hx).2.2.1⟩
              · exact i2 p hp
            · rw [List.flatMap_cons, List.length_append, EntIter.seg_length r3]
              simp only
              omega
            · have hsp := seg_split (v := IterView.new U acc q pg offs) (show k ≤ k' by omega) r3
              rw [← hdrop, hsp, List.filter_append, List.flatMap_cons]
              have hsub := List.filter_sublist (p := selected dbg s acc)
                (l := Rel.seg L (⟨k, k'⟩, IterView.new U acc q pg offs))
              by_cases hb : ∃ j x, k ≤ j ∧ j < k' ∧ L[j]? = some x ∧ s.hasArch.bit x.id = false
              · refine .inr ⟨hmis.2 (.inl hb), ?_⟩
                obtain ⟨j, x, j1, j2, j3, j4⟩ := hb
                have hmem : x ∈ Rel.seg L (⟨k, k'⟩, IterView.new U acc q pg offs) := by
                  rw [List.mem_iff_getElem?]
                  refine ⟨j - k, ?_⟩
                  unfold Rel.seg
                  simp only
                  rw [List.getElem?_drop, List.getElem?_take_of_lt (by omega), show k + (j - k) = j by omega]
                  exact j3
                have hns : ¬ selected dbg s acc x = true := by
                  intro h0
                  have := ((h.selected_iff (hL x (List.mem_of_getElem? j3))).1 h0).2.1
                  rw [j4] at this
                  cases this
                have h1 : ((Rel.seg L (⟨k, k'⟩, IterView.new U acc q pg offs)).filter (selected dbg s acc)).length <
                    (Rel.seg L (⟨k, k'⟩, IterView.new U acc q pg offs)).length := by
                  refine Nat.lt_of_le_of_ne hsub.length_le fun h0 => ?_
                  have := hsub.eq_of_length h0
                  rw [List.filter_eq_self] at this
                  exact hns (this x hmem)
                rw [List.length_append, List.length_append]
                rcases i3 with ⟨_, i3⟩ | ⟨_, i3⟩
                · rw [i3]; omega
                · omega
              · have hall : (Rel.seg L (⟨k, k'⟩, IterView.new U acc q pg offs)).filter (selected dbg s acc) =
                    Rel.seg L (⟨k, k'⟩, IterView.new U acc q pg offs) := by
                  rw [List.filter_eq_self]
                  intro x hx
                  obtain ⟨i, hi, hi', hx⟩ := seg_get hx
                  refine (hin i x hi hi' hx).2.2.2 ?_
                  cases hbx : s.hasArch.bit x.id with
                  | true => rfl
                  | false => exact (hb ⟨i, x, hi, hi', hx, hbx⟩).elim
                rw [hall]
                rcases i3 with ⟨i4, i3⟩ | ⟨i4, i3⟩
                · refine .inl ⟨fun h0 => ?_, by rw [i3]⟩
                  rcases hmis.1 h0 with h0 | h0
                  · exact hb h0
                  · exact i4 h0
                · refine .inr ⟨hmis.2 (.inr i4), ?_⟩
                  rw [List.length_append, List.length_append]
                  omega
        · refine .inl ⟨by rw [r5]; rfl, ?_⟩
          -- the entity before the one without a record
          have hk1 : k + 1 ≤ k' := r2
          obtain ⟨y, hy⟩ : ∃ y, L[k' - 1]? = some y := ⟨_, List.getElem?_eq_getElem (by omega)⟩
          obtain ⟨_, _, _, y4⟩ := hin (k' - 1) y (by omega) (by omega) hy
          cases hby : s.hasArch.bit y.id with
          | false => exact hbare (k' - 1) (by omega) (by omega) ⟨y, hy, hby⟩
          | true =>
            exact ⟨k' - 1, y, e', by omega, hy, by rw [show k' - 1 + 1 = k' by omega]; exact r6, y4 hby, .inl r7⟩
      · have hm' : selected dbg s acc e = false := by simpa using hm
        simp only [hm', if_true]
        have hmis : MisledFrom dbg s w acc L k ↔ MisledFrom dbg s w acc L (k + 1) := by
          refine ⟨fun ⟨i, y, x, i1, i2, i3⟩ => ⟨i, y, x, ?_, i2, i3⟩, fun h0 => h0.mono (by omega)⟩
          by_contra hc
          have : i = k := by omega
          subst this
          rw [hget] at i2
          cases i2
          exact hm i3.2.1
        rw [hmis, List.filter_cons_of_neg hm]
        rcases ih (k + 1) (by omega) hlt with i1 | ⟨rs, i1, i2, ilen, i3⟩
        · exact .inl i1
        · exact .inr ⟨rs, i1, i2, by omega, i3⟩
    · have : L.drop k = [] := List.drop_eq_nil_of_le (by omega)
      refine .inr ⟨[], by rw [this]; rfl, by simp, by simp, .inl ⟨?_, by simp [this]⟩⟩
      rintro ⟨i, y, x, h1, h2, _⟩
      rw [List.getElem?_eq_none (by omega)] at h2
      cases h2

/-- What an entity query returns, in every state. -/
theorem entity_query (h : Readable s w) {acc : Access} {L : List Entity} (hL : ∀ e ∈ L, e.id < s.ents.capacity)
    (old : List (Range × IterView)) {fuel : Nat} (hf : L.length < fuel) :
    (MisledFrom dbg s w acc L 0 ∧ runEntityQueryWithEntities U dbg s L acc old fuel = .error (.ub .uninit) ∧
      runEntityQuery U dbg s L acc old fuel = .error (.ub .uninit)) ∨
    ∃ l : List Entity, runEntityQueryWithEntities U dbg s L acc old fuel = .ok (l.map fun e => (e, recordRefs U s acc e)) ∧
      runEntityQuery U dbg s L acc old fuel = .ok (l.map (recordRefs U s acc)) ∧
      ((¬ MisledFrom dbg s w acc L 0 ∧ l = L.filter (selected dbg s acc)) ∨
       (MisledFrom dbg s w acc L 0 ∧ (L.filter (selected dbg s acc)).length < l.length)) := by
  have hout := h.outerLoop (U := U) (dbg := dbg) (acc := acc) hL L.length 0 (by omega) (Nat.zero_le _)
  rw [List.drop_zero] at hout
  rcases hout with ⟨h1, h2⟩ | ⟨rs, h1, h2, hlen, h3⟩
  · refine .inl ⟨h2, ?_, ?_⟩
    · unfold runEntityQueryWithEntities entityQueryIter
      rw [h1]
      rfl
    · unfold runEntityQuery entityQueryIter
      rw [h1]
      rfl
  · refine .inr ⟨rs.flatMap (Rel.seg L), ?_, ?_, h3⟩
    all_goals
      have hit : entityQueryIter U dbg s L acc old = .ok ⟨L, rs, 0, 0, 0⟩ := by
        unfold entityQueryIter
        simp only [h1, ok_bind, pure_ok, List.take_zero, List.nil_append]
      have hrem : EntIter.Coming U s acc ⟨L, rs, 0, 0, 0⟩ (rs.flatMap (Rel.seg L)) :=
        ⟨h2, by rw [List.drop_zero, List.drop_zero], .inl rfl⟩
      have hl : (rs.flatMap (Rel.seg L)).length < fuel := by omega
    · unfold runEntityQueryWithEntities
      simp only [hit, ok_bind]
      refine drain_of (EntIter.Coming U s acc) (fun it h => ?_) (fun it e l h => ?_) hrem hl
      · refine ⟨it, ?_⟩
        unfold EntIter.nextWithEntity
        rw [EntIter.coming_nil h]
        rfl
      · obtain ⟨it', k1, k2, k3, k4⟩ := EntIter.coming_cons (dbg := dbg) h
        refine ⟨it', ?_, k2⟩
        unfold EntIter.nextWithEntity
        rw [← k3] at k4
        simp only [k1, ok_bind, idxUnchecked_of_some k4, pure_ok]
    · unfold runEntityQuery
      simp only [hit, ok_bind]
      exact drain_of (EntIter.Coming U s acc) (fun it h => ⟨it, EntIter.coming_nil h⟩)
        (fun it e l h => (EntIter.coming_cons h).imp fun _ h => ⟨h.1, h.2.1⟩) hrem hl

/-- The references of a selected entity. -/
theorem recordRefs_selected (h : Readable s w) {acc : Access} {e : Entity} (he : e.id < s.ents.capacity)
    (hs : selected dbg s acc e = true) : s.getComponentsRefs U dbg e acc.types = .ok (some (recordRefs U s acc e)) := by
  obtain ⟨h1, h2, p, n, pg, offs, h3⟩ := (h.selected_iff he).1 hs
  rw [h.refs he h1 h2 h3, recordRefs_eq h3]

end Readable
end Ecs
