import Verif.Proofs.QueryOrdEnt
import Verif.Props.ListQueries
import Verif.Props.QueryDefects

/-! Properties C35, C36, C37 and C32 in every state reached by calls that returned (`LooseExec`, see `Spec/World.lean`: no
assumption that components fit in a page, or that the code's other defects were avoided), for arbitrary tuples of types:
exactly when the queries over lists and over groups return what they should. -/

namespace Ecs.Props
open Spec

section
variable {U : Universe} {dbg : Bool} {cap : Nat} {h : List Event} {s : Store}

/-- Some selected entity of the list is directly followed by one which misleads the query: its id never had
components (and is not among the first `cap`), or it is alive, has no components, and the page last recorded for
its id is that of the selected entity. -/
def Misled (dbg : Bool) (cap : Nat) (h : List Event) (s : Store) (acc : Access) (L : List Entity) : Prop :=
  ∃ p ∈ L.zip L.tail, selected dbg s acc p.1 = true ∧
    (¬ (p.2.id < cap ∨ p.2.id ∈ stored h) ∨
     (p.2 ∈ alive h ∧ p.2 ∉ given h ∧ s.toPage[p.2.id]? = s.toPage[p.1.id]?))

instance : Decidable (Misled dbg cap h s acc L) := by unfold Misled; infer_instance

private theorem mem_zip_tail {L : List Entity} {y x : Entity} :
    (y, x) ∈ L.zip L.tail ↔ ∃ i : Nat, L[i]? = some y ∧ L[i + 1]? = some x := by
  rw [List.mem_iff_getElem?]
  simp only [List.getElem?_zip_eq_some, List.getElem?_tail]

private theorem misled_iff (hx : LooseExec U dbg cap h s) {acc : Access} {L : List Entity} :
    Misled dbg cap h s acc L ↔ Readable.MisledFrom dbg s (world h) acc L 0 := by
  have key : ∀ x : Entity, x ∈ alive h → (x ∉ given h ↔ s.hasArch.bit x.id = false) := by
    intro x ha
    rw [← (given_bit hx).2 x ha]
    simp
  unfold Misled Readable.MisledFrom Readable.Misleads
  simp only [page_inited hx]
  constructor
  · rintro ⟨⟨y, x⟩, h1, h2, h3⟩
    obtain ⟨i, h4, h5⟩ := mem_zip_tail.1 h1
    refine ⟨i, y, x, Nat.zero_le _, h4, h5, h2, h3.imp id fun h6 => ⟨?_, (key x h6.1).1 h6.2.1, h6.2.2⟩⟩
    rw [← alive_eq]
    exact h6.1
  · rintro ⟨i, y, x, _, h4, h5, h2, h3⟩
    refine ⟨(y, x), mem_zip_tail.2 ⟨i, h4, h5⟩, h2, h3.imp id fun h6 => ?_⟩
    rw [← alive_eq] at h6
    exact ⟨h6.1, (key x h6.1).2 h6.2.1, h6.2.2⟩

/-- Handles the store returned are inside its memory. -/
theorem handle_inside (hx : LooseExec U dbg cap h s) {e : Entity} (he : e ∈ handles h) : e.id < s.ents.capacity := by
  rw [handles_eq] at he
  exact (loose_core hx).ents.issued_id_lt he

/-- **C35, exactly, in every state**: an entity query over handles inside the memory of the store — those it returned
(`handle_inside`), and those of other stores with an id in range — returns, in the order of the list, exactly the
selected entities of the list (as often as they occur), each with the references that `get_components_refs` returns for it,
if and only if no entity of the list misleads it. -/
theorem C35_entity_query_iff (hx : LooseExec U dbg cap h s) {acc : Access} {L : List Entity} (hL : ∀ e ∈ L, e.id < s.ents.capacity)
    (old : List (Range × IterView)) {fuel : Nat} (hf : L.length < fuel) :
    (∃ items, runEntityQueryWithEntities U dbg s L acc old fuel = .ok items ∧
      runEntityQuery U dbg s L acc old fuel = .ok (items.map (·.2)) ∧
      items.map (·.1) = L.filter (selected dbg s acc) ∧
      ∀ x ∈ items, s.getComponentsRefs U dbg x.1 acc.types = .ok (some x.2)) ↔ ¬ Misled dbg cap h s acc L := by
  rw [misled_iff hx]
  have hr := loose_readable hx
  rcases hr.entity_query (U := U) (dbg := dbg) (acc := acc) hL old hf with ⟨k1, k2, _⟩ | ⟨l, k2, k3, k4⟩
  · constructor
    · rintro ⟨items, h1, _⟩
      rw [k2] at h1
      cases h1
    · exact fun h0 => (h0 k1).elim
  · constructor
    · rintro ⟨items, h1, _, h3, _⟩
      rw [k2] at h1
      cases h1
      rw [List.map_map] at h3
      rcases k4 with k4 | ⟨_, k5⟩
      · exact k4.1
      · rw [← h3, List.length_map] at k5
        omega
    · intro h0
      rcases k4 with ⟨_, rfl⟩ | k4
      · refine ⟨_, k2, by rw [k3, List.map_map]; rfl, by rw [List.map_map]; exact List.map_id _, fun x hx => ?_⟩
        obtain ⟨e, he, rfl⟩ := List.mem_map.1 hx
        obtain ⟨h1, h2⟩ := List.mem_filter.1 he
        exact hr.recordRefs_selected (hL e h1) h2
      · exact (h0 k4.1).elim

/-- **C35, what goes wrong**: if an entity misleads the query, it reads memory that was never written, or returns more
items than the list has selected entities. -/
theorem C35_misled (hx : LooseExec U dbg cap h s) {acc : Access} {L : List Entity} (hL : ∀ e ∈ L, e.id < s.ents.capacity)
    (old : List (Range × IterView)) {fuel : Nat} (hf : L.length < fuel) (hm : Misled dbg cap h s acc L) :
    runEntityQueryWithEntities U dbg s L acc old fuel = .error (.ub .uninit) ∨
    ∃ items, runEntityQueryWithEntities U dbg s L acc old fuel = .ok items ∧
      (L.filter (selected dbg s acc)).length < items.length := by
  rw [misled_iff hx] at hm
  have hr := loose_readable hx
  rcases hr.entity_query (U := U) (dbg := dbg) (acc := acc) hL old hf with ⟨_, k2, _⟩ | ⟨l, k2, k3, k4⟩
  · exact .inl k2
  · refine .inr ⟨_, k2, ?_⟩
    rw [List.length_map]
    rcases k4 with k4 | k4
    · exact (k4.1 hm).elim
    · exact k4.2

/-- For tuples of distinct types an entity is selected if and only if `get_components_refs` returns its components. -/
theorem C35_selected_iff (hx : LooseExec U dbg cap h s) {acc : Access} (hd : DistinctTypes acc) {e : Entity} (he : e.id < s.ents.capacity) :
    selected dbg s acc e = true ↔ ∃ rs, s.getComponentsRefs U dbg e acc.types = .ok (some rs) := by
  exact (loose_readable hx).selected_some hd he

/-- In executions with room for every component (`Exec`) and for tuples of distinct types, an entity is selected if and only
if, according to the history, it is alive and has all the queried components. -/
theorem C35_selected_eligible (hx : Exec U dbg cap h s) {acc : Access} (hd : DistinctTypes acc) {e : Entity} (he : e.id < s.ents.capacity) :
    selected dbg s acc e = decide (Eligible h acc e) := by
  have hr := exec_rel hx
  have h1 := hr.valid hd (acc := acc) he
  rw [(loose_readable hx.loose).valid he] at h1
  have h2 := Except.ok.inj h1
  rw [h2]
  have : Eligible h acc e ↔ Rel.Matches (world h) acc e := by
    unfold Rel.Matches Eligible
    simp only [alive_eq]
  simp only [this]

theorem recorded_iff (hr : Readable s (world h)) {e : Entity} :
    Recorded s e ↔ ∃ a, recordedArchetype s e.id = some a := by
  unfold recordedArchetype
  constructor
  · rintro ⟨p, n, a, l, pg, h1, ai, h2, h3, _⟩
    exact ⟨a, by rw [h1.page]; simp [h2, h3]⟩
  · rintro ⟨a, ha⟩
    split at ha
    · next p hp =>
      obtain ⟨ai, h1, h2⟩ := Option.bind_eq_some_iff.1 ha
      obtain ⟨n, hn⟩ := hr.both _ ⟨p, hp⟩
      have hpl := hr.shape.row _ _ hp
      obtain ⟨l, hl⟩ : ∃ l, s.archs.layouts[ai]? = some l :=
        ⟨_, List.getElem?_eq_getElem (by rw [hr.shape.archs.llen]; exact (List.getElem?_eq_some_iff.1 h2).1)⟩
      exact ⟨p, n, a, l, _, ⟨hp, hn⟩, ai, h1, h2, hl, List.getElem?_eq_getElem hpl⟩
    · cases ha

theorem shown_iff (hr : Readable s (world h)) {acc : Access} {e : Entity} :
    Shown s acc e ↔ ∃ a, recordedArchetype s e.id = some a ∧ Covers a.ids acc := by
  constructor
  · rintro ⟨p, n, pg, offs, h1, a, l, ⟨ai, h2, h3, _⟩, h4, _⟩
    exact ⟨a, by unfold recordedArchetype; rw [h1.page]; simp [h2, h3], h4⟩
  · rintro ⟨a, h1, h2⟩
    obtain ⟨p, n, a', l, pg, k1, ai, k2, k3, k4, k5⟩ := (recorded_iff hr).2 ⟨a, h1⟩
    unfold recordedArchetype at h1
    rw [k1.page] at h1
    simp only [k2, Option.bind_some, k3, Option.some.injEq] at h1
    subst h1
    have hp : PageOf s p a' l pg := ⟨ai, k2, k3, k4, k5⟩
    obtain ⟨e1, e2⟩ := hr.even hp
    obtain ⟨offs, g1, g2⟩ := offsets_even e1 e2 acc.types h2.mem
    exact ⟨p, n, pg, offs, k1, a', l, hp, h2, g1, g2⟩

/-- A live member of a group that has components is selected if and only if it is shown. -/
theorem selected_shown (hx : LooseExec U dbg cap h s) {acc : Access} {e : Entity} (ha : e ∈ alive h) (hg : e ∈ given h) :
    selected dbg s acc e = true ↔ Shown s acc e := by
  have hr := loose_readable hx
  have hi : e ∈ (world h).issued := by
    rw [← handles_eq]
    exact (given_bit hx).1 e hg
  rw [hr.selected_iff (hr.core.ents.issued_id_lt hi)]
  exact ⟨fun h0 => h0.2.2, fun h0 => ⟨by rw [← alive_eq]; exact ha, ((given_bit hx).2 e ha).2 hg, h0⟩⟩

private theorem not_selected (hx : LooseExec U dbg cap h s) {acc : Access} {e : Entity} (ha : e ∈ alive h) (hg : e ∉ given h)
    (hi : e ∈ (world h).issued) : selected dbg s acc e = false := by
  rw [← Bool.not_eq_true, (loose_readable hx).selected_iff ((loose_core hx).ents.issued_id_lt hi)]
  exact fun h0 => hg (((given_bit hx).2 e ha).1 h0.2.1)

/-- **C36, exactly, in every state**: an ordered query returns the references to the components of exactly the selected
members of the group, in the order of the group, if and only if for each member without components an archetype is recorded
(of a previous entity with its id, or the very first archetype), and it does not have all the queried components. -/
theorem C36_ordered_query_iff (hx : LooseExec U dbg cap h s) {acc : Access} {g : Nat} (old : List (Range × IterView)) {fuel : Nat}
    (hf : (sequence g h).length < fuel) :
    (∃ items, runOrderedQuery U dbg s g acc old fuel = .ok items ∧
      List.Forall₂ (fun e refs => s.getComponentsRefs U dbg e acc.types = .ok (some refs))
        ((sequence g h).filter (selected dbg s acc)) items) ↔
    ∀ x ∈ sequence g h, x ∉ given h → ∃ a, recordedArchetype s x.id = some a ∧ ¬ Covers a.ids acc := by
  classical
  have hr := loose_readable hx
  have hs : sequence g h = (world h).order g := sequence_eq g h
  rw [hs] at hf ⊢
  have hal : ∀ e ∈ (world h).order g, e ∈ alive h ∧ e ∈ (world h).issued := by
    intro e he
    have := hr.core.ordLive g e he
    exact ⟨by rw [alive_eq]; exact this, hr.core.ents.sub e this⟩
  have hrec : ∀ e ∈ (world h).order g, e ∈ given h → Recorded s e := fun e he hg =>
    hr.of_bit (((given_bit hx).2 e (hal e he).1).2 hg)
  rcases hr.ordered_query (U := U) (dbg := dbg) (acc := acc) (g := g) old hf with
    ⟨⟨e, he, k1⟩, u, _, _, k2⟩ | ⟨k0, it, _, _, k2⟩
  · constructor
    · rintro ⟨items, h1, _⟩
      rw [k2] at h1
      cases h1
    · intro h0
      by_cases hg : e ∈ given h
      · exact (k1 (hrec e he hg)).elim
      · obtain ⟨a, h1, _⟩ := h0 e he hg
        exact (k1 ((recorded_iff hr).2 ⟨a, h1⟩)).elim
  · have hsub : ∀ e ∈ (world h).order g, selected dbg s acc e = true → Shown s acc e := fun e he h0 =>
      hr.shown_of_selected (hr.core.ents.issued_id_lt (hal e he).2) h0
    constructor
    · rintro ⟨items, h1, h2⟩ x hx' hg
      rw [k2] at h1
      cases h1
      obtain ⟨a, ha⟩ := (recorded_iff hr).1 (k0 x hx')
      refine ⟨a, ha, fun hc => ?_⟩
      have hlen := h2.length_eq
      rw [List.length_map] at hlen
      have hsl : (((world h).order g).filter (selected dbg s acc)).Sublist
          (((world h).order g).filter fun e => decide (Shown s acc e)) := by
        have : ((world h).order g).filter (selected dbg s acc) =
            (((world h).order g).filter fun e => decide (Shown s acc e)).filter (selected dbg s acc) := by
          rw [List.filter_filter]
          refine List.filter_congr fun e he => ?_
          cases hse : selected dbg s acc e with
          | false => rfl
          | true => simp [hsub e he hse]
        rw [this]
        exact List.filter_sublist
      have heq := hsl.eq_of_length hlen
      have hm : x ∈ ((world h).order g).filter fun e => decide (Shown s acc e) :=
        List.mem_filter.2 ⟨hx', by simpa using (shown_iff hr).2 ⟨a, ha, hc⟩⟩
      rw [← heq] at hm
      have := (List.mem_filter.1 hm).2
      rw [not_selected hx (hal x hx').1 hg (hal x hx').2] at this
      cases this
    · intro h0
      refine ⟨_, k2, ?_⟩
      have hfe : (((world h).order g).filter fun e => decide (Shown s acc e)) =
          ((world h).order g).filter (selected dbg s acc) := by
        refine List.filter_congr fun e he => ?_
        rw [Bool.eq_iff_iff, decide_eq_true_eq]
        by_cases hg : e ∈ given h
        · exact (selected_shown hx (hal e he).1 hg).symm
        · rw [not_selected hx (hal e he).1 hg (hal e he).2]
          simp only [Bool.false_eq_true, iff_false]
          intro hsh
          obtain ⟨a, h1, h2⟩ := h0 e he hg
          obtain ⟨a', h3, h4⟩ := (shown_iff hr).1 hsh
          rw [h1] at h3
          cases h3
          exact h2 h4
      rw [hfe, List.forall₂_map_right_iff, List.forall₂_same]
      intro e he
      obtain ⟨h1, h2⟩ := List.mem_filter.1 he
      exact hr.recordRefs_selected (hr.core.ents.issued_id_lt (hal e h1).2) h2

/-- **C36, what goes wrong**: an ordered query returns one item for each member of the group whose recorded archetype has the
queried components; if no archetype is recorded for some member, it reads memory that was never written or the first
element of an empty vector. -/
theorem C36_ordered_query_returns (hx : LooseExec U dbg cap h s) {acc : Access} {g : Nat} (old : List (Range × IterView)) {fuel : Nat}
    (hf : (sequence g h).length < fuel) :
    ((∃ x ∈ sequence g h, recordedArchetype s x.id = none) ∧
      ∃ u, (u = .uninit ∨ u = .oob) ∧ runOrderedQuery U dbg s g acc old fuel = .error (.ub u)) ∨
    ((∀ x ∈ sequence g h, (recordedArchetype s x.id).isSome = true) ∧
      ∃ items, runOrderedQuery U dbg s g acc old fuel = .ok items ∧
        items.length = ((sequence g h).filter fun x =>
          (recordedArchetype s x.id).any fun a => decide (Covers a.ids acc)).length) := by
  classical
  have hr := loose_readable hx
  have hs : sequence g h = (world h).order g := sequence_eq g h
  rw [hs] at hf ⊢
  rcases hr.ordered_query (U := U) (dbg := dbg) (acc := acc) (g := g) old hf with
    ⟨⟨e, he, k1⟩, u, hu, _, k2⟩ | ⟨k0, it, _, _, k2⟩
  · refine .inl ⟨⟨e, he, ?_⟩, u, hu, k2⟩
    rw [recorded_iff hr] at k1
    rwa [Option.eq_none_iff_forall_ne_some, ← not_exists]
  · refine .inr ⟨fun x hx => Option.isSome_iff_exists.2 ((recorded_iff hr).1 (k0 x hx)), _, k2, ?_⟩
    rw [List.length_map]
    congr 1
    refine List.filter_congr fun e he => ?_
    rw [Bool.eq_iff_iff, decide_eq_true_eq, shown_iff hr, Option.any_eq_true]
    simp only [decide_eq_true_eq]

/-- Two neighbours `x`, `y` of the sequence `L` are recorded in consecutive rows of a page, and the last selected member
before them is stored in another page. -/
def TurnsPage (dbg : Bool) (acc : Access) (s : Store) (L : List Entity) : Prop :=
  ∃ before x y after z page row, L = before ++ x :: y :: after ∧ selected dbg s acc x = true ∧
    s.toPage[x.id]? = some (some page) ∧ s.toIndex[x.id]? = some (some row) ∧
    s.toPage[y.id]? = some (some page) ∧ s.toIndex[y.id]? = some (some (row + 1)) ∧
    (before.filter (selected dbg s acc)).getLast? = some z ∧ s.toPage[z.id]? ≠ some (some page)

private theorem turns_iff {acc : Access} {L : List Entity} :
    TurnsPage dbg acc s L ↔ Readable.Confused s (selected dbg s acc) L := by
  unfold TurnsPage Readable.Confused
  constructor
  · rintro ⟨b, x, y, a, z, p, r, e1, e2, e3, e4, e5, e6, e7, e8⟩
    exact ⟨b, x, y, a, z, e1, e2, ⟨⟨p, r⟩, ⟨e3, e4⟩, ⟨e5, e6⟩⟩, e7, by rw [e3]; exact e8⟩
  · rintro ⟨b, x, y, a, z, e1, e2, ⟨⟨p, r⟩, e3, e4⟩, e7, e8⟩
    exact ⟨b, x, y, a, z, p, r, e1, e2, e3.page, e3.index, e4.page, e4.index, e7, by rw [e3.page] at e8; exact e8⟩

/-- **C37, exactly, in every state**: `with_entities` returns exactly the selected members of the group, in the order of the
group, each with the references to its own components, if and only if the query without entities is right (the condition of
C36), and no two neighbours in consecutive rows come after a selected member in another page. -/
theorem C37_ordered_with_entities_iff (hx : LooseExec U dbg cap h s) {acc : Access} {g : Nat} (old : List (Range × IterView))
    {fuel : Nat} (hf : (sequence g h).length < fuel) :
    (∃ items, runOrderedQueryWithEntities U dbg s g acc old fuel = .ok items ∧
      items.map (·.1) = (sequence g h).filter (selected dbg s acc) ∧
      ∀ x ∈ items, s.getComponentsRefs U dbg x.1 acc.types = .ok (some x.2)) ↔
    (∀ x ∈ sequence g h, x ∉ given h → ∃ a, recordedArchetype s x.id = some a ∧ ¬ Covers a.ids acc) ∧
      ¬ TurnsPage dbg acc s (sequence g h) := by
  classical
  have hr := loose_readable hx
  have hs : sequence g h = (world h).order g := sequence_eq g h
  rw [hs] at hf ⊢
  have hal : ∀ e ∈ (world h).order g, e ∈ alive h ∧ e ∈ (world h).issued := by
    intro e he
    have := hr.core.ordLive g e he
    exact ⟨by rw [alive_eq]; exact this, hr.core.ents.sub e this⟩
  by_cases hcond : ∀ x ∈ (world h).order g, x ∉ given h → ∃ a, recordedArchetype s x.id = some a ∧ ¬ Covers a.ids acc
  · rw [and_iff_right hcond]
    have hrec : ∀ e ∈ (world h).order g, Recorded s e := by
      intro e he
      by_cases hg : e ∈ given h
      · exact hr.of_bit (((given_bit hx).2 e (hal e he).1).2 hg)
      · obtain ⟨a, h1, _⟩ := hcond e he hg
        exact (recorded_iff hr).2 ⟨a, h1⟩
    have hsh : ∀ e ∈ (world h).order g, selected dbg s acc e = true ↔ Shown s acc e := by
      intro e he
      by_cases hg : e ∈ given h
      · exact selected_shown hx (hal e he).1 hg
      · rw [not_selected hx (hal e he).1 hg (hal e he).2]
        simp only [Bool.false_eq_true, false_iff]
        intro hsh
        obtain ⟨a, h1, h2⟩ := hcond e he hg
        obtain ⟨a', h3, h4⟩ := (shown_iff hr).1 hsh
        rw [h1] at h3
        cases h3
        exact h2 h4
    obtain ⟨_, _, _, _, hiff⟩ := hr.ordered_withEntities (U := U) (dbg := dbg) hrec hsh old hf
    have hrows := loose_rows hx
    have hiff := hiff (fun q i hq => by
        rcases hrows.rows q i hq with hc | hc
        · cases hc
        · exact hc.2) (fun e he q hq => by
        obtain ⟨h1, h2⟩ := List.mem_filter.1 he
        have hg : e ∈ given h := by
          by_contra hg
          rw [not_selected hx (hal e h1).1 hg (hal e h1).2] at h2
          cases h2
        obtain ⟨q', k1, k2, _⟩ := hrows.on e.id ⟨e, (hal e h1).1, hg, rfl⟩
        rw [hq.unique k1]
        exact k2)
    rw [turns_iff, ← hiff]
    constructor
    · rintro ⟨items, k1, k2, k3⟩
      rw [k1, ← k2, List.map_map]
      congr 1
      conv_lhs => rw [← List.map_id items]
      refine List.map_congr_left fun x hx' => ?_
      have hxm : x.1 ∈ ((world h).order g).filter (selected dbg s acc) := by rw [← k2]; exact List.mem_map_of_mem hx'
      obtain ⟨h1, h2⟩ := List.mem_filter.1 hxm
      have := hr.recordRefs_selected (U := U) (hr.core.ents.issued_id_lt (hal x.1 h1).2) h2
      rw [k3 x hx'] at this
      show x = (x.1, recordRefs U s acc x.1)
      rw [← Option.some.inj (Except.ok.inj this)]
    · intro k1
      refine ⟨_, k1, ?_, fun x hx' => ?_⟩
      · rw [List.map_map]; exact List.map_id _
      · obtain ⟨e, he, rfl⟩ := List.mem_map.1 hx'
        obtain ⟨h1, h2⟩ := List.mem_filter.1 he
        exact hr.recordRefs_selected (hr.core.ents.issued_id_lt (hal e h1).2) h2
  · refine iff_of_false ?_ (fun h0 => hcond h0.1)
    rintro ⟨items, k1, k2, _⟩
    rcases hr.ordered_query (U := U) (dbg := dbg) (acc := acc) (g := g) old hf with
      ⟨_, u, _, j1, _⟩ | ⟨j0, _⟩
    · unfold runOrderedQueryWithEntities at k1
      rw [j1] at k1
      cases k1
    · obtain ⟨l, j1, j2, _⟩ := hr.ordered_withEntities (U := U) (dbg := dbg) (acc := acc) j0
        (f := fun e => decide (Shown s acc e)) (fun e _ => by simp) old hf
      rw [j2] at k1
      have hlen := congrArg List.length k2
      rw [List.length_map, Res.mapL_length k1, ← List.length_map (f := fun x : IterView × Nat × Entity => x.2.2), j1] at hlen
      refine hcond fun x hx' hg => ?_
      obtain ⟨a, ha⟩ := (recorded_iff hr).1 (j0 x hx')
      refine ⟨a, ha, fun hc => ?_⟩
      have hsub : ∀ e ∈ (world h).order g, selected dbg s acc e = true → Shown s acc e := fun e he h0 =>
        hr.shown_of_selected (hr.core.ents.issued_id_lt (hal e he).2) h0
      have hsl : (((world h).order g).filter (selected dbg s acc)).Sublist
          (((world h).order g).filter fun e => decide (Shown s acc e)) := by
        have : ((world h).order g).filter (selected dbg s acc) =
            (((world h).order g).filter fun e => decide (Shown s acc e)).filter (selected dbg s acc) := by
          rw [List.filter_filter]
          refine List.filter_congr fun e he => ?_
          cases hse : selected dbg s acc e with
          | false => rfl
          | true => simp [hsub e he hse]
        rw [this]
        exact List.filter_sublist
      have heq := hsl.eq_of_length hlen.symm
      have hm : x ∈ ((world h).order g).filter fun e => decide (Shown s acc e) :=
        List.mem_filter.2 ⟨hx', by simpa using (shown_iff hr).2 ⟨a, ha, hc⟩⟩
      rw [← heq] at hm
      have := (List.mem_filter.1 hm).2
      rw [not_selected hx (hal x hx').1 hg (hal x hx').2] at this
      cases this

/-- **C32**, for ordered queries in every state: the length of a fresh iterator is the number of items it returns. -/
theorem C32_ordered_fresh_len (hx : LooseExec U dbg cap h s) {acc : Access} {g : Nat} (old : List (Range × IterView)) {fuel : Nat}
    (hf : (sequence g h).length < fuel) {it : OrdIter} (hi : orderedQueryIter U s g acc old fuel = .ok it) :
    ∃ items, runOrderedQuery U dbg s g acc old fuel = .ok items ∧ it.len = items.length := by
  classical
  have hr := loose_readable hx
  have hs : sequence g h = (world h).order g := sequence_eq g h
  rw [hs] at hf
  rcases hr.ordered_query (U := U) (dbg := dbg) (acc := acc) (g := g) old hf with ⟨_, u, _, k1, _⟩ | ⟨_, it', k1, k2, k3⟩
  · rw [k1] at hi
    cases hi
  · rw [k1] at hi
    cases hi
    exact ⟨_, k3, by rw [k2, List.length_map]⟩

end

/-! ### Examples -/

/-- In a state with overfull pages (no `Exec`) a list of three handles, one twice, does not mislead the query, and it
returns all of them. -/
example : ∃ s items, LooseExec demo true 1 overflowing s ∧ ¬ Misled true 1 overflowing s (.readonly [4]) [⟨0, 1⟩, ⟨1, 1⟩, ⟨0, 1⟩] ∧
    runEntityQueryWithEntities demo true s [⟨0, 1⟩, ⟨1, 1⟩, ⟨0, 1⟩] (.readonly [4]) [] 10 = .ok items ∧ items.length = 3 := by
  have h : ((runLoose demo true 1 overflowing).any fun s =>
      decide (¬ Misled true 1 overflowing s (.readonly [4]) [⟨0, 1⟩, ⟨1, 1⟩, ⟨0, 1⟩]) &&
      okAnd (runEntityQueryWithEntities demo true s [⟨0, 1⟩, ⟨1, 1⟩, ⟨0, 1⟩] (.readonly [4]) [] 10) fun items =>
        decide (items.length = 3)) = true := by decide
  obtain ⟨s, hs, h⟩ := any_some h
  rw [Bool.and_eq_true, decide_eq_true_eq] at h
  obtain ⟨items, h1, h2⟩ := okAnd_iff h.2
  exact ⟨s, items, runLoose_sound hs, h.1, h1, of_decide_eq_true h2⟩

/-- In `reborn` the second handle misleads the query, in this order only. -/
example : ∃ s, LooseExec demo true 1 reborn s ∧ Misled true 1 reborn s (.write [1]) [⟨0, 1⟩, ⟨1, 2⟩] ∧
    ¬ Misled true 1 reborn s (.write [1]) [⟨1, 2⟩, ⟨0, 1⟩] ∧ ¬ Misled true 1 reborn s (.write [3]) [⟨0, 1⟩, ⟨1, 2⟩] := by
  have h : ((runLoose demo true 1 reborn).any fun s =>
      decide (Misled true 1 reborn s (.write [1]) [⟨0, 1⟩, ⟨1, 2⟩] ∧
        ¬ Misled true 1 reborn s (.write [1]) [⟨1, 2⟩, ⟨0, 1⟩] ∧
        ¬ Misled true 1 reborn s (.write [3]) [⟨0, 1⟩, ⟨1, 2⟩])) = true := by decide
  obtain ⟨s, hs, h⟩ := any_some h
  exact ⟨s, runLoose_sound hs, of_decide_eq_true h⟩

/-- In `bare` the record of the second handle was never written. -/
example : ∃ s, LooseExec demo true 1 bare s ∧ Misled true 1 bare s (.write [1]) [⟨0, 1⟩, ⟨1, 1⟩] := by
  have h : ((runLoose demo true 1 bare).any fun s =>
      decide (Misled true 1 bare s (.write [1]) [⟨0, 1⟩, ⟨1, 1⟩])) = true := by decide
  obtain ⟨s, hs, h⟩ := any_some h
  exact ⟨s, runLoose_sound hs, of_decide_eq_true h⟩

/-- In `reborn` the only member of group 9 has no components; a query of the group for component 3 is right nevertheless,
and one for component 1 is not. -/
example : ∃ s, LooseExec demo true 1 reborn s ∧ sequence 9 reborn = [⟨1, 2⟩] ∧ (⟨1, 2⟩ : Entity) ∉ given reborn ∧
    ∃ a, recordedArchetype s 1 = some a ∧ ¬ Covers a.ids (.write [3]) ∧ Covers a.ids (.write [1]) := by
  have h : ((runLoose demo true 1 reborn).any fun s => (recordedArchetype s 1).any fun a =>
      decide (¬ Covers a.ids (.write [3]) ∧ Covers a.ids (.write [1]))) = true := by decide
  obtain ⟨s, hs, h⟩ := any_some h
  obtain ⟨a, ha, h⟩ := any_some h
  exact ⟨s, runLoose_sound hs, by decide, by decide, a, ha, of_decide_eq_true h⟩

/-- Group 11 of the history of `C37_counterexample` turns the page, group 9 does not although it is stored in three
pages; the other condition of C37 is met in both cases. -/
example : ∃ s, LooseExec demo true 1 queryHistory s ∧ TurnsPage true (.readonly [4]) s (sequence 11 queryHistory) ∧
    (∀ x ∈ sequence 11 queryHistory ++ sequence 9 queryHistory, x ∈ given queryHistory) ∧
    runOrderedQueryWithEntities demo true s 9 (.readonly [4]) [] 10 =
      .ok [(⟨2, 1⟩, [⟨3, 1, 1⟩]), (⟨1, 2⟩, [⟨3, 0, 1⟩]), (⟨0, 1⟩, [⟨2, 6820, 1⟩])] := by
  have h : ((runLoose demo true 1 queryHistory).any fun s =>
      decide (s.toPage[1]? = some (some 3) ∧ s.toIndex[1]? = some (some 0) ∧ s.toPage[2]? = some (some 3) ∧
        s.toIndex[2]? = some (some 1) ∧ s.toPage[0]? ≠ some (some 3)) &&
      (decide (selected true s (.readonly [4]) ⟨1, 2⟩ = true ∧
        ([⟨0, 1⟩].filter (selected true s (.readonly [4]))).getLast? = some ⟨0, 1⟩) &&
      decide (runOrderedQueryWithEntities demo true s 9 (.readonly [4]) [] 10 =
        .ok [(⟨2, 1⟩, [⟨3, 1, 1⟩]), (⟨1, 2⟩, [⟨3, 0, 1⟩]), (⟨0, 1⟩, [⟨2, 6820, 1⟩])]))) = true := by decide
  obtain ⟨s, hs, h⟩ := any_some h
  rw [Bool.and_eq_true, Bool.and_eq_true, decide_eq_true_eq, decide_eq_true_eq, decide_eq_true_eq] at h
  obtain ⟨⟨h1, h2, h3, h4, h5⟩, ⟨h6, h7⟩, h8⟩ := h
  exact ⟨s, runLoose_sound hs, ⟨[⟨0, 1⟩], ⟨1, 2⟩, ⟨2, 1⟩, [], ⟨0, 1⟩, 3, 0, by decide, h6, h1, h2, h3, h4, h7, h5⟩, by decide, h8⟩

/-- A store with room for 2 entities, one without components in group 9, and no archetype at all. -/
def unsorted : List Event := [.orderedLast 9 ⟨0, 1⟩, .created ⟨0, 1⟩]

/-- **C36 is false of the code** also if no entity of the store has ever had components: the query reads the first
archetype, which does not exist. -/
theorem C36_counterexample_no_archetype : ∃ s, Exec demo true 2 unsorted s ∧ sequence 9 unsorted = [⟨0, 1⟩] ∧
    recordedArchetype s 0 = none ∧
    runOrderedQuery demo true s 9 (.readonly [1]) [] 10 = .error (.ub .oob) := by
  have h : ((runExec demo true 2 unsorted).any fun s =>
      decide (recordedArchetype s 0 = none) &&
      decide (runOrderedQuery demo true s 9 (.readonly [1]) [] 10 = .error (.ub .oob))) = true := by decide
  obtain ⟨s, hs, h⟩ := any_some h
  rw [Bool.and_eq_true, decide_eq_true_eq, decide_eq_true_eq] at h
  exact ⟨s, runExec_sound hs, by decide, h.1, h.2⟩

end Ecs.Props
