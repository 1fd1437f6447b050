import Verif.Proofs.QueryOrdAny
import Mathlib.Data.List.Basic

/-! When `with_entities` of an ordered query is right, in every state: exactly when no run of rows with two or more members
follows a run in another page. -/

namespace Ecs
open Spec

theorem nodup_split {α : Type} {A B A' B' : List α} {x : α} (hn : (A ++ x :: B).Nodup) (h : A ++ x :: B = A' ++ x :: B') :
    A = A' ∧ B = B' := by
  have h1 : x ∉ A := fun hm => (List.nodup_append.1 hn).2.2 x hm x List.mem_cons_self rfl
  have h2 : x ∉ B := (List.nodup_cons.1 (List.nodup_append.1 hn).2.1).1
  obtain ⟨e1, _, e2⟩ := (List.append_cons_inj_of_notMem h1 h2).1 h
  exact ⟨e1, e2⟩

/-- `mapM` in `Res`. -/
def Res.mapL {α β : Type} (f : α → Res β) : List α → Res (List β)
  | [] => .ok []
  | a :: l => do
    let b ← f a
    let bs ← Res.mapL f l
    return b :: bs

theorem Res.mapL_iff {α β : Type} {f : α → Res β} {g : α → β} (l : List α) :
    Res.mapL f l = .ok (l.map g) ↔ ∀ a ∈ l, f a = .ok (g a) := by
  induction l with
  | nil => simp [Res.mapL]
  | cons a l ih =>
    unfold Res.mapL
    constructor
    · intro h
      obtain ⟨b, h1, h⟩ := bind_eq_ok.1 h
      obtain ⟨bs, h2, h⟩ := bind_eq_ok.1 h
      cases h
      intro x hx
      rcases List.mem_cons.1 hx with rfl | hx
      · exact h1
      · exact ih.1 h2 x hx
    · intro h
      simp only [h a List.mem_cons_self, ih.2 (fun x hx => h x (List.mem_cons_of_mem _ hx)), ok_bind, pure_ok, List.map_cons]

theorem Res.mapL_length {α β : Type} {f : α → Res β} {l : List α} {bs : List β} (h : Res.mapL f l = .ok bs) :
    bs.length = l.length := by
  induction l generalizing bs with
  | nil => cases h; rfl
  | cons a l ih =>
    unfold Res.mapL at h
    obtain ⟨b, _, h⟩ := bind_eq_ok.1 h
    obtain ⟨bs', h2, h⟩ := bind_eq_ok.1 h
    cases h
    simp [ih h2]

/-- Draining an iterator whose steps may fail. -/
theorem drain_mapL {σ α β : Type} {next : σ → Res (Option α × σ)} {f : β → Res α} (R : σ → List β → Prop)
    (hnil : ∀ it, R it [] → ∃ it', next it = .ok (none, it'))
    (hcons : ∀ it x l, R it (x :: l) → ∃ it', next it = (f x >>= fun y => .ok (some y, it')) ∧ R it' l)
    {it : σ} {l : List β} (h : R it l) {fuel : Nat} (hf : l.length < fuel) :
    drain next fuel it = Res.mapL f l := by
  induction l generalizing it fuel with
  | nil =>
    cases fuel with
    | zero => cases hf
    | succ n =>
      obtain ⟨it', h1⟩ := hnil it h
      simp only [drain, h1, ok_bind, pure_ok, Res.mapL]
  | cons x l ih =>
    cases fuel with
    | zero => cases hf
    | succ n =>
      obtain ⟨it', h1, h2⟩ := hcons it x l h
      have := ih h2 (fuel := n) (by simpa using hf)
      simp only [drain, h1, Res.mapL]
      cases hfx : f x with
      | error e => rfl
      | ok y =>
        simp only [ok_bind, this]

namespace Readable
variable {U : Universe} {dbg : Bool} {s : Store} {w : World} {acc : Access}

/-- What `with_entities` reads to find out the entity of an item: the view, the index in it, and the entity it should
find. -/
def planRange (prev own : IterView) : Nat → List Entity → List (IterView × Nat × Entity)
  | _, [] => []
  | j, [e] => [(own, j, e)]
  | j, e :: e' :: es => (prev, j, e) :: planRange prev own (j + 1) (e' :: es)

def plan : IterView → List (Range × IterView) → List (List Entity) → List (IterView × Nat × Entity)
  | prev, p :: rs, es :: ess => planRange prev p.2 p.1.start es ++ plan p.2 rs ess
  | _, _, _ => []

noncomputable def readItem (U : Universe) (s : Store) (acc : Access) (a : IterView × Nat × Entity) :
    Res (Entity × List Ref) := do
  let id ← idxUnchecked a.1.entityIds a.2.1
  let version ← Raw.read s.ents.versions id
  return (⟨id, version⟩, recordRefs U s acc a.2.2)

theorem planRange_ents (prev own : IterView) (j : Nat) (es : List Entity) : (planRange prev own j es).map (·.2.2) = es := by
  induction es generalizing j with
  | nil => rfl
  | cons e es ih =>
    cases es with
    | nil => rfl
    | cons e' es => simp only [planRange, List.map_cons, ih]

theorem plan_ents {rs : List (Range × IterView)} {ess : List (List Entity)} (hl : rs.length = ess.length) (prev : IterView) :
    (plan prev rs ess).map (·.2.2) = ess.flatten := by
  induction rs generalizing ess prev with
  | nil => cases ess with
    | nil => rfl
    | cons _ _ => cases hl
  | cons p rs ih =>
    cases ess with
    | nil => cases hl
    | cons es ess =>
      simp only [plan, List.map_append, planRange_ents, List.flatten_cons, ih (Nat.succ.inj hl)]

/-- The items still to come, as plan. -/
def Ahead (U : Universe) (s : Store) (acc : Access) (it : OrdIter)
    (l : List (IterView × Nat × Entity)) : Prop :=
  (it.nextRangeIndex = it.ranges.length ∧ it.nextOffsetFromRange = 0 ∧ l = []) ∨
  ∃ done p rs taken rest ess prev, it.ranges = done ++ p :: rs ∧ it.nextRangeIndex = done.length ∧
    RowsAt U s acc p (taken ++ rest) ∧ List.Forall₂ (RowsAt U s acc) rs ess ∧
    it.nextOffsetFromRange = taken.length ∧ rest ≠ [] ∧
    it.ranges[done.length - 1]? = some prev ∧
    l = planRange prev.2 p.2 (p.1.start + taken.length) rest ++ plan p.2 rs ess

theorem ahead_nil {it : OrdIter} (h : Ahead U s acc it []) :
    ∃ it', it.nextWithEntity dbg s = .ok (none, it') := by
  rcases h with ⟨h1, h2, _⟩ | ⟨done, p, rs, taken, rest, ess, prev, h1, h2, h3, h4, h5, h6, h7, h8⟩
  · refine ⟨it, ?_⟩
    unfold OrdIter.nextWithEntity OrdIter.next
    rw [if_pos (Nat.le_of_eq h1.symm)]
    rfl
  · exfalso
    cases rest with
    | nil => exact h6 rfl
    | cons e rest =>
      cases rest <;> simp [planRange] at h8

theorem ahead_cons {it : OrdIter} {a : IterView × Nat × Entity} {l : List (IterView × Nat × Entity)}
    (h : Ahead U s acc it (a :: l)) :
    ∃ it', it.nextWithEntity dbg s = (readItem U s acc a >>= fun y => .ok (some y, it')) ∧
      Ahead U s acc it' l := by
  rcases h with ⟨_, _, h3⟩ | ⟨done, p, rs, taken, rest, ess, prev, h1, h2, h3, h4, h5, h6, h7, h8⟩
  · cases h3
  have hp : it.ranges[it.nextRangeIndex]? = some p := by rw [h1, h2]; simp
  have hlt : ¬ it.nextRangeIndex ≥ it.ranges.length := Nat.not_le.2 (List.getElem?_eq_some_iff.1 hp).1
  have hlen := h3.len
  rw [List.length_append] at hlen
  cases rest with
  | nil => exact absurd rfl h6
  | cons e rest =>
    have hsub : subU32 dbg p.1.stop 1 = .ok (p.1.stop - 1) := by
      unfold subU32
      rw [if_pos (by rw [hlen]; simp; omega)]
    have hrefs : recordRefs U s acc e = addToPtrs p.2.ptrs (p.1.start + taken.length) := by
      exact h3.item taken.length e (by simp)
    cases rest with
    | nil =>
      simp only [planRange, List.cons_append, List.nil_append, List.cons.injEq] at h8
      obtain ⟨rfl, rfl⟩ := h8
      have hlast : p.1.start + taken.length ≥ p.1.stop - 1 := by rw [hlen]; simp
      refine ⟨{ it with currentIndexInPage := p.1.start + taken.length,
                        nextRangeIndex := it.nextRangeIndex + 1, nextOffsetFromRange := 0 }, ?_, ?_⟩
      · unfold OrdIter.nextWithEntity OrdIter.next
        simp only [hlt, if_false, idxUnchecked_of_some hp, ok_bind, hsub, h5, hlast, if_true, pure_ok, Nat.add_sub_cancel,
          readItem, hrefs]
        cases idxUnchecked p.2.entityIds (p.1.start + taken.length) with
        | error _ => rfl
        | ok id => cases hv : Raw.read s.ents.versions id <;> simp [hv]
      · cases h4 with
        | nil =>
          refine .inl ⟨?_, rfl, rfl⟩
          simp [h1, h2]
        | @cons p' es' rs' ess' g1 g2 =>
          refine .inr ⟨done ++ [p], p', rs', [], es', ess', p, by simp [h1], by simp [h2], g1, g2, rfl, g1.ne, ?_, ?_⟩
          · simp [h1]
          · simp [plan]
    | cons e' rest =>
      simp only [planRange, List.cons_append, List.cons.injEq] at h8
      obtain ⟨rfl, rfl⟩ := h8
      have hlast : ¬ p.1.start + taken.length ≥ p.1.stop - 1 := by rw [hlen]; simp; omega
      have hprev : it.ranges[it.nextRangeIndex - 1]? = some prev := by rw [h2]; exact h7
      refine ⟨{ it with currentIndexInPage := p.1.start + taken.length,
                        nextOffsetFromRange := taken.length + 1 }, ?_, ?_⟩
      · unfold OrdIter.nextWithEntity OrdIter.next
        simp only [hlt, if_false, idxUnchecked_of_some hp, ok_bind, hsub, h5, hlast, pure_ok, idxUnchecked_of_some hprev,
          readItem, hrefs]
        cases idxUnchecked prev.2.entityIds (p.1.start + taken.length) with
        | error _ => rfl
        | ok id => cases hv : Raw.read s.ents.versions id <;> simp [hv]
      · refine .inr ⟨done, p, rs, taken ++ [e], e' :: rest, ess, prev, h1, h2, by simpa using h3, h4, by simp, by simp, h7, ?_⟩
        simp [Nat.add_assoc]

/-- The view shows page `q`. -/
def Shows (s : Store) (v : IterView) (q : Nat) : Prop := ∃ pg, s.archs.pages[q]? = some pg ∧ v.entityIds = pg.ids.items

theorem readItem_iff (h : Readable s w) {v : IterView} {j : Nat} {e : Entity} (he : e ∈ w.live) :
    readItem U s acc (v, j, e) = .ok (e, recordRefs U s acc e) ↔ v.entityIds[j]? = some e.id := by
  unfold readItem
  constructor
  · intro hr
    obtain ⟨id, h1, hr⟩ := bind_eq_ok.1 hr
    obtain ⟨ver, h2, hr⟩ := bind_eq_ok.1 hr
    rw [idxUnchecked_ok] at h1
    have : (⟨id, ver⟩ : Entity) = e := by cases hr; rfl
    rw [h1, ← this]
  · intro hv
    simp only [idxUnchecked_of_some hv, Raw.read_of_some (h.core.ents.lver e he), ok_bind, pure_ok]

/-- Looking at another page, one does not find the entity. -/
theorem shows_iff (huniq : ∀ (q : Loc) (i : Nat), s.archs.row q = some i → Pos s.toPage s.toIndex i q) {v own : IterView} {q q' j : Nat} {e : Entity}
    (hv : Shows s v q') (ho : Shows s own q) (hown : own.entityIds[j]? = some e.id) :
    v.entityIds[j]? = some e.id ↔ q' = q := by
  obtain ⟨pg', g1, g2⟩ := hv
  obtain ⟨pg, g3, g4⟩ := ho
  have hrow : ∀ (q : Nat) (pg : Page), s.archs.pages[q]? = some pg → s.archs.row ⟨q, j⟩ = pg.ids.items[j]? := by
    intro q pg hq
    simp [Archs.row, hq]
  constructor
  · intro hx
    have e1 : s.archs.row ⟨q', j⟩ = some e.id := by rw [hrow q' pg' g1, ← g2]; exact hx
    have e2 : s.archs.row ⟨q, j⟩ = some e.id := by rw [hrow q pg g3, ← g4]; exact hown
    have := (huniq _ _ e1).unique (huniq _ _ e2)
    cases this
    rfl
  · rintro rfl
    rw [g1] at g3
    cases g3
    rw [g2, ← g4]
    exact hown

theorem rows_shows {p : Range × IterView} {es : List Entity} (h : RowsAt U s acc p es) :
    ∃ q, Shows s p.2 q ∧ ∀ e ∈ es, s.toPage[e.id]? = some (some q) := by
  obtain ⟨q, pg, h1, h2, h3⟩ := h.page
  refine ⟨q, ⟨pg, h1, h2⟩, fun e he => ?_⟩
  obtain ⟨i, hi⟩ := List.mem_iff_getElem?.1 he
  exact (h3 i e hi).page

/-- The reads for a range are right, iff it has one member or the previous range is in the same page. -/
theorem planRange_right (huniq : ∀ (q : Loc) (i : Nat), s.archs.row q = some i → Pos s.toPage s.toIndex i q) {prev : IterView} {q q' : Nat} {p : Range × IterView} {es : List Entity}
    (hp : RowsAt U s acc p es) (hown : ∀ e ∈ es, ∀ q, Pos s.toPage s.toIndex e.id q → s.archs.row q = some e.id)
    (hv : Shows s prev q') (ho : Shows s p.2 q) :
    (∀ a ∈ planRange prev p.2 p.1.start es, a.1.entityIds[a.2.1]? = some a.2.2.id) ↔ es.length ≤ 1 ∨ q' = q := by
  have key : ∀ (taken rest : List Entity), es = taken ++ rest → rest ≠ [] →
      ((∀ a ∈ planRange prev p.2 (p.1.start + taken.length) rest, a.1.entityIds[a.2.1]? = some a.2.2.id) ↔
        rest.length ≤ 1 ∨ q' = q) := by
    intro taken rest
    induction rest generalizing taken with
    | nil => intro _ hn; exact absurd rfl hn
    | cons e rest ih =>
      intro hes _
      have i3 : p.2.entityIds[p.1.start + taken.length]? = some e.id := by
        obtain ⟨q1, pg1, g1, g2, g3⟩ := hp.page
        have := hown e (by rw [hes]; simp) _ (g3 taken.length e (by rw [hes]; simp))
        rw [g2]
        simpa [Archs.row, g1] using this
      cases rest with
      | nil => simp [planRange, i3]
      | cons e' rest =>
        have := ih (taken ++ [e]) (by simp [hes]) (by simp)
        simp only [planRange, List.mem_cons, forall_eq_or_imp, List.length_cons]
        rw [shows_iff huniq hv ho i3]
        simp only [List.length_append, List.length_singleton, ← Nat.add_assoc] at this
        simp only [List.length_cons] at this
        constructor
        · rintro ⟨h1, _⟩; exact .inr h1
        · rintro (h1 | h1)
          · omega
          · exact ⟨h1, this.2 (.inr h1)⟩
  have := key [] es rfl hp.ne
  simpa using this

/-- The reads are right, iff every range with several members is in the same page as the range before it. -/
theorem plan_right (huniq : ∀ (q : Loc) (i : Nat), s.archs.row q = some i → Pos s.toPage s.toIndex i q)
    {rs : List (Range × IterView)} {ess : List (List Entity)} (hf : List.Forall₂ (RowsAt U s acc) rs ess)
    (hown : ∀ es ∈ ess, ∀ e ∈ es, ∀ q, Pos s.toPage s.toIndex e.id q → s.archs.row q = some e.id) {prev : IterView} {q' : Nat} (hv : Shows s prev q') :
    (∀ a ∈ plan prev rs ess, a.1.entityIds[a.2.1]? = some a.2.2.id) ↔
      (∀ es, ess[0]? = some es → 2 ≤ es.length → ∀ y ∈ es, s.toPage[y.id]? = some (some q')) ∧
      ∀ (k : Nat) es es', ess[k]? = some es → ess[k + 1]? = some es' → 2 ≤ es'.length →
        ∀ x ∈ es, ∀ y ∈ es', s.toPage[x.id]? = s.toPage[y.id]? := by
  induction hf generalizing prev q' with
  | nil => simp [plan]
  | @cons p es rs ess hp hr ih =>
    obtain ⟨q, ho, hq⟩ := rows_shows hp
    have hpr := planRange_right huniq hp (hown es (by simp)) hv ho
    have hih := ih (fun es hes => hown es (by simp [hes])) ho
    simp only [plan, List.mem_append]
    have hsplit : (∀ a, a ∈ planRange prev p.2 p.1.start es ∨ a ∈ plan p.2 rs ess → a.1.entityIds[a.2.1]? = some a.2.2.id) ↔
        (∀ a ∈ planRange prev p.2 p.1.start es, a.1.entityIds[a.2.1]? = some a.2.2.id) ∧
        ∀ a ∈ plan p.2 rs ess, a.1.entityIds[a.2.1]? = some a.2.2.id :=
      ⟨fun h => ⟨fun a ha => h a (.inl ha), fun a ha => h a (.inr ha)⟩, fun h a ha => ha.elim (h.1 a) (h.2 a)⟩
    rw [hsplit, hpr, hih]
    obtain ⟨e0, he0⟩ := List.exists_mem_of_ne_nil _ hp.ne
    constructor
    · rintro ⟨h1, h2, h3⟩
      refine ⟨fun es1 hes h4 y hy => ?_, fun k es1 es2 h4 h5 h6 x hx y hy => ?_⟩
      · simp only [List.getElem?_cons_zero, Option.some.injEq] at hes
        subst hes
        rcases h1 with h1 | rfl
        · omega
        · exact hq y hy
      · cases k with
        | zero =>
          simp only [List.getElem?_cons_zero, Option.some.injEq] at h4
          subst h4
          rw [hq x hx, h2 es2 (by simpa using h5) h6 y hy]
        | succ k => exact h3 k es1 es2 (by simpa using h4) (by simpa using h5) h6 x hx y hy
    · rintro ⟨h1, h2⟩
      refine ⟨?_, fun es1 hes h4 y hy => ?_, fun k es1 es2 h4 h5 => h2 (k + 1) es1 es2 (by simpa using h4) (by simpa using h5)⟩
      · by_cases hl : es.length ≤ 1
        · exact .inl hl
        · right
          have := h1 es (by simp) (by omega) e0 he0
          rw [hq e0 he0] at this
          cases this
          rfl
      · rw [← h2 0 es es1 (by simp) (by simpa using hes) h4 e0 he0 y hy]
        exact hq e0 he0

/-- Where the read `a` looks, after the reads `A` and the entities `A0`: at the row number of the entity, in the page of the
entity itself or of one before it. -/
def Looks (s : Store) (A0 : List Entity) (A : List (IterView × Nat × Entity)) (a : IterView × Nat × Entity) : Prop :=
  ∃ q q' z, Shows s a.1 q' ∧ Pos s.toPage s.toIndex a.2.2.id ⟨q, a.2.1⟩ ∧ (z = a.2.2 ∨ z ∈ A0 ++ A.map (·.2.2)) ∧
    s.toPage[z.id]? = some (some q')

theorem planRange_at {prev own : IterView} {j : Nat} {es : List Entity} {a : IterView × Nat × Entity}
    (ha : a ∈ planRange prev own j es) : (a.1 = prev ∨ a.1 = own) ∧ ∃ i, es[i]? = some a.2.2 ∧ a.2.1 = j + i := by
  induction es generalizing j with
  | nil => cases ha
  | cons e es ih =>
    cases es with
    | nil =>
      rw [planRange, List.mem_singleton] at ha
      subst ha
      exact ⟨.inr rfl, 0, rfl, rfl⟩
    | cons e' es =>
      rw [planRange] at ha
      rcases List.mem_cons.1 ha with rfl | ha
      · exact ⟨.inl rfl, 0, rfl, rfl⟩
      · obtain ⟨h1, i, h2, h3⟩ := ih ha
        exact ⟨h1, i + 1, by simpa using h2, by omega⟩

theorem plan_looks {rs : List (Range × IterView)} {ess : List (List Entity)} (hf : List.Forall₂ (RowsAt U s acc) rs ess)
    {prev : IterView} {A0 : List Entity} (hv : ∃ q', Shows s prev q' ∧ ((∃ z ∈ A0, s.toPage[z.id]? = some (some q')) ∨
      ∀ es, ess.head? = some es → ∀ e ∈ es, s.toPage[e.id]? = some (some q'))) :
    ∀ A a B, plan prev rs ess = A ++ a :: B → Looks s A0 A a := by
  induction hf generalizing prev A0 with
  | nil => intro A a B h; simp [plan] at h
  | @cons p es rs ess hp hr ih =>
    intro A a B h
    rw [plan] at h
    obtain ⟨q, ho, hq⟩ := rows_shows hp
    rcases List.append_eq_append_iff.1 h with ⟨C, h1, h2⟩ | ⟨C, h1, h2⟩
    · -- in the later ranges
      obtain ⟨x, hx⟩ := List.exists_mem_of_ne_nil _ hp.ne
      obtain ⟨y1, y2, z, k1, k2, k3, k4⟩ := ih (prev := p.2) (A0 := A0 ++ es) ⟨q, ho, .inl ⟨x, List.mem_append_right _ hx, hq x hx⟩⟩
        C a B h2
      refine ⟨y1, y2, z, k1, k2, k3.imp id fun k3 => ?_, k4⟩
      rw [h1, List.map_append, planRange_ents]
      simpa [List.append_assoc] using k3
    · cases C with
      | nil =>
        simp only [List.nil_append] at h2
        simp only [List.append_nil] at h1
        obtain ⟨x, hx⟩ := List.exists_mem_of_ne_nil _ hp.ne
        obtain ⟨y1, y2, z, k1, k2, k3, k4⟩ := ih (prev := p.2) (A0 := A0 ++ es) ⟨q, ho, .inl ⟨x, List.mem_append_right _ hx, hq x hx⟩⟩
          [] a B h2.symm
        refine ⟨y1, y2, z, k1, k2, k3.imp id fun k3 => ?_, k4⟩
        rw [← h1, planRange_ents]
        simpa using k3
      | cons b C =>
        simp only [List.cons_append, List.cons.injEq] at h2
        obtain ⟨rfl, h2⟩ := h2
        have ha : a ∈ planRange prev p.2 p.1.start es := by rw [h1]; simp
        obtain ⟨m1, i, m2, m3⟩ := planRange_at ha
        obtain ⟨q1, pg1, g1, g2, g3⟩ := hp.page
        have hpos := g3 i _ m2
        rw [← m3] at hpos
        have hmem := List.mem_of_getElem? m2
        rcases m1 with m1 | m1
        · obtain ⟨q', hs', hz⟩ := hv
          rcases hz with ⟨z, hz, hzq⟩ | hz
          · exact ⟨q1, q', z, m1 ▸ hs', hpos, .inr (List.mem_append_left _ hz), hzq⟩
          · exact ⟨q1, q', a.2.2, m1 ▸ hs', hpos, .inl rfl, hz es rfl _ hmem⟩
        · exact ⟨q1, q, a.2.2, m1 ▸ ho, hpos, .inl rfl, hq _ hmem⟩

/-- Two neighbours `x`, `y` of the sequence in consecutive rows, the last matching member before them in another page. -/
def Confused (s : Store) (f : Entity → Bool) (L : List Entity) : Prop :=
  ∃ before x y after z, L = before ++ x :: y :: after ∧ f x = true ∧ Rel.RightAfter s x y ∧
    (before.filter f).getLast? = some z ∧ s.toPage[z.id]? ≠ s.toPage[x.id]?

theorem run_split {L es : List Entity} (h : Rel.Run s L es) (hne : es ≠ []) :
    ∃ pre post, L = pre ++ es ++ post ∧
      (∀ A x y B, es = A ++ x :: y :: B → Rel.RightAfter s x y) ∧
      ∀ A x y post', es = A ++ [x] → post = y :: post' → ¬ Rel.RightAfter s x y := by
  obtain ⟨k, h1, h2, h3, h4⟩ := h.start
  refine ⟨L.take k, L.drop (k + es.length), ?_, ?_, ?_⟩
  · conv_lhs => rw [← List.take_append_drop k L, ← List.take_append_drop es.length (L.drop k), List.drop_drop, ← h1]
    simp
  · intro A x y B hes
    have hget : ∀ i, i < es.length → L[k + i]? = es[i]? := by
      intro i hi
      conv_rhs => rw [h1]
      rw [List.getElem?_take, if_pos hi, List.getElem?_drop]
    refine h3 A.length x y (by rw [hes]; simp) ?_ ?_
    · rw [hget _ (by rw [hes]; simp)]; simp [hes]
    · rw [Nat.add_assoc, hget _ (by rw [hes]; simp)]; simp [hes]
  · intro A x y post' hes hpost
    refine h4 x y (by simp [hes]) ?_
    have := congrArg (·[0]?) hpost
    simpa using this

theorem confused_iff {f : Entity → Bool} {L : List Entity} (hn : L.Nodup) {ess : List (List Entity)} (hne : ∀ es ∈ ess, es ≠ [])
    (hm : ess.flatten = L.filter f) (hrun : ∀ es ∈ ess, Rel.Run s L es)
    (hpg : ∀ es ∈ ess, ∀ x ∈ es, ∀ y ∈ es, s.toPage[x.id]? = s.toPage[y.id]?) :
    ¬ Confused s f L ↔ ∀ (k : Nat) es es', ess[k]? = some es → ess[k + 1]? = some es' → 2 ≤ es'.length →
      ∀ x ∈ es, ∀ y ∈ es', s.toPage[x.id]? = s.toPage[y.id]? := by
  have hmat : ∀ es ∈ ess, ∀ x ∈ es, f x = true := by
    intro es hes x hx
    have : x ∈ ess.flatten := List.mem_flatten.2 ⟨es, hes, hx⟩
    rw [hm] at this
    exact (List.mem_filter.1 this).2
  -- the matching members before a member are those before it in the runs
  have hbefore : ∀ (k : Nat) A x B before after, ess[k]? = some (A ++ x :: B) → L = before ++ x :: after →
      before.filter f = (ess.take k).flatten ++ A := by
    intro k A x B before after hk hL
    have hmx := hmat _ (List.mem_of_getElem? hk) x (by simp)
    have hlt := (List.getElem?_eq_some_iff.1 hk).1
    have e1 : ess.flatten = ((ess.take k).flatten ++ A) ++ x :: (B ++ (ess.drop (k + 1)).flatten) := by
      conv_lhs => rw [← List.take_append_drop k ess, List.drop_eq_getElem_cons hlt, (List.getElem?_eq_some_iff.1 hk).2]
      simp
    have e2 : L.filter f = before.filter f ++
        x :: after.filter f := by
      rw [hL, List.filter_append, List.filter_cons_of_pos (hmx)]
    have hnd : (L.filter f).Nodup := hn.filter _
    rw [e2] at hnd
    exact (nodup_split hnd (by rw [← e2, ← hm, e1])).1
  constructor
  · intro hc k es es' hk hk' hlen x hx y hy
    by_contra hdiff
    obtain ⟨x1, y1, rest, rfl⟩ : ∃ x1 y1 rest, es' = x1 :: y1 :: rest := by
      match es', hlen with
      | x1 :: y1 :: rest, _ => exact ⟨x1, y1, rest, rfl⟩
    have hmem' := List.mem_of_getElem? hk'
    have hmem := List.mem_of_getElem? hk
    obtain ⟨pre, post, hL, hR, _⟩ := run_split (hrun _ hmem') (by simp)
    have hL' : L = pre ++ x1 :: y1 :: (rest ++ post) := by rw [hL]; simp
    have hb := hbefore (k + 1) [] x1 (y1 :: rest) pre (y1 :: (rest ++ post)) hk' hL'
    have hz : ((ess.take (k + 1)).flatten ++ []).getLast? = some (es.getLast (hne es hmem)) := by
      have hlt := (List.getElem?_eq_some_iff.1 hk).1
      have : ess.take (k + 1) = ess.take k ++ [es] := by
        rw [List.take_add_one, hk]; rfl
      rw [this]
      simp [List.getLast?_append, List.getLast?_eq_some_getLast (hne es hmem)]
    refine hc ⟨pre, x1, y1, rest ++ post, es.getLast (hne es hmem), hL', hmat _ hmem' x1 (by simp),
      hR [] x1 y1 rest rfl, by rw [hb, hz], fun heq => hdiff ?_⟩
    rw [hpg _ hmem x hx _ (List.getLast_mem (hne es hmem)), heq]
    exact hpg _ hmem' x1 (by simp) y hy
  · rintro hall ⟨before, x, y, after, z, hL, hmx, hra, hz, hdiff⟩
    have hxf : x ∈ ess.flatten := by
      rw [hm, List.mem_filter]
      exact ⟨by rw [hL]; simp, hmx⟩
    obtain ⟨es, hes, hx⟩ := List.mem_flatten.1 hxf
    obtain ⟨A, B, rfl⟩ := List.append_of_mem hx
    obtain ⟨k, hk⟩ := List.mem_iff_getElem?.1 hes
    have hb := hbefore k A x B before (y :: after) hk hL
    rw [hb] at hz
    by_cases hA : A = []
    · subst hA
      cases k with
      | zero => simp at hz
      | succ k =>
        have hlt := (List.getElem?_eq_some_iff.1 hk).1
        obtain ⟨es0, hk0⟩ : ∃ es0, ess[k]? = some es0 := ⟨_, List.getElem?_eq_getElem (by omega)⟩
        have hne0 := hne es0 (List.mem_of_getElem? hk0)
        have hz' : z ∈ es0 := by
          have : ess.take (k + 1) = ess.take k ++ [es0] := by
            rw [List.take_add_one, hk0]; rfl
          rw [this] at hz
          simp [List.getLast?_append, List.getLast?_eq_some_getLast hne0] at hz
          rw [← hz]
          exact List.getLast_mem hne0
        have hlen : 2 ≤ ([] ++ x :: B).length := by
          cases B with
          | cons b B => simp
          | nil =>
            exfalso
            obtain ⟨pre, post, hL', _, hS⟩ := run_split (hrun _ hes) (by simp)
            have hL2 : L = pre ++ x :: post := by rw [hL']; simp
            have hnd := hn
            rw [hL] at hnd
            have := (nodup_split (A' := pre) (B' := post) hnd (by rw [← hL, hL2])).2
            exact hS [] x y after rfl this.symm hra
        exact hdiff (hall k es0 _ hk0 hk hlen z hz' x (by simp))
    · have hz' : z ∈ A := by
        rw [List.getLast?_append, List.getLast?_eq_some_getLast hA] at hz
        simp at hz
        rw [← hz]
        exact List.getLast_mem hA
      exact hdiff (hpg _ hes z (by simp [hz']) x (by simp))

/-- The items of `with_entities`, in every state with a record for every member, and when they are right: iff the pages are
not confused. -/
theorem ordered_withEntities (h : Readable s w) {g : Nat} (hrec : ∀ e ∈ w.order g, Recorded s e)
    {f : Entity → Bool} (hsh : ∀ e ∈ w.order g, f e = true ↔ Shown s acc e)
    (old : List (Range × IterView)) {fuel : Nat} (hf : (w.order g).length < fuel) :
    ∃ l : List (IterView × Nat × Entity), l.map (·.2.2) = (w.order g).filter f ∧
      runOrderedQueryWithEntities U dbg s g acc old fuel = Res.mapL (readItem U s acc) l ∧
      (∀ A a B, l = A ++ a :: B → Looks s [] A a) ∧
      ((∀ (q : Loc) (i : Nat), s.archs.row q = some i → Pos s.toPage s.toIndex i q) →
        (∀ e ∈ (w.order g).filter f, ∀ q, Pos s.toPage s.toIndex e.id q → s.archs.row q = some e.id) →
        (runOrderedQueryWithEntities U dbg s g acc old fuel =
          .ok (((w.order g).filter f).map fun e => (e, recordRefs U s acc e)) ↔ ¬ Confused s f (w.order g))) := by
  classical
  have hff : (w.order g).filter f = (w.order g).filter fun e => decide (Shown s acc e) := by
    refine List.filter_congr fun e he => ?_
    rw [Bool.eq_iff_iff, decide_eq_true_eq]
    exact hsh e he
  unfold runOrderedQueryWithEntities orderedQueryIter Orders.getGroupIndex
  cases hb : binarySearch s.orders.groupIds g with
  | notFound j =>
    have hnil : w.order g = [] := List.map_eq_nil_iff.1 (h.core.orders.unreg g (lookupK_notFound hb))
    refine ⟨[], by simp [hnil], ?_, fun A a B hl => by simp at hl, fun _ _ => ?_⟩
    · simp only [ok_bind, pure_ok]
      cases fuel with
      | zero => cases hf
      | succ n => simp [drain, OrdIter.nextWithEntity, OrdIter.next, Res.mapL]
    · have h1 : ¬ Confused s f (w.order g) := by
        rintro ⟨before, x, y, after, z, h0, _⟩
        rw [hnil] at h0
        simp at h0
      refine iff_of_true ?_ h1
      simp only [ok_bind, pure_ok, hnil, List.filter_nil, List.map_nil]
      cases fuel with
      | zero => cases hf
      | succ n => simp [drain, OrdIter.nextWithEntity, OrdIter.next]
  | found i =>
    obtain ⟨gr, h1, h2, h3⟩ := h.core.orders.get hb
    rw [h.core.ocap] at h3
    have hh : gr.head = headId (w.order g) := by
      rw [h3.head]; unfold headId; rw [List.head?_map]
    rcases h.ordOuterLoop (U := U) (acc := acc) (L := w.order g) h3.path fuel 0 (by omega)
      (Nat.zero_le _) with ⟨_, e, he, hne⟩ | ⟨_, rs, ess, k1, k2, k3, k4⟩
    · rw [List.drop_zero] at he
      exact (hne (hrec e he)).elim
    rw [List.drop_zero] at k1 k3
    rw [← hff] at k3
    simp only [idxUnchecked_of_some h1, ok_bind, hh, k1, pure_ok, List.take_zero, List.nil_append]
    have hrows : ∀ es ∈ ess, ∃ p, RowsAt U s acc p es := by
      intro es hes
      obtain ⟨i, hi, rfl⟩ := List.getElem_of_mem hes
      exact ⟨_, k2.get (by rw [k2.length_eq]; exact hi) hi⟩
    have hci := confused_iff (f := f) (s := s) (h.core.order_nodup g) (ess := ess)
      (fun es hes => (hrows es hes).choose_spec.ne) k3 k4 (fun es hes x hx y hy => by
        obtain ⟨q, _, hq⟩ := rows_shows (hrows es hes).choose_spec
        rw [hq x hx, hq y hy])
    cases k2 with
    | nil =>
      have hnil : (w.order g).filter f = [] := by rw [← k3]; rfl
      refine ⟨[], by simp [hnil], ?_, fun A a B hl => by simp at hl, fun _ _ => ?_⟩
      · cases fuel with
        | zero => cases hf
        | succ n => simp [drain, OrdIter.nextWithEntity, OrdIter.next, Res.mapL]
      · rw [hci, hnil]
        cases fuel with
        | zero => cases hf
        | succ n => simp [drain, OrdIter.nextWithEntity, OrdIter.next]
    | @cons p es rs ess hp hr =>
      obtain ⟨q, ho, hq⟩ := rows_shows hp
      have hents := plan_ents (rs := p :: rs) (ess := es :: ess) (by simp [hr.length_eq]) p.2
      have hlen : ((plan p.2 (p :: rs) (es :: ess))).length < fuel := by
        have := congrArg List.length hents
        rw [List.length_map, k3] at this
        rw [this]
        exact Nat.lt_of_le_of_lt (List.length_filter_le _ _) hf
      have hdrain : drain (fun it => OrdIter.nextWithEntity dbg s it) fuel ⟨p :: rs, 0, 0, 0, (es :: ess).flatten.length⟩ =
          Res.mapL (readItem U s acc) (plan p.2 (p :: rs) (es :: ess)) :=
        drain_mapL (Ahead U s acc) (fun it => ahead_nil) (fun it x l => ahead_cons)
          (l := plan p.2 (p :: rs) (es :: ess)) (f := readItem U s acc)
          (.inr ⟨[], p, rs, [], es, ess, p, rfl, rfl, hp, hr, rfl, hp.ne, rfl, rfl⟩) hlen
      refine ⟨plan p.2 (p :: rs) (es :: ess), by rw [hents, k3], hdrain,
        plan_looks (.cons hp hr) ⟨q, ho, .inr fun es1 he1 e he => by cases he1; exact hq e he⟩, fun huniq hown => ?_⟩
      rw [hci, hdrain, ← k3, ← hents, List.map_map, Res.mapL_iff]
      have hright := plan_right huniq (.cons hp hr) (fun es1 hes e he => hown e (by
        rw [← k3]; exact List.mem_flatten.2 ⟨es1, hes, he⟩)) ho (prev := p.2)
      have hiff : (∀ a ∈ plan p.2 (p :: rs) (es :: ess), readItem U s acc a =
          .ok (((fun e => (e, recordRefs U s acc e)) ∘ fun x => x.2.2) a)) ↔
          ∀ a ∈ plan p.2 (p :: rs) (es :: ess), a.1.entityIds[a.2.1]? = some a.2.2.id := by
        refine forall_congr' fun a => forall_congr' fun ha => ?_
        have : a.2.2 ∈ (es :: ess).flatten := by rw [← hents]; exact List.mem_map.2 ⟨a, ha, rfl⟩
        rw [k3] at this
        exact h.readItem_iff (h.core.ordLive g _ (List.mem_filter.1 this).1)
      rw [hiff, hright]
      constructor
      · exact fun h => h.2
      · refine fun h => ⟨fun es1 he1 _ y hy => ?_, h⟩
        simp only [List.getElem?_cons_zero, Option.some.injEq] at he1
        subst he1
        exact hq y hy

end Readable
end Ecs
