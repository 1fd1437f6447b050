import Verif.Proofs.Footprint
import Verif.Proofs.Reassign
import Verif.Spec.Run

/-! C118: which bytes of the pages a call changes. -/

namespace Ecs.Props
open Ecs Ecs.Spec

variable {U : Universe} {dbg : Bool} {cap : Nat} {h : List Event} {s s' : Store}

/-- **C118**: whatever a well-behaved program has done, if a call changes a byte of a page, then the byte belongs to a component slot of
one of the rows that the call has to do with (`MayWrite`): the row in which the components of the entity are put, the row that they
leave and that another entity takes, or the named components of the row they stay in. Creating entities, and all calls for tags and
groups, change no byte of any page. -/
theorem C118_footprint (hx : WellExec U dbg cap h s) {ev : Event} (ha : Allowed U (world h) ev) (hr : Returns U dbg s ev s') {p x : Nat}
    (hne : pageByte s' p x ≠ pageByte s p x) : ∃ n t, InColumn U s' p n t x ∧ MayWrite s s' p n t ev := by
  have hl := well_loose hx
  have hd := well_distinct hx
  have hc := loose_core hl
  have hk := loose_known hl hd
  have hx' : WellExec U dbg cap (ev :: h) s' := .step ev hx ha hr
  have hk' := loose_known (well_loose hx') (well_distinct hx')
  have hs := loose_shape hl
  have hrows := loose_rows hl
  have hne' : byteIn s'.archs.pages p x ≠ byteIn s.archs.pages p x := hne
  have hrow : ∀ e ∈ alive h, ∀ q, Pos s.toPage s.toIndex e.id q → s.hasArch.bit e.id = true → s.archs.row q = some e.id := by
    intro e he q hq hb
    exact (hrows.forget (id := e.id) ⟨e, he, ((given_bit hl).2 e he).1 hb, rfl⟩ hq).2
  have valid : ∀ {e : Entity}, s.isValidEntityWithArchetype dbg e = .ok true → e ∈ alive h ∧ s.hasArch.bit e.id = true := by
    intro e hv
    unfold Store.isValidEntityWithArchetype Store.isAlive at hv
    obtain ⟨b, h1, hv⟩ := bind_eq_ok.1 hv
    have h1' : s.isAlive dbg e = .ok b := h1
    rw [hc.isAlive (hc.isAlive_lt h1'), ← alive_eq] at h1'
    split at hv
    · next hb =>
      subst hb
      exact ⟨by simpa using h1', (Words.isOn_ok.1 hv).2.symm⟩
    · cases hv
  have quiet : s'.archs = s.archs → ∃ n t, InColumn U s' p n t x ∧ MayWrite s s' p n t ev := fun he => by
    rw [he] at hne'
    exact absurd rfl hne'
  cases ev with
  | created e =>
    refine quiet ?_
    simp only [Returns, Store.createEntity] at hr
    obtain ⟨⟨s1, e1⟩, h1, hr⟩ := bind_eq_ok.1 hr
    obtain ⟨b, h2, hr⟩ := bind_eq_ok.1 hr
    cases hr
    obtain ⟨s2, e2, k1, _, _, _, k5, _⟩ := hc.register (dbg := dbg) ha
    rw [h1] at k1
    cases k1
    exact k5
  | createdWith e ts init =>
    obtain ⟨a, _, _, hr⟩ := hr
    exact (Only.ofMemory (createWith_memory hr) p x hne').elim
  | destroyed e =>
    have hle : e ∈ alive h := by rw [alive_eq]; exact ha
    simp only [Returns, Store.destroyEntity] at hr
    obtain ⟨s1, h1, hr⟩ := bind_eq_ok.1 hr
    obtain ⟨_, _, hr⟩ := bind_eq_ok.1 hr
    obtain ⟨_, _, hr⟩ := bind_eq_ok.1 hr
    obtain ⟨_, _, hr⟩ := bind_eq_ok.1 hr
    cases hr
    unfold Store.destroyRow at h1
    obtain ⟨b, h2, h1⟩ := bind_eq_ok.1 h1
    have hb := (Words.isOn_ok.1 h2).2
    split at h1
    · next hbt =>
      obtain ⟨q, h3, h1⟩ := bind_eq_ok.1 h1
      obtain ⟨_, _, k⟩ := swapRemove_only hk.wf h1
      obtain ⟨rfl, k1, t, k2⟩ := k p x hne'
      have hpos := Store.Rows.getLoc h3
      exact ⟨q.index, t, col_iff.1 k2, ⟨hpos.page, hpos.index, atRow (hrow e hle q hpos (hb.symm.trans hbt))⟩, k1⟩
    · cases h1
      exact absurd rfl hne'
  | added e vals =>
    obtain ⟨hi, hv, hok⟩ := ha
    simp only [Returns, Store.addComponents] at hr
    obtain ⟨b, h1, hr⟩ := bind_eq_ok.1 hr
    rw [hc.isAlive (hc.isAlive_lt h1), ← alive_eq] at h1
    cases h1
    split at hr
    · cases hr
      exact absurd rfl hne'
    · next hb =>
      have hle : e ∈ alive h := by simpa using hb
      obtain ⟨⟨s1, q⟩, h2, hr⟩ := bind_eq_ok.1 hr
      dsimp only at hr
      obtain ⟨v, h3, hr⟩ := bind_eq_ok.1 hr
      obtain ⟨os, h4, hr⟩ := bind_eq_ok.1 hr
      obtain ⟨ps, h5, hr⟩ := bind_eq_ok.1 hr
      cases hr
      unfold Store.getPageViewUnchecked at h3
      obtain ⟨ai, h6, h3⟩ := bind_eq_ok.1 h3
      obtain ⟨a, h7, h3⟩ := bind_eq_ok.1 h3
      obtain ⟨l, h8, h3⟩ := bind_eq_ok.1 h3
      obtain ⟨pg, h9, h3⟩ := bind_eq_ok.1 h3
      cases h3
      dsimp only at h4 h5
      have hids := SameIds.assign _ h5
      have hk1 : s1.archs.Known U dbg := hk'.same ⟨rfl, rfl⟩
      have hcol : ∀ t, Slot U a l q.index t x →
          InColumn U { s1 with archs := { s1.archs with pages := ps } } q.page q.index t x := fun t ht =>
        col_iff.1 ⟨ai, a, l, idxUnchecked_ok.1 h6, idxUnchecked_ok.1 h7, idxUnchecked_ok.1 h8, ht⟩
      have hassign := assign_row hok (offsetsUnchecked_at (hk1.wf a (List.mem_of_getElem? (idxUnchecked_ok.1 h7))).incr h4) h5
      rcases ensure_only hs.archs hk hrows.use hok.1 h2 with ⟨rfl, k1, k2⟩ | ⟨k1, k2, k3⟩
      · obtain ⟨rfl, t, ht, hsl⟩ := hassign p x hne'
        obtain ⟨pg0, j1, j2⟩ := atRow (hrow e hle q k1 k2)
        refine ⟨q.index, t, hcol t hsl, .inr (.inr ⟨⟨k1.page, k1.index, pg0, j1, j2⟩, ⟨k1.page, k1.index, ?_⟩, ht⟩)⟩
        have := hrow e hle q k1 k2
        rw [← Archs.Use.row_eq (c' := { s1.archs with pages := ps }) hids] at this
        exact atRow this
      · have hall : Only (fun p x => Moved U s { s1 with archs := { s1.archs with pages := ps } } e.id p x) s.archs.pages ps := by
          refine Only.trans (k3.mono ?_) (hassign.mono ?_)
          · rintro p x (⟨n, t, j⟩ | ⟨n, t, j1, j2, j3, j4⟩)
            · exact .inl ⟨n, t, j⟩
            · exact .inr ⟨n, t, j1, j2, by rw [rowCount_same hids]; exact j3, j4⟩
          · rintro p x ⟨rfl, t, _, hsl⟩
            exact .inl ⟨q.index, t, k1, k2, ai, a, l, idxUnchecked_ok.1 h6, idxUnchecked_ok.1 h7, idxUnchecked_ok.1 h8, hsl⟩
        obtain ⟨n, t, j1, j2⟩ := moved_mayWrite (hrow e hle) (hall p x hne')
        exact ⟨n, t, j1, j2.imp id .inl⟩
  | removed e ts =>
    simp only [Returns, Store.removeComponents] at hr
    obtain ⟨b, h1, hr⟩ := bind_eq_ok.1 hr
    split at hr
    · cases hr
      exact absurd rfl hne'
    · next hb =>
      have hb : b = true := by simpa using hb
      subst hb
      obtain ⟨hle, hbit⟩ := valid h1
      obtain ⟨prev, h2, hr⟩ := bind_eq_ok.1 hr
      obtain ⟨ai, h3, hr⟩ := bind_eq_ok.1 hr
      obtain ⟨a, h4, hr⟩ := bind_eq_ok.1 hr
      obtain ⟨⟨na, bb⟩, h5, hr⟩ := bind_eq_ok.1 hr
      dsimp only at hr
      obtain ⟨⟨s1, q⟩, h6, hr⟩ := bind_eq_ok.1 hr
      cases hr
      have hwf : na.WF U := by
        have := built_diff (hk.wf a (List.mem_of_getElem? (idxUnchecked_ok.1 h4))) ts
        split at this
        · rw [this] at h5; cases h5
        · obtain ⟨a', bb', k1, k2, _⟩ := this
          rw [k1] at h5
          cases h5
          exact k2
      obtain ⟨_, _, k⟩ := storeMove_only hrows.use hs.archs hk hwf hbit h6
      exact moved_mayWrite (hrow e hle) (k p x hne')
  | assigned e vals =>
    obtain ⟨hi, hok⟩ := ha
    obtain ⟨b, hr⟩ := hr
    unfold Store.setComponents at hr
    obtain ⟨o, h1, hr⟩ := bind_eq_ok.1 hr
    cases o with
    | none =>
      cases hr
      exact absurd rfl hne'
    | some rs =>
      obtain ⟨ps, h2, hr⟩ := bind_eq_ok.1 hr
      cases hr
      unfold Store.getComponentsRefs at h1
      obtain ⟨b, h3, h1⟩ := bind_eq_ok.1 h1
      split at h1
      · next hb =>
        subst hb
        obtain ⟨hle, hbit⟩ := valid h3
        obtain ⟨pn, h4, h1⟩ := bind_eq_ok.1 h1
        obtain ⟨v, h5, h1⟩ := bind_eq_ok.1 h1
        obtain ⟨n, h6, h1⟩ := bind_eq_ok.1 h1
        obtain ⟨oo, h7, h1⟩ := bind_eq_ok.1 h1
        cases oo with
        | none => cases h1
        | some os =>
          cases h1
          unfold Store.getPageViewUnchecked at h5
          obtain ⟨ai, g1, h5⟩ := bind_eq_ok.1 h5
          obtain ⟨a, g2, h5⟩ := bind_eq_ok.1 h5
          obtain ⟨l, g3, h5⟩ := bind_eq_ok.1 h5
          obtain ⟨pg, g4, h5⟩ := bind_eq_ok.1 h5
          cases h5
          dsimp only at h7
          have hassign := assign_row hok (offsets_at (hk.wf a (List.mem_of_getElem? (idxUnchecked_ok.1 g2))).incr h7) h2
          obtain ⟨rfl, t, ht, hsl⟩ := hassign p x hne'
          have hpos : Pos s.toPage s.toIndex e.id ⟨p, n⟩ := ⟨Raw.read_ok.1 h4, Raw.read_ok.1 h6⟩
          refine ⟨n, t, col_iff.1 ⟨ai, a, l, idxUnchecked_ok.1 g1, idxUnchecked_ok.1 g2, idxUnchecked_ok.1 g3, hsl⟩,
            ⟨hpos.page, hpos.index, ?_⟩, ht⟩
          exact atRow (hrow e hle _ hpos hbit)
      · cases h1
  | tagged t e => obtain ⟨_, _, hr⟩ := bind_eq_ok.1 hr; cases hr; exact quiet rfl
  | untagged t e => obtain ⟨_, _, hr⟩ := bind_eq_ok.1 hr; cases hr; exact quiet rfl
  | orderedLast g e => obtain ⟨_, _, hr⟩ := bind_eq_ok.1 hr; cases hr; exact quiet rfl
  | orderedAfter g e x => obtain ⟨_, _, hr⟩ := bind_eq_ok.1 hr; cases hr; exact quiet rfl
  | orderedBefore g e x => obtain ⟨_, _, hr⟩ := bind_eq_ok.1 hr; cases hr; exact quiet rfl
  | unordered g e => obtain ⟨_, _, hr⟩ := bind_eq_ok.1 hr; cases hr; exact quiet rfl

/-- **C118**: a call changes bytes of at most two rows, whatever they were and however many entities there are. -/
theorem C118_two_rows (hx : WellExec U dbg cap h s) {ev : Event} (ha : Allowed U (world h) ev) (hr : Returns U dbg s ev s') :
    ∃ rows : List (Nat × Nat), rows.length ≤ 2 ∧ ∀ p x, pageByte s' p x ≠ pageByte s p x →
      ∃ n t, (p, n) ∈ rows ∧ InColumn U s' p n t x := by
  have hf := fun p x => C118_footprint (p := p) (x := x) hx ha hr
  obtain ⟨rows, h1, h2⟩ := mayWrite_rows s s' ev
  exact ⟨rows, h1, fun p x hne => by
    obtain ⟨n, t, k1, k2⟩ := hf p x hne
    exact ⟨n, t, h2 p n t k2, k1⟩⟩

/-- **C118**, in any state of the memory: if an entity has the components, adding them or assigning to them changes only bytes that
`get_components_refs` returns references to. -/
theorem C118_present {e : Entity} {vals : TupleVal} (hok : TupleOk U vals) {refs : List Ref}
    (hg : s.getComponentsRefs U dbg e (vals.map (·.1)) = .ok (some refs))
    (hr : s.addComponents U dbg e vals = .ok s' ∨ ∃ b, s.setComponents U dbg e vals = .ok (s', b)) {p x : Nat}
    (hne : pageByte s' p x ≠ pageByte s p x) : ∃ r ∈ refs, r.page = p ∧ r.off ≤ x ∧ x < r.off + r.size := by
  have hset : ∃ b, s.setComponents U dbg e vals = .ok (s', b) := by
    rcases hr with hr | hr
    · rw [add_is_set hok.1 hg] at hr
      cases hs : s.setComponents U dbg e vals with
      | error f => rw [hs] at hr; cases hr
      | ok sb =>
        rw [hs] at hr
        cases hr
        exact ⟨sb.2, rfl⟩
    · exact hr
  obtain ⟨b, hset⟩ := hset
  unfold Store.setComponents at hset
  rw [hg] at hset
  simp only [ok_bind] at hset
  obtain ⟨ps, h2, hset⟩ := bind_eq_ok.1 hset
  cases hset
  exact set_only hok (refs_sizes hg) h2 p x hne

/-! ### Examples -/

/-- Three entities, two with components 4 and 5 and the third with component 4. -/
def threeRows : List Event :=
  [.added ⟨2, 1⟩ [(4, [30])], .added ⟨1, 1⟩ [(4, [20]), (5, [21])], .added ⟨0, 1⟩ [(4, [10]), (5, [11])], .created ⟨2, 1⟩,
    .created ⟨1, 1⟩, .created ⟨0, 1⟩]

/-- The page and the number of the row recorded for an id, and the number of rows in this page. -/
def rowRecord (s : Store) (id : Nat) : Option (Nat × Nat × Nat) := do
  let p ← (← s.toPage[id]?)
  let n ← (← s.toIndex[id]?)
  return (p, n, rowsOn s p)

/-- Destroying entity 0 writes both components of its row, in which entity 1 is then; the row that becomes spare keeps its bytes. -/
example : ∃ s s', WellExec demo true 4 threeRows s ∧ Allowed demo (world threeRows) (.destroyed ⟨0, 1⟩) ∧
    Returns demo true s (.destroyed ⟨0, 1⟩) s' ∧
    rowRecord s 0 = some (4, 0, 2) ∧ rowRecord s 1 = some (4, 1, 2) ∧ rowRecord s' 1 = some (4, 0, 1) ∧
    [0, 8191, 1, 8192].map (pageByte s 4) = [some 10, some 11, some 20, some 21] ∧
    [0, 8191, 1, 8192].map (pageByte s' 4) = [some 20, some 21, some 20, some 21] := by
  have h : ((runWell demo true 4 threeRows).any fun s => okAnd (s.destroyEntity true ⟨0, 1⟩) fun s' =>
      decide (rowRecord s 0 = some (4, 0, 2)) && decide (rowRecord s 1 = some (4, 1, 2)) &&
      decide (rowRecord s' 1 = some (4, 0, 1)) &&
      decide ([0, 8191, 1, 8192].map (pageByte s 4) = [some 10, some 11, some 20, some 21]) &&
      decide ([0, 8191, 1, 8192].map (pageByte s' 4) = [some 20, some 21, some 20, some 21])) = true := by
    decide
  obtain ⟨s, hs, h⟩ := any_some h
  obtain ⟨s', hs', h⟩ := okAnd_iff h
  simp only [Bool.and_eq_true, decide_eq_true_eq] at h
  exact ⟨s, s', runWell_sound hs, by decide, hs', h.1.1.1.1, h.1.1.1.2, h.1.1.2, h.1.2, h.2⟩

/-- Giving entity 2 the other component brings it into row 2 of that page; the row it leaves was the last one and keeps its byte. -/
example : ((runWell demo true 4 threeRows).any fun s => okAnd (s.addComponents demo true ⟨2, 1⟩ [(5, [31])]) fun s' =>
    decide (rowRecord s 2 = some (3, 0, 1)) && decide (rowRecord s' 2 = some (4, 2, 3)) &&
    decide ([2, 8193].map (pageByte s 4) = [none, none]) && decide ([2, 8193].map (pageByte s' 4) = [some 30, some 31]) &&
    decide (pageByte s 3 0 = some 30) && decide (pageByte s' 3 0 = some 30)) = true := by decide

/-- The hypotheses of `C118_present` hold, and the call does change the byte. -/
example : ((runWell demo true 4 threeRows).any fun s => okAnd (s.getComponentsRefs demo true ⟨1, 1⟩ [5]) fun refs =>
    okAnd (s.addComponents demo true ⟨1, 1⟩ [(5, [99])]) fun s' =>
      decide (refs = some [⟨4, 8192, 1⟩]) && decide (pageByte s 4 8192 = some 21) && decide (pageByte s' 4 8192 = some 99)) = true := by
  decide

end Ecs.Props
