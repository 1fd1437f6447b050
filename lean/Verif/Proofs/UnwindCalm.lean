import Verif.Spec.Unwind
import Verif.Proofs.Unwind
import Verif.Proofs.ArchsInduction

/-! What a caught panic leaves behind. -/

namespace Ecs
open Spec

/-- The computation does not panic. -/
def Calm {α : Type} (r : Res α) : Prop := ∀ p, r ≠ .error (.panic p)

namespace Calm
variable {α β : Type}

theorem ok (a : α) : Calm (.ok a : Res α) := fun _ h => by cases h

theorem pure (a : α) : Calm (Pure.pure a : Res α) := fun _ h => by cases h

theorem ub (u : Ub) : Calm (.error (.ub u) : Res α) := fun _ h => by cases h

theorem bind {r : Res α} {f : α → Res β} (hr : Calm r) (hf : ∀ a, r = .ok a → Calm (f a)) : Calm (r >>= f) := by
  cases r with
  | ok a => exact hf a rfl
  | error e => exact fun p h => hr p (by cases e <;> cases h; rfl)

theorem of_ok {r : Res α} {a : α} (h : r = .ok a) : Calm r := h ▸ ok a

theorem idx {l : List α} {i : Nat} (h : i < l.length) : Calm (Ecs.idx l i) :=
  of_ok (idx_of_some (List.getElem?_eq_getElem h))

theorem idxUnchecked (l : List α) (i : Nat) : Calm (Ecs.idxUnchecked l i) := by
  unfold Ecs.idxUnchecked; split
  · exact ok _
  · exact ub _

theorem read (a : Raw α) (i : Nat) : Calm (a.read i) := by
  unfold Raw.read; split
  · exact ok _
  · exact ub _
  · exact ub _

theorem write (a : Raw α) (i : Nat) (x : α) : Calm (a.write i x) := by
  unfold Raw.write; split
  · exact ok _
  · exact ub _

theorem readBytes (d : Bytes) (a n : Nat) : Calm (Ecs.readBytes d a n) := by
  unfold Ecs.readBytes; split
  · exact ok _
  · exact ub _

theorem writeBytes (d : Bytes) (a : Nat) (bs : List Cell) : Calm (Ecs.writeBytes d a bs) := by
  unfold Ecs.writeBytes; split
  · exact ok _
  · exact ub _

theorem mapM (f : α → Res β) (h : ∀ a, Calm (f a)) (l : List α) : Calm (l.mapM f) := by
  induction l with
  | nil => exact ok _
  | cons a l ih =>
    rw [List.mapM_cons]
    exact (h a).bind fun _ _ => ih.bind fun _ _ => pure _

end Calm

namespace Unw
variable {σ τ α β : Type}

/-- Every panic of `m` from `s` leaves a state with property `Q`. -/
def OnPanic (m : Unw σ α) (s : σ) (Q : σ → Prop) : Prop := ∀ s', m.Panics s s' → Q s'

namespace OnPanic
variable {m : Unw σ α} {s : σ} {Q Q' : σ → Prop}

theorem mono (h : m.OnPanic s Q) (hQ : ∀ s', Q s' → Q' s') : m.OnPanic s Q' := fun s' hp => hQ s' (h s' hp)

theorem bind {f : α → Unw σ β} (hm : m.OnPanic s Q) (hf : ∀ s1 a, m.result s = .ok (s1, a) → (f a).OnPanic s1 Q) :
    (m >>= f).OnPanic s Q := by
  rintro s' ⟨p, hp⟩
  change Unw.bind m f s = _ at hp
  unfold Unw.bind at hp
  rcases h : m s with ⟨_ | a, s1⟩
  · rw [h] at hp
    exact hm s' ⟨p, h.trans (by simpa using hp)⟩
  · rw [h] at hp
    exact hf s1 a (by unfold Unw.result; rw [h]) s' ⟨p, hp⟩

theorem pure (a : α) : (Pure.pure a : Unw σ α).OnPanic s Q := by rintro s' ⟨p, hp⟩; cases hp

theorem get {f : σ → Unw σ α} (hf : (f s).OnPanic s Q) : (Unw.get >>= f).OnPanic s Q :=
  bind (by rintro s' ⟨p, hp⟩; cases hp) fun _ _ h => by cases h; exact hf

theorem lift {r : Res α} (h : Calm r ∨ Q s) : (Unw.lift r : Unw σ α).OnPanic s Q := by
  rintro s' ⟨p, hp⟩
  cases hp
  exact h.elim (fun h => absurd rfl (h p)) id

theorem step {f : σ → Res σ} (h : Calm (f s) ∨ Q s) : (Unw.step f).OnPanic s Q := by
  rintro s' ⟨p, hp⟩
  unfold Unw.run Unw.step at hp
  cases hf : f s with
  | ok a => rw [hf] at hp; cases hp
  | error e =>
    rw [hf] at hp
    cases hp
    exact h.elim (fun h => absurd hf (h p)) id

theorem step' {f : σ → Res (σ × α)} (h : Calm (f s) ∨ Q s) : (Unw.step' f).OnPanic s Q := by
  rintro s' ⟨p, hp⟩
  unfold Unw.run Unw.step' at hp
  cases hf : f s with
  | ok a => rw [hf] at hp; cases hp
  | error e =>
    rw [hf] at hp
    cases hp
    exact h.elim (fun h => absurd hf (h p)) id

theorem on {g : σ → τ} {w : σ → τ → σ} {m : Unw τ α} {R : τ → Prop} (h : m.OnPanic (g s) R) (hQ : ∀ t, R t → Q (w s t)) :
    (m.on g w).OnPanic s Q := by
  rintro s' ⟨p, hp⟩
  unfold Unw.run Unw.on at hp
  rcases hm : m (g s) with ⟨r, t⟩
  rw [hm] at hp
  cases hp
  exact hQ t (h t ⟨p, hm⟩)

theorem ite {c : Prop} [Decidable c] {n : Unw σ α} (h1 : c → m.OnPanic s Q) (h2 : ¬ c → n.OnPanic s Q) :
    (if c then m else n).OnPanic s Q := by
  split
  · exact h1 (by assumption)
  · exact h2 (by assumption)

/-- A call that returns does not panic. -/
theorem of_ok {s1 : σ} {a : α} (h : m.result s = .ok (s1, a)) : m.OnPanic s Q := by
  rintro s' ⟨p, hp⟩
  change m s = _ at hp
  unfold Unw.result at h
  rw [hp] at h
  cases h

/-- Nothing panics: every property holds of what a panic leaves. -/
theorem never (h : m.OnPanic s fun _ => False) : m.OnPanic s Q := h.mono fun _ => False.elim

end OnPanic

/-- A step whose result is known. -/
theorem step_ok {f : σ → Res σ} {s s1 : σ} {u : Unit} (h : (Unw.step f).result s = .ok (s1, u)) : f s = .ok s1 := by
  rw [result_step] at h
  obtain ⟨x, h1, h⟩ := bind_eq_ok.1 h
  cases h
  exact h1

end Unw

namespace Archs
variable {dbg : Bool} {c : Archs}

theorem findSame_lt {a : Archetype} {i : Nat} (h : findSame a 0 c.archetypes = some i) : i < c.archetypes.length := by
  obtain ⟨_, b, hb, _⟩ := findSame_some _ h
  rw [Nat.sub_zero] at hb
  exact (List.getElem?_eq_some_iff.1 hb).1

/-- `reserve_archetype` panics only before it writes. -/
theorem reserveArchetypeU_onPanic (hs : c.Shape) (hf : c.FreeOk) (a : Archetype) :
    (reserveArchetypeU dbg a).OnPanic c (· = c) := by
  unfold reserveArchetypeU
  refine .get ?_
  split
  · split
    · exact .bind (.step (.inl (.pure _))) fun _ _ _ => .pure _
    · exact .pure _
  · refine .bind (.lift (.inr rfl)) fun c1 l h1 => ?_
    rw [Unw.result_lift] at h1
    obtain ⟨_, _, h1⟩ := bind_eq_ok.1 h1
    cases h1
    split
    · next k hk =>
      have hk' := hf.free k (List.mem_of_getLast? hk)
      refine .bind (.step (.inl (.pure _))) fun c1 _ h1 => ?_
      have := Unw.step_ok h1
      cases this
      refine .bind (.step (.inl ?_)) fun c1 _ h1 => ?_
      · dsimp only
        rw [idxSet_of_lt _ hk']
        exact .pure _
      · have := Unw.step_ok h1
        dsimp only at this
        rw [idxSet_of_lt _ hk'] at this
        cases this
        refine .bind (.step (.inl ?_)) fun _ _ _ => .pure _
        dsimp only
        rw [idxSet_of_lt _ (by rw [hs.llen]; exact hk')]
        exact .pure _
    · refine .bind (.step (.inl (.pure _))) fun c1 _ _ => .get (.pure _)

theorem takePageU_result (c : Archs) (i : Nat) : (takePageU i).result c = (match c.freePages.getLast? with
      | some pageIndex => pure ({ c with freePages := c.freePages.dropLast }, pageIndex)
      | none => do
        let pageIndex := c.pages.length
        let pages ← vecInsert c.pages pageIndex Page.new
        let pageToArch ← vecInsert c.pageToArch pageIndex i
        pure ({ c with pages := pages, pageToArch := pageToArch }, pageIndex) : Res (Archs × Nat)) := by
  unfold takePageU
  simp only [Unw.result_bind, Unw.result_get, res_ok_bind]
  cases c.freePages.getLast? <;>
  simp only [Unw.result_bind, Unw.result_step, Unw.result_pure, res_bind_assoc, res_pure_bind, res_ok_bind] <;> rfl

/-- What a panic in `reserve_page` leaves: nothing but a page added to the pages of an archetype without rows. -/
structure NoRoom (dbg : Bool) (i : Nat) (c c' : Archs) : Prop where
  debug : dbg = true
  layouts : c'.layouts = c.layouts
  archetypes : c'.archetypes = c.archetypes
  zero : ∃ l, c.layouts[i]? = some l ∧ l.entitiesCapacity = 0
  rows : ∀ q, c'.row q = c.row q

theorem push_calm {p id : Nat} {pg : Page} (hp : c.pages[p]? = some pg) (h : pg.hasFreeSpace = true ∨ dbg = false) {Q : Archs → Prop} :
    (pushIdU dbg p id).OnPanic c Q := by
  refine .step' (.inl ?_)
  rw [idx_of_some hp]
  refine Calm.bind (r := pg.addEntityId dbg id) ?_ fun _ _ => .pure _
  unfold Page.addEntityId
  refine Calm.bind ?_ fun _ _ => .pure _
  unfold dassert
  rcases h with h | h <;> rw [h] <;> simp only [Bool.not_true, Bool.and_false, Bool.false_and, Bool.false_eq_true, if_false] <;>
    exact .ok _

theorem reservePageU_onPanic (hs : c.Shape) (hu : c.Use) {i : Nat} (hi : i < c.archetypes.length) (id : Nat) :
    (reservePageU dbg id i).OnPanic c (NoRoom dbg i c) := by
  unfold reservePageU
  have hpl : i < c.archPages.length := by rw [hs.plen]; exact hi
  refine .get (.bind (.lift (.inl (.idx hpl))) fun c1 pl h1 => ?_)
  rw [Unw.result_lift] at h1
  obtain ⟨_, h0, h1⟩ := bind_eq_ok.1 h1
  cases h1
  have hpl' := idx_ok.1 h0
  have hlist : ∀ p ∈ pl.reverse, p < c.pages.length := fun p hp =>
    hs.listed pl (List.mem_of_getElem? hpl') p (List.mem_reverse.1 hp)
  rcases findFreePage_spec c.pages pl.reverse hlist with hff | ⟨p, pg, hff, _, hpg, hfree⟩
  · refine .bind (.lift (.inl (.of_ok hff))) fun c1 o h1 => ?_
    rw [Unw.result_lift, hff] at h1
    cases h1
    dsimp only
    refine .bind ?_ fun c1 p h1 => ?_
    · unfold takePageU
      refine .get ?_
      split
      · exact .bind (.step (.inl (.pure _))) fun _ _ _ => .pure _
      · refine .bind (.step (.inl ?_)) fun c1 _ h1 => .bind (.step (.inl ?_)) fun _ _ _ => .pure _
        · unfold vecInsert; rw [if_pos (Nat.le_refl _)]; exact .ok _
        · have := Unw.step_ok h1
          unfold vecInsert at this ⊢
          rw [if_pos (Nat.le_refl _)] at this
          cases this
          dsimp only
          rw [if_pos (by rw [hs.tlen]; exact Nat.le_refl _)]; exact .ok _
    · rw [takePageU_result] at h1
      obtain ⟨k1, k2, k3, k4, k5⟩ := hu.take hs hpl' h1
      have hc1 : c1.layouts = c.layouts ∧ c1.archetypes = c.archetypes ∧ p < c1.pages.length ∧
          c1.pageToArch.length = c1.pages.length := by
        split at h1
        · next hl =>
          cases h1
          exact ⟨rfl, rfl, hu.freeLt p (List.mem_of_getLast? hl), hs.tlen⟩
        · unfold vecInsert at h1
          dsimp only at h1
          rw [if_pos (Nat.le_refl _), if_pos (by rw [hs.tlen]; exact Nat.le_refl _)] at h1
          cases h1
          refine ⟨rfl, rfl, ?_, ?_⟩
          · rw [List.length_insertIdx_of_le_length (Nat.le_refl _)]; omega
          · rw [List.length_insertIdx_of_le_length (Nat.le_refl _),
              List.length_insertIdx_of_le_length (by rw [hs.tlen]; exact Nat.le_refl _), hs.tlen]
      obtain ⟨e1, e2, e3, e4⟩ := hc1
      obtain ⟨l, hl⟩ : ∃ l, c.layouts[i]? = some l := ⟨_, List.getElem?_eq_getElem (by rw [hs.llen]; exact hi)⟩
      obtain ⟨pg, hpg⟩ : ∃ pg, c1.pages[p]? = some pg := ⟨_, List.getElem?_eq_getElem e3⟩
      have hl1 : idx c1.layouts i = .ok l := by rw [e1]; exact idx_of_some hl
      have hit := k5 pg hpg
      refine .bind (.step (.inl ?_)) fun c2 _ h2 => ?_
      · rw [hl1, idx_of_some hpg]; exact .pure _
      have h2 := Unw.step_ok h2
      rw [hl1, idx_of_some hpg] at h2
      cases h2
      have hap : idx c1.archPages i = .ok pl := by rw [k4]; exact idx_of_some hpl'
      refine .bind (.step (.inl ?_)) fun c3 _ h3 => ?_
      · dsimp only; rw [hap]; exact .pure _
      have h3 := Unw.step_ok h3
      dsimp only at h3
      rw [hap] at h3
      cases h3
      have hpt : p < c1.pageToArch.length := by rw [e4]; exact e3
      refine .bind (.step (.inl ?_)) fun c4 _ h4 => ?_
      · dsimp only; rw [idxSet_of_lt _ hpt]; exact .pure _
      have h4 := Unw.step_ok h4
      dsimp only at h4
      rw [idxSet_of_lt _ hpt] at h4
      cases h4
      refine .bind ?_ fun _ _ _ => .pure _
      have hps : (c1.pages.set p (pg.setLayout l))[p]? = some (pg.setLayout l) := List.getElem?_set_self e3
      by_cases hz : dbg = true ∧ l.entitiesCapacity = 0
      · refine .step' (.inr ⟨hz.1, e1, e2, ⟨l, hl, hz.2⟩, fun q => ?_⟩)
        rw [← k3 q]
        unfold Archs.row
        dsimp only
        by_cases hq : p = q.page
        · subst hq
          rw [hps, hpg]
          show ((pg.setLayout l).ids.items)[q.index]? = (pg.ids.items)[q.index]?
          rw [Archs.Use.setLayout_items]
        · rw [List.getElem?_set_ne hq]
      · refine push_calm hps ?_
        by_cases hd : dbg = true
        · exact .inl (setLayout_hasFree hit (by
            have : l.entitiesCapacity ≠ 0 := fun h => hz ⟨hd, h⟩
            omega)).1
        · exact .inr (by simpa using hd)
  · refine .bind (.lift (.inl (.of_ok hff))) fun c1 o h1 => ?_
    rw [Unw.result_lift, hff] at h1
    cases h1
    exact .bind (push_calm hpg (.inl hfree)) fun _ _ _ => .pure _

/-- What a panic of a call that looks for room leaves: the container as it was, or, in debug builds, a page added to the
pages of an archetype without rows. -/
def Kept (dbg : Bool) (c c' : Archs) : Prop :=
  c' = c ∨ (dbg = true ∧ (∃ l ∈ c'.layouts, l.entitiesCapacity = 0) ∧ ∀ q, c'.row q = c.row q)

theorem addEntityU_onPanic (hs : c.Shape) (hf : c.FreeOk) (hu : c.Use) {a : Archetype} (ha : a.Even) (id : Nat) :
    (addEntityU dbg id a).OnPanic c (Kept dbg c) := by
  unfold addEntityU
  refine .bind ((reserveArchetypeU_onPanic hs hf a).mono fun _ h => .inl h) fun c1 i h1 => ?_
  rw [reserveArchetypeU_result] at h1
  obtain ⟨k1, k2, k3, _⟩ := hs.reserveArchetype ha h1
  refine (reservePageU_onPanic k1 (hu.reserveArchetype h1) k2 id).mono fun c' h => .inr ⟨h.debug, ?_, fun q => ?_⟩
  · obtain ⟨l, hl, hz⟩ := h.zero
    rw [h.layouts]
    exact ⟨l, List.mem_of_getElem? hl, hz⟩
  · rw [h.rows]; unfold Archs.row; rw [k3]

theorem copyLoop_calm (src dst : Loc) (sa da : Archetype) (sl dl : Layout) (l : List (Nat × Nat)) {ps : List Page}
    (h1 : src.page < ps.length) (h2 : dst.page < ps.length) : Calm (copyLoop src dst sa da sl dl l ps) := by
  induction l generalizing ps with
  | nil => exact .ok _
  | cons x l ih =>
    unfold copyLoop
    refine (Calm.idxUnchecked _ _).bind fun _ _ => (Calm.idxUnchecked _ _).bind fun _ _ =>
      (Calm.idxUnchecked _ _).bind fun _ _ => (Calm.idxUnchecked _ _).bind fun _ _ => Calm.bind ?_ fun ps' hps => ?_
    · unfold copyBetween
      refine (Calm.idx h1).bind fun _ _ => (Calm.readBytes _ _ _).bind fun _ _ => ?_
      split
      · exact .ub _
      · exact (Calm.idx h2).bind fun _ _ => (Calm.writeBytes _ _ _).bind fun _ _ => .pure _
    · have := copyBetween_length hps
      exact ih (by omega) (by omega)

theorem moveU_onPanic (hs : c.Shape) (hf : c.FreeOk) (hu : c.Use) {a : Archetype} (ha : a.Even) (id : Nat) {prev : Loc} {pi : Nat}
    (hp : prev.page < c.pages.length) (hpi : pi < c.archetypes.length) :
    (moveEntityToOtherArchetypeU dbg id prev pi a).OnPanic c (Kept dbg c) := by
  unfold moveEntityToOtherArchetypeU
  refine .bind ((reserveArchetypeU_onPanic hs hf a).mono fun _ h => .inl h) fun c1 i h1 => ?_
  rw [reserveArchetypeU_result] at h1
  obtain ⟨k1, k2, k3, _⟩ := hs.reserveArchetype ha h1
  refine .bind ((reservePageU_onPanic k1 (hu.reserveArchetype h1) k2 id).mono fun c' h => .inr ⟨h.debug, ?_, fun q => ?_⟩)
    fun c2 q h2 => ?_
  · obtain ⟨l, hl, hz⟩ := h.zero
    rw [h.layouts]
    exact ⟨l, List.mem_of_getElem? hl, hz⟩
  · rw [h.rows]; unfold Archs.row; rw [k3]
  · rw [reservePageU_result] at h2
    obtain ⟨j1, j2, j3, j4, j5⟩ := k1.reservePage k2 h2
    refine .bind (.step (.inl ?_)) fun _ _ _ => .pure _
    have hlen : c.archetypes.length ≤ c1.archetypes.length := by
      unfold Archs.reserveArchetype at h1
      split at h1
      · split at h1 <;> cases h1 <;> exact Nat.le_refl _
      · obtain ⟨_, _, h1⟩ := bind_eq_ok.1 h1
        split at h1
        · obtain ⟨_, h3, h1⟩ := bind_eq_ok.1 h1
          obtain ⟨_, _, h1⟩ := bind_eq_ok.1 h1
          cases h1
          rw [(idxSet_ok h3).2]; simp
        · cases h1; simp
    have hp2 : prev.page < c2.pages.length := by rw [k3] at j3; omega
    refine (Calm.idx hp2).bind fun _ _ => (Calm.idx j2).bind fun _ _ => (Calm.idx (by rw [j4]; omega)).bind fun _ _ =>
      (Calm.idx (by rw [j1.llen, j4]; omega)).bind fun _ _ => (Calm.idx (by rw [j1.llen, j4]; omega)).bind fun _ _ => ?_
    exact (copyLoop_calm _ _ _ _ _ _ _ hp2 j2).bind fun _ _ => .pure _

theorem moveLoop_calm (a : Archetype) (l : Layout) (src dst : Nat) (is : List Nat) (d : Bytes) : Calm (Page.moveLoop a l src dst is d) := by
  induction is generalizing d with
  | nil => exact .ok _
  | cons i is ih =>
    unfold Page.moveLoop
    refine (Calm.idxUnchecked _ _).bind fun _ _ => (Calm.idxUnchecked _ _).bind fun _ _ => Calm.bind ?_ fun _ _ => ih _
    unfold Page.copyWithin
    refine (Calm.readBytes _ _ _).bind fun _ _ => ?_
    split
    · exact .ub _
    · exact Calm.writeBytes _ _ _

theorem swapRemoveEntityU_onPanic (hs : c.Shape) (hu : c.Use) {q : Loc} {id : Nat} (hq : c.row q = some id) {Q : Archs → Prop} :
    (swapRemoveEntityU q).OnPanic c Q := by
  obtain ⟨pg, hpg⟩ : ∃ pg, c.pages[q.page]? = some pg := by
    unfold Archs.row at hq
    cases h : c.pages[q.page]? with
    | none => simp [h] at hq
    | some pg => exact ⟨pg, rfl⟩
  have hit : pg.ids.items[q.index]? = some id := by
    unfold Archs.row at hq
    simpa [hpg] using hq
  have hix := (List.getElem?_eq_some_iff.1 hit).1
  have hpl := (List.getElem?_eq_some_iff.1 hpg).1
  have hnf : q.page ∉ c.freePages := fun hf => by
    have := hu.freeEmpty _ hf pg hpg
    rw [this] at hix; cases hix
  obtain ⟨ai, ps, hps, hm⟩ := (hu.covers q.page hpl).resolve_left hnf
  have hai := hu.owner ai ps q.page hps hm
  have hal : ai < c.archPages.length := (List.getElem?_eq_some_iff.1 hps).1
  have hal' : ai < c.archetypes.length := by rw [← hs.plen]; exact hal
  unfold swapRemoveEntityU
  refine .get (.bind (.lift (.inl (.of_ok (idx_of_some hai)))) fun c1 x h1 => ?_)
  rw [Unw.result_lift, idx_of_some hai] at h1
  cases h1
  refine .bind (.lift (.inl (.of_ok (idx_of_some hpg)))) fun c1 x h1 => ?_
  rw [Unw.result_lift, idx_of_some hpg] at h1
  cases h1
  refine .bind (.lift (.inl (.idx hal'))) fun c1 a h1 => ?_
  rw [Unw.result_lift] at h1
  obtain ⟨_, _, h1⟩ := bind_eq_ok.1 h1
  cases h1
  refine .bind (.lift (.inl (.idx (by rw [hs.llen]; exact hal')))) fun c1 l h1 => ?_
  rw [Unw.result_lift] at h1
  obtain ⟨_, _, h1⟩ := bind_eq_ok.1 h1
  cases h1
  refine .bind (.step' (.inl ?_)) fun c1 o h1 => ?_
  · refine Calm.bind ?_ fun _ _ => .pure _
    unfold Page.swapRemoveEntityAtIndex
    refine Calm.bind ?_ fun v _ => ?_
    · unfold CapVec.swapRemove
      split
      · next h => rw [List.getLast?_eq_none_iff] at h; rw [h] at hix; cases hix
      · rw [if_pos hix]; exact .ok _
    · dsimp only
      split
      · next hlt =>
        refine Calm.bind ?_ fun p hp => ?_
        · unfold Page.moveComponentData
          exact (moveLoop_calm _ _ _ _ _ _).bind fun _ _ => .pure _
        · unfold Page.moveComponentData at hp
          obtain ⟨_, _, hp⟩ := bind_eq_ok.1 hp
          cases hp
          exact (Calm.idx hlt).bind fun _ _ => .pure _
      · exact .pure _
  · rw [Unw.result_step'] at h1
    obtain ⟨⟨pg', o'⟩, _, h1⟩ := bind_eq_ok.1 h1
    cases h1
    dsimp only
    split
    · refine .bind (.step (.inl ?_)) fun _ _ _ => .pure _
      unfold Archs.freePage
      refine Calm.bind (.of_ok (idx_of_some (a := ai) ?_)) fun x hx => ?_
      · exact hai
      · have hx' : x = ai := by
          have := idx_ok.1 hx
          dsimp only at this
          rw [hai] at this
          exact (Option.some.inj this).symm
        subst hx'
        split
        · exact .pure _
        · exact (Calm.idx hal).bind fun _ _ => .pure _
    · exact .pure _

end Archs

namespace Calm

theorem setOff (w : Words) (i : Nat) : Calm (w.setOff i) := by
  unfold Words.setOff; split
  · exact ok _
  · exact ub _

theorem setOn (w : Words) (i : Nat) : Calm (w.setOn i) := by
  unfold Words.setOn; split
  · exact ok _
  · exact ub _

theorem isOn (w : Words) (i : Nat) : Calm (w.isOn i) := by
  unfold Words.isOn; split
  · exact ok _
  · exact ub _

theorem recordRow (s : Store) (id : Nat) (q : Loc) : Calm (s.recordRow id q) := by
  unfold Store.recordRow
  exact (write _ _ _).bind fun _ _ => (write _ _ _).bind fun _ _ => (setOn _ _).bind fun _ _ => pure _

theorem getLoc (s : Store) (id : Nat) : Calm (s.getLocUnchecked id) := by
  unfold Store.getLocUnchecked
  exact (read _ _).bind fun _ _ => (read _ _).bind fun _ _ => pure _

theorem view (s : Store) (p : Nat) : Calm (s.getPageViewUnchecked p) := by
  unfold Store.getPageViewUnchecked
  exact (idxUnchecked _ _).bind fun _ _ => (idxUnchecked _ _).bind fun _ _ => (idxUnchecked _ _).bind fun _ _ =>
    (idxUnchecked _ _).bind fun _ _ => pure _

theorem offsets (a : Archetype) (l : Layout) (ts : List TypeId) : Calm (getOffsetsUnchecked a l ts) := by
  induction ts with
  | nil => exact ok _
  | cons t ts ih =>
    unfold getOffsetsUnchecked
    split
    · exact ub _
    · exact (idxUnchecked _ _).bind fun _ _ => ih.bind fun _ _ => pure _

theorem assign (rs : List Ref) (vs : List (List UInt8)) (ps : List Page) : Calm (assignToRefs rs vs ps) := by
  induction rs generalizing vs ps with
  | nil => exact ok _
  | cons r rs ih =>
    cases vs with
    | nil => exact ok _
    | cons v vs =>
      unfold assignToRefs
      refine bind ?_ fun _ _ => ih _ _
      unfold writeRef
      exact (idxUnchecked _ _).bind fun _ _ => (writeBytes _ _ _).bind fun _ _ => pure _

theorem removeAllTags (c : Tags) (id : Nat) : Calm (c.removeAllTagsForEntity id) := by
  unfold Tags.removeAllTagsForEntity
  exact (mapM _ (fun _ => setOff _ _) _).bind fun _ _ => pure _

theorem groupRemove (g : Group) (id : Nat) : Calm (g.remove id) := by
  have rest : ∀ (fwd bwd : Raw Nat) (b : Nat), Calm (do
      let f ← Raw.read fwd id
      let head := if g.head = id then f else g.head
      let tail := if g.tail = id then b else g.tail
      let bwd ← Raw.write bwd id NULL_ID
      let fwd ← Raw.write fwd id NULL_ID
      return { fwd := fwd, bwd := bwd, head := head, tail := tail } : Res Group) := fun _ _ _ =>
    (read _ _).bind fun _ _ => (write _ _ _).bind fun _ _ => (write _ _ _).bind fun _ _ => pure _
  have rest' : ∀ (f : Nat) (bwd : Raw Nat), Calm (do
      let b ← Raw.read bwd id
      let fwd ← if b ≠ NULL_ID then Raw.write g.fwd b f else Pure.pure g.fwd
      let f ← Raw.read fwd id
      let head := if g.head = id then f else g.head
      let tail := if g.tail = id then b else g.tail
      let bwd ← Raw.write bwd id NULL_ID
      let fwd ← Raw.write fwd id NULL_ID
      return { fwd := fwd, bwd := bwd, head := head, tail := tail } : Res Group) := fun f bwd => by
    refine (read _ _).bind fun b _ => ?_
    dsimp only
    split
    · exact (write _ _ _).bind fun fwd _ => rest fwd bwd b
    · exact rest g.fwd bwd b
  unfold Group.remove
  refine (read _ _).bind fun f _ => (read _ _).bind fun b _ => ?_
  dsimp only
  split
  · exact (write _ _ _).bind fun bwd _ => rest' f bwd
  · exact rest' f g.bwd

theorem removeAllOrders (c : Orders) (id : Nat) : Calm (c.removeAll id) := by
  unfold Orders.removeAll
  exact (mapM _ (fun _ => groupRemove _ _) _).bind fun _ _ => pure _

end Calm

namespace Store
variable {U : Universe} {dbg : Bool} {cap : Nat} {h : List Event} {s : Store}

/-- What a panic of a call that looks for room leaves. -/
def Kept (dbg : Bool) (s s' : Store) : Prop := ∃ c, s' = { s with archs := c } ∧ s.archs.Kept dbg c

theorem Kept.refl (dbg : Bool) (s : Store) : s.Kept dbg s := ⟨s.archs, rfl, .inl rfl⟩

theorem swapRemoveInternalU_onPanic (hs : s.archs.Shape) (hu : s.archs.Use) {q : Loc} {id : Nat} (hq : s.archs.row q = some id)
    {Q : Store → Prop} : (swapRemoveInternalU q).OnPanic s Q := by
  unfold swapRemoveInternalU
  refine .bind (.never (.on (R := fun _ => False) (Archs.swapRemoveEntityU_onPanic hs hu hq) fun _ h => h.elim)) fun s1 o _ => ?_
  split
  · exact .step (.inl ((Calm.write _ _ _).bind fun _ _ => .pure _))
  · exact .pure _

theorem moveU_onPanic (hx : LooseExec U dbg cap h s) {e : Entity} (he : Holder h e.id) {a : Archetype} (ha : a.Even) :
    (moveEntityToOtherArchetypeU dbg e a).OnPanic s (s.Kept dbg) := by
  have hs := loose_shape hx
  have hr := loose_rows hx
  unfold moveEntityToOtherArchetypeU
  refine .get (.bind (.lift (.inr (.refl _ _))) fun s1 prev h1 => ?_)
  rw [Unw.result_lift] at h1
  obtain ⟨_, h0, h1⟩ := bind_eq_ok.1 h1
  cases h1
  obtain ⟨_, hrow⟩ := hr.forget he (Rows.getLoc h0)
  refine .bind (.lift (.inr (.refl _ _))) fun s1 pi h1 => ?_
  rw [Unw.result_lift] at h1
  obtain ⟨_, h2, h1⟩ := bind_eq_ok.1 h1
  cases h1
  have hpi := idx_ok.1 h2
  have hpl : prev.page < s.archs.pages.length := by
    rw [← hs.archs.tlen]; exact (List.getElem?_eq_some_iff.1 hpi).1
  have hal : pi < s.archs.archetypes.length := by
    have h3 := hs.archs.arch pi (List.mem_of_getElem? hpi)
    have hnf : prev.page ∉ s.archs.freePages := fun hf => by
      unfold Archs.row at hrow
      cases hpg : s.archs.pages[prev.page]? with
      | none => simp [hpg] at hrow
      | some pg =>
        have := hr.use.freeEmpty _ hf pg hpg
        simp [hpg, this] at hrow
    obtain ⟨j, ps, hj, hm⟩ := (hr.use.covers _ hpl).resolve_left hnf
    have := hr.use.owner j ps _ hj hm
    rw [hpi] at this
    cases this
    rw [← hs.archs.plen]
    exact (List.getElem?_eq_some_iff.1 hj).1
  refine .bind (.on (Archs.moveU_onPanic hs.archs (loose_free hx) hr.use ha e.id hpl hal) fun c hc => ⟨c, rfl, hc⟩) fun s1 q h3 => ?_
  rw [onArchs_result, Archs.moveU_result] at h3
  obtain ⟨⟨c, q'⟩, h6, h4⟩ := bind_eq_ok.1 h3
  cases h4
  refine .bind (.step (.inl ((Calm.write _ _ _).bind fun _ _ => (Calm.write _ _ _).bind fun _ _ => .pure _))) fun s2 _ h5 => ?_
  have h5 := Unw.step_ok h5
  obtain ⟨_, _, h5⟩ := bind_eq_ok.1 h5
  obtain ⟨_, _, h5⟩ := bind_eq_ok.1 h5
  cases h5
  obtain ⟨k1, k2, k3⟩ := hr.use.move hs.archs ha h6
  refine .bind (swapRemoveInternalU_onPanic (id := e.id) (hs.archs.move ha h6).1 k1 ?_) fun _ _ _ => .pure _
  dsimp only
  rw [k3, if_neg]
  · exact hrow
  · rintro rfl
    rw [k2] at hrow; cases hrow

theorem ensureU_onPanic (hx : LooseExec U dbg cap h s) {e : Entity} (he : e ∈ alive h) (ts : List TypeId) :
    (ensureComponentsU U dbg e ts).OnPanic s (s.Kept dbg) := by
  have hs := loose_shape hx
  have hr := loose_rows hx
  unfold ensureComponentsU
  refine .get (.bind (.lift (.inr (.refl _ _))) fun s1 b h1 => ?_)
  rw [Unw.result_lift] at h1
  obtain ⟨_, h0, h1⟩ := bind_eq_ok.1 h1
  cases h1
  split
  · next hb =>
    have hbit := (Words.isOn_ok.1 h0).2
    have hold : Holder h e.id := ⟨e, he, ((given_bit hx).2 e he).1 (hbit.symm.trans hb), rfl⟩
    refine .bind (.lift (.inr (.refl _ _))) fun s1 q h1 => ?_
    rw [Unw.result_lift] at h1
    obtain ⟨_, _, h1⟩ := bind_eq_ok.1 h1
    cases h1
    refine .bind (.lift (.inr (.refl _ _))) fun s1 ai h1 => ?_
    rw [Unw.result_lift] at h1
    obtain ⟨_, _, h1⟩ := bind_eq_ok.1 h1
    cases h1
    refine .bind (.lift (.inr (.refl _ _))) fun s1 a h1 => ?_
    rw [Unw.result_lift] at h1
    obtain ⟨_, _, h1⟩ := bind_eq_ok.1 h1
    cases h1
    split
    · exact .pure _
    · refine .bind (.lift (.inr (.refl _ _))) fun s1 p h1 => ?_
      rw [Unw.result_lift] at h1
      obtain ⟨⟨na, bb⟩, h2, h1⟩ := bind_eq_ok.1 h1
      cases h1
      exact moveU_onPanic hx hold (ArchetypeBuilder.build_even h2)
  · refine .bind (.lift (.inr (.refl _ _))) fun s1 a h1 => ?_
    rw [Unw.result_lift] at h1
    obtain ⟨_, h2, h1⟩ := bind_eq_ok.1 h1
    cases h1
    refine .bind (.on (Archs.addEntityU_onPanic hs.archs (loose_free hx) hr.use (Archetype.withComponents_even h2) e.id)
      fun c hc => ⟨c, rfl, hc⟩) fun s1 q _ => ?_
    exact .bind (.step (.inl (Calm.recordRow _ _ _))) fun _ _ _ => .pure _

theorem aliveOf (hx : LooseExec U dbg cap h s) {e : Entity} (ha : s.isAlive dbg e = .ok true) : e ∈ alive h := by
  have hc := loose_core hx
  have := hc.isAlive (dbg := dbg) (hc.isAlive_lt ha)
  rw [ha] at this
  rw [alive_eq]
  simpa using this

theorem addU_onPanic (hx : LooseExec U dbg cap h s) (e : Entity) (vals : TupleVal) :
    (addComponentsU U dbg e vals).OnPanic s (s.Kept dbg) := by
  unfold addComponentsU
  refine .get (.bind (.lift (.inr (.refl _ _))) fun s1 b h1 => ?_)
  rw [Unw.result_lift] at h1
  obtain ⟨_, h0, h1⟩ := bind_eq_ok.1 h1
  cases h1
  split
  · next hb =>
    rw [hb] at h0
    refine .bind (ensureU_onPanic hx (aliveOf hx h0) _) fun s1 q _ => .step (.inl ?_)
    exact (Calm.view _ _).bind fun _ _ => (Calm.offsets _ _ _).bind fun _ _ => (Calm.assign _ _ _).bind fun _ _ => .pure _
  · exact .pure _

theorem removeU_onPanic (hx : LooseExec U dbg cap h s) (e : Entity) (ts : List TypeId) :
    (removeComponentsU U dbg e ts).OnPanic s (s.Kept dbg) := by
  unfold removeComponentsU
  refine .get (.bind (.lift (.inr (.refl _ _))) fun s1 b h1 => ?_)
  rw [Unw.result_lift] at h1
  obtain ⟨_, h0, h1⟩ := bind_eq_ok.1 h1
  cases h1
  split
  · next hb =>
    rw [hb] at h0
    unfold Store.isValidEntityWithArchetype at h0
    obtain ⟨al, h2, h0⟩ := bind_eq_ok.1 h0
    split at h0
    · next hal =>
      rw [hal] at h2
      have he := aliveOf hx h2
      have hold : Holder h e.id := ⟨e, he, ((given_bit hx).2 e he).1 (Words.isOn_ok.1 h0).2.symm, rfl⟩
      refine .bind (.lift (.inr (.refl _ _))) fun s1 q h1 => ?_
      rw [Unw.result_lift] at h1
      obtain ⟨_, _, h1⟩ := bind_eq_ok.1 h1
      cases h1
      refine .bind (.lift (.inr (.refl _ _))) fun s1 ai h1 => ?_
      rw [Unw.result_lift] at h1
      obtain ⟨_, _, h1⟩ := bind_eq_ok.1 h1
      cases h1
      refine .bind (.lift (.inr (.refl _ _))) fun s1 a h1 => ?_
      rw [Unw.result_lift] at h1
      obtain ⟨_, _, h1⟩ := bind_eq_ok.1 h1
      cases h1
      refine .bind (.lift (.inr (.refl _ _))) fun s1 p h1 => ?_
      rw [Unw.result_lift] at h1
      obtain ⟨⟨na, bb⟩, h2, h1⟩ := bind_eq_ok.1 h1
      cases h1
      exact .bind (moveU_onPanic hx hold (ArchetypeBuilder.build_even h2)) fun _ _ _ => .pure _
    · cases h0
  · exact .pure _

theorem registerU_onPanic (hx : LooseExec U dbg cap h s) (hb : (handles h).length + 1 < u32Size) {Q : Store → Prop} :
    (registerNewEntityU dbg).OnPanic s Q := by
  rw [handles_eq] at hb
  obtain ⟨s1, e, h1, _⟩ := (loose_core hx).register (dbg := dbg) hb
  exact .of_ok ((registerU_result dbg s).trans h1)

theorem createU_onPanic (hx : LooseExec U dbg cap h s) (hb : (handles h).length + 1 < u32Size) {Q : Store → Prop} :
    (createEntityU dbg).OnPanic s Q := by
  unfold createEntityU
  exact .bind (registerU_onPanic hx hb) fun _ _ _ =>
    .bind (.step (.inl ((Calm.setOff _ _).bind fun _ _ => .pure _))) fun _ _ _ => .pure _

theorem destroyU_onPanic (hx : LooseExec U dbg cap h s) {e : Entity} (he : e ∈ alive h) {Q : Store → Prop} :
    (destroyEntityU dbg e).OnPanic s Q := by
  have hs := loose_shape hx
  have hr := loose_rows hx
  have hc := loose_core hx
  have hrest : ∀ s1 : Store, s1.ents = s.ents → (do
      onEnts (Ents.destroyU dbg e)
      Unw.step fun s => do
        let tags ← s.tags.removeAllTagsForEntity e.id
        return { s with tags := tags }
      Unw.step fun s => do
        let orders ← s.orders.removeAll e.id
        return { s with orders := orders } : Unw Store Unit).OnPanic s1 Q := by
    intro s1 h1
    refine .bind ?_ fun _ _ _ => .bind (.step (.inl ((Calm.removeAllTags _ _).bind fun _ _ => .pure _))) fun _ _ _ =>
      .step (.inl ((Calm.removeAllOrders _ _).bind fun _ _ => .pure _))
    have he' := he
    rw [alive_eq] at he'
    obtain ⟨c', k1, _⟩ := hc.ents.destroy_live (dbg := dbg) he'
    refine .of_ok (s1 := { s1 with ents := c' }) (a := ()) ?_
    rw [onEnts_result, Ents.destroyU_result, h1, k1]
    rfl
  unfold destroyEntityU
  refine .get (.bind (.lift (.inl (Calm.isOn _ _))) fun s1 b h1 => ?_)
  rw [Unw.result_lift] at h1
  obtain ⟨_, h0, h1⟩ := bind_eq_ok.1 h1
  cases h1
  split
  · next hb =>
    have hold : Holder h e.id := ⟨e, he, ((given_bit hx).2 e he).1 ((Words.isOn_ok.1 h0).2.symm.trans hb), rfl⟩
    refine .bind (.lift (.inl (Calm.getLoc _ _))) fun s1 q h1 => ?_
    rw [Unw.result_lift] at h1
    obtain ⟨_, h2, h1⟩ := bind_eq_ok.1 h1
    cases h1
    refine .bind (swapRemoveInternalU_onPanic hs.archs hr.use (hr.forget hold (Rows.getLoc h2)).2) fun s1 _ h3 => ?_
    rw [swapRemoveInternalU_result] at h3
    obtain ⟨_, h4, h5⟩ := bind_eq_ok.1 h3
    cases h5
    exact hrest _ (SameCore.swapRemove h4).ents
  · exact hrest _ rfl

theorem createWithU_onPanic (hx : LooseExec U dbg cap h s) (hb : (handles h).length + 1 < u32Size) {a : Archetype} (ha : a.Even) :
    (createEntityWithArchetypeU dbg a).OnPanic s fun s' => ∃ s1 e, s.registerNewEntity dbg = .ok (s1, e) ∧ s1.Kept dbg s' := by
  have hb' := hb
  rw [handles_eq] at hb'
  unfold createEntityWithArchetypeU
  refine .bind (registerU_onPanic hx hb) fun s1 e h1 => ?_
  rw [registerU_result] at h1
  obtain ⟨s2, e2, k1, k2⟩ := (loose_core hx).register (dbg := dbg) hb'
  rw [h1] at k1
  cases k1
  have ka : s1.archs = s.archs := k2.2.2.2.1
  refine .bind (.on (Archs.addEntityU_onPanic (dbg := dbg) (c := s1.archs) (ka ▸ (loose_shape hx).archs) (ka ▸ loose_free hx)
    (ka ▸ (loose_rows hx).use) ha e.id) fun c hk => ⟨s1, e, h1, c, rfl, hk⟩) fun _ _ _ =>
    .bind (.step (.inl (Calm.recordRow _ _ _))) fun _ _ _ => .pure _

theorem onGroupU_onPanic {g : Nat} {f : Group → Res Group} (hf : ∀ n, Calm (f (Group.new n))) :
    (onGroupU g f).OnPanic s (· = s) := by
  unfold onGroupU
  refine .bind (.step' (.inl (.pure _))) fun s1 i h1 => ?_
  rw [Unw.result_step'] at h1
  cases hb : binarySearch s.orders.groupIds g with
  | found k =>
    unfold Orders.reserveGroup at h1
    rw [hb] at h1
    cases h1
    exact .step (.inr rfl)
  | notFound k =>
    unfold Orders.reserveGroup at h1
    rw [hb] at h1
    cases h1
    refine .step (.inl (Calm.bind ?_ fun _ _ => .pure _))
    unfold Orders.onGroup
    refine (Calm.idxUnchecked _ _).bind fun x hx => Calm.bind ?_ fun _ _ => .pure _
    have hx := idxUnchecked_ok.1 hx
    dsimp only at hx
    by_cases hk : i ≤ s.orders.groups.length
    · rw [List.getElem?_insertIdx_self, if_pos hk] at hx
      cases hx
      exact hf _
    · rw [List.insertIdx_of_length_lt (by omega), List.getElem?_eq_none (by omega)] at hx
      cases hx

theorem allocLinks_read {n i x : Nat} (h : Raw.read (Group.allocLinks n) i = .ok x) : x = NULL_ID := by
  have := Raw.read_ok.1 h
  unfold Group.allocLinks at this
  rw [List.getElem?_replicate] at this
  split at this
  · simpa using this.symm
  · cases this

theorem noOrder_calm : Calm (assertEntityHasNoOrder dbg NULL_ID NULL_ID) := by
  unfold assertEntityHasNoOrder dassert
  cases dbg <;> exact .ok _

/-- What the panics of each call leave. -/
theorem onPanic (hx : LooseExec U dbg cap h s) (c : Call) (hc : Undone h c) {s' : Store} (hp : Panics U dbg s c s') :
    s.Kept dbg s' := by
  have hu : ∀ s', s' = s → s.Kept dbg s' := fun s' h => h ▸ .refl _ _
  cases c with
  | create => exact createU_onPanic hx hc s' hp
  | createWith a => exact hc.elim
  | destroy e => exact destroyU_onPanic hx hc s' hp
  | add e vals => exact addU_onPanic hx e vals s' hp
  | remove e ts => exact removeU_onPanic hx e ts s' hp
  | assign e vals => exact hu _ (Unw.OnPanic.step' (Q := (· = s)) (.inr rfl) s' hp)
  | tag t e => exact hu _ (Unw.OnPanic.step (Q := (· = s)) (.inr rfl) s' hp)
  | untag t e => exact hu _ (Unw.OnPanic.step (Q := (· = s)) (.inr rfl) s' hp)
  | unorder t e => exact hu _ (Unw.OnPanic.step (Q := (· = s)) (.inr rfl) s' hp)
  | orderLast g e =>
    refine hu _ (onGroupU_onPanic (f := fun g => g.add dbg e.id) (fun n => ?_) s' hp)
    unfold Group.add
    rw [if_pos (by rfl)]
    exact .pure _
  | orderAfter g e x =>
    refine hu _ (onGroupU_onPanic (f := fun g => g.addNextTo dbg e.id x.id) (fun n => ?_) s' hp)
    unfold Group.addNextTo
    refine (Calm.read _ _).bind fun y hy => (Calm.read _ _).bind fun z hz => ?_
    rw [allocLinks_read hy, allocLinks_read hz]
    refine noOrder_calm.bind fun _ _ => (Calm.read _ _).bind fun w hw => Calm.bind ?_ fun _ _ =>
      (Calm.write _ _ _).bind fun _ _ => (Calm.write _ _ _).bind fun _ _ => .pure _
    split
    · exact (Calm.write _ _ _).bind fun _ _ => (Calm.write _ _ _).bind fun _ _ => .pure _
    · exact .pure _
  | orderBefore g e x =>
    refine hu _ (onGroupU_onPanic (f := fun g => g.addPreviousTo dbg e.id x.id) (fun n => ?_) s' hp)
    unfold Group.addPreviousTo
    refine (Calm.read _ _).bind fun y hy => (Calm.read _ _).bind fun z hz => ?_
    rw [allocLinks_read hy, allocLinks_read hz]
    refine noOrder_calm.bind fun _ _ => (Calm.read _ _).bind fun w hw => Calm.bind ?_ fun _ _ =>
      (Calm.write _ _ _).bind fun _ _ => (Calm.write _ _ _).bind fun _ _ => .pure _
    split
    · exact (Calm.write _ _ _).bind fun _ _ => (Calm.write _ _ _).bind fun _ _ => .pure _
    · exact .pure _

end Store
end Ecs
