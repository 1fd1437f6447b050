import Verif.Proofs.QueryComp
import Verif.Proofs.Records

/-! Running component queries: with entities, filtered by a tag, and what their references have to do
with each other. -/

namespace Ecs
open Spec

section
variable {dbg : Bool} {s : Store}

/-- The items a component iterator will return, all with ids whose versions can be read. -/
def CompIter.Pending (s : Store) (it : CompIter) (l : List (Nat × List Ref)) : Prop :=
  it.Remaining l ∧ ∀ x ∈ l, Inited s.ents.versions x.1

namespace CompIter.Pending

theorem version {id : Nat} (he : Inited s.ents.versions id) :
    Raw.read s.ents.versions id = .ok (s.entOf id).version := by
  obtain ⟨v, hv⟩ := he
  rw [Raw.read_of_some hv]
  simp [Store.entOf, hv]

theorem nextWithEntity_cons {it : CompIter} {x : Nat × List Ref} {l : List (Nat × List Ref)}
    (hr : it.Pending s (x :: l)) :
    ∃ it', it.nextWithEntity dbg s = .ok (some (s.entOf x.1, x.2), it') ∧ it'.Pending s l := by
  obtain ⟨it', h1, h2, h3, _⟩ := CompIter.next_cons hr.1
  refine ⟨it', ?_, h2, fun y hy => hr.2 y (List.mem_cons_of_mem _ hy)⟩
  have hs : subUsize dbg it'.cur.nextEntityIndex 1 = .ok (it'.cur.nextEntityIndex - 1) := by
    have := h3.1
    unfold subUsize
    rw [if_pos (by omega)]
  unfold CompIter.nextWithEntity PageIter.currentEntityId
  simp only [h1, ok_bind, hs, idxUnchecked_of_some h3.2, version (hr.2 x List.mem_cons_self), pure_ok]
  rfl

theorem nextWithEntity_nil (s : Store) {it : CompIter} (hr : it.Pending s []) :
    ∃ it', it.nextWithEntity dbg s = .ok (none, it') ∧ it'.Pending s [] := by
  obtain ⟨it', h1, h2, _⟩ := CompIter.next_nil hr.1
  refine ⟨it', ?_, h2, fun y hy => by cases hy⟩
  unfold CompIter.nextWithEntity
  simp only [h1, ok_bind, pure_ok]

/-- One call of the filtering iterator. -/
theorem nextFiltered_of {bv : Words} {P : Nat × List Ref → Bool} {l : List (Nat × List Ref)}
    (hbv : ∀ x ∈ l, bv.isOn x.1 = .ok (P x)) {it : CompIter} (hr : it.Pending s l) {fuel : Nat} (hf : l.length < fuel) :
    (l.filter P = [] → ∃ it', it.nextFiltered dbg s bv fuel = .ok (none, it') ∧ it'.Pending s []) ∧
    (∀ x r, l.filter P = x :: r → ∃ it' l', it.nextFiltered dbg s bv fuel = .ok (some (s.entOf x.1, x.2), it') ∧
      it'.Pending s l' ∧ l'.filter P = r ∧ l'.length < l.length ∧ ∀ y ∈ l', y ∈ l) := by
  induction l generalizing it fuel with
  | nil =>
    cases fuel with
    | zero => cases hf
    | succ n =>
      obtain ⟨it', h1, h2⟩ := nextWithEntity_nil (dbg := dbg) s hr
      refine ⟨fun _ => ⟨it', ?_, h2⟩, fun x r hx => by cases hx⟩
      unfold CompIter.nextFiltered
      simp only [h1, ok_bind, pure_ok]
  | cons y l ih =>
    cases fuel with
    | zero => cases hf
    | succ n =>
      obtain ⟨it', h1, h2⟩ := nextWithEntity_cons (dbg := dbg) hr
      have hy := hbv y List.mem_cons_self
      by_cases hp : P y = true
      · rw [List.filter_cons_of_pos hp]
        refine ⟨fun h0 => (List.cons_ne_nil _ _ h0).elim, fun x r hx => ?_⟩
        obtain ⟨rfl, rfl⟩ := List.cons.inj hx
        refine ⟨it', l, ?_, h2, rfl, by simp, fun z hz => List.mem_cons_of_mem _ hz⟩
        unfold CompIter.nextFiltered
        simp only [h1, ok_bind, Store.entOf, hy, hp, if_true, pure_ok]
      · rw [List.filter_cons_of_neg hp]
        have hstep : it.nextFiltered dbg s bv (n + 1) = it'.nextFiltered dbg s bv n := by
          conv_lhs => unfold CompIter.nextFiltered
          simp only [h1, ok_bind, Store.entOf, hy, hp, if_false, Bool.false_eq_true]
        rw [hstep]
        obtain ⟨i1, i2⟩ := ih (fun x hx => hbv x (List.mem_cons_of_mem _ hx)) h2 (Nat.lt_of_succ_lt_succ hf)
        refine ⟨i1, fun x r hx => ?_⟩
        obtain ⟨it2, l', g1, g2, g3, g4, g5⟩ := i2 x r hx
        exact ⟨it2, l', g1, g2, g3, Nat.lt_succ_of_lt g4, fun z hz => List.mem_cons_of_mem _ (g5 z hz)⟩

/-- Draining the filtering iterator. -/
theorem drain_filtered {bv : Words} {P : Nat × List Ref → Bool} {l : List (Nat × List Ref)}
    (hbv : ∀ x ∈ l, bv.isOn x.1 = .ok (P x)) {it : CompIter} (hr : it.Pending s l) {fuel : Nat} (hf : l.length < fuel) :
    drain (CompIter.nextFiltered dbg s bv fuel) fuel it = .ok ((l.filter P).map fun x => (s.entOf x.1, x.2)) := by
  refine drain_of (fun it r => ∃ l', it.Pending s l' ∧ l'.filter P = r ∧ l'.length < fuel ∧ ∀ y ∈ l', y ∈ l) ?_ ?_
    ⟨l, hr, rfl, hf, fun _ h => h⟩ (Nat.lt_of_le_of_lt (List.length_filter_le _ _) hf)
  · rintro it ⟨l', g1, g2, g3, g4⟩
    obtain ⟨it', k, _⟩ := (nextFiltered_of (dbg := dbg) (fun x hx => hbv x (g4 x hx)) g1 g3).1 g2
    exact ⟨it', k⟩
  · rintro it x r ⟨l', g1, g2, g3, g4⟩
    obtain ⟨it', l'', k1, k2, k3, k4, k5⟩ := (nextFiltered_of (dbg := dbg) (fun x hx => hbv x (g4 x hx)) g1 g3).2 x r g2
    exact ⟨it', k1, l'', k2, k3, Nat.lt_trans k4 g3, fun y hy => g4 y (k5 y hy)⟩

end CompIter.Pending
end

namespace Rel
variable {U : Universe} {dbg : Bool} {s : Store} {w : World}

theorem refs_length (h : Rel U dbg s w) {e : Entity} {ts : List Nat} {rs : List Ref}
    (hr : s.getComponentsRefs U dbg e ts = .ok (some rs)) (hlt : e.id < s.ents.capacity) : rs.length = ts.length := by
  have hc : e ∈ w.live ∧ w.types e ≠ [] ∧ ∀ t ∈ ts, t ∈ w.types e := by
    by_contra hc
    rw [h.getRefs_none hlt hc] at hr
    cases hr
  obtain ⟨q, ai, a, l, ps, pg, offs, _, _, _, _, _, g5, g6⟩ := h.getRefs_some hc.1 hc.2.1 hc.2.2
  rw [hr] at g5
  cases g5
  simp [getRefs, g6.length_eq]

/-- The references to components of different entities, or of different types, share no byte. -/
theorem refs_pairwise (h : Rel U dbg s w) {ts : List Nat} (ht : ts.Nodup) {items : List (Entity × List Ref)}
    (hi : ∀ x ∈ items, x.1.id < s.ents.capacity ∧ s.getComponentsRefs U dbg x.1 ts = .ok (some x.2))
    (hn : (items.map (·.1)).Nodup) : (items.map (·.2)).flatten.Pairwise Apart := by
  have key : ∀ x ∈ items, ∀ y ∈ items, ∀ i j : Nat, ∀ r r', x.2[i]? = some r → y.2[j]? = some r' → ¬ (x.1 = y.1 ∧ i = j) →
      Apart r r' := by
    intro x hx y hy i j r r' hr hr' hne
    obtain ⟨h1, h2⟩ := hi x hx
    obtain ⟨h3, h4⟩ := hi y hy
    have l1 := h.refs_length h2 h1
    have l2 := h.refs_length h4 h3
    have hi1 : i < ts.length := by rw [← l1]; exact (List.getElem?_eq_some_iff.1 hr).1
    have hj1 : j < ts.length := by rw [← l2]; exact (List.getElem?_eq_some_iff.1 hr').1
    refine h.refs_apart h2 h4 h1 h3 (List.getElem?_eq_getElem hi1) (List.getElem?_eq_getElem hj1) hr hr' ?_
    rintro ⟨h5, h6⟩
    exact hne ⟨h5, (ht.getElem_inj_iff).1 h6⟩
  rw [List.pairwise_flatten]
  constructor
  · intro rs hrs
    obtain ⟨x, hx, rfl⟩ := List.mem_map.1 hrs
    rw [List.pairwise_iff_getElem]
    intro i j hi' hj' hij
    exact key x hx x hx i j _ _ (List.getElem?_eq_getElem hi') (List.getElem?_eq_getElem hj')
      (fun h0 => absurd h0.2 (Nat.ne_of_lt hij))
  · rw [List.pairwise_map]
    have hp : items.Pairwise fun x y => x.1 ≠ y.1 := by
      have := hn
      unfold List.Nodup at this
      rw [List.pairwise_map] at this
      exact this
    refine List.Pairwise.imp_of_mem ?_ hp
    intro x y hx hy hxy r hr r' hr'
    obtain ⟨i, hi', hie⟩ := List.getElem_of_mem hr
    obtain ⟨j, hj', hje⟩ := List.getElem_of_mem hr'
    exact key x hx y hy i j _ _ (by rw [List.getElem?_eq_getElem hi', hie]) (by rw [List.getElem?_eq_getElem hj', hje])
      (fun h0 => hxy h0.1)

end Rel

/-! ### Fused iterators -/

/-- No view of the iterator is of an empty page. -/
def CompIter.NonEmpty (it : CompIter) : Prop := ∀ v ∈ it.pageViews, v.entityCount ≠ 0

/-- The iterator is past its last page. -/
def CompIter.Done (it : CompIter) : Prop := it.pageViews.length ≤ it.currentPageIndex ∧ it.cur = PageIter.empty

theorem CompIter.next_views {it it' : CompIter} {o : Option (List Ref)} (h : it.next = .ok (o, it')) :
    it'.pageViews = it.pageViews := by
  unfold CompIter.next at h
  split at h
  · cases h; rfl
  · dsimp only at h
    split at h
    · obtain ⟨v, _, h⟩ := bind_eq_ok.1 h
      cases h; rfl
    · cases h; rfl

theorem CompIter.next_none_done {it it' : CompIter} (hv : it.NonEmpty) (h : it.next = .ok (none, it')) : it'.Done := by
  unfold CompIter.next at h
  split at h
  · cases h
  · dsimp only at h
    split at h
    · obtain ⟨v, h1, h⟩ := bind_eq_ok.1 h
      have hne := hv v (List.mem_of_getElem? (idxUnchecked_ok.1 h1))
      unfold PageIter.next PageIter.new at h
      rw [if_neg (by simp only; omega)] at h
      cases h
    · next hlt =>
      cases h
      exact ⟨Nat.not_lt.1 hlt, rfl⟩

theorem CompIter.done_next {it : CompIter} (h : it.Done) : ∃ it', it.next = .ok (none, it') ∧ it'.Done := by
  refine ⟨{ it with cur := PageIter.empty, currentPageIndex := it.currentPageIndex + 1 }, ?_, ?_, rfl⟩
  · unfold CompIter.next
    have h0 : PageIter.empty.next = (none, PageIter.empty) := rfl
    rw [h.2, h0]
    simp only [Nat.not_lt.2 (Nat.le_succ_of_le h.1), if_false]
    rfl
  · exact Nat.le_succ_of_le h.1

theorem collectPages_nonempty {U : Universe} {acc : Access} {pages : List Page} {offs P : List Nat}
    {r r' : List IterView × Nat} (hr : ∀ v ∈ r.1, v.entityCount ≠ 0) (h : collectPages U acc pages offs P r = .ok r') :
    ∀ v ∈ r'.1, v.entityCount ≠ 0 := by
  induction P generalizing r with
  | nil => cases h; exact hr
  | cons p P ih =>
    obtain ⟨pg, _, h⟩ := bind_eq_ok.1 h
    split at h
    · exact ih hr h
    · next hne =>
      refine ih ?_ h
      intro v hv
      rcases List.mem_append.1 hv with hv | hv
      · exact hr v hv
      · rw [List.mem_singleton] at hv
        subst hv
        exact hne

theorem collectArchetypes_nonempty {U : Universe} {acc : Access} {c : Archs} {A : List Nat}
    {r r' : List IterView × Nat} (hr : ∀ v ∈ r.1, v.entityCount ≠ 0) (h : collectArchetypes U acc c A r = .ok r') :
    ∀ v ∈ r'.1, v.entityCount ≠ 0 := by
  induction A generalizing r with
  | nil => cases h; exact hr
  | cons a A ih =>
    obtain ⟨ar, _, h⟩ := bind_eq_ok.1 h
    obtain ⟨l, _, h⟩ := bind_eq_ok.1 h
    split at h
    · exact ih hr h
    · obtain ⟨offs, _, h⟩ := bind_eq_ok.1 h
      obtain ⟨ps, _, h⟩ := bind_eq_ok.1 h
      obtain ⟨r1, h1, h⟩ := bind_eq_ok.1 h
      exact ih (collectPages_nonempty hr h1) h

theorem componentQueryIter_nonempty {U : Universe} {s : Store} {acc : Access} {old : List IterView} {it : CompIter}
    (h : componentQueryIter U s acc old = .ok it) : it.NonEmpty := by
  unfold componentQueryIter at h
  obtain ⟨⟨vs, n⟩, h1, h⟩ := bind_eq_ok.1 h
  have hv := collectArchetypes_nonempty (r := (old.take 0, 0)) (by simp) h1
  dsimp only at h
  split at h
  · obtain ⟨v, _, h⟩ := bind_eq_ok.1 h
    cases h
    exact hv
  · cases h
    exact hv

theorem fused_of {σ α : Type} {next : σ → Res (Option α × σ)} (I D : σ → Prop)
    (hI : ∀ it o it', I it → next it = .ok (o, it') → I it') (hD : ∀ it it', I it → next it = .ok (none, it') → D it')
    (hN : ∀ it, D it → ∃ it', next it = .ok (none, it') ∧ D it') {it : σ} (h : I it) : Fused next it := by
  intro n rs it1 it2 hc hn m
  have h1 : I it1 := by
    clear hn
    induction n generalizing it rs with
    | zero => cases hc; exact h
    | succ n ih =>
      obtain ⟨⟨o, it0⟩, k1, hc⟩ := bind_eq_ok.1 hc
      obtain ⟨⟨rs', it3⟩, k2, hc⟩ := bind_eq_ok.1 hc
      cases hc
      exact ih (hI _ _ _ h k1) _ k2
  have h2 := hD _ _ h1 hn
  clear hn hc h1
  induction m generalizing it2 with
  | zero => exact ⟨it2, rfl⟩
  | succ m ih =>
    obtain ⟨it', k1, k2⟩ := hN _ h2
    obtain ⟨it3, k3⟩ := ih _ k2
    refine ⟨it3, ?_⟩
    unfold calls
    simp only [k1, ok_bind, k3, pure_ok, List.replicate_succ]

theorem CompIter.nextWithEntity_views {dbg : Bool} {s : Store} {it it' : CompIter} {o : Option (Entity × List Ref)}
    (h : it.nextWithEntity dbg s = .ok (o, it')) :
    it'.pageViews = it.pageViews ∧ (o = none → it.next = .ok (none, it')) := by
  unfold CompIter.nextWithEntity at h
  obtain ⟨⟨r, it1⟩, h1, h⟩ := bind_eq_ok.1 h
  have hv := CompIter.next_views h1
  split at h
  · next heq =>
    cases h
    cases heq
    exact ⟨hv, fun _ => h1⟩
  · next heq =>
    cases heq
    obtain ⟨id, _, h⟩ := bind_eq_ok.1 h
    obtain ⟨v, _, h⟩ := bind_eq_ok.1 h
    cases h
    exact ⟨hv, fun h0 => by cases h0⟩

theorem CompIter.nextFiltered_views {dbg : Bool} {s : Store} {bv : Words} {fuel : Nat} {it it' : CompIter}
    {o : Option (Entity × List Ref)} (h : it.nextFiltered dbg s bv fuel = .ok (o, it')) :
    it'.pageViews = it.pageViews ∧ (o = none → it.NonEmpty → it'.Done) := by
  induction fuel generalizing it with
  | zero => cases h
  | succ n ih =>
    unfold CompIter.nextFiltered at h
    obtain ⟨⟨r, it1⟩, h1, h⟩ := bind_eq_ok.1 h
    obtain ⟨hv, hn⟩ := CompIter.nextWithEntity_views h1
    split at h
    · next heq =>
      cases heq
      cases h
      exact ⟨hv, fun _ hne => CompIter.next_none_done hne (hn rfl)⟩
    · next heq =>
      cases heq
      obtain ⟨b, _, h⟩ := bind_eq_ok.1 h
      split at h
      · cases h
        exact ⟨hv, fun h0 => by cases h0⟩
      · obtain ⟨k1, k2⟩ := ih h
        refine ⟨k1.trans hv, fun h0 hne => k2 h0 ?_⟩
        unfold CompIter.NonEmpty
        rw [hv]
        exact hne

theorem CompIter.done_nextWithEntity {dbg : Bool} {s : Store} {it : CompIter} (h : it.Done) :
    ∃ it', it.nextWithEntity dbg s = .ok (none, it') ∧ it'.Done := by
  obtain ⟨it', h1, h2⟩ := CompIter.done_next h
  refine ⟨it', ?_, h2⟩
  unfold CompIter.nextWithEntity
  simp only [h1, ok_bind, pure_ok]

end Ecs
