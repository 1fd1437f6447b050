import Verif.Proofs.Together
import Verif.Proofs.UpdateRel

/-! References of several queries, in executions without overfull pages. -/

namespace Ecs
open Spec Archs

/-- The reference to one component of a tuple is the reference to the component alone. -/
theorem Store.getComponentsRefs_single {U : Universe} {dbg : Bool} {s : Store} {e : Entity} {ts : List TypeId} {refs : List Ref}
    (h : s.getComponentsRefs U dbg e ts = .ok (some refs)) {i : Nat} {t : TypeId} {r : Ref} (ht : ts[i]? = some t)
    (hr : refs[i]? = some r) : s.getComponentsRefs U dbg e [t] = .ok (some [r]) := by
  obtain ⟨hi, rfl⟩ := List.getElem?_eq_some_iff.1 ht
  have h0 : s.getComponentsRefs U dbg e (ts.take i ++ ts.drop i) = .ok (some refs) := by rw [List.take_append_drop]; exact h
  have h1 := getComponentsRefs_drop h0
  rw [List.length_take, Nat.min_eq_left (Nat.le_of_lt hi), List.drop_eq_getElem_cons hi] at h1
  have hr' : (refs.drop i)[0]? = some r := by rw [List.getElem?_drop]; exact hr
  unfold Store.getComponentsRefs at h1 ⊢
  obtain ⟨b, h2, h1⟩ := bind_eq_ok.1 h1
  simp only [h2, ok_bind]
  cases b with
  | false => cases h1
  | true =>
    simp only [if_true] at h1 ⊢
    obtain ⟨page, h3, h1⟩ := bind_eq_ok.1 h1
    obtain ⟨view, h4, h1⟩ := bind_eq_ok.1 h1
    obtain ⟨index, h5, h1⟩ := bind_eq_ok.1 h1
    obtain ⟨o, h6, h1⟩ := bind_eq_ok.1 h1
    simp only [h3, h4, h5, ok_bind]
    unfold Ecs.getOffsets at h6 ⊢
    split at h6
    · cases h6; cases h1
    · rename_i k hk
      obtain ⟨o1, h7, h6⟩ := bind_eq_ok.1 h6
      obtain ⟨o2, h8, h6⟩ := bind_eq_ok.1 h6
      simp only [h7, ok_bind]
      cases o2 with
      | none => cases h6; cases h1
      | some os =>
        cases h6
        have h9 : some (getRefs U page index (ts[i] :: ts.drop (i + 1)) (o1 :: os)) = some (refs.drop i) := by
          injection h1
        injection h9 with h9
        rw [← h9] at hr'
        have h10 : some (⟨page, Page.dataPtr index o1 (U.size ts[i]), U.size ts[i]⟩ : Ref) = some r := hr'
        injection h10 with h10
        subst h10
        rfl

theorem drain_wrap {σ σ' α β : Type} {next : σ → Res (Option α × σ)} {next' : σ' → Res (Option β × σ')} (w : σ → σ') (f : α → β)
    (h : ∀ it, next' (w it) = next it >>= fun x => .ok (x.1.map f, w x.2)) (fuel : Nat) (it : σ) :
    drain next' fuel (w it) = (drain next fuel it).map (·.map f) := by
  induction fuel generalizing it with
  | zero => rfl
  | succ n ih =>
    unfold drain
    rw [h]
    cases hn : next it with
    | error x => rfl
    | ok x =>
      obtain ⟨o, it'⟩ := x
      cases o with
      | none => rfl
      | some a =>
        simp only [ok_bind, Option.map_some]
        rw [ih]
        cases drain next n it' with
        | error x => rfl
        | ok l => rfl

/-- Starting the query and calling `next` until it returns `None`. -/
theorem Query.run_eq (U : Universe) (dbg : Bool) (s : Store) (fuel : Nat) (q : Query) :
    q.run U dbg s fuel = q.start U dbg s fuel >>= fun it => drain (Iter.next dbg s) fuel it := by
  cases q with
  | component acc =>
    simp only [Query.run, runComponentQuery, Query.start]
    cases componentQueryIter U s acc [] with
    | error x => rfl
    | ok it => exact (drain_wrap (next' := Iter.next dbg s) Iter.component _ (fun _ => rfl) fuel it).symm
  | componentWith acc =>
    simp only [Query.run, runComponentQueryWithEntities, Query.start]
    cases componentQueryIter U s acc [] with
    | error x => rfl
    | ok it => exact (drain_wrap (next' := Iter.next dbg s) Iter.componentWith _ (fun _ => rfl) fuel it).symm
  | tagged t acc =>
    simp only [Query.run, runComponentQueryFilterTag, Query.start]
    cases componentQueryIter U s acc [] with
    | error x => rfl
    | ok it =>
      cases hb : s.tags.hasTagBitvec t with
      | error x => rfl
      | ok bv => exact (drain_wrap (next' := Iter.next dbg s) (Iter.tagged bv fuel) _ (fun _ => rfl) fuel it).symm
  | entities L acc =>
    simp only [Query.run, runEntityQuery, Query.start]
    cases entityQueryIter U dbg s L acc [] with
    | error x => rfl
    | ok it => exact (drain_wrap (next' := Iter.next dbg s) Iter.entities _ (fun _ => rfl) fuel it).symm
  | entitiesWith L acc =>
    simp only [Query.run, runEntityQueryWithEntities, Query.start]
    cases entityQueryIter U dbg s L acc [] with
    | error x => rfl
    | ok it => exact (drain_wrap (next' := Iter.next dbg s) Iter.entitiesWith _ (fun _ => rfl) fuel it).symm
  | ordered g acc =>
    simp only [Query.run, runOrderedQuery, Query.start]
    cases orderedQueryIter U s g acc [] fuel with
    | error x => rfl
    | ok it => exact (drain_wrap (next' := Iter.next dbg s) Iter.ordered _ (fun _ => rfl) fuel it).symm
  | orderedWith g acc =>
    simp only [Query.run, runOrderedQueryWithEntities, Query.start]
    cases orderedQueryIter U s g acc [] fuel with
    | error x => rfl
    | ok it => exact (drain_wrap (next' := Iter.next dbg s) Iter.orderedWith _ (fun _ => rfl) fuel it).symm

section
variable {U : Universe} {dbg : Bool} {cap : Nat} {h : List Event} {s : Store}

/-- A reference to a component of one of the types, of some entity. -/
def RefOf (U : Universe) (dbg : Bool) (h : List Event) (s : Store) (ts : List TypeId) (r : Ref) : Prop :=
  ∃ e ∈ handles h, ∃ t ∈ ts, s.getComponentsRefs U dbg e [t] = .ok (some [r])

/-- The references of an item. -/
def ItemFor (U : Universe) (dbg : Bool) (h : List Event) (s : Store) (ts : List TypeId) (refs : List Ref) : Prop :=
  ∃ e ∈ handles h, s.getComponentsRefs U dbg e ts = .ok (some refs)

theorem refOf_inPages (hx : LooseExec U dbg cap h s) (hd : DistinctAdds h) (hr : RowsFit s) {ts : List TypeId} {r : Ref}
    (h0 : RefOf U dbg h s ts r) : InPages s.archs.pages.length r := by
  obtain ⟨e, he, t, _, h1⟩ := h0
  have := loose_refs_placed hx hd he h1
  cases this with
  | cons ha _ => exact ⟨ha.1, ha.2.2.2 hr⟩

theorem refOf_apart (hx : LooseExec U dbg cap h s) (hd : DistinctAdds h) (hr : RowsFit s) {ts ts' : List TypeId}
    (ht : ∀ t ∈ ts, t ∉ ts') {r r' : Ref} (h0 : RefOf U dbg h s ts r) (h1 : RefOf U dbg h s ts' r') : Apart r r' := by
  obtain ⟨e, he, t, h2, h3⟩ := h0
  obtain ⟨e', he', t', h4, h5⟩ := h1
  exact loose_refs_apart hx hd hr he he' h3 h5 (i := 0) (j := 0) rfl rfl rfl rfl fun hne => ht t h2 (hne.2 ▸ h4)

theorem ItemFor.length (hx : LooseExec U dbg cap h s) (hd : DistinctAdds h) {ts : List TypeId} {refs : List Ref}
    (h0 : ItemFor U dbg h s ts refs) : ts.length = refs.length := by
  obtain ⟨e, he, h1⟩ := h0
  exact (loose_refs_placed hx hd he h1).length_eq

theorem ItemFor.refOf (hx : LooseExec U dbg cap h s) (hd : DistinctAdds h) {ts : List TypeId} {refs : List Ref}
    (h0 : ItemFor U dbg h s ts refs) {r : Ref} (hr : r ∈ refs) : RefOf U dbg h s ts r := by
  have hl := h0.length hx hd
  obtain ⟨e, he, h1⟩ := h0
  obtain ⟨i, hi, rfl⟩ := List.mem_iff_getElem.1 hr
  exact ⟨e, he, ts[i]'(by omega), List.getElem_mem _, Store.getComponentsRefs_single h1
    (List.getElem?_eq_getElem (by omega)) (List.getElem?_eq_getElem hi)⟩

theorem ItemFor.writes {acc : Access} {refs : List Ref} (h0 : ItemFor U dbg h s acc.types refs) :
    ItemFor U dbg h s acc.writes (refs.drop acc.reads.length) := by
  obtain ⟨e, he, h1⟩ := h0
  rw [access_types_eq] at h1
  exact ⟨e, he, Store.getComponentsRefs_drop h1⟩

theorem split_loose {ι τ : Type} (hx : LooseExec U dbg cap h s) (hd : DistinctAdds h) (hr : RowsFit s) {query : ι → Query}
    {body : ι → Body τ} (hc : ∀ i j, i ≠ j → Compatible (query i).access (query j).access)
    (hb : ∀ i e vs x, Gives U (query i).access.writes (body i e vs x).1) :
    Split s.archs.pages.length query body (fun i item => ItemFor U dbg h s (query i).access.types item.refs)
      (fun i => RefOf U dbg h s (query i).access.types) (fun i => RefOf U dbg h s (query i).access.writes) where
  own h0 r hr' := h0.refOf hx hd hr'
  wr h0 r hr' := h0.writes.refOf hx hd hr'
  fit h0 := refOf_inPages hx hd hr h0
  size := by
    intro i item h0 vs x y hy
    obtain ⟨e, he, h1⟩ := h0.writes
    have h2 := List.forall₂_iff_get.1 (loose_refs_placed hx hd he h1)
    have h3 := List.forall₂_iff_get.1 (hb i item.entity vs x)
    obtain ⟨k, hk, rfl⟩ := List.mem_iff_getElem.1 hy
    rw [List.length_zip] at hk
    rw [List.getElem_zip]
    have h4 := (h2.2 k (by omega) (by omega)).2.1
    have h5 := h3.2 k (by omega) (by omega)
    simp only [List.get_eq_getElem] at h4 h5
    rw [h5, h4]
  apart hij _ _ h0 h1 := refOf_apart hx hd hr (hc _ _ hij).1 h0 h1

/-- Reading a component, in terms of the bytes. -/
theorem getComponents_like (hx : LooseExec U dbg cap h s) (hd : DistinctAdds h) (hr : RowsFit s) {pages pages' : List Page}
    (hp : Like s pages) (hp' : Like s pages') {e : Entity} (he : e ∈ handles h) {t : TypeId}
    (ha : ∀ r, s.getComponentsRefs U dbg e [t] = .ok (some [r]) → cells pages r = cells pages' r) :
    (s.setPages pages).getComponents U dbg e [t] = (s.setPages pages').getComponents U dbg e [t] := by
  unfold Store.getComponents
  have h1 : (s.setPages pages).getComponentsRefs U dbg e [t] = s.getComponentsRefs U dbg e [t] :=
    (StoreLike.refs (StoreLike.withPages (s := s) hp) e [t]).symm
  have h2 : (s.setPages pages').getComponentsRefs U dbg e [t] = s.getComponentsRefs U dbg e [t] :=
    (StoreLike.refs (StoreLike.withPages (s := s) hp') e [t]).symm
  rw [h1, h2]
  cases h3 : s.getComponentsRefs U dbg e [t] with
  | error x => rfl
  | ok o =>
    cases o with
    | none => rfl
    | some refs =>
      have h4 := loose_refs_placed hx hd he h3
      cases h4 with
      | cons hb hn =>
        cases hn
        rename_i r
        have h5 : InPages s.archs.pages.length r := ⟨hb.1, hb.2.2.2 hr⟩
        simp only [ok_bind, mapM_ok_cons, show (s.setPages pages).archs.pages = pages from rfl,
          show (s.setPages pages').archs.pages = pages' from rfl, readRef_of (pages := pages) (by rw [hp.len]; exact h5),
          readRef_of (pages := pages') (by rw [hp'.len]; exact h5), ha r h3]
        rfl

end

end Ecs
