import Verif.Spec.TuplePtrs
import Verif.Proofs.RefsLoose
import Verif.Proofs.QueryRows
import Mathlib.Data.List.Forall2

/-! Lemmas about `Model/TuplePtrs.lean`. -/

namespace Ecs.Ptrs

theorem mapM_ok {ε α β : Type} {f : α → Except ε β} {l : List α} {ys : List β} :
    l.mapM f = .ok ys ↔ List.Forall₂ (fun x y => f x = .ok y) l ys := by
  induction l generalizing ys with
  | nil =>
    constructor
    · intro h; cases h; exact .nil
    · intro h; cases h; rfl
  | cons a l ih =>
    rw [List.mapM_cons]
    constructor
    · intro h
      cases ha : f a with
      | error e => rw [ha] at h; cases h
      | ok b =>
        cases hl : l.mapM f with
        | error e => rw [ha, hl] at h; cases h
        | ok bs => rw [ha, hl] at h; cases h; exact .cons ha (ih.1 hl)
    · intro h
      cases h with
      | cons h1 h2 => rw [h1, ih.2 h2]; rfl

theorem mapM_error {ε α β : Type} {f : α → Except ε β} {l : List α} {e : ε} (h : l.mapM f = .error e) :
    ∃ x ∈ l, f x = .error e := by
  induction l with
  | nil => cases h
  | cons a l ih =>
    rw [List.mapM_cons] at h
    cases ha : f a with
    | error e' => rw [ha] at h; cases h; exact ⟨a, List.mem_cons_self, ha⟩
    | ok b =>
      cases hl : l.mapM f with
      | error e' =>
        rw [ha, hl] at h
        cases h
        obtain ⟨x, h1, h2⟩ := ih hl
        exact ⟨x, List.mem_cons_of_mem _ h1, h2⟩
      | ok bs => rw [ha, hl] at h; cases h

/-- Each name has the value of its position. -/
theorem get_zip {α : Type} {names : List Ident} {vals : List α} (hn : names.Nodup) (hl : names.length = vals.length) :
    List.Forall₂ (fun x v => Env.get (names.zip vals) x = .ok v) names vals := by
  induction names generalizing vals with
  | nil => cases vals with
    | nil => exact .nil
    | cons => cases hl
  | cons n names ih => cases vals with
    | nil => cases hl
    | cons v vals =>
      rw [List.nodup_cons] at hn
      refine .cons (by simp [Env.get, List.lookup]) ?_
      have := ih hn.2 (Nat.succ.inj hl)
      rw [List.forall₂_iff_get] at this ⊢
      refine ⟨this.1, fun i h1 h2 => ?_⟩
      rw [← this.2 i h1 h2]
      have hne : names.get ⟨i, h1⟩ ≠ n := fun h => hn.1 (h ▸ List.get_mem _ _)
      have hb : (names.get ⟨i, h1⟩ == n) = false := by simpa using hne
      simp only [Env.get, List.zip_cons_cons, List.lookup, hb]

theorem idents_nodup : ∀ n < 13, (tupleIdents n).Nodup ∧
    ((tupleIdents n).map lower ++ (tupleIdents n).map vLower).Nodup := by decide

theorem idents_length (n : Nat) : (tupleIdents n).length = n := by simp [tupleIdents]

/-- A generated function works component by component. -/
theorem expand {α β : Type} {ts : List TypeId} {vals : List α} (hn : ts.length < 13) (hl : vals.length = ts.length)
    (f : TypeId → α → Except PtrFault β) :
    ((tupleIdents ts.length).mapM fun T => do
      let t ← (typesOf ts).get T
      let v ← (bindLower (tupleIdents ts.length) vals).get (lower T)
      f t v) = (ts.zip vals).mapM fun p => f p.1 p.2 := by
  have h1 := get_zip (vals := ts) (idents_nodup _ hn).1 (idents_length _)
  have h2 := get_zip (vals := vals) (List.nodup_append.1 (idents_nodup _ hn).2).1 (by rw [List.length_map, idents_length, hl])
  rw [List.forall₂_map_left_iff] at h2
  change List.Forall₂ (fun x v => (typesOf ts).get x = .ok v) _ _ at h1
  change List.Forall₂ (fun x v => (bindLower (tupleIdents ts.length) vals).get (lower x) = .ok v) _ _ at h2
  generalize typesOf ts = E1 at *
  generalize bindLower (tupleIdents ts.length) vals = E2 at *
  generalize tupleIdents ts.length = Ts at *
  clear hn hl
  induction h1 generalizing vals with
  | nil => cases h2; rfl
  | cons h h1 ih =>
    cases h2 with
    | cons h' h2 =>
      rw [List.mapM_cons, List.zip_cons_cons, List.mapM_cons, h, h', ih h2]
      rfl

theorem expand_assign {α β : Type} {n : Nat} {refs : List α} {vals : List β} (hn : n < 13) (h1 : refs.length = n)
    (h2 : vals.length = n) : assignToRefsP (tupleIdents n) refs vals = .ok (refs.zip vals) := by
  have hnd := (idents_nodup n hn).2
  rw [← List.length_map (f := (Sum.inl : α → α ⊕ β))] at h1
  rw [← List.length_map (f := (Sum.inr : β → α ⊕ β))] at h2
  have key := get_zip (vals := refs.map (Sum.inl : α → α ⊕ β) ++ vals.map Sum.inr) hnd (by
    rw [List.length_append, List.length_append, List.length_map, List.length_map, idents_length, h1, h2])
  have he : ((bindLower (tupleIdents n) refs).map (fun x => (x.1, (Sum.inl x.2 : α ⊕ β))) ++
      (bindVLower (tupleIdents n) vals).map (fun x => (x.1, (Sum.inr x.2 : α ⊕ β)))) =
      ((tupleIdents n).map lower ++ (tupleIdents n).map vLower).zip (refs.map (Sum.inl : α → α ⊕ β) ++ vals.map Sum.inr) := by
    rw [List.zip_append (by rw [List.length_map, idents_length, h1])]
    congr 1
    · unfold bindLower; rw [List.zip_map_right]; rfl
    · unfold bindVLower; rw [List.zip_map_right]; rfl
  unfold assignToRefsP
  simp only [he]
  generalize hE : ((tupleIdents n).map lower ++ (tupleIdents n).map vLower).zip
    (refs.map (Sum.inl : α → α ⊕ β) ++ vals.map Sum.inr) = E at *
  have k := List.forall₂_iff_get.1 key
  have a1 : List.Forall₂ (fun x v => Env.get E (lower x) = .ok (Sum.inl v)) (tupleIdents n) refs := by
    rw [List.forall₂_iff_get]
    rw [List.length_map] at h1
    refine ⟨by rw [idents_length, h1], fun i hi hi' => ?_⟩
    have := k.2 i (by rw [List.length_append, List.length_map]; omega) (by rw [List.length_append, List.length_map]; omega)
    simp only [List.get_eq_getElem] at this ⊢
    rw [List.getElem_append_left (by rw [List.length_map]; exact hi),
      List.getElem_append_left (by rw [List.length_map]; exact hi')] at this
    simpa using this
  have a2 : List.Forall₂ (fun x v => Env.get E (vLower x) = .ok (Sum.inr v)) (tupleIdents n) vals := by
    rw [List.forall₂_iff_get]
    rw [List.length_map] at h1 h2
    refine ⟨by rw [idents_length, h2], fun i hi hi' => ?_⟩
    have hil := idents_length n
    have := k.2 (n + i) (by simp only [List.length_append, List.length_map]; omega)
      (by simp only [List.length_append, List.length_map]; omega)
    simp only [List.get_eq_getElem] at this ⊢
    rw [List.getElem_append_right (by rw [List.length_map]; omega),
      List.getElem_append_right (by rw [List.length_map]; omega)] at this
    simp only [List.getElem_map, List.length_map, hil, h1, Nat.add_sub_cancel_left] at this
    exact this
  clear key k he hE hnd
  generalize tupleIdents n = Ts at *
  clear h1 h2 hn
  induction a1 generalizing vals with
  | nil => cases a2; rfl
  | cons h a1 ih =>
    cases a2 with
    | cons h' a2 =>
      rw [List.mapM_cons, List.zip_cons_cons]
      rw [h, h', ih a2]
      rfl

section
variable {U : Universe} {dbg : Bool} {base : Nat → Nat} {page i : Nat}

theorem pageDataPtr_eq {o sz : Nat} (hw : o + i * sz < usizeSize) : pageDataPtr dbg base page i o sz =
    if o + i * sz ≤ PAGE_SIZE then .ok ⟨base page + (o + i * sz), some page⟩ else .error .leavesBlock := by
  have h1 : i * sz < usizeSize := by omega
  have e1 : word (Layout.mulUsize dbg i sz) = .ok (i * sz) := by unfold Layout.mulUsize; rw [if_pos h1]; rfl
  have e2 : word (Layout.addUsize dbg o (i * sz)) = .ok (o + i * sz) := by unfold Layout.addUsize; rw [if_pos hw]; rfl
  unfold pageDataPtr
  rw [e1]
  show (word (Layout.addUsize dbg o (i * sz)) >>= _) = _
  rw [e2]
  show RawPtr.add base ⟨base page, some page⟩ (o + i * sz) 1 = _
  unfold RawPtr.add RawPtr.within pageMemory MemLayout.of
  by_cases h : o + i * sz ≤ PAGE_SIZE
  · rw [if_pos h, if_pos (by simp; omega)]
    simp
  · rw [if_neg h, if_neg (by simp; omega)]

/-- The way of `get_refs`, for one component. -/
theorem direct_eq {t : TypeId} {o : Nat} (hw : o + i * U.size t < usizeSize) :
    (do let p ← pageDataPtr dbg base page i o (U.size t); p.toRef U base t) =
      if o + i * U.size t + U.size t ≤ PAGE_SIZE ∧ base page + (o + i * U.size t) ≠ 0 ∧
          (base page + (o + i * U.size t)) % U.align t = 0 then .ok (base page + (o + i * U.size t))
      else if o + i * U.size t ≤ PAGE_SIZE then .error .invalidRef else .error .leavesBlock := by
  rw [pageDataPtr_eq hw]
  by_cases h : o + i * U.size t ≤ PAGE_SIZE
  · rw [if_pos h, if_pos h]
    show RawPtr.toRef U base t _ = _
    unfold RawPtr.toRef RawPtr.within pageMemory MemLayout.of
    refine if_congr ?_ rfl rfl
    simp
    omega
  · rw [if_neg h, if_neg h, if_neg (by omega)]
    rfl

/-- The way of queries, for one component. -/
theorem query_eq {t : TypeId} {o : Nat} (hw : o + i * U.size t < usizeSize) :
    (do let p ← pageDataPtr dbg base page 0 o (U.size t); let p ← p.add base i (U.size t); p.toRef U base t) =
      (do let p ← pageDataPtr dbg base page i o (U.size t); p.toRef U base t) := by
  rw [pageDataPtr_eq hw, pageDataPtr_eq (i := 0) (by omega), Nat.zero_mul, Nat.add_zero]
  by_cases h : o + i * U.size t ≤ PAGE_SIZE
  · rw [if_pos h, if_pos (by omega)]
    show (do let p ← RawPtr.add base _ i (U.size t); p.toRef U base t) = _
    have : RawPtr.add base ⟨base page + o, some page⟩ i (U.size t) = .ok ⟨base page + (o + i * U.size t), some page⟩ := by
      unfold RawPtr.add RawPtr.within pageMemory MemLayout.of
      rw [if_pos (by simp; omega), Nat.add_assoc]
    rw [this]
  · rw [if_neg h]
    by_cases h' : o ≤ PAGE_SIZE
    · rw [if_pos h']
      show (do let p ← RawPtr.add base _ i (U.size t); p.toRef U base t) = _
      have : RawPtr.add base ⟨base page + o, some page⟩ i (U.size t) = .error .leavesBlock := by
        unfold RawPtr.add RawPtr.within pageMemory MemLayout.of
        rw [if_neg (by simp; omega)]
      rw [this]
    · rw [if_neg h']
      rfl

theorem getRefsP_eq {ts : List TypeId} {os : List Nat} (hn : ts.length < 13) (hl : os.length = ts.length) :
    getRefsP U dbg base (tupleIdents ts.length) (typesOf ts) page i os =
      (ts.zip os).mapM (fun p => do let q ← pageDataPtr dbg base page i p.2 (U.size p.1); q.toRef U base p.1) :=
  expand hn hl fun t o => (do let q ← pageDataPtr dbg base page i o (U.size t); q.toRef U base t)

theorem getPtrsP_eq {ts : List TypeId} {os : List Nat} (hn : ts.length < 13) (hl : os.length = ts.length) :
    getPtrsP U dbg base (tupleIdents ts.length) (typesOf ts) page os =
      (ts.zip os).mapM fun p => pageDataPtr dbg base page 0 p.2 (U.size p.1) :=
  expand hn hl fun t o => pageDataPtr dbg base page 0 o (U.size t)

theorem addToPtrsP_eq {ts : List TypeId} {ps : List RawPtr} (hn : ts.length < 13) (hl : ps.length = ts.length) :
    addToPtrsP U base (tupleIdents ts.length) (typesOf ts) ps i = (ts.zip ps).mapM fun p => p.2.add base i (U.size p.1) :=
  expand hn hl fun t p => p.add base i (U.size t)

theorem ptrsToRefsP_eq {ts : List TypeId} {ps : List RawPtr} (hn : ts.length < 13) (hl : ps.length = ts.length) :
    ptrsToRefsP U base (tupleIdents ts.length) (typesOf ts) ps = (ts.zip ps).mapM fun p => p.2.toRef U base p.1 :=
  expand hn hl fun t p => p.toRef U base t

end

/-- One `mapM` after the other, both over the same types. -/
theorem mapM_then {α β γ : Type} {ts : List TypeId} {xs : List α} {f : TypeId → α → Except PtrFault β}
    {g : TypeId → β → Except PtrFault γ} {zs : List γ} (hl : xs.length = ts.length) :
    (∃ ys, (ts.zip xs).mapM (fun p => f p.1 p.2) = .ok ys ∧ ys.length = ts.length ∧
      (ts.zip ys).mapM (fun p => g p.1 p.2) = .ok zs) ↔
    (ts.zip xs).mapM (fun p => do let y ← f p.1 p.2; g p.1 y) = .ok zs := by
  simp only [mapM_ok]
  induction ts generalizing xs zs with
  | nil =>
    constructor
    · rintro ⟨ys, _, h2, h3⟩
      rw [List.zip_nil_left] at *
      cases h3
      exact .nil
    · intro h
      rw [List.zip_nil_left] at h
      cases h
      exact ⟨[], .nil, rfl, .nil⟩
  | cons t ts ih =>
    cases xs with
    | nil => cases hl
    | cons x xs =>
      rw [List.zip_cons_cons]
      have ih := fun zs => ih (xs := xs) (zs := zs) (Nat.succ.inj hl)
      constructor
      · rintro ⟨ys, h1, h2, h3⟩
        cases h1 with
        | @cons _ y _ ys h1 h1' =>
          rw [List.zip_cons_cons] at h3
          cases h3 with
          | @cons _ z _ zs h3 h3' =>
            refine .cons ?_ ((ih zs).1 ⟨ys, h1', Nat.succ.inj h2, h3'⟩)
            show (f t x >>= fun y => g t y) = _
            have h1 : f t x = .ok y := h1
            rw [h1]
            exact h3
      · intro h
        cases h with
        | @cons _ z _ zs h h' =>
          obtain ⟨ys, h1, h2, h3⟩ := (ih zs).2 h'
          have h : (f t x >>= fun y => g t y) = .ok z := h
          cases hf : f t x with
          | error e => rw [hf] at h; cases h
          | ok y =>
            rw [hf] at h
            exact ⟨y :: ys, .cons hf h1, by rw [List.length_cons, List.length_cons, h2], .cons h h3⟩

section
variable {U : Universe} {dbg : Bool} {base : Nat → Nat} {page i : Nat}

theorem mapM_length {ts : List TypeId} {α β : Type} {xs : List α} {f : TypeId × α → Except PtrFault β} {ys : List β}
    (hl : xs.length = ts.length) (h : (ts.zip xs).mapM f = .ok ys) : ys.length = ts.length := by
  have := (mapM_ok.1 h).length_eq
  rw [List.length_zip, hl, Nat.min_self] at this
  exact this.symm

theorem queryRefsP_ok {ts : List TypeId} {os as : List Nat} (hn : ts.length < 13) (hl : os.length = ts.length)
    (hw : ∀ p ∈ ts.zip os, p.2 + i * U.size p.1 < usizeSize) :
    queryRefsP U dbg base (tupleIdents ts.length) (typesOf ts) page i os = .ok as ↔
      getRefsP U dbg base (tupleIdents ts.length) (typesOf ts) page i os = .ok as := by
  have e1 : (ts.zip os).mapM (fun p => do let q ← pageDataPtr dbg base page i p.2 (U.size p.1); q.toRef U base p.1) =
      (ts.zip os).mapM (fun p => do
        let q ← pageDataPtr dbg base page 0 p.2 (U.size p.1)
        let q ← q.add base i (U.size p.1)
        q.toRef U base p.1) := by
    have : ∀ l : List (TypeId × Nat), (∀ p ∈ l, p.2 + i * U.size p.1 < usizeSize) →
        l.mapM (fun p => do let q ← pageDataPtr dbg base page i p.2 (U.size p.1); q.toRef U base p.1) =
        l.mapM (fun p => do
          let q ← pageDataPtr dbg base page 0 p.2 (U.size p.1)
          let q ← q.add base i (U.size p.1)
          q.toRef U base p.1) := by
      intro l hl
      induction l with
      | nil => rfl
      | cons p l ih =>
        rw [List.mapM_cons, List.mapM_cons, ih fun p hp => hl p (List.mem_cons_of_mem _ hp), ← query_eq (hl p List.mem_cons_self)]
    exact this _ hw
  rw [getRefsP_eq hn hl, e1]
  rw [← mapM_then (f := fun t o => pageDataPtr dbg base page 0 o (U.size t))
    (g := fun t q => do let q ← q.add base i (U.size t); q.toRef U base t) hl]
  unfold queryRefsP
  rw [getPtrsP_eq hn hl]
  constructor
  · intro h
    cases h1 : (ts.zip os).mapM (fun p => pageDataPtr dbg base page 0 p.2 (U.size p.1)) with
    | error e => rw [h1] at h; cases h
    | ok ps =>
      rw [h1] at h
      have l1 := mapM_length hl h1
      refine ⟨ps, rfl, l1, (mapM_then (f := fun t (q : RawPtr) => q.add base i (U.size t)) (g := fun t q => q.toRef U base t) l1).1 ?_⟩
      change (do let qs ← addToPtrsP U base _ (typesOf ts) ps i; ptrsToRefsP U base _ (typesOf ts) qs) = _ at h
      rw [addToPtrsP_eq hn l1] at h
      cases h2 : (ts.zip ps).mapM (fun p => p.2.add base i (U.size p.1)) with
      | error e => rw [h2] at h; cases h
      | ok qs =>
        rw [h2] at h
        have l2 := mapM_length l1 h2
        exact ⟨qs, rfl, l2, by rw [← ptrsToRefsP_eq hn l2]; exact h⟩
  · rintro ⟨ps, h1, l1, h2⟩
    obtain ⟨qs, h2, l2, h3⟩ := (mapM_then (f := fun t (q : RawPtr) => q.add base i (U.size t)) (g := fun t q => q.toRef U base t) l1).2 h2
    rw [h1]
    show (do let qs ← addToPtrsP U base _ (typesOf ts) ps i; ptrsToRefsP U base _ (typesOf ts) qs) = _
    rw [addToPtrsP_eq hn l1, h2]
    show ptrsToRefsP U base _ (typesOf ts) qs = _
    rw [ptrsToRefsP_eq hn l2]
    exact h3

open Spec

theorem forall_refs {R : TypeId → Ref → Prop} {ts : List TypeId} {os : List Nat} (hl : os.length = ts.length) :
    List.Forall₂ R ts (getRefs U page i ts os) ↔
      ∀ p ∈ ts.zip os, R p.1 ⟨page, Page.dataPtr i p.2 (U.size p.1), U.size p.1⟩ := by
  unfold getRefs
  induction ts generalizing os with
  | nil => simp
  | cons t ts ih =>
    cases os with
    | nil => cases hl
    | cons o os =>
      rw [List.zip_cons_cons, List.map_cons, List.forall₂_cons, ih (Nat.succ.inj hl)]
      simp

theorem getRefsP_ok {ts : List TypeId} {os as : List Nat} (hn : ts.length < 13) (hl : os.length = ts.length)
    (hw : ∀ p ∈ ts.zip os, p.2 + i * U.size p.1 < usizeSize) :
    getRefsP U dbg base (tupleIdents ts.length) (typesOf ts) page i os = .ok as ↔
      as = (getRefs U page i ts os).map (Ref.address base) ∧ List.Forall₂ (ValidAt U base) ts (getRefs U page i ts os) := by
  rw [getRefsP_eq hn hl, forall_refs hl, mapM_ok]
  have key : ∀ {l : List (TypeId × Nat)} {as : List Nat}, (∀ p ∈ l, p.2 + i * U.size p.1 < usizeSize) →
      (List.Forall₂ (fun p a => (do
        let q ← pageDataPtr dbg base page i p.2 (U.size p.1)
        q.toRef U base p.1) = .ok a) l as ↔
      as = l.map (fun p => base page + (p.2 + i * U.size p.1)) ∧
        ∀ p ∈ l, ValidAt U base p.1 ⟨page, Page.dataPtr i p.2 (U.size p.1), U.size p.1⟩) := by
    intro l
    induction l with
    | nil => intro as _; simp
    | cons p l ih =>
      intro as hw
      have hp := direct_eq (dbg := dbg) (base := base) (page := page) (hw p List.mem_cons_self)
      have hv : ValidAt U base p.1 ⟨page, Page.dataPtr i p.2 (U.size p.1), U.size p.1⟩ ↔
          (p.2 + i * U.size p.1 + U.size p.1 ≤ PAGE_SIZE ∧ base page + (p.2 + i * U.size p.1) ≠ 0 ∧
          (base page + (p.2 + i * U.size p.1)) % U.align p.1 = 0) := Iff.rfl
      constructor
      · intro h
        cases h with
        | cons h h' =>
          obtain ⟨rfl, h2⟩ := (ih fun p hp => hw p (List.mem_cons_of_mem _ hp)).1 h'
          rw [hp] at h
          split at h
          · next hg =>
            cases h
            refine ⟨rfl, fun q hq => ?_⟩
            rcases List.mem_cons.1 hq with rfl | hq
            · exact hv.2 hg
            · exact h2 q hq
          · split at h <;> cases h
      · rintro ⟨rfl, h⟩
        refine .cons ?_ ((ih fun p hp => hw p (List.mem_cons_of_mem _ hp)).2 ⟨rfl, fun q hq => h q (List.mem_cons_of_mem _ hq)⟩)
        rw [hp, if_pos (hv.1 (h p List.mem_cons_self))]
  rw [key hw]
  unfold getRefs
  rw [List.map_map]
  rfl

theorem toRef_ub {t : TypeId} {p : RawPtr} {f : PtrFault} (h : p.toRef U base t = .error f) : f.isUb = true := by
  unfold RawPtr.toRef at h
  split at h
  · cases h
  · cases h; rfl

theorem add_ub {n sz : Nat} {p : RawPtr} {f : PtrFault} (h : p.add base n sz = .error f) : f.isUb = true := by
  unfold RawPtr.add at h
  split at h
  · cases h
  · cases h; rfl

theorem getRefsP_ub {ts : List TypeId} {os : List Nat} (hn : ts.length < 13) (hl : os.length = ts.length)
    (hw : ∀ p ∈ ts.zip os, p.2 + i * U.size p.1 < usizeSize) {f : PtrFault}
    (h : getRefsP U dbg base (tupleIdents ts.length) (typesOf ts) page i os = .error f) : f.isUb = true := by
  rw [getRefsP_eq hn hl] at h
  obtain ⟨p, hp, h⟩ := mapM_error h
  rw [direct_eq (hw p hp)] at h
  split at h
  · cases h
  · split at h <;> cases h <;> rfl

theorem getPtrsP_ub {ts : List TypeId} {os : List Nat} (hn : ts.length < 13) (hl : os.length = ts.length)
    (hw : ∀ p ∈ ts.zip os, p.2 + i * U.size p.1 < usizeSize) {f : PtrFault}
    (h : getPtrsP U dbg base (tupleIdents ts.length) (typesOf ts) page os = .error f) : f.isUb = true := by
  rw [getPtrsP_eq hn hl] at h
  obtain ⟨p, hp, h⟩ := mapM_error h
  rw [pageDataPtr_eq (by have := hw p hp; omega)] at h
  split at h <;> cases h
  rfl

theorem addToPtrsP_ub {ts : List TypeId} {ps : List RawPtr} (hn : ts.length < 13) (hl : ps.length = ts.length) {f : PtrFault}
    (h : addToPtrsP U base (tupleIdents ts.length) (typesOf ts) ps i = .error f) : f.isUb = true := by
  rw [addToPtrsP_eq hn hl] at h
  obtain ⟨p, hp, h⟩ := mapM_error h
  exact add_ub h

theorem ptrsToRefsP_ub {ts : List TypeId} {ps : List RawPtr} (hn : ts.length < 13) (hl : ps.length = ts.length) {f : PtrFault}
    (h : ptrsToRefsP U base (tupleIdents ts.length) (typesOf ts) ps = .error f) : f.isUb = true := by
  rw [ptrsToRefsP_eq hn hl] at h
  obtain ⟨p, hp, h⟩ := mapM_error h
  exact toRef_ub h

/-- The three steps of a query for one tuple, with the intermediate results. -/
theorem queryRefsP_steps {ts : List TypeId} {os : List Nat} (hn : ts.length < 13) (hl : os.length = ts.length)
    (hw : ∀ p ∈ ts.zip os, p.2 + i * U.size p.1 < usizeSize) :
    (∃ ps qs as, getPtrsP U dbg base (tupleIdents ts.length) (typesOf ts) page os = .ok ps ∧
      addToPtrsP U base (tupleIdents ts.length) (typesOf ts) ps i = .ok qs ∧
      ptrsToRefsP U base (tupleIdents ts.length) (typesOf ts) qs = .ok as ∧
      queryRefsP U dbg base (tupleIdents ts.length) (typesOf ts) page i os = .ok as) ∨
    ∃ f, f.isUb = true ∧ queryRefsP U dbg base (tupleIdents ts.length) (typesOf ts) page i os = .error f ∧
      (getPtrsP U dbg base (tupleIdents ts.length) (typesOf ts) page os = .error f ∨
      ∃ ps, getPtrsP U dbg base (tupleIdents ts.length) (typesOf ts) page os = .ok ps ∧
        (addToPtrsP U base (tupleIdents ts.length) (typesOf ts) ps i = .error f ∨
        ∃ qs, addToPtrsP U base (tupleIdents ts.length) (typesOf ts) ps i = .ok qs ∧
          ptrsToRefsP U base (tupleIdents ts.length) (typesOf ts) qs = .error f)) := by
  unfold queryRefsP
  cases h1 : getPtrsP U dbg base (tupleIdents ts.length) (typesOf ts) page os with
  | error f => exact .inr ⟨f, getPtrsP_ub hn hl hw h1, rfl, .inl rfl⟩
  | ok ps =>
    have l1 : ps.length = ts.length := mapM_length hl (by rw [← getPtrsP_eq hn hl]; exact h1)
    cases h2 : addToPtrsP U base (tupleIdents ts.length) (typesOf ts) ps i with
    | error f => exact .inr ⟨f, addToPtrsP_ub hn l1 h2, by show (addToPtrsP _ _ _ _ _ _ >>= _) = _; rw [h2]; rfl, .inr ⟨ps, rfl, .inl h2⟩⟩
    | ok qs =>
      have l2 : qs.length = ts.length := mapM_length l1 (by rw [← addToPtrsP_eq hn l1]; exact h2)
      cases h3 : ptrsToRefsP U base (tupleIdents ts.length) (typesOf ts) qs with
      | error f =>
        refine .inr ⟨f, ptrsToRefsP_ub hn l2 h3, ?_, .inr ⟨ps, rfl, .inr ⟨qs, h2, h3⟩⟩⟩
        show (addToPtrsP _ _ _ _ _ _ >>= _) = _
        rw [h2]
        exact h3
      | ok as =>
        refine .inl ⟨ps, qs, as, rfl, h2, h3, ?_⟩
        show (addToPtrsP _ _ _ _ _ _ >>= _) = _
        rw [h2]
        exact h3

theorem zip_split {rs ws : List TypeId} {os : List Nat} (hl : os.length = rs.length + ws.length) :
    (rs ++ ws).zip os = rs.zip (os.take rs.length) ++ ws.zip (os.drop rs.length) := by
  conv_lhs => rw [← List.take_append_drop rs.length os]
  rw [List.zip_append (by rw [List.length_take]; omega)]

theorem getRefs_split {rs ws : List TypeId} {os : List Nat} (hl : os.length = rs.length + ws.length) :
    getRefs U page i (rs ++ ws) os = getRefs U page i rs (os.take rs.length) ++ getRefs U page i ws (os.drop rs.length) := by
  unfold getRefs
  rw [zip_split hl, List.map_append]

theorem accessRefsP_spec {acc : Access} {os : List Nat} (hn : HasInstances acc) (hl : os.length = acc.types.length)
    (hw : ∀ p ∈ acc.types.zip os, p.2 + i * U.size p.1 < usizeSize) :
    (∀ as, accessRefsP U dbg base acc page i os = .ok as ↔
      as = (getRefs U page i acc.types os).map (Ref.address base) ∧
        List.Forall₂ (ValidAt U base) acc.types (getRefs U page i acc.types os)) ∧
    ∀ f, accessRefsP U dbg base acc page i os = .error f → f.isUb = true := by
  have one : ∀ {ts : List TypeId} {os : List Nat}, ts.length < 13 → os.length = ts.length →
      (∀ p ∈ ts.zip os, p.2 + i * U.size p.1 < usizeSize) →
      (∀ as, queryRefsP U dbg base (tupleIdents ts.length) (typesOf ts) page i os = .ok as ↔
        as = (getRefs U page i ts os).map (Ref.address base) ∧ List.Forall₂ (ValidAt U base) ts (getRefs U page i ts os)) ∧
      ∀ f, queryRefsP U dbg base (tupleIdents ts.length) (typesOf ts) page i os = .error f → f.isUb = true := by
    intro ts os h1 h2 h3
    refine ⟨fun as => (queryRefsP_ok h1 h2 h3).trans (getRefsP_ok h1 h2 h3), fun f hf => ?_⟩
    rcases queryRefsP_steps (dbg := dbg) (base := base) (page := page) h1 h2 h3 with ⟨_, _, as, _, _, _, h⟩ | ⟨f', h4, h5, _⟩
    · rw [hf] at h; cases h
    · rw [hf] at h5; cases h5; exact h4
  cases acc with
  | readonly ts => exact one (Nat.lt_succ_of_le hn) hl hw
  | write ts => exact one (Nat.lt_succ_of_le hn) hl hw
  | readWrite rs ws =>
    have hl' : os.length = rs.length + ws.length := by rw [hl]; exact List.length_append
    have l1 : (os.take rs.length).length = rs.length := by rw [List.length_take]; omega
    have l2 : (os.drop rs.length).length = ws.length := by rw [List.length_drop]; omega
    have hw' : ∀ p ∈ rs.zip (os.take rs.length) ++ ws.zip (os.drop rs.length), p.2 + i * U.size p.1 < usizeSize := by
      rw [← zip_split hl']; exact hw
    have w1 := fun p hp => hw' p (List.mem_append_left _ hp)
    have w2 := fun p hp => hw' p (List.mem_append_right _ hp)
    have n1 : rs.length < 13 := Nat.lt_succ_of_le hn.1
    have n2 : ws.length < 13 := Nat.lt_succ_of_le hn.2
    obtain ⟨o1, -⟩ := one n1 l1 w1
    obtain ⟨o2, -⟩ := one n2 l2 w2
    have e : getRefs U page i (Access.readWrite rs ws).types os =
      getRefs U page i rs (os.take rs.length) ++ getRefs U page i ws (os.drop rs.length) := getRefs_split hl'
    have hlen : (getRefs U page i rs (os.take rs.length)).length = rs.length := by
      unfold getRefs; rw [List.length_map, List.length_zip, l1, Nat.min_self]
    have hlen2 : (getRefs U page i ws (os.drop rs.length)).length = ws.length := by
      unfold getRefs; rw [List.length_map, List.length_zip, l2, Nat.min_self]
    have hsplit : List.Forall₂ (ValidAt U base) (rs ++ ws)
        (getRefs U page i rs (os.take rs.length) ++ getRefs U page i ws (os.drop rs.length)) ↔
        List.Forall₂ (ValidAt U base) rs (getRefs U page i rs (os.take rs.length)) ∧
        List.Forall₂ (ValidAt U base) ws (getRefs U page i ws (os.drop rs.length)) := by
      have hp : ∀ p ∈ rs.zip (os.take rs.length) ++ ws.zip (os.drop rs.length), True := fun _ _ => trivial
      rw [forall_refs l1, forall_refs l2, ← getRefs_split hl', forall_refs (by rw [hl', List.length_append]), zip_split hl']
      simp only [List.mem_append, or_imp, forall_and]
    rw [e]
    have ht : (Access.readWrite rs ws).types = rs ++ ws := rfl
    rw [ht, hsplit]
    unfold accessRefsP
    simp only
    rcases queryRefsP_steps (dbg := dbg) (base := base) (page := page) n1 l1 w1 with ⟨ps, qs, as, a1, a2, a3, a4⟩ | ⟨f, f1, f2, f3⟩
    · rcases queryRefsP_steps (dbg := dbg) (base := base) (page := page) n2 l2 w2 with
        ⟨ps', qs', as', b1, b2, b3, b4⟩ | ⟨g, g1, g2, g3⟩
      · have c : (do
            let r ← getPtrsP U dbg base (tupleIdents rs.length) (typesOf rs) page (os.take rs.length)
            let w ← getPtrsP U dbg base (tupleIdents ws.length) (typesOf ws) page (os.drop rs.length)
            let r ← addToPtrsP U base (tupleIdents rs.length) (typesOf rs) r i
            let w ← addToPtrsP U base (tupleIdents ws.length) (typesOf ws) w i
            let r ← ptrsToRefsP U base (tupleIdents rs.length) (typesOf rs) r
            let w ← ptrsToRefsP U base (tupleIdents ws.length) (typesOf ws) w
            return r ++ w : Except PtrFault (List Nat)) = .ok (as ++ as') := by
          simp only [a1, b1, a2, b2, a3, b3, bind, Except.bind, Pure.pure, Except.pure]
        rw [c]
        obtain ⟨rfl, v1⟩ := (o1 as).1 a4
        obtain ⟨rfl, v2⟩ := (o2 as').1 b4
        refine ⟨fun as => ⟨fun h => ?_, fun h => ?_⟩, fun f h => by cases h⟩
        · cases h; exact ⟨List.map_append.symm, v1, v2⟩
        · rw [h.1, List.map_append]
      · have nv : ¬ List.Forall₂ (ValidAt U base) ws (getRefs U page i ws (os.drop rs.length)) := fun hv => by
          have := (o2 _).2 ⟨rfl, hv⟩
          rw [g2] at this
          cases this
        have c : (do
            let r ← getPtrsP U dbg base (tupleIdents rs.length) (typesOf rs) page (os.take rs.length)
            let w ← getPtrsP U dbg base (tupleIdents ws.length) (typesOf ws) page (os.drop rs.length)
            let r ← addToPtrsP U base (tupleIdents rs.length) (typesOf rs) r i
            let w ← addToPtrsP U base (tupleIdents ws.length) (typesOf ws) w i
            let r ← ptrsToRefsP U base (tupleIdents rs.length) (typesOf rs) r
            let w ← ptrsToRefsP U base (tupleIdents ws.length) (typesOf ws) w
            return r ++ w : Except PtrFault (List Nat)) = .error g := by
          rcases g3 with g3 | ⟨ps', b1, g3 | ⟨qs', b2, g3⟩⟩
          · simp only [a1, g3, bind, Except.bind]
          · simp only [a1, b1, a2, g3, bind, Except.bind]
          · simp only [a1, b1, a2, b2, a3, g3, bind, Except.bind]
        rw [c]
        exact ⟨fun as => ⟨fun h => (by cases h), fun h => absurd h.2.2 nv⟩, fun f h => by cases h; exact g1⟩
    · have nv : ¬ List.Forall₂ (ValidAt U base) rs (getRefs U page i rs (os.take rs.length)) := fun hv => by
        have := (o1 _).2 ⟨rfl, hv⟩
        rw [f2] at this
        cases this
      have c : ∃ g : PtrFault, g.isUb = true ∧ (do
          let r ← getPtrsP U dbg base (tupleIdents rs.length) (typesOf rs) page (os.take rs.length)
          let w ← getPtrsP U dbg base (tupleIdents ws.length) (typesOf ws) page (os.drop rs.length)
          let r ← addToPtrsP U base (tupleIdents rs.length) (typesOf rs) r i
          let w ← addToPtrsP U base (tupleIdents ws.length) (typesOf ws) w i
          let r ← ptrsToRefsP U base (tupleIdents rs.length) (typesOf rs) r
          let w ← ptrsToRefsP U base (tupleIdents ws.length) (typesOf ws) w
          return r ++ w : Except PtrFault (List Nat)) = .error g := by
        rcases f3 with f3 | ⟨ps, a1, f3⟩
        · exact ⟨f, f1, by simp only [f3, bind, Except.bind]⟩
        cases hb : getPtrsP U dbg base (tupleIdents ws.length) (typesOf ws) page (os.drop rs.length) with
        | error g => exact ⟨g, getPtrsP_ub n2 l2 w2 hb, by simp only [a1, bind, Except.bind]⟩
        | ok ps' =>
          have l3 : ps'.length = ws.length := mapM_length l2 (by rw [← getPtrsP_eq n2 l2]; exact hb)
          rcases f3 with f3 | ⟨qs, a2, f3⟩
          · exact ⟨f, f1, by simp only [a1, f3, bind, Except.bind]⟩
          cases hb2 : addToPtrsP U base (tupleIdents ws.length) (typesOf ws) ps' i with
          | error g => exact ⟨g, addToPtrsP_ub n2 l3 hb2, by simp only [a1, a2, hb2, bind, Except.bind]⟩
          | ok qs' => exact ⟨f, f1, by simp only [a1, a2, hb2, f3, bind, Except.bind]⟩
      obtain ⟨g, g1, c⟩ := c
      rw [c]
      exact ⟨fun as => ⟨fun h => (by cases h), fun h => absurd h.2.1 nv⟩, fun f h => by cases h; exact g1⟩

end

end Ecs.Ptrs
