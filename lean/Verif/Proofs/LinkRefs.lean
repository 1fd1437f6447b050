import Verif.Spec.LinkRefs
import Verif.Proofs.ChainStore

/-! Lemmas about the accesses to links (C91). -/

namespace Ecs
open Spec Traced

namespace Traced
variable {α β : Type}

theorem result_bind (t : Traced α) (f : α → Traced β) : (t >>= f).result = t.result >>= fun a => (f a).result := by
  show (match t.result with | .ok a => _ | .error x => _ : Traced β).result = _
  cases t.result <;> rfl

theorem result_pure (a : α) : (pure a : Traced α).result = .ok a := rfl

theorem uses_ok {t : Traced α} {f : α → Traced β} {a : α} (h : t.result = .ok a) : (t >>= f).uses = t.uses ++ (f a).uses := by
  show (match t.result with | .ok a => _ | .error x => _ : Traced β).uses = _
  rw [h]

theorem uses_err {t : Traced α} {f : α → Traced β} {x : Fault} (h : t.result = .error x) : (t >>= f).uses = t.uses := by
  show (match t.result with | .ok a => _ | .error x => _ : Traced β).uses = _
  rw [h]

theorem uses_pure (a : α) : (pure a : Traced α).uses = [] := rfl

theorem result_ite {p : Prop} [Decidable p] (a b : Traced α) :
    (if p then a else b).result = if p then a.result else b.result := by split <;> rfl

end Traced

theorem Raw.read_write_of {a a' : Raw Nat} {i j v x : Nat} (hw : Raw.write a i v = .ok a') (hr : Raw.read a j = .ok x) :
    Raw.read a' j = .ok (if j = i then v else x) := by
  unfold Raw.write at hw
  split at hw
  · rename_i hi
    cases hw
    unfold Raw.read at hr ⊢
    rw [List.getElem?_set]
    by_cases hij : i = j
    · subst hij; simp [hi]
    · rw [if_neg hij]
      rw [if_neg (fun h : j = i => hij h.symm)]
      exact hr
  · cases hw

namespace Group
variable {g g' : Group} {dbg : Bool} {k e x f b : Nat}

theorem result_add (dbg : Bool) (k : Nat) (g : Group) (e : Nat) : (g.addT dbg k e).result = g.add dbg e := by
  unfold addT add
  rw [result_ite]
  split
  · rfl
  · simp only [result_bind, result_pure, readRaw, borrow, readVia, silent, writeRaw, writeVia, ok_bind, pure_ok]

theorem result_addNextTo (dbg : Bool) (k : Nat) (g : Group) (e x : Nat) :
    (g.addNextToT dbg k e x).result = g.addNextTo dbg e x := by
  unfold addNextToT addNextTo linkNextT
  simp only [result_bind, result_pure, result_ite, borrow, readVia, silent, writeRaw, writeVia, ok_bind, pure_ok]
  cases h1 : Raw.read g.fwd e <;> simp only [ok_bind, error_bind]
  cases h2 : Raw.read g.bwd e <;> simp only [ok_bind, error_bind]
  cases h3 : assertEntityHasNoOrder dbg _ _ <;> simp only [ok_bind, error_bind]
  cases h4 : Raw.read g.fwd x <;> simp only [ok_bind, error_bind]
  rename_i v
  by_cases h5 : v = NULL_ID
  · simp only [h5, ne_eq, not_true_eq_false, if_false, if_true, ok_bind]
  · simp only [ne_eq, h5, not_false_eq_true, if_true, if_false, bind_assoc, ok_bind]

theorem result_addPreviousTo (dbg : Bool) (k : Nat) (g : Group) (e x : Nat) :
    (g.addPreviousToT dbg k e x).result = g.addPreviousTo dbg e x := by
  unfold addPreviousToT addPreviousTo linkPreviousT
  simp only [result_bind, result_pure, result_ite, borrow, readVia, silent, writeRaw, writeVia, ok_bind, pure_ok]
  cases h1 : Raw.read g.fwd e <;> simp only [ok_bind, error_bind]
  cases h2 : Raw.read g.bwd e <;> simp only [ok_bind, error_bind]
  cases h3 : assertEntityHasNoOrder dbg _ _ <;> simp only [ok_bind, error_bind]
  cases h4 : Raw.read g.bwd x <;> simp only [ok_bind, error_bind]
  rename_i v
  by_cases h5 : v = NULL_ID
  · simp only [h5, ne_eq, not_true_eq_false, if_false, if_true, ok_bind]
  · simp only [ne_eq, h5, not_false_eq_true, if_true, if_false, bind_assoc, ok_bind]

/-- The two links of an entity, seen after the writes to the links of its neighbours, are what they were. -/
theorem read_unlinked {a a' : Raw Nat} {n v : Nat} (hr : Raw.read a e = .ok v)
    (hw : (if n ≠ NULL_ID then Raw.write a n v else .ok a) = .ok a') : Raw.read a' e = .ok v := by
  split at hw
  · rw [Raw.read_write_of hw hr]; split <;> rfl
  · cases hw; exact hr

theorem result_unlinkNext {k : Nat} {g : Group} {e f b : Nat} (h1 : Raw.read g.fwd e = .ok f) (h2 : Raw.read g.bwd e = .ok b) :
    (unlinkNextT k g e).result = if f ≠ NULL_ID then Raw.write g.bwd f b else .ok g.bwd := by
  unfold unlinkNextT
  simp only [result_bind, result_pure, result_ite, readVia, writeRaw, h1, h2, ok_bind]
  by_cases h : f = NULL_ID
  · simp only [h, ne_eq, not_true_eq_false, if_true, if_false]
  · simp only [h, ne_eq, not_false_eq_true, if_true, if_false]

theorem result_unlinkPrevious {k : Nat} {g : Group} {bwd : Raw Nat} {e f b : Nat} (h1 : Raw.read g.fwd e = .ok f)
    (h2 : Raw.read bwd e = .ok b) :
    (unlinkPreviousT k g bwd e).result = if b ≠ NULL_ID then Raw.write g.fwd b f else .ok g.fwd := by
  unfold unlinkPreviousT
  simp only [result_bind, result_pure, result_ite, readVia, writeRaw, h1, h2, ok_bind]
  by_cases h : b = NULL_ID
  · simp only [h, ne_eq, not_true_eq_false, if_true, if_false]
  · simp only [h, ne_eq, not_false_eq_true, if_true, if_false]

theorem result_end {v : LinkVar} {a : Raw Nat} {e old x : Nat} (h : Raw.read a e = .ok x) :
    (endT v a e old).result = .ok (if old = e then x else old) := by
  unfold endT
  rw [result_ite]
  split
  · exact h
  · rfl

theorem result_remove (k : Nat) (g : Group) (e : Nat) : (g.removeT k e).result = g.remove e := by
  unfold removeT
  rw [remove_eq]
  simp only [result_bind, result_pure, borrow, writeVia, ok_bind, pure_ok]
  cases h1 : Raw.read g.fwd e with
  | error x =>
    unfold unlinkNextT
    simp only [result_bind, readVia, h1, error_bind]
  | ok f =>
    simp only [ok_bind]
    cases h2 : Raw.read g.bwd e with
    | error x =>
      simp only [error_bind]
      unfold unlinkNextT
      simp only [result_bind, result_ite, result_pure, readVia, h1, h2, ok_bind, error_bind]
      split
      · unfold unlinkPreviousT
        simp only [ok_bind, result_bind, readVia, h2, error_bind]
      · rfl
    | ok b =>
      rw [result_unlinkNext h1 h2]
      simp only [ok_bind]
      cases h3 : (if f ≠ NULL_ID then Raw.write g.bwd f b else .ok g.bwd) with
      | error x => rfl
      | ok bwd =>
        have h4 : Raw.read bwd e = .ok b := read_unlinked h2 h3
        simp only [ok_bind, h4]
        rw [result_unlinkPrevious h1 h4]
        cases h5 : (if b ≠ NULL_ID then Raw.write g.fwd b f else .ok g.fwd) with
        | error x => rfl
        | ok fwd =>
          have h6 : Raw.read fwd e = .ok f := read_unlinked h1 h5
          simp only [ok_bind, h6, result_end h6, result_end h4]

/-! ### The accesses -/

theorem uses_unlinkNext {k : Nat} {g : Group} {e f b : Nat} (h1 : Raw.read g.fwd e = .ok f) (h2 : Raw.read g.bwd e = .ok b) :
    (unlinkNextT k g e).uses =
      .via .fwd :: if f = NULL_ID then [] else [.via .bwd, .via .fwd, .raw ⟨k, false, f⟩] := by
  unfold unlinkNextT
  rw [uses_ok (a := f) h1]
  by_cases h : f = NULL_ID
  · rw [if_pos h, if_pos h]; rfl
  · rw [if_neg h, if_neg h, uses_ok (a := b) h2, uses_ok (a := f) h1]; rfl

theorem uses_unlinkPrevious {k : Nat} {g : Group} {bwd : Raw Nat} {e f b : Nat} (h1 : Raw.read g.fwd e = .ok f)
    (h2 : Raw.read bwd e = .ok b) :
    (unlinkPreviousT k g bwd e).uses =
      .via .bwd :: if b = NULL_ID then [] else [.via .fwd, .via .bwd, .raw ⟨k, true, b⟩] := by
  unfold unlinkPreviousT
  rw [uses_ok (a := b) h2]
  by_cases h : b = NULL_ID
  · rw [if_pos h, if_pos h]; rfl
  · rw [if_neg h, if_neg h, uses_ok (a := f) h1, uses_ok (a := b) h2]; rfl

theorem uses_end (v : LinkVar) (a : Raw Nat) (e old : Nat) : (endT v a e old).uses = if old = e then [.via v] else [] := by
  unfold endT
  split <;> rfl

/-- What a removal that returns accesses, in terms of the two links of the entity. -/
theorem uses_remove {k : Nat} (hr : g.remove e = .ok g') : ∃ f b, Raw.read g.fwd e = .ok f ∧ Raw.read g.bwd e = .ok b ∧
    (removeT k g e).uses = .borrow .fwd ⟨k, true, e⟩ :: .borrow .bwd ⟨k, false, e⟩ :: .via .fwd ::
      ((if f = NULL_ID then [] else [.via .bwd, .via .fwd, .raw ⟨k, false, f⟩]) ++ .via .bwd ::
        ((if b = NULL_ID then [] else [.via .fwd, .via .bwd, .raw ⟨k, true, b⟩]) ++
          ((if g.head = e then [.via .fwd] else []) ++ ((if g.tail = e then [.via .bwd] else []) ++
            [.via .bwd, .via .fwd])))) := by
  rw [remove_eq] at hr
  obtain ⟨f, h1, hr⟩ := bind_eq_ok.1 hr
  obtain ⟨b, h2, hr⟩ := bind_eq_ok.1 hr
  obtain ⟨bwd, h3, hr⟩ := bind_eq_ok.1 hr
  have h4 : Raw.read bwd e = .ok b := read_unlinked h2 h3
  rw [h4, ok_bind] at hr
  obtain ⟨fwd, h5, hr⟩ := bind_eq_ok.1 hr
  have h6 : Raw.read fwd e = .ok f := read_unlinked h1 h5
  rw [h6, ok_bind] at hr
  obtain ⟨bwd', h7, hr⟩ := bind_eq_ok.1 hr
  obtain ⟨fwd', h8, hr⟩ := bind_eq_ok.1 hr
  refine ⟨f, b, h1, h2, ?_⟩
  have r1 : (unlinkNextT k g e).result = .ok bwd := by rw [result_unlinkNext h1 h2]; exact h3
  have r2 : (unlinkPreviousT k g bwd e).result = .ok fwd := by rw [result_unlinkPrevious h1 h4]; exact h5
  unfold removeT
  rw [uses_ok (t := borrow .fwd _) (a := ()) rfl, uses_ok (t := borrow .bwd _) (a := ()) rfl, uses_ok r1, uses_ok r2,
    uses_ok (result_end h6), uses_ok (result_end h4), uses_ok (t := writeVia .bwd bwd e NULL_ID) h7,
    uses_ok (t := writeVia .fwd fwd e NULL_ID) h8, uses_unlinkNext h1 h2, uses_unlinkPrevious h1 h4, uses_end, uses_end]
  simp [borrow, writeVia, uses_pure]

/-- The accesses of a removal. -/
def removal (k e f b : Nat) (p q : Bool) : List Use :=
  .borrow .fwd ⟨k, true, e⟩ :: .borrow .bwd ⟨k, false, e⟩ :: .via .fwd ::
      ((if f = NULL_ID then [] else [.via .bwd, .via .fwd, .raw ⟨k, false, f⟩]) ++ .via .bwd ::
        ((if b = NULL_ID then [] else [.via .fwd, .via .bwd, .raw ⟨k, true, b⟩]) ++
          ((if p then [.via .fwd] else []) ++ ((if q then [.via .bwd] else []) ++
            [.via .bwd, .via .fwd]))))

theorem removal_exclusive {k : Nat} {f b : Nat} (p q : Bool) (he : e ≠ NULL_ID) :
    Exclusive (removal k e f b p q) ↔ f ≠ e ∧ b ≠ e := by
  unfold Exclusive removal
  by_cases h1 : f = e
  · subst h1
    rw [if_neg he]
    by_cases h2 : b = f
    · subst h2; rw [if_neg he]; cases p <;> cases q <;> simp [usable]
    · by_cases h3 : b = NULL_ID
      · rw [if_pos h3]; cases p <;> cases q <;> simp [usable]
      · rw [if_neg h3]; cases p <;> cases q <;> simp [usable]
  · by_cases h2 : b = e
    · subst h2
      rw [if_neg he]
      by_cases h3 : f = NULL_ID
      · rw [if_pos h3]; cases p <;> cases q <;> simp [usable]
      · rw [if_neg h3]; cases p <;> cases q <;> simp [usable]
    · have h1' : ¬ e = f := fun h => h1 h.symm
      have h2' : ¬ e = b := fun h => h2 h.symm
      by_cases h3 : f = NULL_ID <;> by_cases h4 : b = NULL_ID <;> simp only [h3, h4, if_true, if_false] <;>
        cases p <;> cases q <;> simp_all [usable]

theorem uses_linkNext {k : Nat} {g : Group} {e x a : Nat} {l : Raw Nat × Raw Nat} (ha : Raw.read g.fwd x = .ok a)
    (hr : (linkNextT k g e x).result = .ok l) :
    (linkNextT k g e x).uses = .via .fwdAfterId :: if a = NULL_ID then [] else
      [.via .fwdAfterId, .raw ⟨k, false, a⟩, .via .fwdAfterId, .via .fwdEntityId] := by
  unfold linkNextT at hr ⊢
  rw [result_bind, show (readVia .fwdAfterId g.fwd x).result = .ok a from ha, ok_bind] at hr
  rw [uses_ok (a := a) ha]
  by_cases h : a = NULL_ID
  · rw [if_pos h, if_pos h]; rfl
  · rw [if_neg h] at hr
    rw [if_neg h, if_neg h]
    rw [result_bind, show (readVia .fwdAfterId g.fwd x).result = .ok a from ha, ok_bind, result_bind] at hr
    obtain ⟨bwd, h1, hr⟩ := bind_eq_ok.1 hr
    rw [result_bind, show (readVia .fwdAfterId g.fwd x).result = .ok a from ha, ok_bind, result_bind] at hr
    obtain ⟨fwd, h2, hr⟩ := bind_eq_ok.1 hr
    rw [uses_ok (a := a) ha, uses_ok h1, uses_ok (a := a) ha, uses_ok h2]
    rfl

theorem uses_linkPrevious {k : Nat} {g : Group} {e x a : Nat} {l : Raw Nat × Raw Nat} (ha : Raw.read g.bwd x = .ok a)
    (hr : (linkPreviousT k g e x).result = .ok l) :
    (linkPreviousT k g e x).uses = .via .bwdPreviousToId :: if a = NULL_ID then [] else
      [.via .bwdPreviousToId, .raw ⟨k, true, a⟩, .via .bwdPreviousToId, .via .bwdEntityId] := by
  unfold linkPreviousT at hr ⊢
  rw [result_bind, show (readVia .bwdPreviousToId g.bwd x).result = .ok a from ha, ok_bind] at hr
  rw [uses_ok (a := a) ha]
  by_cases h : a = NULL_ID
  · rw [if_pos h, if_pos h]; rfl
  · rw [if_neg h] at hr
    rw [if_neg h, if_neg h]
    rw [result_bind, show (readVia .bwdPreviousToId g.bwd x).result = .ok a from ha, ok_bind, result_bind] at hr
    obtain ⟨bwd, h1, hr⟩ := bind_eq_ok.1 hr
    rw [result_bind, show (readVia .bwdPreviousToId g.bwd x).result = .ok a from ha, ok_bind, result_bind] at hr
    obtain ⟨fwd, h2, hr⟩ := bind_eq_ok.1 hr
    rw [uses_ok (a := a) ha, uses_ok h1, uses_ok (a := a) ha, uses_ok h2]
    rfl

theorem addNextTo_exclusive (hr : g.addNextTo dbg e x = .ok g') (he : e ≠ NULL_ID) :
    ∃ a, Raw.read g.fwd x = .ok a ∧ (Exclusive (g.addNextToT dbg k e x).uses ↔ a = NULL_ID ∨ x ≠ e ∧ a ≠ e) := by
  rw [← result_addNextTo dbg k] at hr
  unfold addNextToT at hr ⊢
  simp only [result_bind] at hr
  obtain ⟨u1, r1, hr⟩ := bind_eq_ok.1 hr
  obtain ⟨u2, r2, hr⟩ := bind_eq_ok.1 hr
  obtain ⟨f, r3, hr⟩ := bind_eq_ok.1 hr
  obtain ⟨b, r4, hr⟩ := bind_eq_ok.1 hr
  obtain ⟨u3, r5, hr⟩ := bind_eq_ok.1 hr
  obtain ⟨u4, r6, hr⟩ := bind_eq_ok.1 hr
  obtain ⟨l, r7, hr⟩ := bind_eq_ok.1 hr
  obtain ⟨fwd, r8, hr⟩ := bind_eq_ok.1 hr
  obtain ⟨bwd, r9, hr⟩ := bind_eq_ok.1 hr
  obtain ⟨a, ha, -⟩ : ∃ a, Raw.read g.fwd x = .ok a ∧ True := by
    have h7 := r7
    unfold linkNextT at h7
    rw [result_bind] at h7
    obtain ⟨a, h, -⟩ := bind_eq_ok.1 h7
    exact ⟨a, h, trivial⟩
  refine ⟨a, ha, ?_⟩
  rw [uses_ok r1, uses_ok r2, uses_ok r3, uses_ok r4, uses_ok r5, uses_ok r6, uses_ok r7, uses_ok r8, uses_ok r9,
    uses_linkNext ha r7]
  simp only [borrow, readVia, silent, writeVia, uses_pure, List.nil_append, List.cons_append, List.append_nil]
  unfold Exclusive
  by_cases h1 : a = NULL_ID
  · by_cases h2 : x = e
    · simp [h1, h2, usable]
    · have h2' : ¬ e = x := fun h => h2 h.symm
      simp [h1, h2, h2', usable]
  · by_cases h2 : x = e
    · by_cases h3 : a = e
      · simp [h2, h3, he, usable]
      · simp [h1, h2, usable]
    · have h2' : ¬ e = x := fun h => h2 h.symm
      by_cases h3 : a = e
      · simp [h2', h3, he, usable]
      · have h3' : ¬ e = a := fun h => h3 h.symm
        simp [h1, h2, h2', h3, h3', usable]

theorem addPreviousTo_exclusive (hr : g.addPreviousTo dbg e x = .ok g') (he : e ≠ NULL_ID) :
    ∃ a, Raw.read g.bwd x = .ok a ∧ (Exclusive (g.addPreviousToT dbg k e x).uses ↔ a = NULL_ID ∨ x ≠ e ∧ a ≠ e) := by
  rw [← result_addPreviousTo dbg k] at hr
  unfold addPreviousToT at hr ⊢
  simp only [result_bind] at hr
  obtain ⟨u1, r1, hr⟩ := bind_eq_ok.1 hr
  obtain ⟨u2, r2, hr⟩ := bind_eq_ok.1 hr
  obtain ⟨f, r3, hr⟩ := bind_eq_ok.1 hr
  obtain ⟨b, r4, hr⟩ := bind_eq_ok.1 hr
  obtain ⟨u3, r5, hr⟩ := bind_eq_ok.1 hr
  obtain ⟨u4, r6, hr⟩ := bind_eq_ok.1 hr
  obtain ⟨l, r7, hr⟩ := bind_eq_ok.1 hr
  obtain ⟨fwd, r8, hr⟩ := bind_eq_ok.1 hr
  obtain ⟨bwd, r9, hr⟩ := bind_eq_ok.1 hr
  obtain ⟨a, ha, -⟩ : ∃ a, Raw.read g.bwd x = .ok a ∧ True := by
    have h7 := r7
    unfold linkPreviousT at h7
    rw [result_bind] at h7
    obtain ⟨a, h, -⟩ := bind_eq_ok.1 h7
    exact ⟨a, h, trivial⟩
  refine ⟨a, ha, ?_⟩
  rw [uses_ok r1, uses_ok r2, uses_ok r3, uses_ok r4, uses_ok r5, uses_ok r6, uses_ok r7, uses_ok r8, uses_ok r9,
    uses_linkPrevious ha r7]
  simp only [borrow, readVia, silent, writeVia, uses_pure, List.nil_append, List.cons_append, List.append_nil]
  unfold Exclusive
  by_cases h1 : a = NULL_ID
  · by_cases h2 : x = e
    · simp [h1, h2, usable]
    · have h2' : ¬ e = x := fun h => h2 h.symm
      simp [h1, h2, h2', usable]
  · by_cases h2 : x = e
    · by_cases h3 : a = e
      · simp [h2, h3, he, usable]
      · simp [h1, h2, usable]
    · have h2' : ¬ e = x := fun h => h2 h.symm
      by_cases h3 : a = e
      · simp [h2', h3, he, usable]
      · have h3' : ¬ e = a := fun h => h3 h.symm
        simp [h1, h2, h2', h3, h3', usable]

/-- Appending accesses no link in two ways, whatever the links are. -/
theorem add_exclusive (dbg : Bool) (k : Nat) (g : Group) (e : Nat) : Exclusive (g.addT dbg k e).uses := by
  unfold addT Exclusive
  split
  · rfl
  · cases h1 : (readRaw ⟨k, true, e⟩ g.fwd).result with
    | error x => rw [uses_err h1]; rfl
    | ok f =>
      rw [uses_ok h1, uses_ok (t := borrow .bwdId _) (a := ()) rfl]
      cases h2 : (readVia .bwdId g.bwd e).result with
      | error x => rw [uses_err h2]; rfl
      | ok b =>
        rw [uses_ok h2]
        cases h3 : (silent (assertEntityHasNoOrder dbg f b)).result with
        | error x => rw [uses_err h3]; rfl
        | ok u =>
          rw [uses_ok h3]
          cases h4 : (writeRaw ⟨k, true, g.tail⟩ g.fwd e).result with
          | error x =>
            rw [uses_err h4]
            simp [readRaw, borrow, readVia, silent, writeRaw, usable]
          | ok fwd =>
            rw [uses_ok h4]
            cases h5 : (writeVia .bwdId g.bwd e g.tail).result with
            | error x =>
              rw [uses_err h5]
              simp [readRaw, borrow, readVia, silent, writeRaw, writeVia, usable]
            | ok bwd =>
              rw [uses_ok h5]
              simp [readRaw, borrow, readVia, silent, writeRaw, writeVia, usable, uses_pure]

theorem read_no_panic {a : Raw Nat} {i : Nat} {p : Panic} (h : Raw.read a i = .error (.panic p)) : False := by
  unfold Raw.read at h
  split at h <;> cases h

theorem write_no_panic {a : Raw Nat} {i v : Nat} {p : Panic} (h : Raw.write a i v = .error (.panic p)) : False := by
  unfold Raw.write at h
  split at h <;> cases h

theorem bind_panic {α β : Type} {t : Res α} {f : α → Res β} {p : Panic} (h : (t >>= f) = .error (.panic p)) :
    t = .error (.panic p) ∨ ∃ a, t = .ok a ∧ f a = .error (.panic p) := by
  cases t with
  | error x => cases h; exact .inl rfl
  | ok a => exact .inr ⟨a, rfl, h⟩

theorem linkNext_no_panic {k : Nat} {g : Group} {e x : Nat} {p : Panic}
    (h : (linkNextT k g e x).result = .error (.panic p)) : False := by
  unfold linkNextT at h
  rw [result_bind] at h
  rcases bind_panic h with h | ⟨a, -, h⟩
  · exact read_no_panic h
  · rw [result_ite] at h
    split at h
    · cases h
    · simp only [result_bind] at h
      rcases bind_panic h with h | ⟨_, -, h⟩
      · exact read_no_panic h
      rcases bind_panic h with h | ⟨_, -, h⟩
      · exact write_no_panic h
      rcases bind_panic h with h | ⟨_, -, h⟩
      · exact read_no_panic h
      rcases bind_panic h with h | ⟨_, -, h⟩
      · exact write_no_panic h
      · cases h

theorem linkPrevious_no_panic {k : Nat} {g : Group} {e x : Nat} {p : Panic}
    (h : (linkPreviousT k g e x).result = .error (.panic p)) : False := by
  unfold linkPreviousT at h
  rw [result_bind] at h
  rcases bind_panic h with h | ⟨a, -, h⟩
  · exact read_no_panic h
  · rw [result_ite] at h
    split at h
    · cases h
    · simp only [result_bind] at h
      rcases bind_panic h with h | ⟨_, -, h⟩
      · exact read_no_panic h
      rcases bind_panic h with h | ⟨_, -, h⟩
      · exact write_no_panic h
      rcases bind_panic h with h | ⟨_, -, h⟩
      · exact read_no_panic h
      rcases bind_panic h with h | ⟨_, -, h⟩
      · exact write_no_panic h
      · cases h

/-- If the debug assertion fails, no link has been accessed in two ways. -/
theorem addNextTo_panic {k : Nat} {g : Group} {e x : Nat} {p : Panic} (hr : g.addNextTo dbg e x = .error (.panic p)) :
    Exclusive (g.addNextToT dbg k e x).uses := by
  rw [← result_addNextTo dbg k] at hr
  unfold addNextToT at hr ⊢
  simp only [result_bind] at hr
  rcases bind_panic hr with h | ⟨_, r1, hr⟩
  · cases h
  rcases bind_panic hr with h | ⟨_, r2, hr⟩
  · cases h
  rcases bind_panic hr with h | ⟨_, r3, hr⟩
  · exact (read_no_panic h).elim
  rcases bind_panic hr with h | ⟨_, r4, hr⟩
  · exact (read_no_panic h).elim
  rcases bind_panic hr with h | ⟨_, r5, hr⟩
  · rw [uses_ok r1, uses_ok r2, uses_ok r3, uses_ok r4, uses_err h]
    simp [Exclusive, usable, borrow, readVia, silent]
  rcases bind_panic hr with h | ⟨_, r6, hr⟩
  · cases h
  rcases bind_panic hr with h | ⟨_, r7, hr⟩
  · exact (linkNext_no_panic h).elim
  rcases bind_panic hr with h | ⟨_, r8, hr⟩
  · exact (write_no_panic h).elim
  rcases bind_panic hr with h | ⟨_, r9, hr⟩
  · exact (write_no_panic h).elim
  · cases hr

theorem addPreviousTo_panic {k : Nat} {g : Group} {e x : Nat} {p : Panic}
    (hr : g.addPreviousTo dbg e x = .error (.panic p)) : Exclusive (g.addPreviousToT dbg k e x).uses := by
  rw [← result_addPreviousTo dbg k] at hr
  unfold addPreviousToT at hr ⊢
  simp only [result_bind] at hr
  rcases bind_panic hr with h | ⟨_, r1, hr⟩
  · cases h
  rcases bind_panic hr with h | ⟨_, r2, hr⟩
  · cases h
  rcases bind_panic hr with h | ⟨_, r3, hr⟩
  · exact (read_no_panic h).elim
  rcases bind_panic hr with h | ⟨_, r4, hr⟩
  · exact (read_no_panic h).elim
  rcases bind_panic hr with h | ⟨_, r5, hr⟩
  · rw [uses_ok r1, uses_ok r2, uses_ok r3, uses_ok r4, uses_err h]
    simp [Exclusive, usable, borrow, readVia, silent]
  rcases bind_panic hr with h | ⟨_, r6, hr⟩
  · cases h
  rcases bind_panic hr with h | ⟨_, r7, hr⟩
  · exact (linkPrevious_no_panic h).elim
  rcases bind_panic hr with h | ⟨_, r8, hr⟩
  · exact (write_no_panic h).elim
  rcases bind_panic hr with h | ⟨_, r9, hr⟩
  · exact (write_no_panic h).elim
  · cases hr

theorem uses_removal {k : Nat} (hr : g.remove e = .ok g') : ∃ f b, Raw.read g.fwd e = .ok f ∧ Raw.read g.bwd e = .ok b ∧
    (removeT k g e).uses = removal k e f b (decide (g.head = e)) (decide (g.tail = e)) := by
  obtain ⟨f, b, h1, h2, h3⟩ := uses_remove (k := k) hr
  refine ⟨f, b, h1, h2, ?_⟩
  rw [h3]
  unfold removal
  simp only [decide_eq_true_eq]

end Group

/-! ### Traces one after the other -/

/-- Every reference used is taken before, or in `bound`. -/
def Closed : List LinkVar → List Use → Prop
  | _, [] => True
  | bound, .borrow v _ :: us => Closed (v :: bound) us
  | bound, .raw _ :: us => Closed bound us
  | bound, .via v :: us => v ∈ bound ∧ Closed bound us

theorem usable_extra {us : List Use} : ∀ {bound : List LinkVar} {A L : List (LinkVar × Link)}, Closed bound us →
    (∀ p ∈ L, p.1 ∉ bound) → usable (A ++ L) us = usable A us := by
  induction us with
  | nil => intros; rfl
  | cons u us ih =>
    intro bound A L hc hL
    cases u with
    | borrow v l =>
      simp only [usable, List.filter_append]
      rw [← List.cons_append]
      refine ih (bound := v :: bound) hc fun p hp => ?_
      rw [List.mem_filter] at hp
      have h2 : p.1 ≠ v ∧ p.2 ≠ l := by simpa using hp.2
      simp only [List.mem_cons, not_or]
      exact ⟨h2.1, hL p hp.1⟩
    | raw l =>
      simp only [usable, List.filter_append]
      exact ih (bound := bound) hc fun p hp => hL p (List.mem_of_mem_filter hp)
    | via v =>
      simp only [usable, List.any_append]
      rw [ih hc.2 hL]
      have : L.any (fun p => decide (p.1 = v)) = false := by
        rw [List.any_eq_false]
        intro p hp h
        exact hL p hp (by rw [of_decide_eq_true h]; exact hc.1)
      rw [this, Bool.or_false]

/-- What can still be used after some accesses. -/
def left : List (LinkVar × Link) → List Use → List (LinkVar × Link)
  | live, [] => live
  | live, .borrow v l :: us => left ((v, l) :: live.filter fun p => p.1 ≠ v ∧ p.2 ≠ l) us
  | live, .raw l :: us => left (live.filter fun p => p.2 ≠ l) us
  | live, .via _ :: us => left live us

theorem usable_append (us vs : List Use) : ∀ live, usable live (us ++ vs) = (usable live us && usable (left live us) vs) := by
  induction us with
  | nil => intro live; simp [usable, left]
  | cons u us ih => intro live; cases u <;> simp [usable, left, ih, Bool.and_assoc]

theorem exclusive_append {us vs : List Use} (h : Closed [] vs) : Exclusive (us ++ vs) ↔ Exclusive us ∧ Exclusive vs := by
  unfold Exclusive
  rw [usable_append, Bool.and_eq_true]
  have := usable_extra (A := []) (L := left [] us) h (fun p _ => List.not_mem_nil)
  rw [List.nil_append] at this
  rw [this]

theorem removal_closed (k e f b : Nat) (p q : Bool) : Closed [] (Group.removal k e f b p q) := by
  unfold Group.removal
  split <;> split <;> cases p <;> cases q <;> simp [Closed]

theorem closed_append {us vs : List Use} : ∀ {b}, Closed b us → Closed [] vs → Closed b (us ++ vs) := by
  have weak : ∀ {us : List Use} {b b' : List LinkVar}, (∀ v ∈ b, v ∈ b') → Closed b us → Closed b' us := by
    intro us
    induction us with
    | nil => intros; trivial
    | cons u us ih =>
      intro b b' hb h
      cases u with
      | borrow v l => exact ih (b := v :: b) (fun x hx => by
          rcases List.mem_cons.1 hx with rfl | hx
          · exact List.mem_cons_self ..
          · exact List.mem_cons_of_mem _ (hb x hx)) h
      | raw l => exact ih (b := b) hb h
      | via v => exact ⟨hb v h.1, ih hb h.2⟩
  induction us with
  | nil => intro b _ h; exact weak (fun v hv => absurd hv List.not_mem_nil) h
  | cons u us ih =>
    intro b h h'
    cases u with
    | borrow v l => exact ih (b := v :: b) h h'
    | raw l => exact ih (b := b) h h'
    | via v => exact ⟨h.1, ih h.2 h'⟩

namespace Orders
variable {c c' : Orders} {dbg : Bool} {g e x : Nat}

theorem result_onGroup (c : Orders) (i : Nat) {f : Group → Traced Group} {f' : Group → Res Group}
    (h : ∀ g, (f g).result = f' g) : (c.onGroupT i f).result = c.onGroup i f' := by
  unfold onGroupT onGroup
  simp only [result_bind, silent, h, result_pure, pure_ok]

theorem result_add (dbg : Bool) (c : Orders) (g e : Nat) : (c.addT dbg g e).result = c.add dbg g e :=
  result_onGroup _ _ fun gr => Group.result_add dbg _ gr e

theorem result_addNextTo (dbg : Bool) (c : Orders) (g e x : Nat) : (c.addNextToT dbg g e x).result = c.addNextTo dbg g e x :=
  result_onGroup _ _ fun gr => Group.result_addNextTo dbg _ gr e x

theorem result_addPreviousTo (dbg : Bool) (c : Orders) (g e x : Nat) :
    (c.addPreviousToT dbg g e x).result = c.addPreviousTo dbg g e x :=
  result_onGroup _ _ fun gr => Group.result_addPreviousTo dbg _ gr e x

theorem result_remove (c : Orders) (g e : Nat) : (c.removeT g e).result = c.remove g e := by
  unfold removeT remove
  cases binarySearch c.groupIds g with
  | notFound i => rfl
  | found i => exact result_onGroup _ _ fun gr => Group.result_remove _ gr e

theorem result_removeAllLoop (e : Nat) : ∀ (gs : List Group) (k : Nat),
    (removeAllLoopT e k gs).result = gs.mapM (fun g => g.remove e) := by
  intro gs
  induction gs with
  | nil => intro k; rfl
  | cons g gs ih =>
    intro k
    unfold removeAllLoopT
    simp only [result_bind, Group.result_remove, ih, result_pure, List.mapM_cons, pure_ok]

theorem result_removeAll (c : Orders) (e : Nat) : (c.removeAllT e).result = c.removeAll e := by
  unfold removeAllT removeAll
  simp only [result_bind, result_removeAllLoop, result_pure, pure_ok]

theorem uses_onGroup {i : Nat} {f : Group → Traced Group} {gr : Group} (h : c.groups[i]? = some gr) :
    (c.onGroupT i f).uses = (f gr).uses := by
  unfold onGroupT
  rw [uses_ok (t := silent (idxUnchecked c.groups i)) (a := gr) (idxUnchecked_of_some h)]
  cases hr : (f gr).result with
  | ok g' => rw [uses_ok hr]; simp [silent, uses_pure]
  | error y => rw [uses_err hr]; simp [silent]

theorem onGroup_inv {i : Nat} {f : Group → Res Group} (h : c.onGroup i f = .ok c') :
    ∃ gr g', c.groups[i]? = some gr ∧ f gr = .ok g' := by
  unfold onGroup at h
  obtain ⟨gr, h1, h⟩ := bind_eq_ok.1 h
  obtain ⟨g', h2, -⟩ := bind_eq_ok.1 h
  unfold idxUnchecked at h1
  split at h1
  · rename_i hg; cases h1; exact ⟨_, _, hg, h2⟩
  · cases h1

theorem nullToNone_eq_none {a : Nat} : nullToNone a = none ↔ a = NULL_ID := by
  unfold nullToNone
  split
  · rename_i h; simp [h]
  · rename_i h; simp only [true_iff]; exact Classical.not_not.1 h

theorem nullToNone_eq_some {a e : Nat} (he : e ≠ NULL_ID) : nullToNone a = some e ↔ a = e := by
  unfold nullToNone
  split
  · simp
  · rename_i h
    have : a = NULL_ID := Classical.not_not.1 h
    subst this
    simp only [reduceCtorEq, false_iff]
    exact fun h => he h.symm

theorem getNext_of {i : Nat} {gr : Group} {a : Nat} (hb : binarySearch c.groupIds g = .found i) (hg : c.groups[i]? = some gr)
    (hr : Raw.read gr.fwd e = .ok a) : c.getNext g e = .ok (nullToNone a) := by
  unfold getNext
  rw [hb]
  simp only [idxUnchecked_of_some hg, ok_bind, hr, pure_ok]

theorem getPrevious_of {i : Nat} {gr : Group} {a : Nat} (hb : binarySearch c.groupIds g = .found i)
    (hg : c.groups[i]? = some gr) (hr : Raw.read gr.bwd e = .ok a) : c.getPrevious g e = .ok (nullToNone a) := by
  unfold getPrevious
  rw [hb]
  simp only [idxUnchecked_of_some hg, ok_bind, hr, pure_ok]

theorem remove_exclusive (hr : c.remove g e = .ok c') (he : e ≠ NULL_ID) :
    Exclusive (c.removeT g e).uses ↔ c.getNext g e ≠ .ok (some e) ∧ c.getPrevious g e ≠ .ok (some e) := by
  unfold remove at hr
  unfold removeT
  cases hb : binarySearch c.groupIds g with
  | notFound i =>
    unfold getNext getPrevious
    rw [hb]
    simp only [uses_pure]
    constructor
    · intro _; constructor <;> exact fun h => nomatch h
    · exact fun _ => rfl
  | found i =>
    rw [hb] at hr
    obtain ⟨gr, g', h1, h2⟩ := onGroup_inv hr
    obtain ⟨f, b, h3, h4, h5⟩ := Group.uses_removal (k := i) h2
    simp only [uses_onGroup h1, h5, Group.removal_exclusive _ _ he, getNext_of hb h1 h3, getPrevious_of hb h1 h4,
      Except.ok.injEq, nullToNone_eq_some he, ne_eq]

theorem read_allocLinks {cap x a : Nat} (h : Raw.read (Group.allocLinks cap) x = .ok a) : a = NULL_ID := by
  unfold Raw.read Group.allocLinks at h
  rw [List.getElem?_replicate] at h
  split at h
  · rename_i hh
    split at hh
    · cases hh; cases h; rfl
    · cases hh
  · cases h
  · cases h

theorem addNextTo_exclusive (hr : c.addNextTo dbg g e x = .ok c') (he : e ≠ NULL_ID) :
    Exclusive (c.addNextToT dbg g e x).uses ↔ c.getNext g x = .ok none ∨ x ≠ e ∧ c.getNext g x ≠ .ok (some e) := by
  unfold addNextTo reserveGroup at hr
  unfold addNextToT reserveGroup
  cases hb : binarySearch c.groupIds g with
  | found i =>
    rw [hb] at hr
    obtain ⟨gr, g', h1, h2⟩ := onGroup_inv hr
    obtain ⟨a, h3, h4⟩ := Group.addNextTo_exclusive (k := i) h2 he
    simp only [uses_onGroup h1, h4, getNext_of hb h1 h3, Except.ok.injEq, nullToNone_eq_some he, nullToNone_eq_none, ne_eq]
  | notFound i =>
    rw [hb] at hr
    obtain ⟨gr, g', h1, h2⟩ := onGroup_inv hr
    obtain ⟨a, h3, h4⟩ := Group.addNextTo_exclusive (k := i) h2 he
    have hn : c.getNext g x = .ok none := by unfold getNext; rw [hb]
    simp only [hn, true_or, iff_true]
    rw [uses_onGroup h1, h4]
    have hgr : gr = Group.new c.entityCapacity := by
      have hi : i ≤ c.groups.length := by
        rcases Nat.lt_or_ge c.groups.length i with hlt | hge
        · simp only [List.insertIdx_of_length_lt hlt] at h1
          rw [List.getElem?_eq_none (by omega)] at h1
          cases h1
        · exact hge
      simp only at h1
      rw [List.getElem?_insertIdx] at h1
      simp [hi] at h1
      exact h1.symm
    rw [hgr] at h3
    exact .inl (read_allocLinks h3)

theorem addPreviousTo_exclusive (hr : c.addPreviousTo dbg g e x = .ok c') (he : e ≠ NULL_ID) :
    Exclusive (c.addPreviousToT dbg g e x).uses ↔ c.getPrevious g x = .ok none ∨ x ≠ e ∧ c.getPrevious g x ≠ .ok (some e) := by
  unfold addPreviousTo reserveGroup at hr
  unfold addPreviousToT reserveGroup
  cases hb : binarySearch c.groupIds g with
  | found i =>
    rw [hb] at hr
    obtain ⟨gr, g', h1, h2⟩ := onGroup_inv hr
    obtain ⟨a, h3, h4⟩ := Group.addPreviousTo_exclusive (k := i) h2 he
    simp only [uses_onGroup h1, h4, getPrevious_of hb h1 h3, Except.ok.injEq, nullToNone_eq_some he, nullToNone_eq_none, ne_eq]
  | notFound i =>
    rw [hb] at hr
    obtain ⟨gr, g', h1, h2⟩ := onGroup_inv hr
    obtain ⟨a, h3, h4⟩ := Group.addPreviousTo_exclusive (k := i) h2 he
    have hn : c.getPrevious g x = .ok none := by unfold getPrevious; rw [hb]
    simp only [hn, true_or, iff_true]
    rw [uses_onGroup h1, h4]
    have hgr : gr = Group.new c.entityCapacity := by
      have hi : i ≤ c.groups.length := by
        rcases Nat.lt_or_ge c.groups.length i with hlt | hge
        · simp only [List.insertIdx_of_length_lt hlt] at h1
          rw [List.getElem?_eq_none (by omega)] at h1
          cases h1
        · exact hge
      simp only at h1
      rw [List.getElem?_insertIdx] at h1
      simp [hi] at h1
      exact h1.symm
    rw [hgr] at h3
    exact .inl (read_allocLinks h3)

theorem next_to_panic {p : Panic} (hr : c.addNextTo dbg g e x = .error (.panic p)) :
    Exclusive (c.addNextToT dbg g e x).uses := by
  unfold addNextTo at hr
  unfold addNextToT
  generalize c.reserveGroup g = r at hr ⊢
  obtain ⟨c1, i⟩ := r
  simp only at hr ⊢
  cases h1 : c1.groups[i]? with
  | none => unfold onGroup idxUnchecked at hr; rw [h1] at hr; cases hr
  | some gr =>
    rw [uses_onGroup h1]
    unfold onGroup at hr
    rw [idxUnchecked_of_some h1, ok_bind] at hr
    rcases Group.bind_panic hr with h | ⟨_, -, h⟩
    · exact Group.addNextTo_panic h
    · cases h

theorem previous_to_panic {p : Panic} (hr : c.addPreviousTo dbg g e x = .error (.panic p)) :
    Exclusive (c.addPreviousToT dbg g e x).uses := by
  unfold addPreviousTo at hr
  unfold addPreviousToT
  generalize c.reserveGroup g = r at hr ⊢
  obtain ⟨c1, i⟩ := r
  simp only at hr ⊢
  cases h1 : c1.groups[i]? with
  | none => unfold onGroup idxUnchecked at hr; rw [h1] at hr; cases hr
  | some gr =>
    rw [uses_onGroup h1]
    unfold onGroup at hr
    rw [idxUnchecked_of_some h1, ok_bind] at hr
    rcases Group.bind_panic hr with h | ⟨_, -, h⟩
    · exact Group.addPreviousTo_panic h
    · cases h

theorem add_exclusive (dbg : Bool) (c : Orders) (g e : Nat) : Exclusive (c.addT dbg g e).uses := by
  unfold addT
  generalize c.reserveGroup g = r
  obtain ⟨c1, i⟩ := r
  simp only
  cases h1 : c1.groups[i]? with
  | none =>
    unfold onGroupT
    rw [uses_err (t := silent (idxUnchecked c1.groups i)) (x := .ub .oob) (by
      unfold silent idxUnchecked; rw [h1])]
    rfl
  | some gr => rw [uses_onGroup h1]; exact Group.add_exclusive dbg i gr e

theorem removeAllLoop_exclusive (he : e ≠ NULL_ID) : ∀ (gs : List Group) (k : Nat) {gs' : List Group},
    gs.mapM (fun g => g.remove e) = .ok gs' → Closed [] (removeAllLoopT e k gs).uses ∧
      (Exclusive (removeAllLoopT e k gs).uses ↔
        ∀ g ∈ gs, Raw.read g.fwd e ≠ .ok e ∧ Raw.read g.bwd e ≠ .ok e) := by
  intro gs
  induction gs with
  | nil => intro k gs' _; exact ⟨trivial, fun _ g hg => absurd hg List.not_mem_nil, fun _ => rfl⟩
  | cons g gs ih =>
    intro k gs' hr
    rw [List.mapM_cons] at hr
    obtain ⟨g', r1, hr⟩ := bind_eq_ok.1 hr
    obtain ⟨gs1, r2, hr⟩ := bind_eq_ok.1 hr
    obtain ⟨i1, i2⟩ := ih (k + 1) r2
    obtain ⟨f, b, h3, h4, h5⟩ := Group.uses_removal (k := k) r1
    have hu : (removeAllLoopT e k (g :: gs)).uses =
        Group.removal k e f b (decide (g.head = e)) (decide (g.tail = e)) ++ (removeAllLoopT e (k + 1) gs).uses := by
      show (g.removeT k e >>= fun g => _).uses = _
      rw [uses_ok (a := g') (by rw [Group.result_remove]; exact r1),
        uses_ok (a := gs1) (by rw [result_removeAllLoop]; exact r2), h5, uses_pure, List.append_nil]
    rw [hu]
    refine ⟨closed_append (removal_closed ..) i1, ?_⟩
    rw [exclusive_append i1, Group.removal_exclusive _ _ he, i2]
    simp only [List.forall_mem_cons, h3, h4, ne_eq, Except.ok.injEq]

theorem link_iff {r : Res Nat} (he : e ≠ NULL_ID) : r ≠ .ok e ↔ (r >>= fun t => .ok (nullToNone t)) ≠ .ok (some e) := by
  cases r with
  | error y => simp
  | ok t => simp only [ok_bind, ne_eq, Except.ok.injEq, nullToNone_eq_some he]

theorem removeAll_exclusive (hr : c.removeAll e = .ok c') (he : e ≠ NULL_ID) (hi : Incr c.groupIds)
    (hl : c.groups.length = c.groupIds.length) :
    Exclusive (c.removeAllT e).uses ↔ ∀ g, c.getNext g e ≠ .ok (some e) ∧ c.getPrevious g e ≠ .ok (some e) := by
  unfold removeAll at hr
  obtain ⟨gs', h1, -⟩ := bind_eq_ok.1 hr
  have hu : (c.removeAllT e).uses = (removeAllLoopT e 0 c.groups).uses := by
    unfold removeAllT
    rw [uses_ok (a := gs') (by rw [result_removeAllLoop]; exact h1), uses_pure, List.append_nil]
  rw [hu, (removeAllLoop_exclusive he c.groups 0 h1).2]
  constructor
  · intro h g
    cases hb : binarySearch c.groupIds g with
    | notFound i =>
      unfold getNext getPrevious
      rw [hb]
      constructor <;> exact fun h => nomatch h
    | found i =>
      have hk := binarySearch_found hb
      have hlt : i < c.groups.length := by rw [hl]; exact (List.getElem?_eq_some_iff.1 hk).1
      have hg : c.groups[i]? = some c.groups[i] := List.getElem?_eq_getElem hlt
      unfold getNext getPrevious
      rw [hb]
      simp only [idxUnchecked_of_some hg, ok_bind, pure_ok]
      exact ⟨(link_iff he).1 (h _ (List.getElem_mem hlt)).1, (link_iff he).1 (h _ (List.getElem_mem hlt)).2⟩
  · intro h g hg
    obtain ⟨i, hg⟩ := List.getElem?_of_mem hg
    have hlt : i < c.groupIds.length := by rw [← hl]; exact (List.getElem?_eq_some_iff.1 hg).1
    have hk : lookupK c.groupIds c.groups c.groupIds[i] = some g :=
      (lookupK_iff hi).2 ⟨i, List.getElem?_eq_getElem hlt, hg⟩
    unfold lookupK at hk
    have := h c.groupIds[i]
    unfold getNext getPrevious at this
    cases hb : binarySearch c.groupIds c.groupIds[i] with
    | notFound j => rw [hb] at hk; cases hk
    | found j =>
      rw [hb] at hk this
      simp only at hk
      simp only [idxUnchecked_of_some hk, ok_bind, pure_ok] at this
      exact ⟨(link_iff he).2 this.1, (link_iff he).2 this.2⟩

end Orders
end Ecs
