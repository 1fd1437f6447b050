import Verif.Spec.LinkCost
import Verif.Proofs.LinkRefs

/-! Counting the accesses to links (C117). -/

namespace Ecs
open Spec Traced
variable {α β : Type}

theorem linkAccesses_append (us vs : List Use) : linkAccesses (us ++ vs) = linkAccesses us + linkAccesses vs := by
  induction us with
  | nil => simp [linkAccesses]
  | cons u us ih => cases u <;> simp [linkAccesses, ih] <;> omega

theorem linksTouched_append (us vs : List Use) : linksTouched (us ++ vs) = linksTouched us ++ linksTouched vs := by
  induction us with
  | nil => rfl
  | cons u us ih => cases u <;> simp [linksTouched, ih]

/-- At most `n` accesses. -/
def Few (n : Nat) (t : Traced α) : Prop := linkAccesses t.uses ≤ n

theorem Few.bind {n m : Nat} {t : Traced α} {f : α → Traced β} (h1 : Few n t) (h2 : ∀ a, Few m (f a)) : Few (n + m) (t >>= f) := by
  unfold Few at *
  cases hr : t.result with
  | ok a => rw [uses_ok hr, linkAccesses_append]; have := h2 a; omega
  | error x => rw [uses_err hr]; omega

theorem Few.mono {n m : Nat} {t : Traced α} (h : Few n t) (hn : n ≤ m) : Few m t := Nat.le_trans h hn
theorem Few.pure (a : α) : Few 0 (pure a : Traced α) := Nat.le_refl 0
theorem Few.silent (r : Res α) : Few 0 (silent r) := Nat.le_refl 0
theorem Few.borrow (v : LinkVar) (l : Link) : Few 0 (borrow v l) := Nat.le_refl 0
theorem Few.readVia (v : LinkVar) (a : Raw Nat) (i : Nat) : Few 1 (readVia v a i) := Nat.le_refl 1
theorem Few.writeVia (v : LinkVar) (a : Raw Nat) (i x : Nat) : Few 1 (writeVia v a i x) := Nat.le_refl 1
theorem Few.readRaw (l : Link) (a : Raw Nat) : Few 1 (readRaw l a) := Nat.le_refl 1
theorem Few.writeRaw (l : Link) (a : Raw Nat) (x : Nat) : Few 1 (writeRaw l a x) := Nat.le_refl 1

theorem Few.ite {n : Nat} {p : Prop} [Decidable p] {a b : Traced α} (h1 : Few n a) (h2 : Few n b) : Few n (if p then a else b) := by
  split
  · exact h1
  · exact h2

namespace Group

theorem few_add (dbg : Bool) (k : Nat) (g : Group) (e : Nat) : Few 4 (g.addT dbg k e) := by
  unfold addT
  refine .ite ((Few.pure _).mono (by omega)) ?_
  exact (Few.readRaw ..).bind (m := 3) fun _ => (Few.borrow ..).bind (m := 3) fun _ => (Few.readVia ..).bind (m := 2) fun _ =>
    (Few.silent _).bind (m := 2) fun _ => (Few.writeRaw ..).bind (m := 1) fun _ => (Few.writeVia ..).bind (m := 0) fun _ => Few.pure _

theorem few_linkNext (k : Nat) (g : Group) (e x : Nat) : Few 5 (linkNextT k g e x) := by
  unfold linkNextT
  refine (Few.readVia ..).bind (m := 4) fun _ => .ite ((Few.pure _).mono (by omega)) ?_
  exact (Few.readVia ..).bind (m := 3) fun _ => (Few.writeRaw ..).bind (m := 2) fun _ => (Few.readVia ..).bind (m := 1) fun _ =>
    (Few.writeVia ..).bind (m := 0) fun _ => Few.pure _

theorem few_addNextTo (dbg : Bool) (k : Nat) (g : Group) (e x : Nat) : Few 9 (g.addNextToT dbg k e x) := by
  unfold addNextToT
  exact (Few.borrow ..).bind (m := 9) fun _ => (Few.borrow ..).bind (m := 9) fun _ => (Few.readVia ..).bind (m := 8) fun _ =>
    (Few.readVia ..).bind (m := 7) fun _ => (Few.silent _).bind (m := 7) fun _ => (Few.borrow ..).bind (m := 7) fun _ =>
    (few_linkNext ..).bind (m := 2) fun _ => (Few.writeVia ..).bind (m := 1) fun _ => (Few.writeVia ..).bind (m := 0) fun _ => Few.pure _

theorem few_linkPrevious (k : Nat) (g : Group) (e x : Nat) : Few 5 (linkPreviousT k g e x) := by
  unfold linkPreviousT
  refine (Few.readVia ..).bind (m := 4) fun _ => .ite ((Few.pure _).mono (by omega)) ?_
  exact (Few.readVia ..).bind (m := 3) fun _ => (Few.writeRaw ..).bind (m := 2) fun _ => (Few.readVia ..).bind (m := 1) fun _ =>
    (Few.writeVia ..).bind (m := 0) fun _ => Few.pure _

theorem few_addPreviousTo (dbg : Bool) (k : Nat) (g : Group) (e x : Nat) : Few 9 (g.addPreviousToT dbg k e x) := by
  unfold addPreviousToT
  exact (Few.borrow ..).bind (m := 9) fun _ => (Few.borrow ..).bind (m := 9) fun _ => (Few.readVia ..).bind (m := 8) fun _ =>
    (Few.readVia ..).bind (m := 7) fun _ => (Few.silent _).bind (m := 7) fun _ => (Few.borrow ..).bind (m := 7) fun _ =>
    (few_linkPrevious ..).bind (m := 2) fun _ => (Few.writeVia ..).bind (m := 1) fun _ => (Few.writeVia ..).bind (m := 0) fun _ => Few.pure _

theorem few_remove (k : Nat) (g : Group) (e : Nat) : Few 12 (g.removeT k e) := by
  have h1 : Few 4 (unlinkNextT k g e) := by
    unfold unlinkNextT
    refine (Few.readVia ..).bind (m := 3) fun _ => .ite ((Few.pure _).mono (by omega)) ?_
    exact (Few.readVia ..).bind (m := 2) fun _ => (Few.readVia ..).bind (m := 1) fun _ => Few.writeRaw ..
  have h2 : ∀ bwd, Few 4 (unlinkPreviousT k g bwd e) := by
    intro bwd
    unfold unlinkPreviousT
    refine (Few.readVia ..).bind (m := 3) fun _ => .ite ((Few.pure _).mono (by omega)) ?_
    exact (Few.readVia ..).bind (m := 2) fun _ => (Few.readVia ..).bind (m := 1) fun _ => Few.writeRaw ..
  have h3 : ∀ v a old, Few 1 (endT v a e old) := fun v a old => Few.ite (Few.readVia ..) ((Few.pure _).mono (by omega))
  unfold removeT
  exact (Few.borrow ..).bind (m := 12) fun _ => (Few.borrow ..).bind (m := 12) fun _ => h1.bind (m := 8) fun _ => (h2 _).bind (m := 4) fun _ =>
    (h3 ..).bind (m := 3) fun _ => (h3 ..).bind (m := 2) fun _ => (Few.writeVia ..).bind (m := 1) fun _ =>
    (Few.writeVia ..).bind (m := 0) fun _ => Few.pure _

end Group

namespace Orders

theorem few_onGroup {n : Nat} (c : Orders) (i : Nat) {f : Group → Traced Group} (h : ∀ g, Few n (f g)) : Few n (c.onGroupT i f) :=
  ((Few.silent _).bind (m := n) fun _ => (h _).bind (m := 0) fun _ => Few.pure _).mono (by omega)

theorem few_add (dbg : Bool) (c : Orders) (g e : Nat) : Few 4 (c.addT dbg g e) := few_onGroup _ _ fun _ => Group.few_add ..
theorem few_addNextTo (dbg : Bool) (c : Orders) (g e x : Nat) : Few 9 (c.addNextToT dbg g e x) := few_onGroup _ _ fun _ => Group.few_addNextTo ..
theorem few_addPreviousTo (dbg : Bool) (c : Orders) (g e x : Nat) : Few 9 (c.addPreviousToT dbg g e x) :=
  few_onGroup _ _ fun _ => Group.few_addPreviousTo ..

theorem few_remove (c : Orders) (g e : Nat) : Few 12 (c.removeT g e) := by
  unfold removeT
  split
  · exact (Few.pure _).mono (by omega)
  · exact few_onGroup _ _ fun _ => Group.few_remove ..

theorem few_removeAll (c : Orders) (e : Nat) : Few (12 * c.groups.length) (c.removeAllT e) := by
  have h : ∀ (gs : List Group) k, Few (12 * gs.length) (removeAllLoopT e k gs) := by
    intro gs
    induction gs with
    | nil => exact fun _ => Few.pure _
    | cons g gs ih =>
      intro k
      exact ((Group.few_remove k g e).bind fun _ => (ih (k + 1)).bind (m := 0) fun _ => Few.pure _).mono (by simp; omega)
  exact ((h c.groups 0).bind (m := 0) fun _ => Few.pure _).mono (by omega)

end Orders

/-! ### Which links -/

/-- All links touched satisfy `P`. -/
def Within (P : Link → Prop) (t : Traced α) : Prop := ∀ l ∈ linksTouched t.uses, P l

namespace Within
variable {P : Link → Prop}

theorem bind {t : Traced α} {f : α → Traced β} (h1 : Within P t) (h2 : ∀ a, t.result = .ok a → Within P (f a)) : Within P (t >>= f) := by
  unfold Within at *
  cases hr : t.result with
  | ok a =>
    rw [uses_ok hr, linksTouched_append]
    intro l hl
    rcases List.mem_append.1 hl with hl | hl
    · exact h1 l hl
    · exact h2 a hr l hl
  | error x => rw [uses_err hr]; exact h1

theorem pure (a : α) : Within P (pure a : Traced α) := fun _ h => nomatch h
theorem silent (r : Res α) : Within P (silent r) := fun _ h => nomatch h
theorem borrow (v : LinkVar) {l : Link} (h : P l) : Within P (borrow v l) := fun l' hl => by
  rcases List.mem_singleton.1 hl with rfl; exact h
theorem readVia (v : LinkVar) (a : Raw Nat) (i : Nat) : Within P (readVia v a i) := fun _ h => nomatch h
theorem writeVia (v : LinkVar) (a : Raw Nat) (i x : Nat) : Within P (writeVia v a i x) := fun _ h => nomatch h
theorem readRaw {l : Link} (a : Raw Nat) (h : P l) : Within P (readRaw l a) := fun l' hl => by
  rcases List.mem_singleton.1 hl with rfl; exact h
theorem writeRaw {l : Link} (a : Raw Nat) (x : Nat) (h : P l) : Within P (writeRaw l a x) := fun l' hl => by
  rcases List.mem_singleton.1 hl with rfl; exact h

theorem mono {Q : Link → Prop} {t : Traced α} (h : Within P t) (hq : ∀ l, P l → Q l) : Within Q t := fun l hl => hq l (h l hl)

end Within

namespace Group

theorem within_add (dbg : Bool) (k : Nat) (g : Group) (e : Nat) :
    Within (fun l => l.group = k ∧ (l.id = e ∨ l.id = g.tail ∧ g.head ≠ NULL_ID)) (g.addT dbg k e) := by
  unfold addT
  split
  · exact .pure _
  · rename_i hn
    exact Within.bind (Within.readRaw _ ⟨rfl, .inl rfl⟩) fun _ _ => Within.bind (Within.borrow _ ⟨rfl, .inl rfl⟩) fun _ _ => Within.bind (Within.readVia _ _ _) fun _ _ =>
      Within.bind (Within.silent _) fun _ _ => Within.bind (Within.writeRaw _ _ ⟨rfl, .inr ⟨rfl, hn⟩⟩) fun _ _ => Within.bind (Within.writeVia _ _ _ _) fun _ _ => Within.pure _

theorem within_addNextTo (dbg : Bool) (k : Nat) (g : Group) (e x : Nat) :
    Within (fun l => l.group = k ∧ (l.id = e ∨ l.id = x ∨ Raw.read g.fwd x = .ok l.id ∧ l.id ≠ NULL_ID)) (g.addNextToT dbg k e x) := by
  unfold addNextToT
  refine Within.bind (Within.borrow _ ⟨rfl, .inl rfl⟩) fun _ _ => Within.bind (Within.borrow _ ⟨rfl, .inl rfl⟩) fun _ _ => Within.bind (Within.readVia _ _ _) fun _ _ =>
    Within.bind (Within.readVia _ _ _) fun _ _ => Within.bind (Within.silent _) fun _ _ => Within.bind (Within.borrow _ ⟨rfl, .inr (.inl rfl)⟩) fun _ _ =>
    Within.bind ?_ fun _ _ => Within.bind (Within.writeVia _ _ _ _) fun _ _ => Within.bind (Within.writeVia _ _ _ _) fun _ _ => Within.pure _
  unfold linkNextT
  refine Within.bind (Within.readVia _ _ _) fun a ha => ?_
  split
  · exact .pure _
  · rename_i hn
    refine Within.bind (Within.readVia _ _ _) fun a' ha' => ?_
    cases Except.ok.inj (ha.symm.trans ha')
    exact Within.bind (Within.writeRaw _ _ ⟨rfl, .inr (.inr ⟨ha, hn⟩)⟩) fun _ _ =>
      Within.bind (Within.readVia _ _ _) fun _ _ => Within.bind (Within.writeVia _ _ _ _) fun _ _ => Within.pure _

theorem within_addPreviousTo (dbg : Bool) (k : Nat) (g : Group) (e x : Nat) :
    Within (fun l => l.group = k ∧ (l.id = e ∨ l.id = x ∨ Raw.read g.bwd x = .ok l.id ∧ l.id ≠ NULL_ID)) (g.addPreviousToT dbg k e x) := by
  unfold addPreviousToT
  refine Within.bind (Within.borrow _ ⟨rfl, .inl rfl⟩) fun _ _ => Within.bind (Within.borrow _ ⟨rfl, .inl rfl⟩) fun _ _ => Within.bind (Within.readVia _ _ _) fun _ _ =>
    Within.bind (Within.readVia _ _ _) fun _ _ => Within.bind (Within.silent _) fun _ _ => Within.bind (Within.borrow _ ⟨rfl, .inr (.inl rfl)⟩) fun _ _ =>
    Within.bind ?_ fun _ _ => Within.bind (Within.writeVia _ _ _ _) fun _ _ => Within.bind (Within.writeVia _ _ _ _) fun _ _ => Within.pure _
  unfold linkPreviousT
  refine Within.bind (Within.readVia _ _ _) fun a ha => ?_
  split
  · exact .pure _
  · rename_i hn
    refine Within.bind (Within.readVia _ _ _) fun a' ha' => ?_
    cases Except.ok.inj (ha.symm.trans ha')
    exact Within.bind (Within.writeRaw _ _ ⟨rfl, .inr (.inr ⟨ha, hn⟩)⟩) fun _ _ =>
      Within.bind (Within.readVia _ _ _) fun _ _ => Within.bind (Within.writeVia _ _ _ _) fun _ _ => Within.pure _

/-- The neighbours of an id in a group. -/
def Beside (g : Group) (e i : Nat) : Prop := i ≠ NULL_ID ∧ (Raw.read g.fwd e = .ok i ∨ Raw.read g.bwd e = .ok i)

theorem within_remove (k : Nat) (g : Group) (e : Nat) :
    Within (fun l => l.group = k ∧ (l.id = e ∨ g.Beside e l.id)) (g.removeT k e) := by
  have h1 : Within (fun l => l.group = k ∧ (l.id = e ∨ g.Beside e l.id)) (unlinkNextT k g e) := by
    unfold unlinkNextT
    refine Within.bind (Within.readVia _ _ _) fun f hf => ?_
    split
    · exact .pure _
    · rename_i hn
      refine Within.bind (Within.readVia _ _ _) fun b hb => Within.bind (Within.readVia _ _ _) fun f' hf' => ?_
      cases Except.ok.inj (hf.symm.trans hf')
      exact .writeRaw _ _ ⟨rfl, .inr ⟨hn, .inl hf⟩⟩
  have h3 : ∀ v a old, Within (fun l => l.group = k ∧ (l.id = e ∨ g.Beside e l.id)) (endT v a e old) := by
    intro v a old
    unfold endT
    split
    · exact .readVia _ _ _
    · exact .pure _
  unfold removeT
  refine Within.bind (Within.borrow _ ⟨rfl, .inl rfl⟩) fun _ _ => Within.bind (Within.borrow _ ⟨rfl, .inl rfl⟩) fun _ _ => h1.bind fun bwd hbw =>
    Within.bind ?_ fun _ _ => Within.bind (h3 _ _ _) fun _ _ => Within.bind (h3 _ _ _) fun _ _ => Within.bind (Within.writeVia _ _ _ _) fun _ _ =>
    Within.bind (Within.writeVia _ _ _ _) fun _ _ => Within.pure _
  unfold unlinkPreviousT
  refine Within.bind (Within.readVia _ _ _) fun b hb => ?_
  split
  · exact .pure _
  · rename_i hn
    refine Within.bind (Within.readVia _ _ _) fun f hf => Within.bind (Within.readVia _ _ _) fun b' hb' => ?_
    cases Except.ok.inj (hb.symm.trans hb')
    refine .writeRaw _ _ ⟨rfl, .inr ⟨hn, .inr ?_⟩⟩
    unfold unlinkNextT at hbw
    rw [result_bind] at hbw
    obtain ⟨f1, h4, hbw⟩ := bind_eq_ok.1 hbw
    split at hbw
    · cases hbw
      exact hb
    · rw [result_bind] at hbw
      obtain ⟨b1, h5, hbw⟩ := bind_eq_ok.1 hbw
      rw [result_bind] at hbw
      obtain ⟨f2, h6, hbw⟩ := bind_eq_ok.1 hbw
      have h7 : Raw.read g.bwd e = .ok b1 := h5
      have := Raw.read_write_of (show Raw.write g.bwd f2 b1 = .ok bwd from hbw) h7
      rw [ite_self] at this
      cases Except.ok.inj ((show Raw.read bwd e = .ok b from hb).symm.trans this)
      exact h7

end Group

namespace Orders
variable {c : Orders}

theorem within_onGroup {P : Link → Prop} {i : Nat} {f : Group → Traced Group} (h : ∀ g, c.groups[i]? = some g → Within P (f g)) :
    Within P (c.onGroupT i f) := by
  unfold onGroupT
  refine Within.bind (Within.silent _) fun g hg => Within.bind (h g ?_) fun _ _ => Within.pure _
  have hg : idxUnchecked c.groups i = .ok g := hg
  unfold idxUnchecked at hg
  cases h1 : c.groups[i]? with
  | none => rw [h1] at hg; cases hg
  | some g' => rw [h1] at hg; cases hg; rfl

theorem reserved_new {i : Nat} {gr : Group} (h : (c.groups.insertIdx i (Group.new c.entityCapacity))[i]? = some gr) :
    gr = Group.new c.entityCapacity := by
  have hi : i ≤ c.groups.length := by
    rcases Nat.lt_or_ge c.groups.length i with hlt | hge
    · rw [List.insertIdx_of_length_lt hlt, List.getElem?_eq_none (by omega)] at h
      cases h
    · exact hge
  rw [List.getElem?_insertIdx] at h
  simp [hi] at h
  exact h.symm

theorem nullToNone_some {a : Nat} (h : a ≠ NULL_ID) : nullToNone a = some a := by
  unfold nullToNone
  rw [if_pos h]

theorem within_add (dbg : Bool) (c : Orders) (g e : Nat) :
    ∃ k, Within (fun l => l.group = k ∧ (l.id = e ∨ c.getHead g ≠ .ok none ∧ c.getTail g = .ok (nullToNone l.id))) (c.addT dbg g e) := by
  unfold addT reserveGroup
  cases hb : binarySearch c.groupIds g with
  | found i =>
    refine ⟨i, within_onGroup fun gr hg => (Group.within_add dbg i gr e).mono fun l hl => ⟨hl.1, hl.2.imp id fun hl => ?_⟩⟩
    unfold getHead getTail getGroupIndex
    rw [hb]
    simp only [idxUnchecked_of_some hg, ok_bind, pure_ok, hl.1, nullToNone_some hl.2]
    exact ⟨nofun, trivial⟩
  | notFound i =>
    refine ⟨i, within_onGroup fun gr hg => (Group.within_add dbg i gr e).mono fun l hl => ⟨hl.1, hl.2.imp id fun hl => ?_⟩⟩
    cases reserved_new hg
    exact absurd rfl hl.2

theorem within_addNextTo (dbg : Bool) (c : Orders) (g e x : Nat) :
    ∃ k, Within (fun l => l.group = k ∧ (l.id = e ∨ l.id = x ∨ c.getNext g x = .ok (some l.id))) (c.addNextToT dbg g e x) := by
  unfold addNextToT reserveGroup
  cases hb : binarySearch c.groupIds g with
  | found i =>
    refine ⟨i, within_onGroup fun gr hg => (Group.within_addNextTo dbg i gr e x).mono fun l hl =>
      ⟨hl.1, hl.2.imp id fun h => h.imp id fun hl => ?_⟩⟩
    rw [getNext_of hb hg hl.1, nullToNone_some hl.2]
  | notFound i =>
    refine ⟨i, within_onGroup fun gr hg => (Group.within_addNextTo dbg i gr e x).mono fun l hl =>
      ⟨hl.1, hl.2.imp id fun h => h.imp id fun hl => ?_⟩⟩
    cases reserved_new hg
    exact absurd (read_allocLinks hl.1) hl.2

theorem within_addPreviousTo (dbg : Bool) (c : Orders) (g e x : Nat) :
    ∃ k, Within (fun l => l.group = k ∧ (l.id = e ∨ l.id = x ∨ c.getPrevious g x = .ok (some l.id))) (c.addPreviousToT dbg g e x) := by
  unfold addPreviousToT reserveGroup
  cases hb : binarySearch c.groupIds g with
  | found i =>
    refine ⟨i, within_onGroup fun gr hg => (Group.within_addPreviousTo dbg i gr e x).mono fun l hl =>
      ⟨hl.1, hl.2.imp id fun h => h.imp id fun hl => ?_⟩⟩
    rw [getPrevious_of hb hg hl.1, nullToNone_some hl.2]
  | notFound i =>
    refine ⟨i, within_onGroup fun gr hg => (Group.within_addPreviousTo dbg i gr e x).mono fun l hl =>
      ⟨hl.1, hl.2.imp id fun h => h.imp id fun hl => ?_⟩⟩
    cases reserved_new hg
    exact absurd (read_allocLinks hl.1) hl.2

theorem within_remove (c : Orders) (g e : Nat) :
    ∃ k, Within (fun l => l.group = k ∧ (l.id = e ∨ c.getNext g e = .ok (some l.id) ∨ c.getPrevious g e = .ok (some l.id))) (c.removeT g e) := by
  unfold removeT
  cases hb : binarySearch c.groupIds g with
  | found i =>
    refine ⟨i, within_onGroup fun gr hg => (Group.within_remove i gr e).mono fun l hl => ⟨hl.1, hl.2.imp id fun h => ?_⟩⟩
    refine h.2.imp (fun hr => ?_) (fun hr => ?_)
    · rw [getNext_of hb hg hr, nullToNone_some h.1]
    · rw [getPrevious_of hb hg hr, nullToNone_some h.1]
  | notFound i => exact ⟨i, Within.pure _⟩

theorem within_removeAll (c : Orders) (e : Nat) (hi : Incr c.groupIds) (hl : c.groups.length = c.groupIds.length) :
    Within (fun l => ∃ g, c.groupIds[l.group]? = some g ∧
      (l.id = e ∨ c.getNext g e = .ok (some l.id) ∨ c.getPrevious g e = .ok (some l.id))) (c.removeAllT e) := by
  have loop : ∀ (gs : List Group) k, gs = c.groups.drop k → Within (fun l => ∃ g, c.groupIds[l.group]? = some g ∧
      (l.id = e ∨ c.getNext g e = .ok (some l.id) ∨ c.getPrevious g e = .ok (some l.id))) (removeAllLoopT e k gs) := by
    intro gs
    induction gs with
    | nil => exact fun _ _ => Within.pure _
    | cons gr gs ih =>
      intro k hk
      have hg : c.groups[k]? = some gr := by
        have := congrArg (·[0]?) hk
        simpa using this.symm
      have hlt : k < c.groupIds.length := by rw [← hl]; exact (List.getElem?_eq_some_iff.1 hg).1
      have hid : c.groupIds[k]? = some c.groupIds[k] := List.getElem?_eq_getElem hlt
      have hb : binarySearch c.groupIds c.groupIds[k] = .found k := by
        have hk2 : lookupK c.groupIds c.groups c.groupIds[k] = some gr := (lookupK_iff hi).2 ⟨k, hid, hg⟩
        unfold lookupK at hk2
        cases hb : binarySearch c.groupIds c.groupIds[k] with
        | notFound j => rw [hb] at hk2; cases hk2
        | found j =>
          have hj := binarySearch_found hb
          congr 1
          have hnd : c.groupIds.Nodup := List.Pairwise.imp (fun h => Nat.ne_of_lt h) hi
          exact (hnd.getElem_inj_iff).1 (List.getElem?_eq_some_iff.1 hj).2
      refine Within.bind ((Group.within_remove k gr e).mono fun l hl => ⟨c.groupIds[k], by rw [hl.1]; exact hid, hl.2.imp id fun h => ?_⟩) fun _ _ =>
        Within.bind (ih (k + 1) (by rw [← List.drop_drop, ← hk]; rfl)) fun _ _ => Within.pure _
      refine h.2.imp (fun hr => ?_) (fun hr => ?_)
      · rw [getNext_of hb hg hr, nullToNone_some h.1]
      · rw [getPrevious_of hb hg hr, nullToNone_some h.1]
  exact Within.bind (loop c.groups 0 rfl) fun _ _ => Within.pure _

end Orders

end Ecs
