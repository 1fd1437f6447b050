import Verif.Spec.Names
import Verif.Proofs.Opaque
import Verif.Proofs.Search
import Verif.Proofs.Independent

/-! Tag and order containers under other names of tags and groups. -/

namespace Ecs
open Spec

/-- `r` ends with a value with `P` or with a failure with `E`. -/
def Ends {α : Type} (E : Fault → Prop) (P : α → Prop) : Res α → Prop
  | .ok a => P a
  | .error x => E x

namespace Ends
variable {α β : Type} {E : Fault → Prop} {P : α → Prop} {Q : β → Prop}

theorem bind {r : Res α} {f : α → Res β} (h : Ends E P r) (hf : ∀ a, P a → Ends E Q (f a)) : Ends E Q (r >>= f) := by
  cases r with
  | error x => exact h
  | ok a => exact hf a h

theorem mono {E' : Fault → Prop} {r : Res α} (h : Ends E P r) (hE : ∀ x, E x → E' x) : Ends E' P r := by
  cases r with
  | error x => exact hE x h
  | ok a => exact h

theorem ite {c : Prop} [Decidable c] {r r' : Res α} (h : c → Ends E P r) (h' : ¬ c → Ends E P r') :
    Ends E P (if c then r else r') := by
  split
  · exact h (by assumption)
  · exact h' (by assumption)

end Ends

/-- The only failure is an access out of bounds. -/
abbrev IsOob (x : Fault) : Prop := x = .ub .oob

/-- A link array of the right length without uninitialised cells. -/
def FullLinks (cap : Nat) (a : Raw Nat) : Prop := a.length = cap ∧ ∀ c ∈ a, c ≠ none

namespace FullLinks
variable {cap : Nat} {a : Raw Nat}

theorem read (h : FullLinks cap a) (i : Nat) : Ends IsOob (fun _ => True) (Raw.read a i) := by
  unfold Raw.read
  cases hc : a[i]? with
  | none => exact rfl
  | some c =>
    cases c with
    | none => exact absurd rfl (h.2 _ (List.mem_of_getElem? hc))
    | some x => trivial

theorem write (h : FullLinks cap a) (i x : Nat) : Ends IsOob (FullLinks cap) (Raw.write a i x) := by
  unfold Raw.write
  split
  · refine ⟨by rw [List.length_set]; exact h.1, fun c hc => ?_⟩
    rcases List.mem_or_eq_of_mem_set hc with hc | rfl
    · exact h.2 c hc
    · exact fun hx => by cases hx
  · exact rfl

theorem alloc (cap : Nat) : FullLinks cap (Group.allocLinks cap) :=
  ⟨List.length_replicate, fun c hc => by rw [List.eq_of_mem_replicate hc]; exact fun hx => by cases hx⟩

theorem grow (h : FullLinks cap a) (n : Nat) : Ends IsOob (FullLinks n) (Group.growLinks a cap n) := by
  unfold Group.growLinks Raw.realloc
  by_cases hn : cap = n
  · subst hn
    rw [if_pos rfl]
    show FullLinks cap (a.take cap ++ _)
    rw [List.take_of_length_le (Nat.le_of_eq h.1), Nat.sub_self]
    simpa using h
  · rw [if_neg hn]
    by_cases hc : (decide (a.length < cap) || decide (n < cap)) = true
    · rw [if_pos hc]
      exact rfl
    · rw [if_neg hc]
      have hc : cap < n := by
        simp only [Bool.or_eq_true, decide_eq_true_eq, not_or] at hc
        omega
      unfold Raw.dealloc
      rw [if_pos h.1]
      show FullLinks n (List.take cap (a.take cap ++ _) ++ _)
      have hl : (a.take cap).length = cap := by rw [List.length_take, h.1, Nat.min_self]
      rw [List.take_append_of_le_length (Nat.le_of_eq hl.symm), List.take_take, Nat.min_self]
      refine ⟨by rw [List.length_append, hl, List.length_replicate]; omega, fun c hm => ?_⟩
      rcases List.mem_append.1 hm with hm | hm
      · exact h.2 c (List.mem_of_mem_take hm)
      · rw [List.eq_of_mem_replicate hm]; exact fun hx => by cases hx

end FullLinks

/-- Both link arrays of a group are full. -/
def Group.Full (cap : Nat) (g : Group) : Prop := FullLinks cap g.fwd ∧ FullLinks cap g.bwd

namespace Group
variable {cap : Nat} {g : Group} {dbg : Bool}

theorem Full.new (cap : Nat) : Full cap (Group.new cap) := ⟨.alloc cap, .alloc cap⟩

/-- Any failure. -/
abbrev AnyFault : Fault → Prop := fun _ => True

theorem any_of {α : Type} {P : α → Prop} {r : Res α} (h : Ends IsOob P r) : Ends AnyFault P r := h.mono fun _ _ => trivial

theorem any_true {α : Type} (r : Res α) : Ends AnyFault (fun _ => True) r := by cases r <;> trivial

theorem Full.add (h : g.Full cap) (i : Nat) : Ends AnyFault (Full cap) (g.add dbg i) := by
  unfold Group.add
  split
  · exact h
  · refine (any_true _).bind fun _ _ => (any_true _).bind fun _ _ => (any_true _).bind fun _ _ => ?_
    exact (any_of (h.1.write _ _)).bind fun f hf => (any_of (h.2.write _ _)).bind fun b hb => ⟨hf, hb⟩

theorem Full.addNextTo (h : g.Full cap) (i j : Nat) : Ends AnyFault (Full cap) (g.addNextTo dbg i j) := by
  unfold Group.addNextTo
  refine (any_true _).bind fun _ _ => (any_true _).bind fun _ _ => (any_true _).bind fun _ _ => (any_true _).bind fun a _ => ?_
  refine Ends.bind (P := fun p => FullLinks cap p.1 ∧ FullLinks cap p.2) ?_ fun p hp => ?_
  · split
    · exact (any_of (h.2.write _ _)).bind fun b hb => (any_of (h.1.write _ _)).bind fun f hf => ⟨hf, hb⟩
    · exact h
  · obtain ⟨f, b⟩ := p
    exact (any_of (hp.1.write _ _)).bind fun f hf => (any_of (hp.2.write _ _)).bind fun b hb => ⟨hf, hb⟩

theorem Full.addPreviousTo (h : g.Full cap) (i j : Nat) : Ends AnyFault (Full cap) (g.addPreviousTo dbg i j) := by
  unfold Group.addPreviousTo
  refine (any_true _).bind fun _ _ => (any_true _).bind fun _ _ => (any_true _).bind fun _ _ => (any_true _).bind fun a _ => ?_
  refine Ends.bind (P := fun p => FullLinks cap p.1 ∧ FullLinks cap p.2) ?_ fun p hp => ?_
  · split
    · exact (any_of (h.1.write _ _)).bind fun f hf => (any_of (h.2.write _ _)).bind fun b hb => ⟨hf, hb⟩
    · exact h
  · obtain ⟨f, b⟩ := p
    exact (any_of (hp.2.write _ _)).bind fun b hb => (any_of (hp.1.write _ _)).bind fun f hf => ⟨hf, hb⟩

theorem Full.remove (h : g.Full cap) (i : Nat) : Ends IsOob (Full cap) (g.remove i) := by
  unfold Group.remove
  refine (h.1.read _).bind fun f _ => (h.2.read _).bind fun b _ => ?_
  have key1 : ∀ bwd, FullLinks cap bwd → Ends IsOob (Full cap) (do
      let b ← Raw.read bwd i
      let fwd ← if b ≠ NULL_ID then Raw.write g.fwd b f else pure g.fwd
      let f ← Raw.read fwd i
      let head := if g.head = i then f else g.head
      let tail := if g.tail = i then b else g.tail
      let bwd ← Raw.write bwd i NULL_ID
      let fwd ← Raw.write fwd i NULL_ID
      return { fwd := fwd, bwd := bwd, head := head, tail := tail }) := by
    intro bwd hb
    refine (hb.read _).bind fun b _ => ?_
    have key2 : ∀ fwd, FullLinks cap fwd → Ends IsOob (Full cap) (do
        let f ← Raw.read fwd i
        let head := if g.head = i then f else g.head
        let tail := if g.tail = i then b else g.tail
        let bwd ← Raw.write bwd i NULL_ID
        let fwd ← Raw.write fwd i NULL_ID
        return { fwd := fwd, bwd := bwd, head := head, tail := tail }) := by
      intro fwd hf
      exact (hf.read _).bind fun f _ => (hb.write _ _).bind fun b hb => (hf.write _ _).bind fun f hf => ⟨hf, hb⟩
    exact Ends.ite (fun _ => (h.1.write _ _).bind key2) (fun _ => key2 _ h.1)
  exact Ends.ite (fun _ => (h.2.write _ _).bind key1) (fun _ => key1 _ h.2)

theorem Full.grow (h : g.Full cap) (n : Nat) : Ends IsOob (Full n) (g.grow cap n) := by
  unfold Group.grow
  exact (h.2.grow n).bind fun b hb => (h.1.grow n).bind fun f hf => ⟨hf, hb⟩

end Group

/-- A bit vector of the right length. -/
def FullWords (cap : Nat) (w : Words) : Prop := w.length = Words.getLen cap

namespace FullWords
variable {cap : Nat} {w : Words}

theorem alloc (cap : Nat) : FullWords cap (Words.alloc cap) := List.length_replicate

theorem setOn (h : FullWords cap w) (i : Nat) : Ends IsOob (FullWords cap) (w.setOn i) := by
  unfold Words.setOn
  split
  · show (w.set _ _).length = _
    rw [List.length_set]
    exact h
  · exact rfl

theorem setOff (h : FullWords cap w) (i : Nat) : Ends IsOob (FullWords cap) (w.setOff i) := by
  unfold Words.setOff
  split
  · show (w.set _ _).length = _
    rw [List.length_set]
    exact h
  · exact rfl

theorem realloc (h : FullWords cap w) (n : Nat) : Ends IsOob (FullWords n) (w.realloc cap n) := by
  unfold Words.realloc
  by_cases hn : Words.getLen cap = Words.getLen n
  · rw [if_pos hn]
    exact h.trans hn
  · rw [if_neg hn]
    by_cases hc : (decide (w.length < Words.getLen cap) || decide (Words.getLen n < Words.getLen cap)) = true
    · rw [if_pos hc]
      exact rfl
    · rw [if_neg hc]
      unfold Words.dealloc
      rw [if_pos (show w.length = _ from h)]
      show (w.take _ ++ _).length = _
      simp only [Bool.or_eq_true, decide_eq_true_eq, not_or] at hc
      rw [List.length_append, List.length_take, List.length_replicate, show w.length = _ from h]
      omega

end FullWords

/-- Two parallel pairs of keys and values with the same contents, the keys of the second one under the names `ρ`. -/
structure Named {β : Type} (ρ : Nat → Nat) (P : β → Prop) (keys : List Nat) (vals : List β) (keys' : List Nat)
    (vals' : List β) : Prop where
  incr : Incr keys
  incr' : Incr keys'
  len : vals.length = keys.length
  len' : vals'.length = keys'.length
  look : ∀ k, lookupK keys' vals' (ρ k) = lookupK keys vals k
  only : ∀ k, k ∈ keys' → ∃ k0, k = ρ k0
  good : ∀ v ∈ vals, P v

namespace Named
variable {β : Type} {ρ : Nat → Nat} {P P' : β → Prop} {keys keys' : List Nat} {vals vals' : List β}

theorem nil : Named (β := β) ρ P [] [] [] [] :=
  ⟨.nil, .nil, rfl, rfl, fun _ => rfl, fun _ h => absurd h List.not_mem_nil, fun _ h => absurd h List.not_mem_nil⟩

theorem mem_vals (h : Named ρ P keys vals keys' vals') {v : β} : v ∈ vals ↔ v ∈ vals' := by
  constructor
  · intro hm
    obtain ⟨i, hi, rfl⟩ := List.getElem_of_mem hm
    have hi' : i < keys.length := h.len ▸ hi
    have : lookupK keys vals keys[i] = some vals[i] :=
      (lookupK_iff h.incr).2 ⟨i, List.getElem?_eq_getElem hi', List.getElem?_eq_getElem hi⟩
    rw [← h.look] at this
    obtain ⟨j, _, hj⟩ := (lookupK_iff h.incr').1 this
    exact List.mem_of_getElem? hj
  · intro hm
    obtain ⟨i, hi, rfl⟩ := List.getElem_of_mem hm
    have hi' : i < keys'.length := h.len' ▸ hi
    obtain ⟨k0, hk⟩ := h.only keys'[i] (List.getElem_mem hi')
    have : lookupK keys' vals' keys'[i] = some vals'[i] :=
      (lookupK_iff h.incr').2 ⟨i, List.getElem?_eq_getElem hi', List.getElem?_eq_getElem hi⟩
    rw [hk, h.look] at this
    obtain ⟨j, _, hj⟩ := (lookupK_iff h.incr).1 this
    exact List.mem_of_getElem? hj

/-- The two searches for a name. -/
theorem search (h : Named ρ P keys vals keys' vals') (k : Nat) :
    (∃ i j v, binarySearch keys k = .found i ∧ binarySearch keys' (ρ k) = .found j ∧ vals[i]? = some v ∧ vals'[j]? = some v) ∨
    ∃ i j, binarySearch keys k = .notFound i ∧ binarySearch keys' (ρ k) = .notFound j := by
  have hl := h.look k
  cases h1 : binarySearch keys k with
  | found i =>
    have hi := binarySearch_found h1
    have hi0 : i < vals.length := h.len ▸ (List.getElem?_eq_some_iff.1 hi).1
    rw [lookupK_found h1, List.getElem?_eq_getElem hi0] at hl
    cases h2 : binarySearch keys' (ρ k) with
    | found j =>
      rw [lookupK_found h2] at hl
      exact .inl ⟨i, j, _, rfl, rfl, List.getElem?_eq_getElem hi0, hl⟩
    | notFound j => rw [lookupK_notFound h2] at hl; cases hl
  | notFound i =>
    rw [lookupK_notFound h1] at hl
    cases h2 : binarySearch keys' (ρ k) with
    | found j =>
      have hj := binarySearch_found h2
      have hj0 : j < vals'.length := h.len' ▸ (List.getElem?_eq_some_iff.1 hj).1
      rw [lookupK_found h2, List.getElem?_eq_getElem hj0] at hl
      cases hl
    | notFound j => exact .inr ⟨i, j, rfl, rfl⟩

theorem set (hρ : ρ.Injective) (h : Named ρ P keys vals keys' vals') {k i j : Nat} (h1 : keys[i]? = some k)
    (h2 : keys'[j]? = some (ρ k)) {v : β} (hv : P v) : Named ρ P keys (vals.set i v) keys' (vals'.set j v) := by
  refine ⟨h.incr, h.incr', by rw [List.length_set]; exact h.len, by rw [List.length_set]; exact h.len', fun k' => ?_, h.only,
    fun w hw => ?_⟩
  · rw [lookupK_set h.incr h.len v h1, lookupK_set h.incr' h.len' v h2, h.look]
    by_cases hk : k' = k
    · rw [if_pos hk, if_pos (by rw [hk])]
    · rw [if_neg hk, if_neg fun hx => hk (hρ hx)]
  · rcases List.mem_or_eq_of_mem_set hw with hw | rfl
    · exact h.good w hw
    · exact hv

theorem insert (hρ : ρ.Injective) (h : Named ρ P keys vals keys' vals') {k i j : Nat} (h1 : binarySearch keys k = .notFound i)
    (h2 : binarySearch keys' (ρ k) = .notFound j) {v : β} (hv : P v) :
    Named ρ P (keys.insertIdx i k) (vals.insertIdx i v) (keys'.insertIdx j (ρ k)) (vals'.insertIdx j v) ∧
      (keys.insertIdx i k)[i]? = some k ∧ (vals.insertIdx i v)[i]? = some v ∧
      (keys'.insertIdx j (ρ k))[j]? = some (ρ k) ∧ (vals'.insertIdx j v)[j]? = some v := by
  obtain ⟨hi, _, _⟩ := binarySearch_notFound h.incr.le h1
  obtain ⟨hj, _, _⟩ := binarySearch_notFound h.incr'.le h2
  have hi' : i ≤ vals.length := h.len ▸ hi
  have hj' : j ≤ vals'.length := h.len' ▸ hj
  refine ⟨⟨h.incr.insertIdx h1, h.incr'.insertIdx h2, ?_, ?_, fun k' => ?_, fun k' hk => ?_, fun w hw => ?_⟩, ?_, ?_, ?_, ?_⟩
  · rw [List.length_insertIdx_of_le_length hi', List.length_insertIdx_of_le_length hi, h.len]
  · rw [List.length_insertIdx_of_le_length hj', List.length_insertIdx_of_le_length hj, h.len']
  · rw [lookupK_insert h.incr h.len v h1, lookupK_insert h.incr' h.len' v h2, h.look]
    by_cases hk : k' = k
    · rw [if_pos hk, if_pos (by rw [hk])]
    · rw [if_neg hk, if_neg fun hx => hk (hρ hx)]
  · rcases (List.mem_insertIdx hj).1 hk with rfl | hk
    · exact ⟨k, rfl⟩
    · exact h.only k' hk
  · rcases (List.mem_insertIdx hi').1 hw with rfl | hw
    · exact hv
    · exact h.good w hw
  · rw [List.getElem?_insertIdx]; simp [hi]
  · rw [List.getElem?_insertIdx]; simp [hi']
  · rw [List.getElem?_insertIdx]; simp [hj]
  · rw [List.getElem?_insertIdx]; simp [hj']

/-- A loop over a list either applies the function to all elements or fails. -/
theorem mapM_ends {f : β → Res β} {E : Fault → Prop} {P' : β → Prop} (l : List β) (hf : ∀ v ∈ l, Ends E P' (f v)) :
    (∃ l', l.mapM f = .ok l' ∧ List.Forall₂ (fun v w => f v = .ok w ∧ P' w) l l') ∨
    ∃ x v, l.mapM f = .error x ∧ E x ∧ v ∈ l ∧ f v = .error x := by
  induction l with
  | nil => exact .inl ⟨[], rfl, .nil⟩
  | cons v l ih =>
    rw [List.mapM_cons]
    have hv := hf v List.mem_cons_self
    cases hfv : f v with
    | error x =>
      rw [hfv] at hv
      exact .inr ⟨x, v, rfl, hv, List.mem_cons_self, hfv⟩
    | ok w =>
      rw [hfv] at hv
      rcases ih fun u hu => hf u (List.mem_cons_of_mem _ hu) with ⟨l', hl, hq⟩ | ⟨x, u, hl, hx, hu, hfu⟩
      · rw [hl]
        exact .inl ⟨w :: l', rfl, .cons ⟨hfv, hv⟩ hq⟩
      · rw [hl]
        exact .inr ⟨x, u, rfl, hx, List.mem_cons_of_mem _ hu, hfu⟩

theorem lookup_forall₂ {f : β → Res β} {l l' : List β} (h : List.Forall₂ (fun v w => f v = .ok w ∧ P' w) l l') (ks : List Nat)
    (k : Nat) : lookupK ks l' k = (lookupK ks l k).bind fun v => (f v).toOption := by
  unfold lookupK
  cases binarySearch ks k with
  | notFound i => rfl
  | found i =>
    show l'[i]? = l[i]?.bind _
    induction h generalizing i with
    | nil => rfl
    | cons hv _ ih =>
      cases i with
      | zero => simp [hv.1, Except.toOption]
      | succ i => simpa using ih i

theorem forall₂_fail {f : β → Res β} {l l' : List β} (h : List.Forall₂ (fun v w => f v = .ok w ∧ P' w) l l') {v : β}
    (hv : v ∈ l) {x : Fault} : f v ≠ .error x := by
  induction h with
  | nil => cases hv
  | cons ha _ ih =>
    rcases List.mem_cons.1 hv with rfl | hv
    · rw [ha.1]; exact fun hx => by cases hx
    · exact ih hv

theorem forall₂_good {f : β → Res β} {l l' : List β} (h : List.Forall₂ (fun v w => f v = .ok w ∧ P' w) l l') {w : β}
    (hw : w ∈ l') : P' w := by
  induction h with
  | nil => cases hw
  | cons ha _ ih =>
    rcases List.mem_cons.1 hw with rfl | hw
    · exact ha.2
    · exact ih hw

theorem mapM {f : β → Res β} {x : Fault} (h : Named ρ P keys vals keys' vals')
    (hf : ∀ v, P v → Ends (fun y => y = x) P' (f v)) :
    Both (fun l l' => Named ρ P' keys l keys' l') (vals.mapM f) (vals'.mapM f) := by
  rcases mapM_ends (P' := P') vals fun v hv => hf v (h.good v hv) with ⟨l, h1, h2⟩ | ⟨y, v, h1, rfl, h2, h3⟩
  · rcases mapM_ends (P' := P') vals' fun v hv => hf v (h.good v (h.mem_vals.2 hv)) with ⟨l', h1', h2'⟩ | ⟨y, v, h1', rfl, h2', h3'⟩
    · rw [h1, h1']
      exact ⟨h.incr, h.incr', h2.length_eq.symm.trans h.len, h2'.length_eq.symm.trans h.len',
        fun k => by rw [lookup_forall₂ h2, lookup_forall₂ h2', h.look], h.only, fun w => forall₂_good h2⟩
    · exact absurd h3' (forall₂_fail h2 (h.mem_vals.2 h2'))
  · rcases mapM_ends (P' := P') vals' fun v hv => hf v (h.good v (h.mem_vals.2 hv)) with ⟨l', h1', h2'⟩ | ⟨y, v, h1', rfl, h2', h3'⟩
    · exact absurd h3 (forall₂_fail h2' (h.mem_vals.1 h2))
    · rw [h1, h1']
      exact rfl

end Named

/-! ### Tags -/

/-- The same tags under the names `τ`. -/
structure Tags.Named (τ : Nat → Nat) (t t' : Tags) : Prop where
  cap : t'.entityCapacity = t.entityCapacity
  tab : Ecs.Named τ (FullWords t.entityCapacity) t.tagIds t.bitvecs t'.tagIds t'.bitvecs

namespace Tags.Named
variable {τ : Nat → Nat} {t t' : Tags}

theorem reserve (hτ : τ.Injective) (h : Tags.Named τ t t') (k : Nat) :
    Tags.Named τ (t.reserveTag k).1 (t'.reserveTag (τ k)).1 ∧
    ∃ v, (t.reserveTag k).1.tagIds[(t.reserveTag k).2]? = some k ∧ (t.reserveTag k).1.bitvecs[(t.reserveTag k).2]? = some v ∧
      (t'.reserveTag (τ k)).1.tagIds[(t'.reserveTag (τ k)).2]? = some (τ k) ∧
      (t'.reserveTag (τ k)).1.bitvecs[(t'.reserveTag (τ k)).2]? = some v := by
  unfold Tags.reserveTag
  rcases h.tab.search k with ⟨i, j, v, h1, h2, h3, h4⟩ | ⟨i, j, h1, h2⟩
  · rw [h1, h2]
    exact ⟨h, v, binarySearch_found h1, h3, binarySearch_found h2, h4⟩
  · rw [h1, h2]
    obtain ⟨ha, hb, hc, hd, he⟩ := h.tab.insert hτ h1 h2 (FullWords.alloc t.entityCapacity)
    rw [← h.cap] at he
    refine ⟨⟨h.cap, ?_⟩, _, hb, hc, hd, ?_⟩
    · dsimp only
      rw [h.cap]
      exact ha
    · dsimp only
      rw [he, h.cap]

theorem set (hτ : τ.Injective) (h : Tags.Named τ t t') {k i j : Nat} (h1 : t.tagIds[i]? = some k)
    (h2 : t'.tagIds[j]? = some (τ k)) {v : Words} (hv : FullWords t.entityCapacity v) :
    Tags.Named τ { t with bitvecs := t.bitvecs.set i v } { t' with bitvecs := t'.bitvecs.set j v } :=
  ⟨h.cap, h.tab.set hτ h1 h2 hv⟩

theorem both_of_ends {α : Type} {E : Fault → Prop} {P : α → Prop} {r : Res α} (h : Ends E P r) :
    Both (fun a b => a = b ∧ P a) r r := by
  cases r with
  | error x => exact rfl
  | ok a => exact ⟨rfl, h⟩

theorem addTag (hτ : τ.Injective) (h : Tags.Named τ t t') (k id : Nat) :
    Both (Tags.Named τ) (t.addTag k id) (t'.addTag (τ k) id) := by
  unfold Tags.addTag
  obtain ⟨hr, v, h1, h2, h3, h4⟩ := h.reserve hτ k
  dsimp only
  rw [idxUnchecked_of_some h2, idxUnchecked_of_some h4]
  refine (both_of_ends ((hr.tab.good v (List.mem_of_getElem? h2)).setOn id)).bind fun a b hab => ?_
  obtain ⟨rfl, ha⟩ := hab
  exact hr.set hτ h1 h3 ha

theorem removeTag (hτ : τ.Injective) (h : Tags.Named τ t t') (k id : Nat) :
    Both (Tags.Named τ) (t.removeTag k id) (t'.removeTag (τ k) id) := by
  unfold Tags.removeTag
  rcases h.tab.search k with ⟨i, j, v, h1, h2, h3, h4⟩ | ⟨i, j, h1, h2⟩
  · rw [h1, h2]
    dsimp only
    rw [idxUnchecked_of_some h3, idxUnchecked_of_some h4]
    refine (both_of_ends ((h.tab.good v (List.mem_of_getElem? h3)).setOff id)).bind fun a b hab => ?_
    obtain ⟨rfl, ha⟩ := hab
    exact h.set hτ (binarySearch_found h1) (binarySearch_found h2) ha
  · rw [h1, h2]
    exact h

theorem hasTag (h : Tags.Named τ t t') (k id : Nat) : t'.hasTag (τ k) id = t.hasTag k id := by
  unfold Tags.hasTag
  rcases h.tab.search k with ⟨i, j, v, h1, h2, h3, h4⟩ | ⟨i, j, h1, h2⟩
  · rw [h1, h2]
    dsimp only
    rw [idxUnchecked_of_some h3, idxUnchecked_of_some h4]
  · rw [h1, h2]

theorem bitvec (h : Tags.Named τ t t') (k : Nat) : t'.hasTagBitvec (τ k) = t.hasTagBitvec k := by
  unfold Tags.hasTagBitvec
  rcases h.tab.search k with ⟨i, j, v, h1, h2, h3, h4⟩ | ⟨i, j, h1, h2⟩
  · rw [h1, h2]
    dsimp only
    rw [idxUnchecked_of_some h3, idxUnchecked_of_some h4]
  · rw [h1, h2]

theorem other (h : Tags.Named τ t t') {k : Nat} (hk : ∀ k0, τ k0 ≠ k) (id : Nat) : t'.hasTag k id = .ok false := by
  unfold Tags.hasTag
  cases hb : binarySearch t'.tagIds k with
  | notFound j => rfl
  | found j =>
    obtain ⟨k0, h0⟩ := h.tab.only k (List.mem_of_getElem? (binarySearch_found hb))
    exact absurd h0.symm (hk k0)

theorem removeAll (h : Tags.Named τ t t') (id : Nat) :
    Both (Tags.Named τ) (t.removeAllTagsForEntity id) (t'.removeAllTagsForEntity id) := by
  unfold Tags.removeAllTagsForEntity
  exact (h.tab.mapM fun v hv => hv.setOff id).bind fun a b hab => ⟨h.cap, hab⟩

theorem grow (h : Tags.Named τ t t') (n : Nat) : Both (Tags.Named τ) (t.grow n) (t'.grow n) := by
  unfold Tags.grow
  rw [h.cap]
  exact (h.tab.mapM fun v hv => hv.realloc n).bind fun a b hab => ⟨rfl, hab⟩

end Tags.Named

/-! ### Order groups -/

/-- The same groups under the names `γ`. -/
structure Orders.Named (γ : Nat → Nat) (o o' : Orders) : Prop where
  cap : o'.entityCapacity = o.entityCapacity
  tab : Ecs.Named γ (Group.Full o.entityCapacity) o.groupIds o.groups o'.groupIds o'.groups

namespace Orders.Named
variable {γ : Nat → Nat} {o o' : Orders} {dbg : Bool}

theorem reserve (hγ : γ.Injective) (h : Orders.Named γ o o') (k : Nat) :
    Orders.Named γ (o.reserveGroup k).1 (o'.reserveGroup (γ k)).1 ∧
    ∃ v, (o.reserveGroup k).1.groupIds[(o.reserveGroup k).2]? = some k ∧ (o.reserveGroup k).1.groups[(o.reserveGroup k).2]? = some v ∧
      (o'.reserveGroup (γ k)).1.groupIds[(o'.reserveGroup (γ k)).2]? = some (γ k) ∧
      (o'.reserveGroup (γ k)).1.groups[(o'.reserveGroup (γ k)).2]? = some v := by
  unfold Orders.reserveGroup
  rcases h.tab.search k with ⟨i, j, v, h1, h2, h3, h4⟩ | ⟨i, j, h1, h2⟩
  · rw [h1, h2]
    exact ⟨h, v, binarySearch_found h1, h3, binarySearch_found h2, h4⟩
  · rw [h1, h2]
    obtain ⟨ha, hb, hc, hd, he⟩ := h.tab.insert hγ h1 h2 (Group.Full.new o.entityCapacity)
    rw [← h.cap] at he
    refine ⟨⟨h.cap, ?_⟩, _, hb, hc, hd, ?_⟩
    · dsimp only
      rw [h.cap]
      exact ha
    · dsimp only
      rw [he, h.cap]

theorem onGroup (hγ : γ.Injective) (h : Orders.Named γ o o') {k i j : Nat} {g : Group} (h1 : o.groupIds[i]? = some k)
    (h2 : o'.groupIds[j]? = some (γ k)) (h3 : o.groups[i]? = some g) (h4 : o'.groups[j]? = some g) {f : Group → Res Group}
    {E : Fault → Prop} (hf : Ends E (Group.Full o.entityCapacity) (f g)) :
    Both (Orders.Named γ) (o.onGroup i f) (o'.onGroup j f) := by
  unfold Orders.onGroup
  rw [idxUnchecked_of_some h3, idxUnchecked_of_some h4]
  refine (Tags.Named.both_of_ends hf).bind fun a b hab => ?_
  obtain ⟨rfl, ha⟩ := hab
  exact ⟨h.cap, h.tab.set hγ h1 h2 ha⟩

theorem reserved (hγ : γ.Injective) (h : Orders.Named γ o o') (k : Nat) {f : Group → Res Group} {E : Fault → Prop}
    (hf : ∀ g, g.Full o.entityCapacity → Ends E (Group.Full o.entityCapacity) (f g)) :
    Both (Orders.Named γ) ((o.reserveGroup k).1.onGroup (o.reserveGroup k).2 f)
      ((o'.reserveGroup (γ k)).1.onGroup (o'.reserveGroup (γ k)).2 f) := by
  obtain ⟨hr, v, h1, h2, h3, h4⟩ := h.reserve hγ k
  have hv := hr.tab.good v (List.mem_of_getElem? h2)
  refine hr.onGroup hγ h1 h3 h2 h4 (E := E) ?_
  rw [Orders.reserve_cap] at hv ⊢
  exact hf v hv

theorem add (hγ : γ.Injective) (h : Orders.Named γ o o') (k id : Nat) :
    Both (Orders.Named γ) (o.add dbg k id) (o'.add dbg (γ k) id) :=
  h.reserved hγ k fun _ hg => hg.add id

theorem addNextTo (hγ : γ.Injective) (h : Orders.Named γ o o') (k id x : Nat) :
    Both (Orders.Named γ) (o.addNextTo dbg k id x) (o'.addNextTo dbg (γ k) id x) :=
  h.reserved hγ k fun _ hg => hg.addNextTo id x

theorem addPreviousTo (hγ : γ.Injective) (h : Orders.Named γ o o') (k id x : Nat) :
    Both (Orders.Named γ) (o.addPreviousTo dbg k id x) (o'.addPreviousTo dbg (γ k) id x) :=
  h.reserved hγ k fun _ hg => hg.addPreviousTo id x

theorem remove (hγ : γ.Injective) (h : Orders.Named γ o o') (k id : Nat) :
    Both (Orders.Named γ) (o.remove k id) (o'.remove (γ k) id) := by
  unfold Orders.remove
  rcases h.tab.search k with ⟨i, j, v, h1, h2, h3, h4⟩ | ⟨i, j, h1, h2⟩
  · rw [h1, h2]
    exact h.onGroup hγ (binarySearch_found h1) (binarySearch_found h2) h3 h4
      ((h.tab.good v (List.mem_of_getElem? h3)).remove id)
  · rw [h1, h2]
    exact h

theorem removeAll (h : Orders.Named γ o o') (id : Nat) : Both (Orders.Named γ) (o.removeAll id) (o'.removeAll id) := by
  unfold Orders.removeAll
  exact (h.tab.mapM fun v hv => hv.remove id).bind fun a b hab => ⟨h.cap, hab⟩

theorem grow (h : Orders.Named γ o o') (n : Nat) : Both (Orders.Named γ) (o.grow dbg n) (o'.grow dbg n) := by
  unfold Orders.grow
  rw [h.cap]
  exact Both.same fun _ => (h.tab.mapM fun v hv => hv.grow n).bind fun a b hab => ⟨rfl, hab⟩

/-- What is looked up at a group. -/
theorem lookup {α : Type} (h : Orders.Named γ o o') (k : Nat) (f : Group → Res α) (d : Res α) :
    (match binarySearch o'.groupIds (γ k) with
      | .found i => idxUnchecked o'.groups i >>= f
      | .notFound _ => d) =
    (match binarySearch o.groupIds k with
      | .found i => idxUnchecked o.groups i >>= f
      | .notFound _ => d) := by
  rcases h.tab.search k with ⟨i, j, v, h1, h2, h3, h4⟩ | ⟨i, j, h1, h2⟩
  · rw [h1, h2]
    dsimp only
    rw [idxUnchecked_of_some h3, idxUnchecked_of_some h4]
  · rw [h1, h2]

/-- The same, for the functions that ask for the index first. -/
theorem lookupIdx {α : Type} (h : Orders.Named γ o o') (k : Nat) (f : Group → Res α) (d : Res α) :
    (match o'.getGroupIndex (γ k) with
      | some i => idxUnchecked o'.groups i >>= f
      | none => d) =
    (match o.getGroupIndex k with
      | some i => idxUnchecked o.groups i >>= f
      | none => d) := by
  unfold Orders.getGroupIndex
  rcases h.tab.search k with ⟨i, j, v, h1, h2, h3, h4⟩ | ⟨i, j, h1, h2⟩
  · rw [h1, h2]
    dsimp only
    rw [idxUnchecked_of_some h3, idxUnchecked_of_some h4]
  · rw [h1, h2]

theorem getNext (h : Orders.Named γ o o') (k id : Nat) : o'.getNext (γ k) id = o.getNext k id := h.lookup k _ _

theorem getPrevious (h : Orders.Named γ o o') (k id : Nat) : o'.getPrevious (γ k) id = o.getPrevious k id := h.lookup k _ _

theorem getHead (h : Orders.Named γ o o') (k : Nat) : o'.getHead (γ k) = o.getHead k := h.lookupIdx k _ _

theorem getTail (h : Orders.Named γ o o') (k : Nat) : o'.getTail (γ k) = o.getTail k := h.lookupIdx k _ _

theorem other (h : Orders.Named γ o o') {k : Nat} (hk : ∀ k0, γ k0 ≠ k) : o'.getHead k = .ok none := by
  unfold Orders.getHead Orders.getGroupIndex
  cases hb : binarySearch o'.groupIds k with
  | notFound j => rfl
  | found j =>
    obtain ⟨k0, h0⟩ := h.tab.only k (List.mem_of_getElem? (binarySearch_found hb))
    exact absurd h0.symm (hk k0)

end Orders.Named

/-! ### Stores -/

/-- The same store with tags under the names `τ` and groups under the names `γ`. -/
def Store.Named (τ γ : Nat → Nat) (s s' : Store) : Prop :=
  ∃ t o, s' = s.dress t o ∧ Tags.Named τ s.tags t ∧ Orders.Named γ s.orders o

namespace Store.Named
variable {τ γ : Nat → Nat} {s s' : Store} {U : Universe} {dbg : Bool} {cap : Nat}

theorem mk' {t : Tags} {o : Orders} (ht : Tags.Named τ s.tags t) (ho : Orders.Named γ s.orders o) :
    Store.Named τ γ s (s.dress t o) := ⟨t, o, rfl, ht, ho⟩

/-- Calls that leave tags and groups alone. -/
theorem of_map {r r' : Res Store} {t : Tags} {o : Orders} (ht : Tags.Named τ s.tags t) (ho : Orders.Named γ s.orders o)
    (h : r' = r.map (dress t o)) (hs : ∀ s1, r = .ok s1 → s1.tags = s.tags ∧ s1.orders = s.orders) :
    Both (Store.Named τ γ) r r' := by
  subst h
  cases r with
  | error x => exact rfl
  | ok s1 =>
    obtain ⟨h1, h2⟩ := hs s1 rfl
    exact ⟨t, o, rfl, h1 ▸ ht, h2 ▸ ho⟩

/-- The same relation on stores with a result. -/
def On {α : Type} (τ γ : Nat → Nat) (x y : Store × α) : Prop := Store.Named τ γ x.1 y.1 ∧ x.2 = y.2

theorem of_mapFst {α : Type} {r r' : Res (Store × α)} {t : Tags} {o : Orders} (ht : Tags.Named τ s.tags t)
    (ho : Orders.Named γ s.orders o) (h : r' = r.map (dressFst t o))
    (hs : ∀ s1 a, r = .ok (s1, a) → s1.tags = s.tags ∧ s1.orders = s.orders) : Both (On τ γ) r r' := by
  subst h
  cases r with
  | error x => exact rfl
  | ok x =>
    obtain ⟨s1, a⟩ := x
    obtain ⟨h1, h2⟩ := hs s1 a rfl
    exact ⟨⟨t, o, rfl, h1 ▸ ht, h2 ▸ ho⟩, rfl⟩

theorem added (h : Store.Named τ γ s s') (e : Entity) (v : TupleVal) :
    Both (Store.Named τ γ) (s.addComponents U dbg e v) (s'.addComponents U dbg e v) := by
  obtain ⟨t, o, rfl, ht, ho⟩ := h
  refine of_map ht ho (addComponents_dress e v) fun s1 hr => ?_
  obtain ⟨_, h1, h2, _⟩ := SameCore.added hr
  exact ⟨h1, h2⟩

theorem removed (h : Store.Named τ γ s s') (e : Entity) (ts : List TypeId) :
    Both (Store.Named τ γ) (s.removeComponents U dbg e ts) (s'.removeComponents U dbg e ts) := by
  obtain ⟨t, o, rfl, ht, ho⟩ := h
  refine of_map ht ho (removeComponents_dress e ts) fun s1 hr => ?_
  obtain ⟨_, h1, h2, _⟩ := SameCore.removed hr
  exact ⟨h1, h2⟩

theorem assigned (h : Store.Named τ γ s s') (e : Entity) (v : TupleVal) :
    Both (On τ γ) (s.setComponents U dbg e v) (s'.setComponents U dbg e v) := by
  obtain ⟨t, o, rfl, ht, ho⟩ := h
  refine of_mapFst ht ho (setComponents_dress e v) fun s1 b hr => ?_
  obtain ⟨_, h1, h2, _⟩ := SameCore.assigned hr
  exact ⟨h1, h2⟩

theorem register (h : Store.Named τ γ s s') : Both (On τ γ) (s.registerNewEntity dbg) (s'.registerNewEntity dbg) := by
  obtain ⟨t, o, rfl, ht, ho⟩ := h
  unfold registerNewEntity
  show Both _ (s.ents.create dbg >>= _) (s.ents.create dbg >>= _)
  refine Both.same fun x => ?_
  obtain ⟨ents, cr⟩ := x
  dsimp only
  by_cases hg : cr.wasGrow = true
  · rw [if_pos hg, if_pos hg]
    unfold growEntitiesInternal
    refine Both.bind (R := Store.Named τ γ) ?_ fun a b hab => ⟨hab, rfl⟩
    show Both _ (Raw.realloc s.toPage _ _ >>= _) (Raw.realloc s.toPage _ _ >>= _)
    refine Both.same fun p => ?_
    show Both _ (Raw.realloc s.toIndex _ _ >>= _) (Raw.realloc s.toIndex _ _ >>= _)
    refine Both.same fun i => ?_
    show Both _ (s.hasArch.realloc _ _ >>= _) (s.hasArch.realloc _ _ >>= _)
    refine Both.same fun w => ?_
    exact (ht.grow _).bind fun t1 t2 h1 => (ho.grow _).bind fun o1 o2 h2 => ⟨t2, o2, rfl, h1, h2⟩
  · rw [if_neg hg, if_neg hg]
    exact ⟨⟨t, o, rfl, ht, ho⟩, rfl⟩

theorem create (h : Store.Named τ γ s s') : Both (On τ γ) (s.createEntity dbg) (s'.createEntity dbg) := by
  unfold createEntity
  refine h.register.bind fun x y hxy => ?_
  obtain ⟨s1, e⟩ := x
  obtain ⟨s2, e'⟩ := y
  obtain ⟨⟨t, o, hs, ht, ho⟩, he⟩ := hxy
  dsimp only at hs he ht ho ⊢
  subst hs he
  show Both _ (s1.hasArch.setOff e.id >>= _) (s1.hasArch.setOff e.id >>= _)
  exact Both.same fun w => ⟨⟨t, o, rfl, ht, ho⟩, rfl⟩

theorem createWith (h : Store.Named τ γ s s') (a : Archetype) :
    Both (On τ γ) (s.createEntityWithArchetype dbg a) (s'.createEntityWithArchetype dbg a) := by
  unfold createEntityWithArchetype
  refine h.register.bind fun x y hxy => ?_
  obtain ⟨s1, e⟩ := x
  obtain ⟨s2, e'⟩ := y
  obtain ⟨⟨t, o, hs, ht, ho⟩, he⟩ := hxy
  dsimp only at hs he ht ho ⊢
  subst hs he
  show Both _ (s1.archs.addEntity dbg e.id a >>= _) (s1.archs.addEntity dbg e.id a >>= _)
  refine Both.same fun x => ?_
  obtain ⟨archs, loc⟩ := x
  refine Both.bind (R := Store.Named τ γ) ?_ fun a b hab => ⟨hab, rfl⟩
  refine of_map (s := { s1 with archs := archs }) ht ho ?_ fun s2 hr => recordRow_same hr
  exact recordRow_dress (s := { s1 with archs := archs }) e.id loc

theorem destroyed (h : Store.Named τ γ s s') (e : Entity) :
    Both (Store.Named τ γ) (s.destroyEntity dbg e) (s'.destroyEntity dbg e) := by
  obtain ⟨t, o, rfl, ht, ho⟩ := h
  unfold destroyEntity
  refine Both.bind (R := Store.Named τ γ) ?_ fun s1 s2 hab => ?_
  · refine of_map ht ho (destroyRow_dress e) fun s1 hr => ?_
    obtain ⟨_, h1, h2, _⟩ := SameCore.destroyRow hr
    exact ⟨h1, h2⟩
  · obtain ⟨t, o, rfl, ht, ho⟩ := hab
    show Both _ (s1.ents.destroy dbg e >>= _) (s1.ents.destroy dbg e >>= _)
    exact Both.same fun ents => (ht.removeAll e.id).bind fun t1 t2 h1 => (ho.removeAll e.id).bind fun o1 o2 h2 =>
      ⟨t2, o2, rfl, h1, h2⟩

theorem tagged (hτ : τ.Injective) (h : Store.Named τ γ s s') (k : Nat) (e : Entity) :
    Both (Store.Named τ γ) (s.addTag k e) (s'.addTag (τ k) e) := by
  obtain ⟨t, o, rfl, ht, ho⟩ := h
  exact (ht.addTag hτ k e.id).bind fun t1 t2 h1 => ⟨t2, o, rfl, h1, ho⟩

theorem untagged (hτ : τ.Injective) (h : Store.Named τ γ s s') (k : Nat) (e : Entity) :
    Both (Store.Named τ γ) (s.removeTag k e) (s'.removeTag (τ k) e) := by
  obtain ⟨t, o, rfl, ht, ho⟩ := h
  exact (ht.removeTag hτ k e.id).bind fun t1 t2 h1 => ⟨t2, o, rfl, h1, ho⟩

theorem orderedLast (hγ : γ.Injective) (h : Store.Named τ γ s s') (k : Nat) (e : Entity) :
    Both (Store.Named τ γ) (s.addOrder dbg k e) (s'.addOrder dbg (γ k) e) := by
  obtain ⟨t, o, rfl, ht, ho⟩ := h
  exact (ho.add hγ k e.id).bind fun o1 o2 h1 => ⟨t, o2, rfl, ht, h1⟩

theorem orderedAfter (hγ : γ.Injective) (h : Store.Named τ γ s s') (k : Nat) (e x : Entity) :
    Both (Store.Named τ γ) (s.addOrderNextTo dbg k e x) (s'.addOrderNextTo dbg (γ k) e x) := by
  obtain ⟨t, o, rfl, ht, ho⟩ := h
  exact (ho.addNextTo hγ k e.id x.id).bind fun o1 o2 h1 => ⟨t, o2, rfl, ht, h1⟩

theorem orderedBefore (hγ : γ.Injective) (h : Store.Named τ γ s s') (k : Nat) (e x : Entity) :
    Both (Store.Named τ γ) (s.addOrderPreviousTo dbg k e x) (s'.addOrderPreviousTo dbg (γ k) e x) := by
  obtain ⟨t, o, rfl, ht, ho⟩ := h
  exact (ho.addPreviousTo hγ k e.id x.id).bind fun o1 o2 h1 => ⟨t, o2, rfl, ht, h1⟩

theorem unordered (hγ : γ.Injective) (h : Store.Named τ γ s s') (k : Nat) (e : Entity) :
    Both (Store.Named τ γ) (s.removeOrder k e) (s'.removeOrder (γ k) e) := by
  obtain ⟨t, o, rfl, ht, ho⟩ := h
  exact (ho.remove hγ k e.id).bind fun o1 o2 h1 => ⟨t, o2, rfl, ht, h1⟩

theorem orderedIter {t : Tags} {o : Orders} (ho : Orders.Named γ s.orders o) (g : Nat) (acc : Access)
    (old : List (Range × IterView)) (fuel : Nat) :
    orderedQueryIter U (s.dress t o) (γ g) acc old fuel = orderedQueryIter U s g acc old fuel := by
  unfold orderedQueryIter
  simp only [orderedOuterLoop_dress]
  show (match o.getGroupIndex (γ g) with | none => _ | some gi => idxUnchecked o.groups gi >>= _) = _
  unfold Orders.getGroupIndex
  rcases ho.tab.search g with ⟨i, j, v, h1, h2, h3, h4⟩ | ⟨i, j, h1, h2⟩
  · rw [h1, h2]
    dsimp only
    rw [idxUnchecked_of_some h3, idxUnchecked_of_some h4]
  · rw [h1, h2]

theorem sees (h : Store.Named τ γ s s') :
    SeesSame U dbg s s' ∧ TagsNamed τ U dbg s s' ∧ OrdersNamed γ U dbg s s' := by
  obtain ⟨t, o, rfl, ht, ho⟩ := h
  refine ⟨same_components, ⟨fun tag e => ht.hasTag tag e.id, fun acc tag old fuel => ?_,
    fun tag e hk => ht.other hk e.id⟩, ⟨fun g e => ?_, fun g e => ?_, fun g => ?_, fun g => ?_, fun g acc old fuel => ?_,
    fun g acc old fuel => ?_, fun g hk => ?_⟩⟩
  · unfold runComponentQueryFilterTag
    rw [show CompIter.nextFiltered dbg (s.dress t o) = CompIter.nextFiltered dbg s from
      funext fun bv => funext fun n => funext fun it => nextFiltered_dress bv n it]
    show (componentQueryIter U s acc old >>= fun it => t.hasTagBitvec (τ tag) >>= _) = _
    rw [ht.bitvec]
  · show (o.getNext (γ g) e.id >>= s.mapEntity) = _
    rw [ho.getNext]
    rfl
  · show (o.getPrevious (γ g) e.id >>= s.mapEntity) = _
    rw [ho.getPrevious]
    rfl
  · show (o.getHead (γ g) >>= s.mapEntity) = _
    rw [ho.getHead]
    rfl
  · show (o.getTail (γ g) >>= s.mapEntity) = _
    rw [ho.getTail]
    rfl
  · unfold runOrderedQuery
    rw [orderedIter ho]
  · unfold runOrderedQueryWithEntities
    rw [orderedIter ho]
    rfl
  · show (o.getHead g >>= s.mapEntity) = _
    rw [ho.other hk]
    rfl

theorem init (hs : Store.withCapacity dbg cap = .ok s) : Store.Named τ γ s s := by
  unfold Store.withCapacity at hs
  obtain ⟨_, _, hs⟩ := bind_eq_ok.1 hs
  cases hs
  exact ⟨_, _, rfl, ⟨rfl, .nil⟩, ⟨rfl, .nil⟩⟩

theorem returns (hτ : τ.Injective) (hγ : γ.Injective) (h : Store.Named τ γ s s') {ev : Event} {s1 : Store}
    (hr : Returns U dbg s ev s1) : ∃ s1', Returns U dbg s' (rebrand τ γ ev) s1' ∧ Store.Named τ γ s1 s1' := by
  cases ev with
  | created e =>
    obtain ⟨⟨s1', e'⟩, h1, h2, rfl⟩ := (h.create (dbg := dbg)).ok hr
    exact ⟨s1', h1, h2⟩
  | createdWith e ts init =>
    obtain ⟨a, ha, hi, hr⟩ := hr
    obtain ⟨⟨s1', e'⟩, h1, h2, rfl⟩ := (h.createWith a).ok hr
    exact ⟨s1', ⟨a, ha, hi, h1⟩, h2⟩
  | destroyed e => exact (h.destroyed e).ok hr
  | added e v => exact (h.added e v).ok hr
  | removed e ts => exact (h.removed e ts).ok hr
  | assigned e v =>
    obtain ⟨b, hr⟩ := hr
    obtain ⟨⟨s1', b'⟩, h1, h2, rfl⟩ := (h.assigned e v).ok hr
    exact ⟨s1', ⟨b, h1⟩, h2⟩
  | tagged k e => exact (h.tagged hτ k e).ok hr
  | untagged k e => exact (h.untagged hτ k e).ok hr
  | orderedLast g e => exact (h.orderedLast hγ g e).ok hr
  | orderedAfter g e x => exact (h.orderedAfter hγ g e x).ok hr
  | orderedBefore g e x => exact (h.orderedBefore hγ g e x).ok hr
  | unordered g e => exact (h.unordered hγ g e).ok hr

theorem runs (hτ : τ.Injective) (hγ : γ.Injective) {h : List Event} (hx : Runs U dbg cap h s) :
    ∃ s', Runs U dbg cap (h.map (rebrand τ γ)) s' ∧ Store.Named τ γ s s' := by
  induction hx with
  | init hs => exact ⟨_, .init hs, .init hs⟩
  | step ev _ hr ih =>
    obtain ⟨s', h1, h2⟩ := ih
    obtain ⟨s1', h3, h4⟩ := h2.returns hτ hγ hr
    exact ⟨s1', .step _ h1 h3, h4⟩

theorem outcome (hτ : τ.Injective) (hγ : γ.Injective) (h : Store.Named τ γ s s') (c : Call) :
    Spec.outcome U dbg s' (rebrandCall τ γ c) = Spec.outcome U dbg s c := by
  have key : ∀ {α β : Type} {R : α → β → Prop} {r : Res α} {r' : Res β}, Both R r r' →
      (r'.map fun _ => ()) = r.map fun _ => () := by
    intro α β R r r' hb
    cases r with
    | error x =>
      cases r' with
      | error y => rw [show x = y from hb]; rfl
      | ok b => exact hb.elim
    | ok a =>
      cases r' with
      | error y => exact hb.elim
      | ok b => rfl
  cases c with
  | create => exact key h.create
  | createWith a => exact key (h.createWith a)
  | destroy e => exact key (h.destroyed e)
  | add e v => exact key (h.added e v)
  | remove e ts => exact key (h.removed e ts)
  | assign e v => exact key (h.assigned e v)
  | tag k e => exact key (h.tagged hτ k e)
  | untag k e => exact key (h.untagged hτ k e)
  | orderLast g e => exact key (h.orderedLast hγ g e)
  | orderAfter g e x => exact key (h.orderedAfter hγ g e x)
  | orderBefore g e x => exact key (h.orderedBefore hγ g e x)
  | unorder g e => exact key (h.unordered hγ g e)

end Store.Named
end Ecs
