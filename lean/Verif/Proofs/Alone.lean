import Verif.Spec.Alone
import Verif.Proofs.Names

/-! Stores from which some tags and groups are left out (C114). -/

namespace Ecs
open Spec

/-- If the first call returns then so does the second one, with a related result. -/
def Up {α β : Type} (R : α → β → Prop) (r : Res α) (r' : Res β) : Prop := ∀ a, r = .ok a → ∃ b, r' = .ok b ∧ R a b

namespace Up
variable {α β γ δ : Type} {R : α → β → Prop} {S : γ → δ → Prop}

theorem bind {r : Res α} {r' : Res β} {f : α → Res γ} {f' : β → Res δ} (h : Up R r r') (hf : ∀ a b, R a b → Up S (f a) (f' b)) :
    Up S (r >>= f) (r' >>= f') := by
  intro c hc
  obtain ⟨a, h1, h2⟩ := bind_eq_ok.1 hc
  obtain ⟨b, h3, h4⟩ := h a h1
  rw [h3]
  exact hf a b h4 c h2

theorem same {r : Res α} {f : α → Res γ} {f' : α → Res δ} (hf : ∀ a, Up S (f a) (f' a)) : Up S (r >>= f) (r >>= f') := by
  cases r with
  | error x => intro a h; cases h
  | ok a => exact hf a

theorem pure {a : α} {b : β} (h : R a b) : Up R (.ok a) (.ok b) := by
  intro c hc
  cases hc
  exact ⟨b, rfl, h⟩

theorem of_both {r : Res α} {r' : Res β} (h : Both R r r') : Up R r r' := fun _ ha => h.ok ha

end Up

/-- Two parallel pairs of keys and values; the second one contains the keys of `K`, with the same values. -/
structure Part {β : Type} (K : Nat → Bool) (keys : List Nat) (vals : List β) (keys' : List Nat) (vals' : List β) : Prop where
  incr : Incr keys
  incr' : Incr keys'
  len : vals.length = keys.length
  len' : vals'.length = keys'.length
  look : ∀ k, K k = true → lookupK keys' vals' k = lookupK keys vals k
  only : ∀ k, k ∈ keys' → K k = true

namespace Part
variable {β : Type} {K : Nat → Bool} {keys keys' : List Nat} {vals vals' : List β}

theorem nil : Part (β := β) K [] [] [] [] := ⟨.nil, .nil, rfl, rfl, fun _ _ => rfl, fun _ h => absurd h List.not_mem_nil⟩

theorem mem_vals (h : Part K keys vals keys' vals') {v : β} (hm : v ∈ vals') : v ∈ vals := by
  obtain ⟨i, hi, rfl⟩ := List.getElem_of_mem hm
  have hi' : i < keys'.length := h.len' ▸ hi
  have : lookupK keys' vals' keys'[i] = some vals'[i] :=
    (lookupK_iff h.incr').2 ⟨i, List.getElem?_eq_getElem hi', List.getElem?_eq_getElem hi⟩
  rw [h.look _ (h.only _ (List.getElem_mem hi'))] at this
  obtain ⟨j, _, hj⟩ := (lookupK_iff h.incr).1 this
  exact List.mem_of_getElem? hj

/-- The two searches for a key of the part. -/
theorem search (h : Part K keys vals keys' vals') {k : Nat} (hk : K k = true) :
    (∃ i j v, binarySearch keys k = .found i ∧ binarySearch keys' k = .found j ∧ vals[i]? = some v ∧ vals'[j]? = some v) ∨
    ∃ i j, binarySearch keys k = .notFound i ∧ binarySearch keys' k = .notFound j := by
  have hl := h.look k hk
  cases h1 : binarySearch keys k with
  | found i =>
    have hi := binarySearch_found h1
    have hi0 : i < vals.length := h.len ▸ (List.getElem?_eq_some_iff.1 hi).1
    rw [lookupK_found h1, List.getElem?_eq_getElem hi0] at hl
    cases h2 : binarySearch keys' k with
    | found j =>
      rw [lookupK_found h2] at hl
      exact .inl ⟨i, j, _, rfl, rfl, List.getElem?_eq_getElem hi0, hl⟩
    | notFound j => rw [lookupK_notFound h2] at hl; cases hl
  | notFound i =>
    rw [lookupK_notFound h1] at hl
    cases h2 : binarySearch keys' k with
    | found j =>
      have hj := binarySearch_found h2
      have hj0 : j < vals'.length := h.len' ▸ (List.getElem?_eq_some_iff.1 hj).1
      rw [lookupK_found h2, List.getElem?_eq_getElem hj0] at hl
      cases hl
    | notFound j => exact .inr ⟨i, j, rfl, rfl⟩

theorem absent (h : Part K keys vals keys' vals') {k : Nat} (hk : K k = false) : ∃ j, binarySearch keys' k = .notFound j := by
  cases hb : binarySearch keys' k with
  | notFound j => exact ⟨j, rfl⟩
  | found j =>
    have := h.only k (List.mem_of_getElem? (binarySearch_found hb))
    rw [hk] at this
    cases this

theorem set (h : Part K keys vals keys' vals') {k i j : Nat} (h1 : keys[i]? = some k) (h2 : keys'[j]? = some k) (v : β) :
    Part K keys (vals.set i v) keys' (vals'.set j v) := by
  refine ⟨h.incr, h.incr', by rw [List.length_set]; exact h.len, by rw [List.length_set]; exact h.len', fun k' hk' => ?_, h.only⟩
  rw [lookupK_set h.incr h.len v h1, lookupK_set h.incr' h.len' v h2, h.look k' hk']

theorem setOther (h : Part K keys vals keys' vals') {k i : Nat} (hk : K k = false) (h1 : keys[i]? = some k) (v : β) :
    Part K keys (vals.set i v) keys' vals' := by
  refine ⟨h.incr, h.incr', by rw [List.length_set]; exact h.len, h.len', fun k' hk' => ?_, h.only⟩
  rw [lookupK_set h.incr h.len v h1, if_neg (fun he => by rw [he, hk] at hk'; cases hk'), h.look k' hk']

theorem insert (h : Part K keys vals keys' vals') {k i j : Nat} (hk : K k = true) (h1 : binarySearch keys k = .notFound i)
    (h2 : binarySearch keys' k = .notFound j) (v : β) :
    Part K (keys.insertIdx i k) (vals.insertIdx i v) (keys'.insertIdx j k) (vals'.insertIdx j v) ∧
      (keys.insertIdx i k)[i]? = some k ∧ (vals.insertIdx i v)[i]? = some v ∧
      (keys'.insertIdx j k)[j]? = some k ∧ (vals'.insertIdx j v)[j]? = some v := by
  obtain ⟨hi, _, _⟩ := binarySearch_notFound h.incr.le h1
  obtain ⟨hj, _, _⟩ := binarySearch_notFound h.incr'.le h2
  have hi' : i ≤ vals.length := h.len ▸ hi
  have hj' : j ≤ vals'.length := h.len' ▸ hj
  refine ⟨⟨h.incr.insertIdx h1, h.incr'.insertIdx h2, ?_, ?_, fun k' hk' => ?_, fun k' hk' => ?_⟩, ?_, ?_, ?_, ?_⟩
  · rw [List.length_insertIdx_of_le_length hi', List.length_insertIdx_of_le_length hi, h.len]
  · rw [List.length_insertIdx_of_le_length hj', List.length_insertIdx_of_le_length hj, h.len']
  · rw [lookupK_insert h.incr h.len v h1, lookupK_insert h.incr' h.len' v h2, h.look k' hk']
  · rcases (List.mem_insertIdx hj).1 hk' with rfl | hk'
    · exact hk
    · exact h.only k' hk'
  · rw [List.getElem?_insertIdx]; simp [hi]
  · rw [List.getElem?_insertIdx]; simp [hi']
  · rw [List.getElem?_insertIdx]; simp [hj]
  · rw [List.getElem?_insertIdx]; simp [hj']

theorem insertOther (h : Part K keys vals keys' vals') {k i : Nat} (hk : K k = false) (h1 : binarySearch keys k = .notFound i) (v : β) :
    Part K (keys.insertIdx i k) (vals.insertIdx i v) keys' vals' ∧ (keys.insertIdx i k)[i]? = some k := by
  obtain ⟨hi, _, _⟩ := binarySearch_notFound h.incr.le h1
  have hi' : i ≤ vals.length := h.len ▸ hi
  refine ⟨⟨h.incr.insertIdx h1, h.incr', ?_, h.len', fun k' hk' => ?_, h.only⟩, ?_⟩
  · rw [List.length_insertIdx_of_le_length hi', List.length_insertIdx_of_le_length hi, h.len]
  · rw [lookupK_insert h.incr h.len v h1, if_neg (fun he => by rw [he, hk] at hk'; cases hk'), h.look k' hk']
  · rw [List.getElem?_insertIdx]; simp [hi]

theorem mapM {f : β → Res β} (h : Part K keys vals keys' vals') :
    Up (fun l l' => Part K keys l keys' l') (vals.mapM f) (vals'.mapM f) := by
  have ends : ∀ v, Ends (fun _ => True) (fun _ => True) (f v) := fun v => by cases f v <;> trivial
  intro l hl
  rcases Named.mapM_ends (P' := fun _ => True) vals fun v _ => ends v with ⟨l0, h1, h2⟩ | ⟨y, v, h1, _⟩
  · rw [hl] at h1
    cases h1
    rcases Named.mapM_ends (P' := fun _ => True) vals' fun v _ => ends v with ⟨l', h1', h2'⟩ | ⟨y, v, _, _, hv, hf⟩
    · exact ⟨l', h1', h.incr, h.incr', h2.length_eq.symm.trans h.len, h2'.length_eq.symm.trans h.len',
        fun k hk => by rw [Named.lookup_forall₂ h2, Named.lookup_forall₂ h2', h.look k hk], h.only⟩
    · exact absurd hf (Named.forall₂_fail h2 (h.mem_vals hv))
  · rw [hl] at h1
    cases h1

end Part

theorem both_self {α : Type} (r : Res α) : Both (fun a b => a = b) r r := by
  cases r with
  | error x => exact rfl
  | ok a => exact rfl

/-! ### Tags -/

structure Tags.Part (K : Nat → Bool) (t t' : Tags) : Prop where
  cap : t'.entityCapacity = t.entityCapacity
  tab : Ecs.Part K t.tagIds t.bitvecs t'.tagIds t'.bitvecs

namespace Tags.Part
variable {K : Nat → Bool} {t t' : Tags}

theorem addTag (h : Tags.Part K t t') {k : Nat} (hk : K k = true) (id : Nat) :
    Both (Tags.Part K) (t.addTag k id) (t'.addTag k id) := by
  unfold Tags.addTag Tags.reserveTag
  rcases h.tab.search hk with ⟨i, j, v, h1, h2, h3, h4⟩ | ⟨i, j, h1, h2⟩
  · rw [h1, h2]
    dsimp only
    rw [idxUnchecked_of_some h3, idxUnchecked_of_some h4]
    refine (both_self (v.setOn id)).bind fun a b hab => ?_
    subst hab
    exact ⟨h.cap, h.tab.set (binarySearch_found h1) (binarySearch_found h2) a⟩
  · rw [h1, h2]
    obtain ⟨ha, hb, hc, hd, he⟩ := h.tab.insert hk h1 h2 (Words.alloc t.entityCapacity)
    dsimp only
    rw [h.cap, idxUnchecked_of_some hc, idxUnchecked_of_some he]
    refine (both_self ((Words.alloc t.entityCapacity).setOn id)).bind fun a b hab => ?_
    subst hab
    exact ⟨rfl, ha.set hb hd a⟩

theorem addOther (h : Tags.Part K t t') {k : Nat} (hk : K k = false) {id : Nat} {t1 : Tags} (hr : t.addTag k id = .ok t1) :
    Tags.Part K t1 t' := by
  unfold Tags.addTag Tags.reserveTag at hr
  cases hb : binarySearch t.tagIds k with
  | found i =>
    rw [hb] at hr
    obtain ⟨_, _, hr⟩ := bind_eq_ok.1 hr
    obtain ⟨v, _, hr⟩ := bind_eq_ok.1 hr
    cases hr
    exact ⟨h.cap, h.tab.setOther hk (binarySearch_found hb) v⟩
  | notFound i =>
    rw [hb] at hr
    obtain ⟨_, _, hr⟩ := bind_eq_ok.1 hr
    obtain ⟨v, _, hr⟩ := bind_eq_ok.1 hr
    cases hr
    obtain ⟨h1, h2⟩ := h.tab.insertOther hk hb (Words.alloc t.entityCapacity)
    exact ⟨h.cap, h1.setOther hk h2 v⟩

theorem removeTag (h : Tags.Part K t t') {k : Nat} (hk : K k = true) (id : Nat) :
    Both (Tags.Part K) (t.removeTag k id) (t'.removeTag k id) := by
  unfold Tags.removeTag
  rcases h.tab.search hk with ⟨i, j, v, h1, h2, h3, h4⟩ | ⟨i, j, h1, h2⟩
  · rw [h1, h2]
    dsimp only
    rw [idxUnchecked_of_some h3, idxUnchecked_of_some h4]
    refine (both_self (v.setOff id)).bind fun a b hab => ?_
    subst hab
    exact ⟨h.cap, h.tab.set (binarySearch_found h1) (binarySearch_found h2) a⟩
  · rw [h1, h2]
    exact h

theorem removeOther (h : Tags.Part K t t') {k : Nat} (hk : K k = false) {id : Nat} {t1 : Tags} (hr : t.removeTag k id = .ok t1) :
    Tags.Part K t1 t' := by
  unfold Tags.removeTag at hr
  cases hb : binarySearch t.tagIds k with
  | found i =>
    rw [hb] at hr
    obtain ⟨_, _, hr⟩ := bind_eq_ok.1 hr
    obtain ⟨v, _, hr⟩ := bind_eq_ok.1 hr
    cases hr
    exact ⟨h.cap, h.tab.setOther hk (binarySearch_found hb) v⟩
  | notFound i =>
    rw [hb] at hr
    cases hr
    exact h

theorem hasTag (h : Tags.Part K t t') {k : Nat} (hk : K k = true) (id : Nat) : t'.hasTag k id = t.hasTag k id := by
  unfold Tags.hasTag
  rcases h.tab.search hk with ⟨i, j, v, h1, h2, h3, h4⟩ | ⟨i, j, h1, h2⟩
  · rw [h1, h2]
    dsimp only
    rw [idxUnchecked_of_some h3, idxUnchecked_of_some h4]
  · rw [h1, h2]

theorem bitvec (h : Tags.Part K t t') {k : Nat} (hk : K k = true) : t'.hasTagBitvec k = t.hasTagBitvec k := by
  unfold Tags.hasTagBitvec
  rcases h.tab.search hk with ⟨i, j, v, h1, h2, h3, h4⟩ | ⟨i, j, h1, h2⟩
  · rw [h1, h2]
    dsimp only
    rw [idxUnchecked_of_some h3, idxUnchecked_of_some h4]
  · rw [h1, h2]

theorem other (h : Tags.Part K t t') {k : Nat} (hk : K k = false) (id : Nat) : t'.hasTag k id = .ok false := by
  obtain ⟨j, hj⟩ := h.tab.absent hk
  unfold Tags.hasTag
  rw [hj]

theorem removeAll (h : Tags.Part K t t') (id : Nat) :
    Up (Tags.Part K) (t.removeAllTagsForEntity id) (t'.removeAllTagsForEntity id) := by
  unfold Tags.removeAllTagsForEntity
  exact h.tab.mapM.bind fun a b hab => .pure ⟨h.cap, hab⟩

theorem grow (h : Tags.Part K t t') (n : Nat) : Up (Tags.Part K) (t.grow n) (t'.grow n) := by
  unfold Tags.grow
  rw [h.cap]
  exact h.tab.mapM.bind fun a b hab => .pure ⟨rfl, hab⟩

end Tags.Part

/-! ### Order groups -/

structure Orders.Part (K : Nat → Bool) (o o' : Orders) : Prop where
  cap : o'.entityCapacity = o.entityCapacity
  tab : Ecs.Part K o.groupIds o.groups o'.groupIds o'.groups

namespace Orders.Part
variable {K : Nat → Bool} {o o' : Orders} {dbg : Bool}

theorem reserved (h : Orders.Part K o o') {k : Nat} (hk : K k = true) (f : Group → Res Group) :
    Both (Orders.Part K) ((o.reserveGroup k).1.onGroup (o.reserveGroup k).2 f)
      ((o'.reserveGroup k).1.onGroup (o'.reserveGroup k).2 f) := by
  unfold Orders.reserveGroup Orders.onGroup
  rcases h.tab.search hk with ⟨i, j, v, h1, h2, h3, h4⟩ | ⟨i, j, h1, h2⟩
  · rw [h1, h2]
    dsimp only
    rw [idxUnchecked_of_some h3, idxUnchecked_of_some h4]
    refine (both_self (f v)).bind fun a b hab => ?_
    subst hab
    exact ⟨h.cap, h.tab.set (binarySearch_found h1) (binarySearch_found h2) a⟩
  · rw [h1, h2]
    obtain ⟨ha, hb, hc, hd, he⟩ := h.tab.insert hk h1 h2 (Group.new o.entityCapacity)
    dsimp only
    rw [h.cap, idxUnchecked_of_some hc, idxUnchecked_of_some he]
    refine (both_self (f (Group.new o.entityCapacity))).bind fun a b hab => ?_
    subst hab
    exact ⟨rfl, ha.set hb hd a⟩

theorem reservedOther (h : Orders.Part K o o') {k : Nat} (hk : K k = false) {f : Group → Res Group} {o1 : Orders}
    (hr : (o.reserveGroup k).1.onGroup (o.reserveGroup k).2 f = .ok o1) : Orders.Part K o1 o' := by
  unfold Orders.reserveGroup Orders.onGroup at hr
  cases hb : binarySearch o.groupIds k with
  | found i =>
    rw [hb] at hr
    obtain ⟨_, _, hr⟩ := bind_eq_ok.1 hr
    obtain ⟨v, _, hr⟩ := bind_eq_ok.1 hr
    cases hr
    exact ⟨h.cap, h.tab.setOther hk (binarySearch_found hb) v⟩
  | notFound i =>
    rw [hb] at hr
    obtain ⟨_, _, hr⟩ := bind_eq_ok.1 hr
    obtain ⟨v, _, hr⟩ := bind_eq_ok.1 hr
    cases hr
    obtain ⟨h1, h2⟩ := h.tab.insertOther hk hb (Group.new o.entityCapacity)
    exact ⟨h.cap, h1.setOther hk h2 v⟩

theorem remove (h : Orders.Part K o o') {k : Nat} (hk : K k = true) (id : Nat) :
    Both (Orders.Part K) (o.remove k id) (o'.remove k id) := by
  unfold Orders.remove Orders.onGroup
  rcases h.tab.search hk with ⟨i, j, v, h1, h2, h3, h4⟩ | ⟨i, j, h1, h2⟩
  · rw [h1, h2]
    dsimp only
    rw [idxUnchecked_of_some h3, idxUnchecked_of_some h4]
    refine (both_self (v.remove id)).bind fun a b hab => ?_
    subst hab
    exact ⟨h.cap, h.tab.set (binarySearch_found h1) (binarySearch_found h2) a⟩
  · rw [h1, h2]
    exact h

theorem removeOther (h : Orders.Part K o o') {k : Nat} (hk : K k = false) {id : Nat} {o1 : Orders} (hr : o.remove k id = .ok o1) :
    Orders.Part K o1 o' := by
  unfold Orders.remove Orders.onGroup at hr
  cases hb : binarySearch o.groupIds k with
  | found i =>
    rw [hb] at hr
    obtain ⟨_, _, hr⟩ := bind_eq_ok.1 hr
    obtain ⟨v, _, hr⟩ := bind_eq_ok.1 hr
    cases hr
    exact ⟨h.cap, h.tab.setOther hk (binarySearch_found hb) v⟩
  | notFound i =>
    rw [hb] at hr
    cases hr
    exact h

theorem removeAll (h : Orders.Part K o o') (id : Nat) : Up (Orders.Part K) (o.removeAll id) (o'.removeAll id) := by
  unfold Orders.removeAll
  exact h.tab.mapM.bind fun a b hab => .pure ⟨h.cap, hab⟩

theorem grow (h : Orders.Part K o o') (n : Nat) : Up (Orders.Part K) (o.grow dbg n) (o'.grow dbg n) := by
  unfold Orders.grow
  rw [h.cap]
  exact Up.same fun _ => h.tab.mapM.bind fun a b hab => .pure ⟨rfl, hab⟩

theorem lookup {α : Type} (h : Orders.Part K o o') {k : Nat} (hk : K k = true) (f : Group → Res α) (d : Res α) :
    (match binarySearch o'.groupIds k with
      | .found i => idxUnchecked o'.groups i >>= f
      | .notFound _ => d) =
    (match binarySearch o.groupIds k with
      | .found i => idxUnchecked o.groups i >>= f
      | .notFound _ => d) := by
  rcases h.tab.search hk with ⟨i, j, v, h1, h2, h3, h4⟩ | ⟨i, j, h1, h2⟩
  · rw [h1, h2]
    dsimp only
    rw [idxUnchecked_of_some h3, idxUnchecked_of_some h4]
  · rw [h1, h2]

theorem lookupIdx {α : Type} (h : Orders.Part K o o') {k : Nat} (hk : K k = true) (f : Group → Res α) (d : Res α) :
    (match o'.getGroupIndex k with
      | some i => idxUnchecked o'.groups i >>= f
      | none => d) =
    (match o.getGroupIndex k with
      | some i => idxUnchecked o.groups i >>= f
      | none => d) := by
  unfold Orders.getGroupIndex
  rcases h.tab.search hk with ⟨i, j, v, h1, h2, h3, h4⟩ | ⟨i, j, h1, h2⟩
  · rw [h1, h2]
    dsimp only
    rw [idxUnchecked_of_some h3, idxUnchecked_of_some h4]
  · rw [h1, h2]

theorem getNext (h : Orders.Part K o o') {k : Nat} (hk : K k = true) (id : Nat) : o'.getNext k id = o.getNext k id := h.lookup hk _ _

theorem getPrevious (h : Orders.Part K o o') {k : Nat} (hk : K k = true) (id : Nat) : o'.getPrevious k id = o.getPrevious k id :=
  h.lookup hk _ _

theorem getHead (h : Orders.Part K o o') {k : Nat} (hk : K k = true) : o'.getHead k = o.getHead k := h.lookupIdx hk _ _

theorem getTail (h : Orders.Part K o o') {k : Nat} (hk : K k = true) : o'.getTail k = o.getTail k := h.lookupIdx hk _ _

theorem other (h : Orders.Part K o o') {k : Nat} (hk : K k = false) : o'.getHead k = .ok none := by
  obtain ⟨j, hj⟩ := h.tab.absent hk
  unfold Orders.getHead Orders.getGroupIndex
  rw [hj]

end Orders.Part

/-! ### Stores -/

/-- The same store with the tags of `kt` and the groups of `kg` only. -/
def Store.Part (kt kg : Nat → Bool) (s s' : Store) : Prop :=
  ∃ t o, s' = s.dress t o ∧ Tags.Part kt s.tags t ∧ Orders.Part kg s.orders o

namespace Store.Part
variable {kt kg : Nat → Bool} {s s' : Store} {U : Universe} {dbg : Bool} {cap : Nat}

theorem of_map {r r' : Res Store} {t : Tags} {o : Orders} (ht : Tags.Part kt s.tags t) (ho : Orders.Part kg s.orders o)
    (h : r' = r.map (dress t o)) (hs : ∀ s1, r = .ok s1 → s1.tags = s.tags ∧ s1.orders = s.orders) :
    Both (Store.Part kt kg) r r' := by
  subst h
  cases r with
  | error x => exact rfl
  | ok s1 =>
    obtain ⟨h1, h2⟩ := hs s1 rfl
    exact ⟨t, o, rfl, h1 ▸ ht, h2 ▸ ho⟩

/-- The same relation on stores with a result. -/
def On {α : Type} (kt kg : Nat → Bool) (x y : Store × α) : Prop := Store.Part kt kg x.1 y.1 ∧ x.2 = y.2

theorem of_mapFst {α : Type} {r r' : Res (Store × α)} {t : Tags} {o : Orders} (ht : Tags.Part kt s.tags t)
    (ho : Orders.Part kg s.orders o) (h : r' = r.map (dressFst t o))
    (hs : ∀ s1 a, r = .ok (s1, a) → s1.tags = s.tags ∧ s1.orders = s.orders) : Both (On kt kg) r r' := by
  subst h
  cases r with
  | error x => exact rfl
  | ok x =>
    obtain ⟨s1, a⟩ := x
    obtain ⟨h1, h2⟩ := hs s1 a rfl
    exact ⟨⟨t, o, rfl, h1 ▸ ht, h2 ▸ ho⟩, rfl⟩

theorem added (h : Store.Part kt kg s s') (e : Entity) (v : TupleVal) :
    Both (Store.Part kt kg) (s.addComponents U dbg e v) (s'.addComponents U dbg e v) := by
  obtain ⟨t, o, rfl, ht, ho⟩ := h
  refine of_map ht ho (addComponents_dress e v) fun s1 hr => ?_
  obtain ⟨_, h1, h2, _⟩ := SameCore.added hr
  exact ⟨h1, h2⟩

theorem removed (h : Store.Part kt kg s s') (e : Entity) (ts : List TypeId) :
    Both (Store.Part kt kg) (s.removeComponents U dbg e ts) (s'.removeComponents U dbg e ts) := by
  obtain ⟨t, o, rfl, ht, ho⟩ := h
  refine of_map ht ho (removeComponents_dress e ts) fun s1 hr => ?_
  obtain ⟨_, h1, h2, _⟩ := SameCore.removed hr
  exact ⟨h1, h2⟩

theorem assigned (h : Store.Part kt kg s s') (e : Entity) (v : TupleVal) :
    Both (On kt kg) (s.setComponents U dbg e v) (s'.setComponents U dbg e v) := by
  obtain ⟨t, o, rfl, ht, ho⟩ := h
  refine of_mapFst ht ho (setComponents_dress e v) fun s1 b hr => ?_
  obtain ⟨_, h1, h2, _⟩ := SameCore.assigned hr
  exact ⟨h1, h2⟩

theorem register (h : Store.Part kt kg s s') : Up (On kt kg) (s.registerNewEntity dbg) (s'.registerNewEntity dbg) := by
  obtain ⟨t, o, rfl, ht, ho⟩ := h
  unfold registerNewEntity
  show Up _ (s.ents.create dbg >>= _) (s.ents.create dbg >>= _)
  refine Up.same fun x => ?_
  obtain ⟨ents, cr⟩ := x
  dsimp only
  by_cases hg : cr.wasGrow = true
  · rw [if_pos hg, if_pos hg]
    unfold growEntitiesInternal
    refine Up.bind (R := Store.Part kt kg) ?_ fun a b hab => .pure ⟨hab, rfl⟩
    show Up _ (Raw.realloc s.toPage _ _ >>= _) (Raw.realloc s.toPage _ _ >>= _)
    refine Up.same fun p => ?_
    show Up _ (Raw.realloc s.toIndex _ _ >>= _) (Raw.realloc s.toIndex _ _ >>= _)
    refine Up.same fun i => ?_
    show Up _ (s.hasArch.realloc _ _ >>= _) (s.hasArch.realloc _ _ >>= _)
    refine Up.same fun w => ?_
    exact (ht.grow _).bind fun t1 t2 h1 => (ho.grow _).bind fun o1 o2 h2 => .pure ⟨t2, o2, rfl, h1, h2⟩
  · rw [if_neg hg, if_neg hg]
    exact .pure ⟨⟨t, o, rfl, ht, ho⟩, rfl⟩

theorem create (h : Store.Part kt kg s s') : Up (On kt kg) (s.createEntity dbg) (s'.createEntity dbg) := by
  unfold createEntity
  refine h.register.bind fun x y hxy => ?_
  obtain ⟨s1, e⟩ := x
  obtain ⟨s2, e'⟩ := y
  obtain ⟨⟨t, o, hs, ht, ho⟩, he⟩ := hxy
  dsimp only at hs he ht ho ⊢
  subst hs he
  show Up _ (s1.hasArch.setOff e.id >>= _) (s1.hasArch.setOff e.id >>= _)
  exact Up.same fun w => .pure ⟨⟨t, o, rfl, ht, ho⟩, rfl⟩

theorem createWith (h : Store.Part kt kg s s') (a : Archetype) :
    Up (On kt kg) (s.createEntityWithArchetype dbg a) (s'.createEntityWithArchetype dbg a) := by
  unfold createEntityWithArchetype
  refine h.register.bind fun x y hxy => ?_
  obtain ⟨s1, e⟩ := x
  obtain ⟨s2, e'⟩ := y
  obtain ⟨⟨t, o, hs, ht, ho⟩, he⟩ := hxy
  dsimp only at hs he ht ho ⊢
  subst hs he
  show Up _ (s1.archs.addEntity dbg e.id a >>= _) (s1.archs.addEntity dbg e.id a >>= _)
  refine Up.same fun x => ?_
  obtain ⟨archs, loc⟩ := x
  refine Up.bind (R := Store.Part kt kg) ?_ fun a b hab => .pure ⟨hab, rfl⟩
  refine .of_both (of_map (s := { s1 with archs := archs }) ht ho ?_ fun s2 hr => recordRow_same hr)
  exact recordRow_dress (s := { s1 with archs := archs }) e.id loc

theorem destroyed (h : Store.Part kt kg s s') (e : Entity) :
    Up (Store.Part kt kg) (s.destroyEntity dbg e) (s'.destroyEntity dbg e) := by
  obtain ⟨t, o, rfl, ht, ho⟩ := h
  unfold destroyEntity
  refine Up.bind (R := Store.Part kt kg) ?_ fun s1 s2 hab => ?_
  · refine .of_both (of_map ht ho (destroyRow_dress e) fun s1 hr => ?_)
    obtain ⟨_, h1, h2, _⟩ := SameCore.destroyRow hr
    exact ⟨h1, h2⟩
  · obtain ⟨t, o, rfl, ht, ho⟩ := hab
    show Up _ (s1.ents.destroy dbg e >>= _) (s1.ents.destroy dbg e >>= _)
    exact Up.same fun ents => (ht.removeAll e.id).bind fun t1 t2 h1 => (ho.removeAll e.id).bind fun o1 o2 h2 =>
      .pure ⟨t2, o2, rfl, h1, h2⟩

theorem tagged (h : Store.Part kt kg s s') {k : Nat} (hk : kt k = true) (e : Entity) :
    Both (Store.Part kt kg) (s.addTag k e) (s'.addTag k e) := by
  obtain ⟨t, o, rfl, ht, ho⟩ := h
  exact (ht.addTag hk e.id).bind fun t1 t2 h1 => ⟨t2, o, rfl, h1, ho⟩

theorem untagged (h : Store.Part kt kg s s') {k : Nat} (hk : kt k = true) (e : Entity) :
    Both (Store.Part kt kg) (s.removeTag k e) (s'.removeTag k e) := by
  obtain ⟨t, o, rfl, ht, ho⟩ := h
  exact (ht.removeTag hk e.id).bind fun t1 t2 h1 => ⟨t2, o, rfl, h1, ho⟩

theorem orderedLast (h : Store.Part kt kg s s') {k : Nat} (hk : kg k = true) (e : Entity) :
    Both (Store.Part kt kg) (s.addOrder dbg k e) (s'.addOrder dbg k e) := by
  obtain ⟨t, o, rfl, ht, ho⟩ := h
  exact (ho.reserved hk fun g => g.add dbg e.id).bind fun o1 o2 h1 => ⟨t, o2, rfl, ht, h1⟩

theorem orderedAfter (h : Store.Part kt kg s s') {k : Nat} (hk : kg k = true) (e x : Entity) :
    Both (Store.Part kt kg) (s.addOrderNextTo dbg k e x) (s'.addOrderNextTo dbg k e x) := by
  obtain ⟨t, o, rfl, ht, ho⟩ := h
  exact (ho.reserved hk fun g => g.addNextTo dbg e.id x.id).bind fun o1 o2 h1 => ⟨t, o2, rfl, ht, h1⟩

theorem orderedBefore (h : Store.Part kt kg s s') {k : Nat} (hk : kg k = true) (e x : Entity) :
    Both (Store.Part kt kg) (s.addOrderPreviousTo dbg k e x) (s'.addOrderPreviousTo dbg k e x) := by
  obtain ⟨t, o, rfl, ht, ho⟩ := h
  exact (ho.reserved hk fun g => g.addPreviousTo dbg e.id x.id).bind fun o1 o2 h1 => ⟨t, o2, rfl, ht, h1⟩

theorem unordered (h : Store.Part kt kg s s') {k : Nat} (hk : kg k = true) (e : Entity) :
    Both (Store.Part kt kg) (s.removeOrder k e) (s'.removeOrder k e) := by
  obtain ⟨t, o, rfl, ht, ho⟩ := h
  exact (ho.remove hk e.id).bind fun o1 o2 h1 => ⟨t, o2, rfl, ht, h1⟩

theorem returns (h : Store.Part kt kg s s') {ev : Event} {s1 : Store} (hr : Returns U dbg s ev s1) :
    if concernsOnly kt kg ev = true then ∃ s1', Returns U dbg s' ev s1' ∧ Store.Part kt kg s1 s1' else Store.Part kt kg s1 s' := by
  have other : ∀ {f : Tags → Res Tags}, (f s.tags >>= fun t => pure { s with tags := t }) = .ok s1 →
      (∀ t t', Tags.Part kt s.tags t → f s.tags = .ok t' → Tags.Part kt t' t) → Store.Part kt kg s1 s' := by
    intro f hr hf
    obtain ⟨t1, h1, hr⟩ := bind_eq_ok.1 hr
    cases hr
    obtain ⟨t, o, rfl, ht, ho⟩ := h
    exact ⟨t, o, rfl, hf t t1 ht h1, ho⟩
  have other' : ∀ {f : Orders → Res Orders}, (f s.orders >>= fun t => pure { s with orders := t }) = .ok s1 →
      (∀ t t', Orders.Part kg s.orders t → f s.orders = .ok t' → Orders.Part kg t' t) → Store.Part kt kg s1 s' := by
    intro f hr hf
    obtain ⟨t1, h1, hr⟩ := bind_eq_ok.1 hr
    cases hr
    obtain ⟨t, o, rfl, ht, ho⟩ := h
    exact ⟨t, o, rfl, ht, hf o t1 ho h1⟩
  cases ev with
  | created e =>
    rw [if_pos (show concernsOnly kt kg (.created e) = true from rfl)]
    obtain ⟨⟨s1', e'⟩, h1, h2, rfl⟩ := (h.create (dbg := dbg)) _ hr
    exact ⟨s1', h1, h2⟩
  | createdWith e ts init =>
    rw [if_pos (show concernsOnly kt kg (.createdWith e ts init) = true from rfl)]
    obtain ⟨a, ha, hi, hr⟩ := hr
    obtain ⟨⟨s1', e'⟩, h1, h2, rfl⟩ := (h.createWith a) _ hr
    exact ⟨s1', ⟨a, ha, hi, h1⟩, h2⟩
  | destroyed e => exact h.destroyed e _ hr
  | added e v => exact (h.added e v).ok hr
  | removed e ts => exact (h.removed e ts).ok hr
  | assigned e v =>
    rw [if_pos (show concernsOnly kt kg (.assigned e v) = true from rfl)]
    obtain ⟨b, hr⟩ := hr
    obtain ⟨⟨s1', b'⟩, h1, h2, rfl⟩ := (h.assigned e v).ok hr
    exact ⟨s1', ⟨b, h1⟩, h2⟩
  | tagged k e =>
    split
    · rename_i hk; exact (h.tagged hk e).ok hr
    · rename_i hk
      exact other (f := fun t => t.addTag k e.id) hr fun t t' ht hf => ht.addOther (Bool.eq_false_iff.2 hk) hf
  | untagged k e =>
    split
    · rename_i hk; exact (h.untagged hk e).ok hr
    · rename_i hk
      exact other (f := fun t => t.removeTag k e.id) hr fun t t' ht hf => ht.removeOther (Bool.eq_false_iff.2 hk) hf
  | orderedLast g e =>
    split
    · rename_i hk; exact (h.orderedLast hk e).ok hr
    · rename_i hk
      exact other' (f := fun t => t.add dbg g e.id) hr fun t t' ht hf => ht.reservedOther (Bool.eq_false_iff.2 hk) hf
  | orderedAfter g e x =>
    split
    · rename_i hk; exact (h.orderedAfter hk e x).ok hr
    · rename_i hk
      exact other' (f := fun t => t.addNextTo dbg g e.id x.id) hr fun t t' ht hf => ht.reservedOther (Bool.eq_false_iff.2 hk) hf
  | orderedBefore g e x =>
    split
    · rename_i hk; exact (h.orderedBefore hk e x).ok hr
    · rename_i hk
      exact other' (f := fun t => t.addPreviousTo dbg g e.id x.id) hr fun t t' ht hf => ht.reservedOther (Bool.eq_false_iff.2 hk) hf
  | unordered g e =>
    split
    · rename_i hk; exact (h.unordered hk e).ok hr
    · rename_i hk
      exact other' (f := fun t => t.remove g e.id) hr fun t t' ht hf => ht.removeOther (Bool.eq_false_iff.2 hk) hf

theorem init (hs : Store.withCapacity dbg cap = .ok s) : Store.Part kt kg s s := by
  unfold Store.withCapacity at hs
  obtain ⟨_, _, hs⟩ := bind_eq_ok.1 hs
  cases hs
  exact ⟨_, _, rfl, ⟨rfl, .nil⟩, ⟨rfl, .nil⟩⟩

theorem runs {h : List Event} (hx : Runs U dbg cap h s) : ∃ s', Runs U dbg cap (only kt kg h) s' ∧ Store.Part kt kg s s' := by
  induction hx with
  | init hs => exact ⟨_, .init hs, .init hs⟩
  | step ev _ hr ih =>
    obtain ⟨s', h1, h2⟩ := ih
    have := h2.returns hr
    unfold Spec.only at h1 ⊢
    rw [List.filter_cons]
    split
    · rename_i hk
      rw [if_pos hk] at this
      obtain ⟨s1', h3, h4⟩ := this
      exact ⟨s1', .step _ h1 h3, h4⟩
    · rename_i hk
      rw [if_neg hk] at this
      exact ⟨s', h1, this⟩

theorem orderedIter {t : Tags} {o : Orders} (ho : Orders.Part kg s.orders o) {g : Nat} (hg : kg g = true) (acc : Access)
    (old : List (Range × IterView)) (fuel : Nat) :
    orderedQueryIter U (s.dress t o) g acc old fuel = orderedQueryIter U s g acc old fuel := by
  unfold orderedQueryIter
  simp only [orderedOuterLoop_dress]
  show (match o.getGroupIndex g with | none => _ | some gi => idxUnchecked o.groups gi >>= _) = _
  unfold Orders.getGroupIndex
  rcases ho.tab.search hg with ⟨i, j, v, h1, h2, h3, h4⟩ | ⟨i, j, h1, h2⟩
  · rw [h1, h2]
    dsimp only
    rw [idxUnchecked_of_some h3, idxUnchecked_of_some h4]
  · rw [h1, h2]

theorem sees (h : Store.Part kt kg s s') :
    SeesSame U dbg s s' ∧ (∀ tag, kt tag = true → SameOneTag tag U dbg s s') ∧ (∀ g, kg g = true → SameOneGroup g U dbg s s') ∧
    (∀ tag e, kt tag = false → s'.hasTag tag e = .ok false) ∧ (∀ g, kg g = false → s'.getFirstOrdered g = .ok none) := by
  obtain ⟨t, o, rfl, ht, ho⟩ := h
  refine ⟨same_components, fun tag hk => ⟨fun e => ht.hasTag hk e.id, fun acc old fuel => ?_⟩,
    fun g hk => ⟨fun e => ?_, fun e => ?_, ?_, ?_, fun acc old fuel => ?_, fun acc old fuel => ?_⟩,
    fun tag e hk => ht.other hk e.id, fun g hk => ?_⟩
  · unfold runComponentQueryFilterTag
    rw [show CompIter.nextFiltered dbg (s.dress t o) = CompIter.nextFiltered dbg s from
      funext fun bv => funext fun n => funext fun it => nextFiltered_dress bv n it]
    show (componentQueryIter U s acc old >>= fun it => t.hasTagBitvec tag >>= _) = _
    rw [ht.bitvec hk]
  · show (o.getNext g e.id >>= s.mapEntity) = _
    rw [ho.getNext hk]
    rfl
  · show (o.getPrevious g e.id >>= s.mapEntity) = _
    rw [ho.getPrevious hk]
    rfl
  · show (o.getHead g >>= s.mapEntity) = _
    rw [ho.getHead hk]
    rfl
  · show (o.getTail g >>= s.mapEntity) = _
    rw [ho.getTail hk]
    rfl
  · unfold runOrderedQuery
    rw [orderedIter ho hk]
  · unfold runOrderedQueryWithEntities
    rw [orderedIter ho hk]
    rfl
  · show (o.getHead g >>= s.mapEntity) = _
    rw [ho.other hk]
    rfl

theorem outcome (h : Store.Part kt kg s s') (c : Call) (hc : stays kt kg c = true) :
    Spec.outcome U dbg s' c = Spec.outcome U dbg s c := by
  have key : ∀ {α β : Type} {R : α → β → Prop} {r : Res α} {r' : Res β}, Both R r r' →
      (r'.map fun _ => ()) = r.map fun _ => () := by
    intro α β R r r' hb
    cases r with
    | error x =>
      cases r' with
      | error y => rw [show x = y from hb]; rfl
      | ok b => exact hb.elim
    | ok a =>
      cases r' with
      | error y => exact hb.elim
      | ok b => rfl
  cases c with
  | create => cases hc
  | createWith a => cases hc
  | destroy e => cases hc
  | add e v => exact key (h.added e v)
  | remove e ts => exact key (h.removed e ts)
  | assign e v => exact key (h.assigned e v)
  | tag k e => exact key (h.tagged hc e)
  | untag k e => exact key (h.untagged hc e)
  | orderLast g e => exact key (h.orderedLast hc e)
  | orderAfter g e x => exact key (h.orderedAfter hc e x)
  | orderBefore g e x => exact key (h.orderedBefore hc e x)
  | unorder g e => exact key (h.unordered hc e)

end Store.Part

theorem handles_only (kt kg : Nat → Bool) (h : List Event) : handles (only kt kg h) = handles h := by
  induction h with
  | nil => rfl
  | cons ev h ih =>
    unfold only at ih ⊢
    rw [List.filter_cons]
    split
    · cases ev <;> simp [handles, ih]
    · rename_i hk
      cases ev <;> first | exact ih | exact absurd rfl hk

end Ecs
