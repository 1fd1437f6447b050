import Verif.Proofs.Independent
import Verif.Proofs.Records
import Verif.Proofs.HeapAsks
import Verif.Spec.Undo

/-! Tags and groups are stored in a canonical form: what they mean and which names are registered determines the containers. -/

namespace Ecs
open Spec

/-! ### Canonical forms -/

/-- Bit vectors of equal length and with equal bits are equal. -/
theorem Words.eq_of_bits {v w : Words} (hl : v.length = w.length) (hb : ∀ i, v.bit i = w.bit i) : v = w := by
  refine List.ext_getElem hl fun n h1 h2 => ?_
  refine BitVec.eq_of_getLsbD_eq fun k hk => ?_
  have := hb (32 * n + k)
  unfold Words.bit at this
  rw [show (32 * n + k) / 32 = n by omega, show (32 * n + k) % 32 = k by omega, List.getElem?_eq_getElem h1,
    List.getElem?_eq_getElem h2] at this
  exact this

/-- Association lists with the same keys and the same values for each are equal. -/
theorem eq_of_lookups {β : Type} {keys : List Nat} {vals vals' : List β} (hi : Incr keys) (hl : vals.length = keys.length)
    (hl' : vals'.length = keys.length) (h : ∀ k ∈ keys, lookupK keys vals k = lookupK keys vals' k) : vals = vals' := by
  refine List.ext_getElem (hl.trans hl'.symm) fun n h1 h2 => ?_
  have hn : n < keys.length := hl ▸ h1
  have hk := h keys[n] (List.getElem_mem hn)
  have e1 : lookupK keys vals keys[n] = some vals[n] :=
    (lookupK_iff hi).2 ⟨n, List.getElem?_eq_getElem hn, List.getElem?_eq_getElem h1⟩
  have e2 : lookupK keys vals' keys[n] = some vals'[n] :=
    (lookupK_iff hi).2 ⟨n, List.getElem?_eq_getElem hn, List.getElem?_eq_getElem h2⟩
  rw [e1, e2] at hk
  exact Option.some.inj hk

/-- Looking up a registered key succeeds. -/
theorem lookupK_mem {β : Type} {keys : List Nat} {vals : List β} (hi : Incr keys) (hl : vals.length = keys.length) {k : Nat}
    (hk : k ∈ keys) : ∃ v ∈ vals, lookupK keys vals k = some v := by
  obtain ⟨n, hn, rfl⟩ := List.getElem_of_mem hk
  exact ⟨vals[n]'(hl ▸ hn), List.getElem_mem _, (lookupK_iff hi).2 ⟨n, List.getElem?_eq_getElem hn, List.getElem?_eq_getElem _⟩⟩

theorem lookupK_not_mem {β : Type} {keys : List Nat} {vals : List β} (hi : Incr keys) {k : Nat} (hk : k ∉ keys) :
    lookupK keys vals k = none := by
  cases h : lookupK keys vals k with
  | none => rfl
  | some v =>
    obtain ⟨i, h1, _⟩ := (lookupK_iff hi).1 h
    exact absurd (List.mem_of_getElem? h1) hk

/-- Reading through `binary_search` is looking the key up. -/
theorem search_cases {β : Type} {keys : List Nat} {vals : List β} (hl : vals.length = keys.length) (k : Nat) :
    (∃ i v, binarySearch keys k = .found i ∧ idxUnchecked vals i = .ok v ∧ lookupK keys vals k = some v) ∨
    ∃ i, binarySearch keys k = .notFound i ∧ lookupK keys vals k = none := by
  cases hb : binarySearch keys k with
  | notFound i => exact .inr ⟨i, rfl, by simp [lookupK, hb]⟩
  | found i =>
    have hi : i < vals.length := by
      have := binarySearch_found hb
      rw [hl]
      exact (List.getElem?_eq_some_iff.1 this).1
    exact .inl ⟨i, vals[i], rfl, by simp [idxUnchecked, List.getElem?_eq_getElem hi],
      by simp [lookupK, hb, List.getElem?_eq_getElem hi]⟩

theorem Links.eq {cap : Nat} {a b : Raw Nat} {f : Nat → Nat} (h1 : Links cap a f) (h2 : Links cap b f) : a = b := by
  refine List.ext_getElem? fun n => ?_
  by_cases hn : n < cap
  · rw [h1.2 n hn, h2.2 n hn]
  · rw [List.getElem?_eq_none (by rw [h1.1]; omega), List.getElem?_eq_none (by rw [h2.1]; omega)]

/-- The links of a group are determined by its sequence. -/
theorem Group.Rep.eq {cap : Nat} {g g' : Group} {l : List Nat} (h1 : g.Rep cap l) (h2 : g'.Rep cap l) : g = g' := by
  obtain ⟨a, b, c, d⟩ := g
  obtain ⟨a', b', c', d'⟩ := g'
  obtain rfl := Links.eq h1.fwd h2.fwd
  obtain rfl := Links.eq h1.bwd h2.bwd
  have e1 := h1.head.trans h2.head.symm
  have e2 := h1.tail.trans h2.tail.symm
  cases e1
  cases e2
  rfl

theorem Tags.lookup_eq {c d : Tags} (hc : c.Inv) (hd : d.Inv) (hcap : c.entityCapacity = d.entityCapacity) {tag : Nat}
    (hon : ∀ i, c.on tag i = d.on tag i) (hn : tag ∈ c.tagIds ↔ tag ∈ d.tagIds) :
    lookupK c.tagIds c.bitvecs tag = lookupK d.tagIds d.bitvecs tag := by
  by_cases hm : tag ∈ c.tagIds
  · obtain ⟨v, hv, e1⟩ := lookupK_mem hc.incr hc.len hm
    obtain ⟨w, hw, e2⟩ := lookupK_mem hd.incr hd.len (hn.1 hm)
    rw [e1, e2]
    refine congrArg some (Words.eq_of_bits ?_ fun i => ?_)
    · rw [hc.blen v hv, hd.blen w hw, hcap]
    · have := hon i
      unfold Tags.on at this
      rw [e1, e2] at this
      exact this
  · rw [lookupK_not_mem hc.incr hm, lookupK_not_mem hd.incr fun h => hm (hn.2 h)]

theorem Orders.lookup_eq {c d : Orders} {f : Nat → List Nat} (hc : c.Rep f) (hd : d.Rep f)
    (hcap : c.entityCapacity = d.entityCapacity) {g : Nat} (hn : g ∈ c.groupIds ↔ g ∈ d.groupIds) :
    lookupK c.groupIds c.groups g = lookupK d.groupIds d.groups g := by
  by_cases hm : g ∈ c.groupIds
  · obtain ⟨v, _, e1⟩ := lookupK_mem hc.incr hc.len hm
    obtain ⟨w, _, e2⟩ := lookupK_mem hd.incr hd.len (hn.1 hm)
    rw [e1, e2]
    have := hc.reg g v e1
    rw [hcap] at this
    exact congrArg some (this.eq (hd.reg g w e2))
  · rw [lookupK_not_mem hc.incr hm, lookupK_not_mem hd.incr fun h => hm (hn.2 h)]

theorem Tags.eq_of_on {c d : Tags} (hc : c.Inv) (hd : d.Inv) (hcap : c.entityCapacity = d.entityCapacity)
    (hon : ∀ tag i, c.on tag i = d.on tag i) (hn : ∀ tag, tag ∈ c.tagIds ↔ tag ∈ d.tagIds) : c = d := by
  have hids := hc.incr.ext hd.incr hn
  have hl := fun tag => Tags.lookup_eq hc hd hcap (hon tag) (hn tag)
  obtain ⟨a, b, n⟩ := c
  obtain ⟨a', b', n'⟩ := d
  cases hids
  cases hcap
  obtain rfl : b = b' := eq_of_lookups hc.incr hc.len hd.len fun k _ => hl k
  rfl

theorem Orders.eq_of_rep {c d : Orders} {f : Nat → List Nat} (hc : c.Rep f) (hd : d.Rep f)
    (hcap : c.entityCapacity = d.entityCapacity) (hn : ∀ g, g ∈ c.groupIds ↔ g ∈ d.groupIds) : c = d := by
  have hids := hc.incr.ext hd.incr hn
  have hl := fun g => Orders.lookup_eq hc hd hcap (hn g)
  obtain ⟨a, b, n⟩ := c
  obtain ⟨a', b', n'⟩ := d
  cases hids
  cases hcap
  obtain rfl : b = b' := eq_of_lookups hc.incr hc.len hd.len fun k _ => hl k
  rfl

/-! ### Reading through the registered names -/

theorem Tags.hasTag_lookup {c : Tags} (hc : c.Inv) (tag i : Nat) :
    c.hasTag tag i = (lookupK c.tagIds c.bitvecs tag).elim (.ok false) fun v => v.isOn i := by
  unfold Tags.hasTag
  rcases search_cases hc.len tag with ⟨k, v, h1, h2, h3⟩ | ⟨k, h1, h3⟩
  · simp only [h1, h2, h3, Option.elim_some, ok_bind]
  · simp only [h1, h3, Option.elim_none]

theorem Tags.bitvec_lookup {c : Tags} (hc : c.Inv) (tag : Nat) :
    c.hasTagBitvec tag = (lookupK c.tagIds c.bitvecs tag).elim (.error (.panic .missingTag)) .ok := by
  unfold Tags.hasTagBitvec
  rcases search_cases hc.len tag with ⟨k, v, h1, h2, h3⟩ | ⟨k, h1, h3⟩
  · simp only [h1, h2, h3, Option.elim_some]
  · simp only [h1, h3, Option.elim_none]

theorem Orders.getNext_lookup {c : Orders} (hl : c.groups.length = c.groupIds.length) (g i : Nat) : c.getNext g i =
    (lookupK c.groupIds c.groups g).elim (.ok none) fun v => do let t ← Raw.read v.fwd i; return nullToNone t := by
  unfold Orders.getNext
  rcases search_cases hl g with ⟨k, v, h1, h2, h3⟩ | ⟨k, h1, h3⟩
  · simp only [h1, h2, h3, Option.elim_some, ok_bind]
  · simp only [h1, h3, Option.elim_none]

theorem Orders.getPrevious_lookup {c : Orders} (hl : c.groups.length = c.groupIds.length) (g i : Nat) : c.getPrevious g i =
    (lookupK c.groupIds c.groups g).elim (.ok none) fun v => do let t ← Raw.read v.bwd i; return nullToNone t := by
  unfold Orders.getPrevious
  rcases search_cases hl g with ⟨k, v, h1, h2, h3⟩ | ⟨k, h1, h3⟩
  · simp only [h1, h2, h3, Option.elim_some, ok_bind]
  · simp only [h1, h3, Option.elim_none]

theorem Orders.getHead_lookup {c : Orders} (hl : c.groups.length = c.groupIds.length) (g : Nat) : c.getHead g =
    (lookupK c.groupIds c.groups g).elim (.ok none) fun v => .ok (nullToNone v.head) := by
  unfold Orders.getHead Orders.getGroupIndex
  rcases search_cases hl g with ⟨k, v, h1, h2, h3⟩ | ⟨k, h1, h3⟩
  · simp only [h1, h2, h3, Option.elim_some, ok_bind]
    rfl
  · simp only [h1, h3, Option.elim_none]

theorem Orders.getTail_lookup {c : Orders} (hl : c.groups.length = c.groupIds.length) (g : Nat) : c.getTail g =
    (lookupK c.groupIds c.groups g).elim (.ok none) fun v => .ok (nullToNone v.tail) := by
  unfold Orders.getTail Orders.getGroupIndex
  rcases search_cases hl g with ⟨k, v, h1, h2, h3⟩ | ⟨k, h1, h3⟩
  · simp only [h1, h2, h3, Option.elim_some, ok_bind]
    rfl
  · simp only [h1, h3, Option.elim_none]

theorem same_tag {U : Universe} {dbg : Bool} {s : Store} {t t' : Tags} {o o' : Orders} {tag : Nat} (ht : t.Inv) (ht' : t'.Inv)
    (h : lookupK t.tagIds t.bitvecs tag = lookupK t'.tagIds t'.bitvecs tag) :
    SameTag U dbg (s.dress t o) (s.dress t' o') tag where
  has e := by
    show t.hasTag tag e.id = t'.hasTag tag e.id
    rw [Tags.hasTag_lookup ht, Tags.hasTag_lookup ht', h]
  query acc old fuel := by
    unfold runComponentQueryFilterTag
    rw [show CompIter.nextFiltered dbg (s.dress t o) = CompIter.nextFiltered dbg s from
      funext fun bv => funext fun n => funext fun it => nextFiltered_dress bv n it,
      show CompIter.nextFiltered dbg (s.dress t' o') = CompIter.nextFiltered dbg s from
      funext fun bv => funext fun n => funext fun it => nextFiltered_dress bv n it]
    show (componentQueryIter U s acc old >>= fun it => t.hasTagBitvec tag >>= _) =
      (componentQueryIter U s acc old >>= fun it => t'.hasTagBitvec tag >>= _)
    rw [Tags.bitvec_lookup ht, Tags.bitvec_lookup ht', h]

theorem orderedIter_lookup {U : Universe} {s : Store} {t : Tags} {o : Orders} (hl : o.groups.length = o.groupIds.length) (g : Nat)
    (acc : Access) (old : List (Range × IterView)) (fuel : Nat) : orderedQueryIter U (s.dress t o) g acc old fuel =
    (lookupK o.groupIds o.groups g).elim
      (.ok { ranges := old.take 0, nextRangeIndex := 0, currentIndexInPage := 0, nextOffsetFromRange := 0, len := 0 })
      fun v => do
        let (ranges, count) ← orderedOuterLoop U s acc v.fwd fuel v.head
        return { ranges := old.take 0 ++ ranges, nextRangeIndex := 0, currentIndexInPage := 0,
                 nextOffsetFromRange := 0, len := count } := by
  unfold orderedQueryIter Orders.getGroupIndex
  have e : (s.dress t o).orders = o := rfl
  simp only [orderedOuterLoop_dress, e]
  rcases search_cases hl g with ⟨k, v, h1, h2, h3⟩ | ⟨k, h1, h3⟩
  · simp only [h1, h2, h3, Option.elim_some, ok_bind]
  · simp only [h1, h3, Option.elim_none]
    rfl

theorem same_order {U : Universe} {dbg : Bool} {s : Store} {t t' : Tags} {o o' : Orders} {g : Nat}
    (ho : o.groups.length = o.groupIds.length) (ho' : o'.groups.length = o'.groupIds.length)
    (h : lookupK o.groupIds o.groups g = lookupK o'.groupIds o'.groups g) :
    SameOrder U dbg (s.dress t o) (s.dress t' o') g where
  next e := by
    show (o.getNext g e.id >>= s.mapEntity) = (o'.getNext g e.id >>= s.mapEntity)
    rw [Orders.getNext_lookup ho, Orders.getNext_lookup ho', h]
  previous e := by
    show (o.getPrevious g e.id >>= s.mapEntity) = (o'.getPrevious g e.id >>= s.mapEntity)
    rw [Orders.getPrevious_lookup ho, Orders.getPrevious_lookup ho', h]
  first := by
    show (o.getHead g >>= s.mapEntity) = (o'.getHead g >>= s.mapEntity)
    rw [Orders.getHead_lookup ho, Orders.getHead_lookup ho', h]
  last := by
    show (o.getTail g >>= s.mapEntity) = (o'.getTail g >>= s.mapEntity)
    rw [Orders.getTail_lookup ho, Orders.getTail_lookup ho', h]
  query acc old fuel := by
    unfold runOrderedQuery
    rw [orderedIter_lookup ho, orderedIter_lookup ho', h]
  queryWithEntities acc old fuel := by
    unfold runOrderedQueryWithEntities
    rw [orderedIter_lookup ho, orderedIter_lookup ho', h]
    rfl

/-! ### Two executions -/

theorem dressed {s s' : Store} (h : s.keep false false = s'.keep false false) : s' = s.dress s'.tags s'.orders := by
  obtain ⟨a, b, c, d, e, f, g⟩ := s
  obtain ⟨a', b', c', d', e', f', g'⟩ := s'
  simp only [Store.keep, Store.dress, Store.mk.injEq] at h
  obtain ⟨rfl, rfl, -, -, rfl, rfl, rfl⟩ := h
  rfl

end Ecs
