import Verif.Model.Tags
import Verif.Proofs.Search
import Verif.Proofs.Bits

namespace Ecs
namespace Tags

structure Inv (c : Tags) : Prop where
  incr : Incr c.tagIds
  len : c.bitvecs.length = c.tagIds.length
  blen : ∀ bv ∈ c.bitvecs, bv.length = Words.getLen c.entityCapacity

/-- Whether tag `tag` is on for id `id`. -/
def on (c : Tags) (tag id : Nat) : Bool :=
  match lookupK c.tagIds c.bitvecs tag with
  | some bv => bv.bit id
  | none => false

theorem Inv.new (cap : Nat) : (Tags.new cap).Inv :=
  ⟨List.Pairwise.nil, rfl, by simp [Tags.new]⟩

theorem on_new (cap tag id : Nat) : (Tags.new cap).on tag id = false := rfl

variable {c : Tags}

theorem Inv.reserve (h : c.Inv) (tag : Nat) :
    ∃ c' i, c.reserveTag tag = (c', i) ∧ c'.Inv ∧ c'.entityCapacity = c.entityCapacity ∧
      c'.tagIds[i]? = some tag ∧ (∀ t id, c'.on t id = c.on t id) := by
  unfold reserveTag
  cases hb : binarySearch c.tagIds tag with
  | found i => exact ⟨c, i, rfl, h, rfl, binarySearch_found hb, fun _ _ => rfl⟩
  | notFound j =>
    obtain ⟨hj, _, _⟩ := binarySearch_notFound h.incr.le hb
    refine ⟨_, j, rfl, ⟨h.incr.insertIdx hb, ?_, ?_⟩, rfl, ?_, ?_⟩
    · simp only
      rw [List.length_insertIdx_of_le_length hj, List.length_insertIdx_of_le_length (by rw [h.len]; exact hj), h.len]
    · intro bv hbv
      simp only at hbv ⊢
      rw [List.mem_insertIdx (by rw [h.len]; exact hj)] at hbv
      rcases hbv with rfl | hbv
      · exact Words.length_alloc _
      · exact h.blen bv hbv
    · simp only
      rw [List.getElem?_insertIdx]; simp [hj]
    · intro t id
      unfold on
      simp only
      rw [lookupK_insert h.incr h.len _ hb]
      by_cases ht : t = tag
      · subst ht
        simp only [lookupK_notFound hb, Words.bit_alloc, if_true]
      · rw [if_neg ht]

theorem on_set {i : Nat} {tag : Nat} (h : c.Inv) (hi : c.tagIds[i]? = some tag) (bv : Words)
    (t id : Nat) :
    ({ c with bitvecs := c.bitvecs.set i bv } : Tags).on t id =
      if t = tag then bv.bit id else c.on t id := by
  unfold on
  simp only
  rw [lookupK_set h.incr h.len bv hi]
  by_cases ht : t = tag
  · simp only [if_pos ht]
  · simp only [if_neg ht]

theorem Inv.set (h : c.Inv) {i : Nat} {bv : Words} (hbv : bv.length = Words.getLen c.entityCapacity) :
    ({ c with bitvecs := c.bitvecs.set i bv } : Tags).Inv := by
  refine ⟨h.incr, by simp [h.len], fun w hw => ?_⟩
  rcases List.mem_or_eq_of_mem_set hw with hw | rfl
  · exact h.blen w hw
  · exact hbv

theorem Inv.get (h : c.Inv) {i tag : Nat} (hi : c.tagIds[i]? = some tag) :
    ∃ bv, c.bitvecs[i]? = some bv ∧ bv.length = Words.getLen c.entityCapacity ∧
      (∀ id, c.on tag id = bv.bit id) := by
  have hl : i < c.bitvecs.length := by rw [h.len]; exact (List.getElem?_eq_some_iff.1 hi).1
  have hlk := (lookupK_iff (vals := c.bitvecs) (v := c.bitvecs[i]) h.incr).2
    ⟨i, hi, List.getElem?_eq_getElem hl⟩
  refine ⟨c.bitvecs[i], List.getElem?_eq_getElem hl, h.blen _ (List.getElem_mem hl), fun id => ?_⟩
  unfold on
  rw [hlk]

theorem addTag_spec (h : c.Inv) (tag : Nat) {id : Nat} (hid : id < c.entityCapacity) :
    ∃ c', c.addTag tag id = .ok c' ∧ c'.Inv ∧ c'.entityCapacity = c.entityCapacity ∧
      ∀ t i, c'.on t i = (decide (t = tag ∧ i = id) || c.on t i) := by
  obtain ⟨c1, k, h1, h2, h3, h4, h5⟩ := h.reserve tag
  obtain ⟨bv, g1, g2, g3⟩ := h2.get h4
  obtain ⟨bv', w1, w2, w3⟩ := Words.setOn_of_lt (w := bv) (i := id)
    (by rw [g2, h3]; exact Words.div_lt_getLen hid)
  refine ⟨{ c1 with bitvecs := c1.bitvecs.set k bv' }, ?_, h2.set (by rw [w2, g2]), h3, fun t i => ?_⟩
  · unfold addTag; rw [h1]; simp [idxUnchecked_of_some g1, w1]
  · rw [on_set h2 h4, ← h5]
    split
    · rename_i ht
      subst ht
      rw [w3, g3]; simp
    · rename_i ht; simp [ht]

theorem removeTag_spec (h : c.Inv) (tag : Nat) {id : Nat} (hid : id < c.entityCapacity) :
    ∃ c', c.removeTag tag id = .ok c' ∧ c'.Inv ∧ c'.entityCapacity = c.entityCapacity ∧
      ∀ t i, c'.on t i = (!decide (t = tag ∧ i = id) && c.on t i) := by
  unfold removeTag
  cases hb : binarySearch c.tagIds tag with
  | notFound j =>
    refine ⟨c, rfl, h, rfl, fun t i => ?_⟩
    by_cases ht : t = tag
    · subst ht; unfold on; rw [lookupK_notFound hb]; simp
    · simp [ht]
  | found k =>
    have hk := binarySearch_found hb
    obtain ⟨bv, g1, g2, g3⟩ := h.get hk
    obtain ⟨bv', w1, w2, w3⟩ := Words.setOff_of_lt (w := bv) (i := id)
      (by rw [g2]; exact Words.div_lt_getLen hid)
    refine ⟨{ c with bitvecs := c.bitvecs.set k bv' }, ?_, h.set (by rw [w2, g2]), rfl, fun t i => ?_⟩
    · simp [idxUnchecked_of_some g1, w1]
    · rw [on_set h hk]
      split
      · rename_i ht
        subst ht
        rw [w3, g3]; simp
      · rename_i ht; simp [ht]

theorem hasTag_spec (h : c.Inv) (tag : Nat) {id : Nat} (hid : id < c.entityCapacity) :
    c.hasTag tag id = .ok (c.on tag id) := by
  unfold hasTag
  cases hb : binarySearch c.tagIds tag with
  | notFound j => unfold on; rw [lookupK_notFound hb]
  | found k =>
    have hk := binarySearch_found hb
    obtain ⟨bv, g1, g2, g3⟩ := h.get hk
    simp only [idxUnchecked_of_some g1, ok_bind]
    rw [Words.isOn_of_lt (by rw [g2]; exact Words.div_lt_getLen hid), g3]

theorem hasTagBitvec_spec (h : c.Inv) {tag : Nat} (ht : tag ∈ c.tagIds) :
    ∃ bv, c.hasTagBitvec tag = .ok bv ∧ bv.length = Words.getLen c.entityCapacity ∧
      ∀ id, bv.bit id = c.on tag id := by
  obtain ⟨k, hb, hk⟩ := binarySearch_of_mem h.incr.le ht
  obtain ⟨bv, g1, g2, g3⟩ := h.get hk
  exact ⟨bv, by unfold hasTagBitvec; simp [hb, idxUnchecked_of_some g1], g2, fun id => (g3 id).symm⟩

theorem hasTagBitvec_missing {tag : Nat} (ht : tag ∉ c.tagIds) :
    c.hasTagBitvec tag = .error (.panic .missingTag) := by
  obtain ⟨j, hj⟩ := binarySearch_of_not_mem ht
  unfold hasTagBitvec; rw [hj]

/-- Mapping a total operation over all bit vectors. -/
theorem mapM_bitvecs {f : Words → Res Words} {P : Words → Words → Prop} (l : List Words)
    (hf : ∀ w ∈ l, ∃ w', f w = .ok w' ∧ P w w') :
    ∃ l', l.mapM f = .ok l' ∧ List.Forall₂ P l l' := by
  induction l with
  | nil => exact ⟨[], rfl, .nil⟩
  | cons w l ih =>
    obtain ⟨w', h1, h2⟩ := hf w (by simp)
    obtain ⟨l', h3, h4⟩ := ih (fun v hv => hf v (by simp [hv]))
    exact ⟨w' :: l', by rw [mapM_ok_cons, h1, h3]; rfl, .cons h2 h4⟩

theorem on_forall₂ {P : Words → Words → Prop} {c' : Tags} (hids : c'.tagIds = c.tagIds)
    (hf : List.Forall₂ P c.bitvecs c'.bitvecs) (t id : Nat) :
    (c.on t id = false ∧ c'.on t id = false ∧ lookupK c.tagIds c.bitvecs t = none) ∨
    ∃ w w', P w w' ∧ c.on t id = w.bit id ∧ c'.on t id = w'.bit id := by
  unfold on lookupK
  rw [hids]
  cases hb : binarySearch c.tagIds t with
  | notFound j => exact Or.inl ⟨rfl, rfl, rfl⟩
  | found k =>
    simp only
    by_cases hk : k < c.bitvecs.length
    · have hk' : k < c'.bitvecs.length := by rw [← hf.length_eq]; exact hk
      right
      refine ⟨c.bitvecs[k], c'.bitvecs[k], ?_, ?_, ?_⟩
      · exact (List.forall₂_iff_get.1 hf).2 k hk hk'
      · rw [List.getElem?_eq_getElem hk]
      · rw [List.getElem?_eq_getElem hk']
    · left
      rw [List.getElem?_eq_none (by omega), List.getElem?_eq_none (by rw [← hf.length_eq]; omega)]
      exact ⟨rfl, rfl, rfl⟩

theorem removeAll_spec (h : c.Inv) {id : Nat} (hid : id < c.entityCapacity) :
    ∃ c', c.removeAllTagsForEntity id = .ok c' ∧ c'.Inv ∧ c'.entityCapacity = c.entityCapacity ∧
      ∀ t i, c'.on t i = (!decide (i = id) && c.on t i) := by
  obtain ⟨l', h1, h2⟩ := mapM_bitvecs (f := fun bv => bv.setOff id)
    (P := fun w w' => w.length = Words.getLen c.entityCapacity → w'.length = w.length ∧ ∀ j, w'.bit j = (!decide (j = id) && w.bit j))
    c.bitvecs (by
      intro w hw
      obtain ⟨w', w1, w2, w3⟩ := Words.setOff_of_lt (w := w) (i := id)
        (by rw [h.blen w hw]; exact Words.div_lt_getLen hid)
      exact ⟨w', w1, fun _ => ⟨w2, w3⟩⟩)
  have h2' : List.Forall₂ (fun w w' => w'.length = Words.getLen c.entityCapacity ∧
      ∀ j, w'.bit j = (!decide (j = id) && w.bit j)) c.bitvecs l' := by
    rw [List.forall₂_iff_get] at h2 ⊢
    refine ⟨h2.1, fun i hi hi' => ?_⟩
    have hb := h.blen _ (List.get_mem c.bitvecs ⟨i, hi⟩)
    obtain ⟨a1, a2⟩ := h2.2 i hi hi' hb
    exact ⟨by rw [a1, hb], a2⟩
  refine ⟨{ c with bitvecs := l' }, ?_, ⟨h.incr, by rw [← h.len]; exact h2.length_eq.symm, ?_⟩, rfl, ?_⟩
  · unfold removeAllTagsForEntity; rw [h1]; rfl
  · intro bv hbv
    obtain ⟨i, hi, rfl⟩ := List.getElem_of_mem hbv
    exact ((List.forall₂_iff_get.1 h2').2 i (by rw [h2.length_eq]; exact hi) hi).1
  · intro t i
    rcases on_forall₂ (c := c) (c' := { c with bitvecs := l' }) rfl h2' t i with ⟨a, b, _⟩ | ⟨w, w', p, a, b⟩
    · rw [a, b]; simp
    · rw [b, a, p.2]

theorem grow_spec (h : c.Inv) {n : Nat} (hn : c.entityCapacity ≤ n) :
    ∃ c', c.grow n = .ok c' ∧ c'.Inv ∧ c'.entityCapacity = n ∧ ∀ t i, c'.on t i = c.on t i := by
  obtain ⟨l', h1, h2⟩ := mapM_bitvecs (f := fun bv => bv.realloc c.entityCapacity n)
    (P := fun w w' => w'.length = Words.getLen n ∧ ∀ j, w'.bit j = w.bit j)
    c.bitvecs (by
      intro w hw
      obtain ⟨w', w1, w2, w3⟩ := Words.realloc_of (h.blen w hw) hn
      exact ⟨w', w1, w2, w3⟩)
  refine ⟨{ c with bitvecs := l', entityCapacity := n }, ?_,
    ⟨h.incr, by rw [← h.len]; exact h2.length_eq.symm, ?_⟩, rfl, ?_⟩
  · unfold grow; rw [h1]; rfl
  · intro bv hbv
    obtain ⟨i, hi, rfl⟩ := List.getElem_of_mem hbv
    exact ((List.forall₂_iff_get.1 h2).2 i (by rw [h2.length_eq]; exact hi) hi).1
  · intro t i
    rcases on_forall₂ (c := c) (c' := { c with bitvecs := l', entityCapacity := n }) rfl h2 t i with
      ⟨a, b, _⟩ | ⟨w, w', p, a, b⟩
    · rw [a, b]
    · rw [b, a, p.2]

theorem drop_ok (h : c.Inv) : c.drop = .ok () := by
  unfold drop
  have hb := h.blen
  generalize c.bitvecs = l at hb
  induction l with
  | nil => rfl
  | cons w l ih =>
    unfold dropLoop Words.dealloc
    rw [if_pos (hb w (by simp))]
    exact ih (fun v hv => hb v (by simp [hv]))

theorem tagIds_addTag {c' : Tags} {tag id : Nat} (h : c.addTag tag id = .ok c') (hi : c.Inv) :
    ∀ t, t ∈ c'.tagIds ↔ t = tag ∨ t ∈ c.tagIds := by
  intro t
  unfold addTag reserveTag at h
  cases hb : binarySearch c.tagIds tag with
  | found i =>
    rw [hb] at h
    obtain ⟨bv, h1, h⟩ := bind_eq_ok.1 h
    obtain ⟨bv', h2, h⟩ := bind_eq_ok.1 h
    cases h
    have := List.mem_of_getElem? (binarySearch_found hb)
    constructor
    · exact Or.inr
    · rintro (rfl | h)
      · exact this
      · exact h
  | notFound i =>
    rw [hb] at h
    obtain ⟨bv, h1, h⟩ := bind_eq_ok.1 h
    obtain ⟨bv', h2, h⟩ := bind_eq_ok.1 h
    cases h
    simp only
    rw [List.mem_insertIdx (binarySearch_notFound hi.incr.le hb).1]

end Tags
end Ecs
