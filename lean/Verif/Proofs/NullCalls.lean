import Verif.Proofs.Records
import Verif.Proofs.EntsOf

/-! Calls with a handle whose id is beyond the capacity of the store. -/

namespace Ecs
open Spec

theorem Words.isOn_oob {w : Words} {i : Nat} (h : w.length ≤ i / 32) : w.isOn i = .error (.ub .oob) := by
  unfold Words.isOn; rw [List.getElem?_eq_none h]

theorem Words.setOn_oob {w : Words} {i : Nat} (h : w.length ≤ i / 32) : w.setOn i = .error (.ub .oob) := by
  unfold Words.setOn; rw [List.getElem?_eq_none h]

theorem Words.setOff_oob {w : Words} {i : Nat} (h : w.length ≤ i / 32) : w.setOff i = .error (.ub .oob) := by
  unfold Words.setOff; rw [List.getElem?_eq_none h]

theorem Raw.read_oob {α : Type} {a : Raw α} {i : Nat} (h : a.length ≤ i) : Raw.read a i = .error (.ub .oob) := by
  unfold Raw.read; rw [List.getElem?_eq_none h]

theorem error_bind' {α β : Type} {e : Fault} {f : α → Res β} : ((.error e : Res α) >>= f) = .error e := rfl

section
variable {U : Universe} {dbg : Bool} {s : Store} {w : World} {e : Entity}

theorem Core.foreign_isAlive (h : Core s w) (hf : s.ents.capacity ≤ e.id) :
    s.isAlive dbg e = .error (if dbg then .panic .debugAssert else .ub .oob) := by
  have hlt : ¬ e.id < s.ents.capacity := by omega
  unfold Store.isAlive
  cases dbg
  · exact h.ents.isAlive_release_oob hlt
  · exact EntInv.isAlive_debug_oob hlt

theorem Core.foreign_calls (h : Core s w) (hf : s.ents.capacity ≤ e.id) :
    (∀ vals, s.addComponents U dbg e vals = .error (if dbg then .panic .debugAssert else .ub .oob)) ∧
    (∀ ts, s.removeComponents U dbg e ts = .error (if dbg then .panic .debugAssert else .ub .oob)) ∧
    (∀ ts, s.getComponents U dbg e ts = .error (if dbg then .panic .debugAssert else .ub .oob)) ∧
    ∀ vals, s.setComponents U dbg e vals = .error (if dbg then .panic .debugAssert else .ub .oob) := by
  have ha := h.foreign_isAlive (dbg := dbg) hf
  have hv : s.isValidEntityWithArchetype dbg e = .error (if dbg then .panic .debugAssert else .ub .oob) := by
    unfold Store.isValidEntityWithArchetype; rw [ha]; rfl
  have hr : ∀ ts, s.getComponentsRefs U dbg e ts = .error (if dbg then .panic .debugAssert else .ub .oob) := by
    intro ts; unfold Store.getComponentsRefs; rw [hv]; rfl
  refine ⟨fun vals => ?_, fun ts => ?_, fun ts => ?_, fun vals => ?_⟩
  · unfold Store.addComponents; rw [ha]; rfl
  · unfold Store.removeComponents; rw [hv]; rfl
  · unfold Store.getComponents; rw [hr]; rfl
  · unfold Store.setComponents; rw [hr]; rfl

theorem Core.foreign_destroy (h : Core s w) (hf : s.ents.capacity / 32 < e.id / 32) :
    s.destroyEntity dbg e = .error (.ub .oob) := by
  unfold Store.destroyEntity Store.destroyRow
  rw [Words.isOn_oob (by rw [h.blen]; unfold Words.getLen; omega)]
  rfl

theorem Core.foreign_tags (h : Core s w) (hf : s.ents.capacity / 32 < e.id / 32) (t : Nat) :
    s.addTag t e = .error (.ub .oob) ∧
    (t ∈ s.tags.tagIds → s.hasTag t e = .error (.ub .oob) ∧ s.removeTag t e = .error (.ub .oob)) ∧
    (t ∉ s.tags.tagIds → s.hasTag t e = .ok false ∧ s.removeTag t e = .ok s) := by
  have hlen : ∀ bv ∈ s.tags.bitvecs, bv.length ≤ e.id / 32 := by
    intro bv hb
    rw [h.tags.blen bv hb, h.tcap]
    unfold Words.getLen; omega
  refine ⟨?_, fun ht => ?_, fun ht => ?_⟩
  · unfold Store.addTag Tags.addTag Tags.reserveTag
    cases hb : binarySearch s.tags.tagIds t with
    | found i =>
      have hi := (List.getElem?_eq_some_iff.1 (binarySearch_found hb)).1
      rw [← h.tags.len] at hi
      dsimp only
      rw [idxUnchecked_of_some (List.getElem?_eq_getElem hi)]
      simp only [ok_bind, Words.setOn_oob (hlen _ (List.getElem_mem hi))]
      rfl
    | notFound i =>
      obtain ⟨hi, _⟩ := binarySearch_notFound h.tags.incr.le hb
      rw [← h.tags.len] at hi
      dsimp only
      rw [idxUnchecked_of_some (a := Words.alloc s.tags.entityCapacity) (by rw [List.getElem?_insertIdx_self, if_pos hi])]
      simp only [ok_bind]
      rw [Words.setOn_oob (by rw [Words.length_alloc, h.tcap]; unfold Words.getLen; omega)]
      rfl
  · obtain ⟨i, hb, hi⟩ := binarySearch_of_mem h.tags.incr.le ht
    have hi := (List.getElem?_eq_some_iff.1 hi).1
    rw [← h.tags.len] at hi
    have h1 := idxUnchecked_of_some (List.getElem?_eq_getElem hi)
    have h2 := hlen _ (List.getElem_mem hi)
    constructor
    · unfold Store.hasTag Tags.hasTag
      rw [hb]
      dsimp only
      rw [h1, ok_bind, Words.isOn_oob h2]
    · unfold Store.removeTag Tags.removeTag
      rw [hb]
      dsimp only
      rw [h1]
      simp only [ok_bind, Words.setOff_oob h2]
      rfl
  · obtain ⟨i, hb⟩ := binarySearch_of_not_mem ht
    constructor
    · unfold Store.hasTag Tags.hasTag; rw [hb]
    · unfold Store.removeTag Tags.removeTag; rw [hb]; rfl

theorem Core.foreign_orders (h : Core s w) (hf : s.ents.capacity ≤ e.id) (g : Nat) :
    (∀ x, s.addOrderNextTo dbg g e x = .error (.ub .oob) ∧ s.addOrderPreviousTo dbg g e x = .error (.ub .oob)) ∧
    (w.order g ≠ [] → s.addOrder dbg g e = .error (.ub .oob) ∧ s.removeOrder g e = .error (.ub .oob) ∧
      s.getNextOrdered g e = .error (.ub .oob) ∧ s.getPreviousOrdered g e = .error (.ub .oob)) ∧
    (w.order g = [] → ∃ s', s.addOrder dbg g e = .ok s' ∧
      (e.id = NULL_ID → s'.getFirstOrdered g = .ok none ∧ s'.getLastOrdered g = .ok none) ∧
      (e.id ≠ NULL_ID → s'.getFirstOrdered g = .error (.ub .oob) ∧ s'.getLastOrdered g = .error (.ub .oob))) := by
  obtain ⟨c', i, gr, h1, h2, h3, h4, h5, h6⟩ := h.orders.reserve g
  have hfl : gr.fwd.length ≤ e.id := by rw [h6.fwd.1, h.ocap]; exact hf
  have hbl : gr.bwd.length ≤ e.id := by rw [h6.bwd.1, h.ocap]; exact hf
  have hil : i < c'.groups.length := (List.getElem?_eq_some_iff.1 h5).1
  refine ⟨fun x => ⟨?_, ?_⟩, fun hne => ?_, fun hem => ?_⟩
  · unfold Store.addOrderNextTo Orders.addNextTo Orders.onGroup Group.addNextTo
    rw [h1]
    dsimp only
    rw [idxUnchecked_of_some h5]
    simp only [ok_bind, Raw.read_oob hfl]
    rfl
  · unfold Store.addOrderPreviousTo Orders.addPreviousTo Orders.onGroup Group.addPreviousTo
    rw [h1]
    dsimp only
    rw [idxUnchecked_of_some h5]
    simp only [ok_bind, Raw.read_oob hfl]
    rfl
  · have hreg : g ∈ s.orders.groupIds := by
      by_contra hg
      obtain ⟨j, hb⟩ := binarySearch_of_not_mem hg
      have := h.orders.unreg g (lookupK_notFound hb)
      exact hne (List.map_eq_nil_iff.1 this)
    obtain ⟨j, hb, _⟩ := binarySearch_of_mem h.orders.incr.le hreg
    obtain ⟨gr', k1, k2, k3⟩ := h.orders.get hb
    have hfl' : gr'.fwd.length ≤ e.id := by rw [k3.fwd.1, h.ocap]; exact hf
    have hbl' : gr'.bwd.length ≤ e.id := by rw [k3.bwd.1, h.ocap]; exact hf
    have hhead : gr.head ≠ NULL_ID := by
      rw [h6.head]
      cases hw : w.order g with
      | nil => exact absurd hw hne
      | cons x l =>
        simp only [List.map_cons, List.head?_cons, Option.getD_some]
        exact (h6.lt x.id (by rw [hw]; simp)).2
    refine ⟨?_, ?_, ?_, ?_⟩
    · unfold Store.addOrder Orders.add Orders.onGroup Group.add
      rw [h1]
      dsimp only
      rw [idxUnchecked_of_some h5]
      simp only [ok_bind, if_neg hhead, Raw.read_oob hfl]
      rfl
    · unfold Store.removeOrder Orders.remove Orders.onGroup Group.remove
      rw [hb]
      dsimp only
      rw [idxUnchecked_of_some k1]
      simp only [ok_bind, Raw.read_oob hfl']
      rfl
    · unfold Store.getNextOrdered Orders.getNext
      rw [hb]
      dsimp only
      rw [idxUnchecked_of_some k1]
      simp only [ok_bind, Raw.read_oob hfl']
      rfl
    · unfold Store.getPreviousOrdered Orders.getPrevious
      rw [hb]
      dsimp only
      rw [idxUnchecked_of_some k1]
      simp only [ok_bind, Raw.read_oob hbl']
      rfl
  · have hhead : gr.head = NULL_ID := by rw [h6.head, hem]; rfl
    refine ⟨{ s with orders := { c' with groups := c'.groups.set i { gr with head := e.id, tail := e.id } } }, ?_, ?_⟩
    · unfold Store.addOrder Orders.add Orders.onGroup Group.add
      rw [h1]
      dsimp only
      rw [idxUnchecked_of_some h5]
      simp only [ok_bind, if_pos hhead, pure_ok]
    · obtain ⟨j, hb, hj⟩ := binarySearch_of_mem h2.incr.le (List.mem_of_getElem? h4)
      have hji : j = i := h2.incr.getElem?_inj hj h4
      subst hji
      have hget : idxUnchecked (c'.groups.set j { gr with head := e.id, tail := e.id }) j =
          .ok { gr with head := e.id, tail := e.id } := idxUnchecked_of_some (List.getElem?_set_self hil)
      have hfirst : Orders.getHead { c' with groups := c'.groups.set j { gr with head := e.id, tail := e.id } } g =
          .ok (Orders.nullToNone e.id) := by
        unfold Orders.getHead Orders.getGroupIndex
        rw [hb]; dsimp only; rw [hget]; rfl
      have hlast : Orders.getTail { c' with groups := c'.groups.set j { gr with head := e.id, tail := e.id } } g =
          .ok (Orders.nullToNone e.id) := by
        unfold Orders.getTail Orders.getGroupIndex
        rw [hb]; dsimp only; rw [hget]; rfl
      have hvl : s.ents.versions.length ≤ e.id := by rw [h.ents.vlen]; exact hf
      unfold Store.getFirstOrdered Store.getLastOrdered
      dsimp only
      rw [hfirst, hlast]
      unfold Orders.nullToNone
      constructor
      · intro hn
        rw [if_neg (by simpa using hn)]
        exact ⟨rfl, rfl⟩
      · intro hn
        rw [if_pos hn]
        simp only [ok_bind, Store.mapEntity, Store.getEntityById, Raw.read_oob hvl]
        exact ⟨rfl, rfl⟩

end
end Ecs
