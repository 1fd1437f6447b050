import Verif.Proofs.Entities
import Verif.Proofs.Tags
import Verif.Proofs.Orders
import Verif.Spec.World

/-! The part of the relation between a store and an abstract world that does not involve components:
handles, tags, groups and buffer lengths. It survives every call whatever happens to the components. -/

namespace Ecs
open Spec

/-- The part of `Core` below that does not mention which handle a tag or a place in a group belongs to:
`I` are the handles returned, `L` the live ones, `O` the groups as lists of ids. -/
structure IdCore (s : Store) (I L : List Entity) (O : Nat → List Nat) : Prop where
  ents : EntInv s.ents I L
  plen : s.toPage.length = s.ents.capacity
  ilen : s.toIndex.length = s.ents.capacity
  blen : s.hasArch.length = Words.getLen s.ents.capacity
  tags : s.tags.Inv
  tcap : s.tags.entityCapacity = s.ents.capacity
  orders : s.orders.Rep O
  ocap : s.orders.entityCapacity = s.ents.capacity

namespace IdCore

variable {dbg : Bool} {s : Store} {I L : List Entity} {O : Nat → List Nat}

/-- `register_new_entity`. -/
theorem register (h : IdCore s I L O) (hb : I.length + 1 < u32Size) :
    ∃ s1 e, s.registerNewEntity dbg = .ok (s1, e) ∧ EntInv s1.ents (e :: I) (e :: L) ∧ e ∉ I ∧
      (∀ x ∈ L, x.id ≠ e.id) ∧ s1.archs = s.archs ∧ s.ents.capacity ≤ s1.ents.capacity ∧
      s1.toPage.length = s1.ents.capacity ∧ s1.toIndex.length = s1.ents.capacity ∧
      s1.hasArch.length = Words.getLen s1.ents.capacity ∧
      (∀ i, i < s.ents.capacity → s1.toPage[i]? = s.toPage[i]?) ∧
      (∀ i, i < s.ents.capacity → s1.toIndex[i]? = s.toIndex[i]?) ∧
      (∀ i, s1.hasArch.bit i = s.hasArch.bit i) ∧
      s1.tags.Inv ∧ s1.tags.entityCapacity = s1.ents.capacity ∧ (∀ t i, s1.tags.on t i = s.tags.on t i) ∧
      s1.orders.Rep O ∧ s1.orders.entityCapacity = s1.ents.capacity ∧
      (∀ i, i < s.ents.capacity → i ≠ e.id → s1.ents.versions[i]? = s.ents.versions[i]?) := by
  obtain ⟨ents, cr, hc⟩ := h.ents.create_ok (dbg := dbg) hb
  obtain ⟨h1, h2, h3, h4, h5, h6, h7, h8⟩ := h.ents.create_spec hc (Or.inr hb)
  have hid : ∀ x ∈ L, x.id ≠ cr.entity.id := fun x hx he => h7 (List.mem_map.2 ⟨x, hx, he⟩)
  unfold Store.registerNewEntity
  simp only [hc, ok_bind]
  by_cases hg : cr.wasGrow = true
  · simp only [hg, if_true]
    obtain ⟨hw', k1, k2, k3⟩ := Words.realloc_of h.blen h5
    obtain ⟨t', t1, t2, t3, t4⟩ := Tags.grow_spec h.tags (n := ents.capacity) (by rw [h.tcap]; exact h5)
    obtain ⟨o', o1, o2, o3⟩ := h.orders.grow dbg (n := ents.capacity) (by rw [h.ocap]; exact h5)
    unfold Store.growEntitiesInternal Store.entitiesCapacity
    simp only [h3, Raw.realloc_of h.plen h5, Raw.realloc_of h.ilen h5, k1, t1, o1, ok_bind, pure_ok]
    refine ⟨_, _, rfl, h1, h2, hid, rfl, h5, ?_, ?_, k2, ?_, ?_, k3, t2, t3, t4, o2, o3, h8⟩
    · simp only [List.length_append, List.length_replicate, h.plen]; omega
    · simp only [List.length_append, List.length_replicate, h.ilen]; omega
    · intro i hi; exact List.getElem?_append_left (by rw [h.plen]; exact hi)
    · intro i hi; exact List.getElem?_append_left (by rw [h.ilen]; exact hi)
  · have hce : ents.capacity = s.ents.capacity := by
      rw [← h4, ← h3]
      simpa [EntityCreation.wasGrow] using hg
    simp only [hg, if_false, ok_bind, pure_ok, Bool.false_eq_true]
    exact ⟨_, _, rfl, h1, h2, hid, rfl, h5, by rw [h.plen, hce], by rw [h.ilen, hce],
      by rw [h.blen, hce], fun _ _ => rfl, fun _ _ => rfl, fun _ => rfl, h.tags, by rw [h.tcap, hce],
      fun _ _ => rfl, h.orders, by rw [h.ocap, hce], h8⟩

/-- Dropping the store deallocates every raw buffer with the size it was allocated with. -/
theorem drop (h : IdCore s I L O) : s.drop = .ok () := by
  unfold Store.drop
  have h1 : s.toIndex.dealloc s.ents.capacity = .ok () := by unfold Raw.dealloc; rw [if_pos h.ilen]
  have h2 : s.toPage.dealloc s.ents.capacity = .ok () := by unfold Raw.dealloc; rw [if_pos h.plen]
  have h3 : s.hasArch.dealloc s.ents.capacity = .ok () := by unfold Words.dealloc; rw [if_pos h.blen]
  have h4 : s.ents.drop = .ok () := by
    unfold Ents.drop Raw.dealloc Words.dealloc
    rw [if_pos h.ents.blen, if_pos h.ents.vlen]; rfl
  rw [h1, h2, h3, h4, Tags.drop_ok h.tags, h.orders.drop]
  rfl

end IdCore

/-- `s` stores the handles, tags and groups of `w`. -/
structure Core (s : Store) (w : World) : Prop where
  ents : EntInv s.ents w.issued w.live
  plen : s.toPage.length = s.ents.capacity
  ilen : s.toIndex.length = s.ents.capacity
  blen : s.hasArch.length = Words.getLen s.ents.capacity
  tags : s.tags.Inv
  tcap : s.tags.entityCapacity = s.ents.capacity
  tagOn : ∀ tag i, s.tags.on tag i = true ↔ ∃ e ∈ w.live, e.id = i ∧ w.tags tag e = true
  orders : s.orders.Rep (fun g => (w.order g).map (·.id))
  ocap : s.orders.entityCapacity = s.ents.capacity
  ordLive : ∀ g, ∀ e ∈ w.order g, e ∈ w.live

namespace Core

variable {dbg : Bool} {s : Store} {w : World}

theorem idCore (h : Core s w) : IdCore s w.issued w.live (fun g => (w.order g).map (·.id)) :=
  ⟨h.ents, h.plen, h.ilen, h.blen, h.tags, h.tcap, h.orders, h.ocap⟩

theorem inj (h : Core s w) : ∀ e ∈ w.live, ∀ e' ∈ w.live, e.id = e'.id → e = e' :=
  fun _ he _ he' hid => h.ents.eq_of_id he he' hid

theorem ne_null (h : Core s w) {e : Entity} (he : e ∈ w.live) : e.id ≠ NULL_ID := by
  have h1 : e.id < s.ents.nextFreeId := (h.ents.ids e.id).1 (Or.inl (List.mem_map.2 ⟨e, he, rfl⟩))
  have h2 := h.ents.next_lt
  omega

theorem isAlive (h : Core s w) {e : Entity} (he : e.id < s.ents.capacity) :
    s.isAlive dbg e = .ok (decide (e ∈ w.live)) := h.ents.isAlive_of_lt he

theorem hasTag (h : Core s w) {e : Entity} (he : e ∈ w.live) (tag : Nat) :
    s.hasTag tag e = .ok (w.tags tag e) := by
  unfold Store.hasTag
  rw [Tags.hasTag_spec h.tags tag (by rw [h.tcap]; exact h.ents.id_lt he)]
  congr 1
  rw [Bool.eq_iff_iff, h.tagOn]
  constructor
  · rintro ⟨x, hx, hid, ht⟩
    rw [← h.ents.eq_of_id hx he hid]; exact ht
  · exact fun ht => ⟨e, he, rfl, ht⟩

/-! ### Sequences of entities versus sequences of ids -/

theorem mem_map_id {L l : List Entity} (hinj : ∀ e ∈ L, ∀ e' ∈ L, e.id = e'.id → e = e') (hl : ∀ e ∈ l, e ∈ L)
    {e : Entity} (he : e ∈ L) : e.id ∈ l.map (·.id) ↔ e ∈ l := by
  constructor
  · intro h
    obtain ⟨x, hx, hid⟩ := List.mem_map.1 h
    rw [← hinj x (hl x hx) e he hid]; exact hx
  · exact fun h => List.mem_map.2 ⟨e, h, rfl⟩

theorem follower_map {L l : List Entity} (hinj : ∀ e ∈ L, ∀ e' ∈ L, e.id = e'.id → e = e') (hl : ∀ e ∈ l, e ∈ L)
    {e : Entity} (he : e ∈ L) : follower (l.map (·.id)) e.id = (follower l e).map (·.id) := by
  induction l with
  | nil => rfl
  | cons a l ih =>
    simp only [List.map_cons, follower]
    have hiff : e.id = a.id ↔ e = a := ⟨hinj e he a (hl a (by simp)), fun h => by rw [h]⟩
    by_cases h : e = a
    · rw [if_pos h, if_pos (hiff.2 h)]; simp
    · rw [if_neg h, if_neg (fun h' => h (hiff.1 h'))]
      exact ih (fun x hx => hl x (List.mem_cons_of_mem _ hx))

theorem preceder_map {L l : List Entity} (hinj : ∀ e ∈ L, ∀ e' ∈ L, e.id = e'.id → e = e') (hl : ∀ e ∈ l, e ∈ L)
    {e : Entity} (he : e ∈ L) : preceder (l.map (·.id)) e.id = (preceder l e).map (·.id) := by
  unfold preceder
  rw [← List.map_reverse]
  exact follower_map hinj (fun x hx => hl x (List.mem_reverse.1 hx)) he

theorem insertAfter_map {L l : List Entity} (hinj : ∀ e ∈ L, ∀ e' ∈ L, e.id = e'.id → e = e') (hl : ∀ e ∈ l, e ∈ L)
    {x y : Entity} (hx : x ∈ L) :
    insertAfter x.id y.id (l.map (·.id)) = (insertAfter x y l).map (·.id) := by
  induction l with
  | nil => rfl
  | cons a l ih =>
    simp only [List.map_cons, insertAfter]
    have hiff : a.id = x.id ↔ a = x := ⟨hinj a (hl a (by simp)) x hx, fun h => by rw [h]⟩
    by_cases h : a = x
    · rw [if_pos h, if_pos (hiff.2 h)]; simp
    · rw [if_neg h, if_neg (fun h' => h (hiff.1 h')), List.map_cons, ih (fun z hz => hl z (List.mem_cons_of_mem _ hz))]

theorem insertBefore_map {L l : List Entity} (hinj : ∀ e ∈ L, ∀ e' ∈ L, e.id = e'.id → e = e') (hl : ∀ e ∈ l, e ∈ L)
    {x y : Entity} (hx : x ∈ L) :
    insertBefore x.id y.id (l.map (·.id)) = (insertBefore x y l).map (·.id) := by
  induction l with
  | nil => rfl
  | cons a l ih =>
    simp only [List.map_cons, insertBefore]
    have hiff : a.id = x.id ↔ a = x := ⟨hinj a (hl a (by simp)) x hx, fun h => by rw [h]⟩
    by_cases h : a = x
    · rw [if_pos h, if_pos (hiff.2 h)]; simp
    · rw [if_neg h, if_neg (fun h' => h (hiff.1 h')), List.map_cons, ih (fun z hz => hl z (List.mem_cons_of_mem _ hz))]

theorem erase_map {L l : List Entity} (hinj : ∀ e ∈ L, ∀ e' ∈ L, e.id = e'.id → e = e') (hl : ∀ e ∈ l, e ∈ L)
    {e : Entity} (he : e ∈ L) : (l.map (·.id)).erase e.id = (l.erase e).map (·.id) := by
  induction l with
  | nil => rfl
  | cons a l ih =>
    have hiff : a.id = e.id ↔ a = e := ⟨hinj a (hl a (by simp)) e he, fun h => by rw [h]⟩
    by_cases h : a = e
    · subst h; simp
    · have h' : a.id ≠ e.id := fun h' => h (hiff.1 h')
      rw [List.map_cons, List.erase_cons_tail (by simpa using h'), List.erase_cons_tail (by simpa using h), List.map_cons,
        ih (fun z hz => hl z (List.mem_cons_of_mem _ hz))]

theorem mapEntity (h : Core s w) {o : Option Entity} (ho : ∀ e, o = some e → e ∈ w.live) :
    s.mapEntity (o.map (·.id)) = .ok o := by
  cases o with
  | none => rfl
  | some e =>
    simp only [Option.map_some, Store.mapEntity, Store.getEntityById, Raw.read_of_some (h.ents.lver e (ho e rfl)),
      ok_bind, pure_ok]

theorem mem_of_follower' {l : List Entity} {x y : Entity} (h : follower l x = some y) : y ∈ l := by
  induction l with
  | nil => cases h
  | cons a l ih =>
    unfold follower at h
    split at h
    · exact List.mem_cons_of_mem _ (List.mem_of_mem_head? h)
    · exact List.mem_cons_of_mem _ (ih h)

theorem getNext (h : Core s w) (g : Nat) {e : Entity} (he : e ∈ w.live) :
    s.getNextOrdered g e = .ok (follower (w.order g) e) := by
  unfold Store.getNextOrdered
  rw [h.orders.getNext g (by rw [h.ocap]; exact h.ents.id_lt he),
    follower_map h.inj (h.ordLive g) he]
  exact h.mapEntity (fun x hx => h.ordLive g x (mem_of_follower' hx))

theorem getPrevious (h : Core s w) (g : Nat) {e : Entity} (he : e ∈ w.live) :
    s.getPreviousOrdered g e = .ok (preceder (w.order g) e) := by
  unfold Store.getPreviousOrdered
  rw [h.orders.getPrevious g (by rw [h.ocap]; exact h.ents.id_lt he),
    preceder_map h.inj (h.ordLive g) he]
  exact h.mapEntity (fun x hx => h.ordLive g x (List.mem_reverse.1 (mem_of_follower' hx)))

theorem getFirst (h : Core s w) (g : Nat) : s.getFirstOrdered g = .ok (w.order g).head? := by
  unfold Store.getFirstOrdered
  rw [h.orders.getHead g, List.head?_map]
  exact h.mapEntity (fun x hx => h.ordLive g x (List.mem_of_mem_head? hx))

theorem getLast (h : Core s w) (g : Nat) : s.getLastOrdered g = .ok (w.order g).getLast? := by
  unfold Store.getLastOrdered
  rw [h.orders.getTail g, List.getLast?_map]
  exact h.mapEntity (fun x hx => h.ordLive g x (List.mem_of_getLast? hx))

theorem order_nodup (h : Core s w) (g : Nat) : (w.order g).Nodup :=
  List.Nodup.of_map _ (h.orders.nodup g)

/-- Dropping the store deallocates every raw buffer with the size it was allocated with. -/
theorem drop (h : Core s w) : s.drop = .ok () := h.idCore.drop

@[simp] theorem at'_self {α β : Type} [DecidableEq α] (f : α → β) (x : α) (v : β) : at' f x v x = v := by simp [at']

theorem at'_ne {α β : Type} [DecidableEq α] (f : α → β) {x y : α} (v : β) (h : y ≠ x) : at' f x v y = f y := by
  simp [at', h]

theorem at'_at' {α β : Type} [DecidableEq α] (f : α → β) (x : α) (v v' : β) : at' (at' f x v) x v' = at' f x v' := by
  funext y; unfold at'; split <;> rfl

theorem at'_eq {α β : Type} [DecidableEq α] (f : α → β) (x : α) : at' f x (f x) = f := by
  funext y; unfold at'; split
  · rename_i h; rw [h]
  · rfl

/-- `register_new_entity`. -/
theorem register (h : Core s w) (hb : w.issued.length + 1 < u32Size) :
    ∃ s1 e, s.registerNewEntity dbg = .ok (s1, e) ∧ EntInv s1.ents (e :: w.issued) (e :: w.live) ∧ e ∉ w.issued ∧
      (∀ x ∈ w.live, x.id ≠ e.id) ∧ s1.archs = s.archs ∧ s.ents.capacity ≤ s1.ents.capacity ∧
      s1.toPage.length = s1.ents.capacity ∧ s1.toIndex.length = s1.ents.capacity ∧
      s1.hasArch.length = Words.getLen s1.ents.capacity ∧
      (∀ i, i < s.ents.capacity → s1.toPage[i]? = s.toPage[i]?) ∧
      (∀ i, i < s.ents.capacity → s1.toIndex[i]? = s.toIndex[i]?) ∧
      (∀ i, s1.hasArch.bit i = s.hasArch.bit i) ∧
      s1.tags.Inv ∧ s1.tags.entityCapacity = s1.ents.capacity ∧ (∀ t i, s1.tags.on t i = s.tags.on t i) ∧
      s1.orders.Rep (fun g => (w.order g).map (·.id)) ∧ s1.orders.entityCapacity = s1.ents.capacity := by
  obtain ⟨s1, e, h1, h2, h3, h4, h5, h6, h7, h8, h9, h10, h11, h12, h13, h14, h15, h16, h17, _⟩ :=
    h.idCore.register (dbg := dbg) hb
  exact ⟨s1, e, h1, h2, h3, h4, h5, h6, h7, h8, h9, h10, h11, h12, h13, h14, h15, h16, h17⟩

/-- The tag part of the relation after a birth. -/
theorem birth_tagOn (h : Core s w) {e : Entity} (hid : ∀ x ∈ w.live, x.id ≠ e.id) (tag i : Nat) :
    s.tags.on tag i = true ↔ ∃ x ∈ (w.birth e).live, x.id = i ∧ (w.birth e).tags tag x = true := by
  rw [h.tagOn]
  simp only [World.birth]
  constructor
  · rintro ⟨x, hx, hi, ht⟩
    have : x ≠ e := fun hxe => hid x hx (by rw [hxe])
    exact ⟨x, List.mem_cons_of_mem _ hx, hi, by rw [at'_ne _ _ this]; exact ht⟩
  · rintro ⟨x, hx, hi, ht⟩
    by_cases hxe : x = e
    · rw [hxe] at ht; simp at ht
    · rw [at'_ne _ _ hxe] at ht
      exact ⟨x, (List.mem_cons.1 hx).resolve_left hxe, hi, ht⟩

theorem mem_erase {l : List Entity} (hn : l.Nodup) (e x : Entity) : x ∈ l.erase e ↔ x ∈ l ∧ x ≠ e := by
  rw [hn.mem_erase_iff]; exact And.comm

theorem tagged (h : Core s w) {e : Entity} (tag : Nat) (he : e ∈ w.live) :
    ∃ s', s.addTag tag e = .ok s' ∧ Core s' (w.apply (.tagged tag e)) := by
  obtain ⟨c', t1, t2, t3, t4⟩ := Tags.addTag_spec h.tags tag (id := e.id) (by rw [h.tcap]; exact h.ents.id_lt he)
  refine ⟨{ s with tags := c' }, ?_, ⟨h.ents, h.plen, h.ilen, h.blen, t2, by simp only [t3]; exact h.tcap, ?_, h.orders, h.ocap, h.ordLive⟩⟩
  · unfold Store.addTag; simp only [t1, ok_bind, pure_ok]
  · intro t i
    simp only [t4, World.apply, Bool.or_eq_true, decide_eq_true_eq]
    constructor
    · rintro (⟨rfl, rfl⟩ | hi)
      · exact ⟨e, he, rfl, by simp⟩
      · obtain ⟨x, hx, hxi, hxt⟩ := (h.tagOn t i).1 hi
        refine ⟨x, hx, hxi, ?_⟩
        by_cases htt : t = tag
        · subst htt
          by_cases hxe : x = e
          · subst hxe; simp
          · simp only [at'_self]; rw [at'_ne _ _ hxe]; exact hxt
        · rw [at'_ne _ _ htt]; exact hxt
    · rintro ⟨x, hx, hxi, hxt⟩
      by_cases htt : t = tag
      · subst htt
        simp only [at'_self] at hxt
        by_cases hxe : x = e
        · subst hxe; exact Or.inl ⟨rfl, hxi.symm⟩
        · rw [at'_ne _ _ hxe] at hxt
          exact Or.inr ((h.tagOn t i).2 ⟨x, hx, hxi, hxt⟩)
      · rw [at'_ne _ _ htt] at hxt
        exact Or.inr ((h.tagOn t i).2 ⟨x, hx, hxi, hxt⟩)

theorem untagged (h : Core s w) {e : Entity} (tag : Nat) (he : e ∈ w.live) :
    ∃ s', s.removeTag tag e = .ok s' ∧ Core s' (w.apply (.untagged tag e)) := by
  obtain ⟨c', t1, t2, t3, t4⟩ := Tags.removeTag_spec h.tags tag (id := e.id) (by rw [h.tcap]; exact h.ents.id_lt he)
  refine ⟨{ s with tags := c' }, ?_, ⟨h.ents, h.plen, h.ilen, h.blen, t2, by simp only [t3]; exact h.tcap, ?_, h.orders, h.ocap, h.ordLive⟩⟩
  · unfold Store.removeTag; simp only [t1, ok_bind, pure_ok]
  · intro t i
    simp only [t4, World.apply, Bool.and_eq_true, Bool.not_eq_true', decide_eq_false_iff_not]
    constructor
    · rintro ⟨hn, hi⟩
      obtain ⟨x, hx, hxi, hxt⟩ := (h.tagOn t i).1 hi
      refine ⟨x, hx, hxi, ?_⟩
      by_cases htt : t = tag
      · subst htt
        have hxe : x ≠ e := fun hxe => hn ⟨rfl, by rw [← hxi, hxe]⟩
        simp only [at'_self]; rw [at'_ne _ _ hxe]; exact hxt
      · rw [at'_ne _ _ htt]; exact hxt
    · rintro ⟨x, hx, hxi, hxt⟩
      by_cases htt : t = tag
      · subst htt
        simp only [at'_self] at hxt
        by_cases hxe : x = e
        · subst hxe; simp at hxt
        · rw [at'_ne _ _ hxe] at hxt
          refine ⟨?_, (h.tagOn t i).2 ⟨x, hx, hxi, hxt⟩⟩
          rintro ⟨_, hi⟩
          exact hxe (h.ents.eq_of_id hx he (by rw [hxi, hi]))
      · rw [at'_ne _ _ htt] at hxt
        exact ⟨fun hn => htt hn.1, (h.tagOn t i).2 ⟨x, hx, hxi, hxt⟩⟩

/-- A changed group. -/
theorem reorder (h : Core s w) {c' : Orders} {g : Nat} {l : List Entity} {l' : List Nat}
    (hr : c'.Rep (Orders.upd (fun g => (w.order g).map (·.id)) g l')) (hc : c'.entityCapacity = s.orders.entityCapacity)
    (hl' : l' = l.map (·.id)) (hl : ∀ x ∈ l, x ∈ w.live) :
    Core { s with orders := c' } { w with order := at' w.order g l } := by
  refine ⟨h.ents, h.plen, h.ilen, h.blen, h.tags, h.tcap, h.tagOn, ?_, by simp only [hc]; exact h.ocap, ?_⟩
  · have : Orders.upd (fun g => (w.order g).map (·.id)) g l' = fun g' => (at' w.order g l g').map (·.id) := by
      funext g'
      unfold Orders.upd at'
      split
      · exact hl'
      · rfl
    rw [this] at hr
    exact hr
  · intro g' x hx
    simp only at hx
    unfold at' at hx
    split at hx
    · exact hl x hx
    · exact h.ordLive g' x hx

theorem not_mem_ids (h : Core s w) {e : Entity} {g : Nat} (he : e ∈ w.live) (hn : e ∉ w.order g) :
    e.id ∉ (w.order g).map (·.id) := fun hm => hn ((mem_map_id h.inj (h.ordLive g) he).1 hm)

theorem mem_insertAfter {x y z : Entity} {l : List Entity} (h : z ∈ insertAfter x y l) : z = y ∨ z ∈ l := by
  induction l with
  | nil => simp [insertAfter] at h
  | cons a l ih =>
    unfold insertAfter at h
    split at h
    · rcases List.mem_cons.1 h with rfl | h
      · simp
      · rcases List.mem_cons.1 h with rfl | h
        · simp
        · simp [h]
    · rcases List.mem_cons.1 h with rfl | h
      · simp
      · rcases ih h with h | h <;> simp [h]

theorem mem_insertBefore {x y z : Entity} {l : List Entity} (h : z ∈ insertBefore x y l) : z = y ∨ z ∈ l := by
  induction l with
  | nil => simp [insertBefore] at h
  | cons a l ih =>
    unfold insertBefore at h
    split at h
    · rcases List.mem_cons.1 h with rfl | h
      · simp
      · exact Or.inr h
    · rcases List.mem_cons.1 h with rfl | h
      · simp
      · rcases ih h with h | h <;> simp [h]

theorem orderedLast (h : Core s w) {e : Entity} {g : Nat} (he : e ∈ w.live) (hn : e ∉ w.order g) :
    ∃ s', s.addOrder dbg g e = .ok s' ∧ Core s' (w.apply (.orderedLast g e)) := by
  obtain ⟨c', o1, o2, o3⟩ := h.orders.add dbg g (by rw [h.ocap]; exact h.ents.id_lt he) (h.ne_null he) (h.not_mem_ids he hn)
  refine ⟨{ s with orders := c' }, ?_, h.reorder o2 o3 (by simp) ?_⟩
  · unfold Store.addOrder; simp only [o1, ok_bind, pure_ok]
  · intro x hx
    rcases List.mem_append.1 hx with hx | hx
    · exact h.ordLive g x hx
    · rw [List.mem_singleton.1 hx]; exact he

theorem orderedAfter (h : Core s w) {e x : Entity} {g : Nat} (he : e ∈ w.live) (hn : e ∉ w.order g) (hx : x ∈ w.order g) :
    ∃ s', s.addOrderNextTo dbg g e x = .ok s' ∧ Core s' (w.apply (.orderedAfter g e x)) := by
  obtain ⟨c', o1, o2, o3⟩ := h.orders.addNextTo dbg g (by rw [h.ocap]; exact h.ents.id_lt he) (h.ne_null he) (h.not_mem_ids he hn)
    (List.mem_map.2 ⟨x, hx, rfl⟩)
  refine ⟨{ s with orders := c' }, ?_, h.reorder o2 o3 (insertAfter_map h.inj (h.ordLive g) (h.ordLive g x hx)) ?_⟩
  · unfold Store.addOrderNextTo; simp only [o1, ok_bind, pure_ok]
  · intro z hz
    rcases mem_insertAfter hz with rfl | hz
    · exact he
    · exact h.ordLive g z hz

theorem orderedBefore (h : Core s w) {e x : Entity} {g : Nat} (he : e ∈ w.live) (hn : e ∉ w.order g) (hx : x ∈ w.order g) :
    ∃ s', s.addOrderPreviousTo dbg g e x = .ok s' ∧ Core s' (w.apply (.orderedBefore g e x)) := by
  obtain ⟨c', o1, o2, o3⟩ := h.orders.addPreviousTo dbg g (by rw [h.ocap]; exact h.ents.id_lt he) (h.ne_null he) (h.not_mem_ids he hn)
    (List.mem_map.2 ⟨x, hx, rfl⟩)
  refine ⟨{ s with orders := c' }, ?_, h.reorder o2 o3 (insertBefore_map h.inj (h.ordLive g) (h.ordLive g x hx)) ?_⟩
  · unfold Store.addOrderPreviousTo; simp only [o1, ok_bind, pure_ok]
  · intro z hz
    rcases mem_insertBefore hz with rfl | hz
    · exact he
    · exact h.ordLive g z hz

theorem unordered (h : Core s w) {e : Entity} {g : Nat} (he : e ∈ w.live) :
    ∃ s', s.removeOrder g e = .ok s' ∧ Core s' (w.apply (.unordered g e)) := by
  obtain ⟨c', o1, o2, o3⟩ := h.orders.remove g (by rw [h.ocap]; exact h.ents.id_lt he) (h.ne_null he)
  refine ⟨{ s with orders := c' }, ?_, h.reorder o2 o3 (erase_map h.inj (h.ordLive g) he) ?_⟩
  · unfold Store.removeOrder; simp only [o1, ok_bind, pure_ok]
  · exact fun z hz => h.ordLive g z (List.mem_of_mem_erase hz)


end Core
end Ecs
