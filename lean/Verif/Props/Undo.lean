import Verif.Proofs.Undo
import Verif.Props.Independent
import Verif.Props.Hint
import Verif.Props.Tags
import Verif.Props.Orders

/-! C108: what a store remembers about tags and groups, and which calls about them cancel, repeat or commute. -/

namespace Ecs.Props
open Spec

variable {U : Universe} {dbg : Bool} {cap : Nat} {h h' : List Event} {s s' : Store}

theorem rest_dressed (hx : LooseExec U dbg cap h s) (hy : LooseExec U dbg cap h' s') (hr : SameRest h h') :
    s' = s.dress s'.tags s'.orders ∧ handles h = handles h' := by
  obtain ⟨h1, h2⟩ := same_runs (runs_keep false false (loose_runs hx)) (runs_keep false false (loose_runs hy)) hr
  rw [handles_without, handles_without] at h2
  exact ⟨dressed h1, h2⟩

theorem rest_alive (hx : LooseExec U dbg cap h s) (hy : LooseExec U dbg cap h' s') (hr : SameRest h h') (e : Entity) :
    e ∈ alive h ↔ e ∈ alive h' := by
  obtain ⟨h1, h2⟩ := rest_dressed hx hy hr
  have he : s'.ents = s.ents := by rw [h1]; rfl
  have hc := loose_core hx
  have hd := loose_core hy
  rw [alive_eq, alive_eq]
  have key : e.id < s.ents.capacity → (e ∈ (world h).live ↔ e ∈ (world h').live) := fun hid => by
    have a := hc.ents.isAlive_of_lt (dbg := dbg) hid
    have b := hd.ents.isAlive_of_lt (dbg := dbg) (e := e) (by rw [he]; exact hid)
    rw [he, a] at b
    exact decide_eq_decide.1 (Except.ok.inj b)
  exact ⟨fun hm => (key (hc.ents.id_lt hm)).1 hm, fun hm => (key (by rw [← he]; exact hd.ents.id_lt hm)).2 hm⟩

theorem rest_tags (hx : LooseExec U dbg cap h s) (hy : LooseExec U dbg cap h' s') (hr : SameRest h h') {tag : Nat}
    (ht : ∀ e ∈ alive h, lastTag tag e h = lastTag tag e h') (i : Nat) : s.tags.on tag i = s'.tags.on tag i := by
  have hc := loose_core hx
  have hd := loose_core hy
  rw [Bool.eq_iff_iff, hc.tagOn, hd.tagOn]
  refine exists_congr fun e => ⟨fun ⟨h1, h2, h3⟩ => ?_, fun ⟨h1, h2, h3⟩ => ?_⟩
  · have ha : e ∈ alive h := by rw [alive_eq]; exact h1
    have hb := (rest_alive hx hy hr e).1 ha
    have := ht e ha
    rw [alive_eq] at hb
    rw [lastTag_eq hx tag h1, lastTag_eq hy tag hb] at this
    exact ⟨hb, h2, this ▸ h3⟩
  · have hb : e ∈ alive h' := by rw [alive_eq]; exact h1
    have ha := (rest_alive hx hy hr e).2 hb
    have := ht e ha
    rw [alive_eq] at ha
    rw [lastTag_eq hx tag ha, lastTag_eq hy tag h1] at this
    exact ⟨ha, h2, this ▸ h3⟩

theorem rest_caps (hx : LooseExec U dbg cap h s) (hy : LooseExec U dbg cap h' s') (hr : SameRest h h') :
    s.tags.entityCapacity = s'.tags.entityCapacity ∧ s.orders.entityCapacity = s'.orders.entityCapacity := by
  have hc := loose_core hx
  have hd := loose_core hy
  have he : s'.ents = s.ents := by rw [(rest_dressed hx hy hr).1]; rfl
  rw [hc.tcap, hd.tcap, hc.ocap, hd.ocap, he]
  exact ⟨rfl, rfl⟩

theorem rest_orders (hy : LooseExec U dbg cap h' s') (hg : ∀ g, sequence g h = sequence g h') :
    s'.orders.Rep fun g => ((world h).order g).map (·.id) := by
  have := (loose_core hy).orders
  have e : (fun g => ((world h).order g).map (·.id)) = fun g => ((world h').order g).map (·.id) :=
    funext fun g => by rw [← sequence_eq, ← sequence_eq, hg g]
  rw [e]
  exact this

/-- **C108** Take two programs without mistakes in the use of tags and groups that make the same calls apart from those about
tags and groups. They end with the same store, bit for bit, exactly if the live entities have the same tags, the groups have the
same members in the same order, and the same tags and groups have been used so far. Nothing else that they did to tags and groups
leaves a trace: not the order of the calls, nor the tags and places that entities had in the meantime. -/
theorem C108_remembers (hx : LooseExec U dbg cap h s) (hy : LooseExec U dbg cap h' s') (hr : SameRest h h') :
    s = s' ↔ SameMarks h h' := by
  constructor
  · rintro rfl
    refine ⟨fun tag e he => ?_, fun g => ?_, fun tag => ?_, fun g => ?_⟩
    · have h1 := C39_has_tag_is_last_change hx tag he
      rw [C39_has_tag_is_last_change hy tag ((rest_alive hx hy hr e).1 he)] at h1
      exact (Except.ok.inj h1).symm
    · obtain ⟨f, l, w, h1, _, h2, _, _, _, rfl, _, _⟩ := C42_walks_agree hx g
      obtain ⟨f', l', w', h1', _, _, _, _, _, rfl, h3, _⟩ := C42_walks_agree hy g
      rw [h1] at h1'
      cases h1'
      exact h3 _ h2
    · exact (registered_iff hx tag).symm.trans (registered_iff hy tag)
    · exact (group_registered hx g).symm.trans (group_registered hy g)
  · intro hm
    have ht : s.tags = s'.tags := Tags.eq_of_on (loose_core hx).tags (loose_core hy).tags (rest_caps hx hy hr).1
      (fun tag => rest_tags hx hy hr (hm.tags tag))
      fun tag => (registered_iff hx tag).trans ((hm.tagNames tag).trans (registered_iff hy tag).symm)
    have ho : s.orders = s'.orders := Orders.eq_of_rep (loose_core hx).orders (rest_orders hy hm.sequences) (rest_caps hx hy hr).2
      fun g => (group_registered hx g).trans ((hm.groupNames g).trans (group_registered hy g).symm)
    rw [(rest_dressed hx hy hr).1, ← ht, ← ho]
    rfl

/-- **C108** Also if the programs have not used the same tags and groups, they see the same entities and components, and the same
of every tag and every group that both have used or both have not. -/
theorem C108_sees (hx : LooseExec U dbg cap h s) (hy : LooseExec U dbg cap h' s') (hr : SameRest h h') :
    SeesSame U dbg s s' ∧
    (∀ tag, (∀ e ∈ alive h, lastTag tag e h = lastTag tag e h') → (tagNamed h tag ↔ tagNamed h' tag) → SameTag U dbg s s' tag) ∧
    ((∀ g, sequence g h = sequence g h') → ∀ g, (groupNamed h g ↔ groupNamed h' g) → SameOrder U dbg s s' g) := by
  have hd := (rest_dressed hx hy hr).1
  have hs : s = s.dress s.tags s.orders := rfl
  refine ⟨?_, fun tag ht hn => ?_, fun hg g hn => ?_⟩
  · rw [hd]
    exact same_components
  · have := Tags.lookup_eq (loose_core hx).tags (loose_core hy).tags (rest_caps hx hy hr).1 (rest_tags hx hy hr ht)
      ((registered_iff hx tag).trans (hn.trans (registered_iff hy tag).symm))
    rw [hd]
    exact same_tag (s := s) (o := s.orders) (loose_core hx).tags (loose_core hy).tags this
  · have := Orders.lookup_eq (loose_core hx).orders (rest_orders hy hg) (rest_caps hx hy hr).2
      ((group_registered hx g).trans (hn.trans (group_registered hy g).symm))
    rw [hd]
    exact same_order (s := s) (t := s.tags) (loose_core hx).orders.len (loose_core hy).orders.len this

/-! ### Repeated calls -/

theorem rest_marks {evs : List Event} (hm : ∀ ev ∈ evs, aboutMarks ev = true) : SameRest h (evs ++ h) := by
  have : without false false (evs ++ h) = without false false h := by
    unfold without
    rw [List.filter_append, List.filter_eq_nil_iff.2, List.nil_append]
    intro ev he
    have := hm ev he
    simp only [aboutMarks, Bool.or_eq_true] at this
    rcases this with h1 | h1 <;> simp [h1]
  unfold SameRest
  rw [this, List.forall₂_same]
  exact fun ev _ => sameCall_refl ev

/-- **C108** Calls about tags and groups that leave the tags of the live entities, the groups and the names as they were leave the
store as it was. -/
theorem C108_back {evs : List Event} (hm : ∀ ev ∈ evs, aboutMarks ev = true) (hx : LooseExec U dbg cap h s)
    (hy : LooseExec U dbg cap (evs ++ h) s') (hs : SameMarks h (evs ++ h)) : s' = s :=
  ((C108_remembers hx hy (rest_marks hm)).2 hs).symm

theorem groupNamed_cons (ev : Event) (hn : aboutOrders ev = false) (g : Nat) : groupNamed h g ↔ groupNamed (ev :: h) g := by
  unfold groupNamed
  cases ev <;> first | (simp; done) | cases hn

theorem tagNamed_cons (ev : Event) (hn : ∀ t e, ev ≠ .tagged t e) (tag : Nat) : tagNamed h tag ↔ tagNamed (ev :: h) tag := by
  unfold tagNamed
  refine exists_congr fun e => ?_
  rw [List.mem_cons, or_iff_right (fun hh => hn tag e hh.symm)]

theorem named_of_has (hx : LooseExec U dbg cap h s) {tag : Nat} {e : Entity} (he : e ∈ alive h) (ht : lastTag tag e h = true) :
    tagNamed h tag := by
  rw [alive_eq] at he
  rw [lastTag_eq hx tag he] at ht
  have hon := ((loose_core hx).tagOn tag e.id).2 ⟨e, he, rfl, ht⟩
  refine (registered_iff hx tag).1 ?_
  by_contra hc
  unfold Tags.on at hon
  rw [lookupK_not_mem (loose_core hx).tags.incr hc] at hon
  cases hon

theorem named_of_member (hx : LooseExec U dbg cap h s) {g : Nat} {e : Entity} (he : e ∈ sequence g h) : groupNamed h g := by
  refine (group_registered hx g).1 ?_
  by_contra hc
  have := (loose_core hx).orders.unreg g (lookupK_not_mem (loose_core hx).orders.incr hc)
  rw [sequence_eq] at he
  rw [List.map_eq_nil_iff.1 this] at he
  cases he

/-- **C108** Giving an entity a tag it has, and taking away a tag it does not have, return and change nothing. -/
theorem C108_tag_again (hx : LooseExec U dbg cap h s) (tag : Nat) {e : Entity} (he : e ∈ alive h) :
    (lastTag tag e h = true → s.addTag tag e = .ok s) ∧ (lastTag tag e h = false → s.removeTag tag e = .ok s) := by
  have he' : e ∈ (world h).live := by rw [← alive_eq]; exact he
  obtain ⟨⟨s1, h1, _⟩, ⟨s2, h2, _⟩⟩ := C39_tag_calls hx tag he
  constructor
  · intro ht
    have hy : LooseExec U dbg cap (.tagged tag e :: h) s1 := .step (.tagged tag e) hx he' h1
    have : s1 = s := C108_back (evs := [.tagged tag e]) (by simp [aboutMarks, aboutTags]) hx hy
      ⟨fun t x _ => by
        simp only [List.singleton_append, lastTag]
        split
        · rename_i hh
          obtain ⟨rfl, rfl⟩ := hh
          exact ht
        · rfl, fun g => rfl, fun t => by
          refine ⟨fun ⟨x, hx⟩ => ⟨x, List.mem_cons_of_mem _ hx⟩, fun ⟨x, hx'⟩ => ?_⟩
          rcases List.mem_cons.1 hx' with hx' | hx'
          · cases hx'
            exact named_of_has hx he ht
          · exact ⟨x, hx'⟩, fun g => groupNamed_cons _ rfl g⟩
    rw [h1, this]
  · intro ht
    have hy : LooseExec U dbg cap (.untagged tag e :: h) s2 := .step (.untagged tag e) hx he' h2
    have : s2 = s := C108_back (evs := [.untagged tag e]) (by simp [aboutMarks, aboutTags]) hx hy
      ⟨fun t x _ => by
        simp only [List.singleton_append, lastTag]
        split
        · rename_i hh
          obtain ⟨rfl, rfl⟩ := hh
          exact ht
        · rfl, fun g => rfl, fun t => tagNamed_cons _ (by simp) t, fun g => groupNamed_cons _ rfl g⟩
    rw [h2, this]

/-- **C108** Taking a tag away again undoes giving it, if the tag was used before; giving it again undoes taking it away. -/
theorem C108_tag_undo (hx : LooseExec U dbg cap h s) (tag : Nat) {e : Entity} (he : e ∈ alive h) :
    (lastTag tag e h = false → tagNamed h tag → ∃ s1, s.addTag tag e = .ok s1 ∧ s1.removeTag tag e = .ok s) ∧
    (lastTag tag e h = true → ∃ s1, s.removeTag tag e = .ok s1 ∧ s1.addTag tag e = .ok s) := by
  have he' : e ∈ (world h).live := by rw [← alive_eq]; exact he
  obtain ⟨⟨s1, h1, _⟩, ⟨s2, h2, _⟩⟩ := C39_tag_calls hx tag he
  have hx1 : LooseExec U dbg cap (.tagged tag e :: h) s1 := .step (.tagged tag e) hx he' h1
  have hx2 : LooseExec U dbg cap (.untagged tag e :: h) s2 := .step (.untagged tag e) hx he' h2
  obtain ⟨-, ⟨t1, g1, _⟩⟩ := C39_tag_calls hx1 tag (e := e) he
  obtain ⟨⟨t2, g2, _⟩, -⟩ := C39_tag_calls hx2 tag (e := e) he
  have hy1 : LooseExec U dbg cap (.untagged tag e :: .tagged tag e :: h) t1 := .step (.untagged tag e) hx1 he' g1
  have hy2 : LooseExec U dbg cap (.tagged tag e :: .untagged tag e :: h) t2 := .step (.tagged tag e) hx2 he' g2
  constructor
  · rintro ht ⟨y, hy⟩
    refine ⟨s1, h1, ?_⟩
    have : t1 = s := C108_back (evs := [.untagged tag e, .tagged tag e]) (by simp [aboutMarks, aboutTags]) hx hy1
      ⟨fun t x _ => by
        simp only [List.cons_append, List.nil_append, lastTag]
        split
        · rename_i hh
          obtain ⟨rfl, rfl⟩ := hh
          exact ht
        · rfl, fun g => rfl, fun t => by
          refine ⟨fun ⟨x, hx⟩ => ⟨x, List.mem_cons_of_mem _ (List.mem_cons_of_mem _ hx)⟩, fun ⟨x, hx'⟩ => ?_⟩
          rcases List.mem_cons.1 hx' with hx' | hx'
          · cases hx'
          · rcases List.mem_cons.1 hx' with hx' | hx'
            · cases hx'; exact ⟨y, hy⟩
            · exact ⟨x, hx'⟩, fun g => (groupNamed_cons _ rfl g).trans (groupNamed_cons _ rfl g)⟩
    rw [g1, this]
  · intro ht
    refine ⟨s2, h2, ?_⟩
    obtain ⟨y, hy⟩ := named_of_has hx he ht
    have : t2 = s := C108_back (evs := [.tagged tag e, .untagged tag e]) (by simp [aboutMarks, aboutTags]) hx hy2
      ⟨fun t x _ => by
        simp only [List.cons_append, List.nil_append, lastTag]
        split
        · rename_i hh
          obtain ⟨rfl, rfl⟩ := hh
          exact ht
        · rfl, fun g => rfl, fun t => by
          refine ⟨fun ⟨x, hx⟩ => ⟨x, List.mem_cons_of_mem _ (List.mem_cons_of_mem _ hx)⟩, fun ⟨x, hx'⟩ => ?_⟩
          rcases List.mem_cons.1 hx' with hx' | hx'
          · cases hx'; exact ⟨y, hy⟩
          · rcases List.mem_cons.1 hx' with hx' | hx'
            · cases hx'
            · exact ⟨x, hx'⟩, fun g => (groupNamed_cons _ rfl g).trans (groupNamed_cons _ rfl g)⟩
    rw [g2, this]

/-! ### Groups -/

theorem erase_insertAfter {l : List Entity} {x e : Entity} (hn : e ∉ l) : (insertAfter x e l).erase e = l := by
  induction l with
  | nil => rfl
  | cons a l ih =>
    rw [List.mem_cons, not_or] at hn
    have hae : ¬ (a == e) = true := fun h => hn.1 (beq_iff_eq.1 h).symm
    unfold insertAfter
    split
    · rw [List.erase_cons, if_neg hae, List.erase_cons_head]
    · rw [List.erase_cons, if_neg hae, ih hn.2]

theorem erase_insertBefore {l : List Entity} {x e : Entity} (hn : e ∉ l) : (insertBefore x e l).erase e = l := by
  induction l with
  | nil => rfl
  | cons a l ih =>
    rw [List.mem_cons, not_or] at hn
    have hae : ¬ (a == e) = true := fun h => hn.1 (beq_iff_eq.1 h).symm
    unfold insertBefore
    split
    · rw [List.erase_cons_head]
    · rw [List.erase_cons, if_neg hae, ih hn.2]

theorem insertAfter_at {A B : List Entity} {p e : Entity} (hp : p ∉ A) : insertAfter p e (A ++ p :: B) = A ++ p :: e :: B := by
  induction A with
  | nil => simp [insertAfter]
  | cons a A ih =>
    rw [List.mem_cons, not_or] at hp
    rw [List.cons_append, insertAfter, if_neg fun h => hp.1 h.symm, ih hp.2, List.cons_append]

theorem insertBefore_at {A B : List Entity} {p e : Entity} (hp : p ∉ A) : insertBefore p e (A ++ p :: B) = A ++ e :: p :: B := by
  induction A with
  | nil => simp [insertBefore]
  | cons a A ih =>
    rw [List.mem_cons, not_or] at hp
    rw [List.cons_append, insertBefore, if_neg fun h => hp.1 h.symm, ih hp.2, List.cons_append]

theorem erase_mid {A B : List Entity} {e : Entity} (he : e ∉ A) : (A ++ e :: B).erase e = A ++ B := by
  rw [List.erase_append_right _ he, List.erase_cons_head]

/-- Calls about one group whose name is in use and whose sequence is the same in the end change nothing. -/
theorem group_back {evs : List Event} {g : Nat} (hm : ∀ ev ∈ evs, SameSubject.aboutGroup g ev) (hx : LooseExec U dbg cap h s)
    (hy : LooseExec U dbg cap (evs ++ h) s') (hn : groupNamed h g ∨ ∀ ev ∈ evs, ∃ e, ev = .unordered g e)
    (hs : sequence g (evs ++ h) = sequence g h) : s' = s := by
  refine C108_back (evs := evs) (fun ev he => ?_) hx hy ⟨fun t x _ => ?_, fun g' => ?_, fun t => ?_, fun g' => ?_⟩
  · have := hm ev he
    cases ev <;> first | rfl | cases this
  · clear hy hn hs
    induction evs with
    | nil => rfl
    | cons ev evs ih =>
      rw [ih fun ev he => hm ev (List.mem_cons_of_mem _ he)]
      have := hm ev List.mem_cons_self
      cases ev <;> first | rfl | cases this
  · by_cases hg : g' = g
    · rw [hg, hs]
    · clear hy hn hs
      induction evs with
      | nil => rfl
      | cons ev evs ih =>
        rw [ih fun ev he => hm ev (List.mem_cons_of_mem _ he)]
        have := hm ev List.mem_cons_self
        cases ev <;> first | (cases this; done) | (cases this; simp only [List.cons_append, sequence]; rw [if_neg fun h => hg h.symm])
  · refine exists_congr fun x => ?_
    rw [List.mem_append, or_iff_right]
    intro he
    exact (hm _ he : False)
  · constructor
    · rintro ⟨e, he⟩
      refine ⟨e, he.imp (List.mem_append_right _) fun ⟨x, hx⟩ => ⟨x, hx.imp (List.mem_append_right _) (List.mem_append_right _)⟩⟩
    · rintro ⟨e, he⟩
      have key : ∀ ev : Event, (∃ y, ev = .orderedLast g' y ∨ ∃ z, ev = .orderedAfter g' y z ∨ ev = .orderedBefore g' y z) →
          ev ∈ evs → groupNamed h g' := by
        rintro ev ⟨y, hy⟩ hev
        have h1 := hm ev hev
        have hgg : g' = g := by
          rcases hy with rfl | ⟨z, rfl | rfl⟩ <;> exact h1
        rcases hn with hn | hn
        · rw [hgg]; exact hn
        · obtain ⟨w, hw⟩ := hn ev hev
          rcases hy with rfl | ⟨z, rfl | rfl⟩ <;> cases hw
      rcases he with he | ⟨x, he | he⟩ <;> rcases List.mem_append.1 he with h1 | h1
      · exact key _ ⟨e, .inl rfl⟩ h1
      · exact ⟨e, .inl h1⟩
      · exact key _ ⟨e, .inr ⟨x, .inl rfl⟩⟩ h1
      · exact ⟨e, .inr ⟨x, .inl h1⟩⟩
      · exact key _ ⟨e, .inr ⟨x, .inr rfl⟩⟩ h1
      · exact ⟨e, .inr ⟨x, .inr h1⟩⟩

theorem two_about {g : Nat} {e : Entity} {ev : Event} (h1 : SameSubject.aboutGroup g ev) :
    ∀ x ∈ [.unordered g e, ev], SameSubject.aboutGroup g x := fun x hx => by
  rcases List.mem_cons.1 hx with rfl | hx
  · exact rfl
  · rw [List.mem_singleton.1 hx]
    exact h1

theorem two_about' {g : Nat} {e : Entity} {ev : Event} (h1 : SameSubject.aboutGroup g ev) :
    ∀ x ∈ [ev, .unordered g e], SameSubject.aboutGroup g x := fun x hx => by
  rcases List.mem_cons.1 hx with rfl | hx
  · exact h1
  · rw [List.mem_singleton.1 hx]
    exact rfl

/-- **C108** Removing an entity from a group it is not in returns and changes nothing. -/
theorem C108_unorder_again (hx : LooseExec U dbg cap h s) {g : Nat} {e : Entity} (he : e ∈ alive h) (hn : e ∉ sequence g h) :
    s.removeOrder g e = .ok s := by
  have he' : e ∈ (world h).live := by rw [← alive_eq]; exact he
  obtain ⟨s1, h1, -⟩ := (loose_core hx).unordered (g := g) he'
  have hy : LooseExec U dbg cap ([.unordered g e] ++ h) s1 := .step (.unordered g e) hx he' h1
  have : s1 = s := group_back (g := g) (by simp [SameSubject.aboutGroup]) hx hy (.inr (by simp))
    (by simp [sequence, List.erase_of_not_mem hn])
  rw [h1, this]

/-- **C108** Removing an entity undoes adding it, wherever it was added, if the group was used before. -/
theorem C108_order_undo (hx : LooseExec U dbg cap h s) {g : Nat} (hg : groupNamed h g) {e : Entity} (he : e ∈ alive h)
    (hn : e ∉ sequence g h) :
    (∃ s1, s.addOrder dbg g e = .ok s1 ∧ s1.removeOrder g e = .ok s) ∧
    ∀ x ∈ sequence g h, (∃ s1, s.addOrderNextTo dbg g e x = .ok s1 ∧ s1.removeOrder g e = .ok s) ∧
      ∃ s1, s.addOrderPreviousTo dbg g e x = .ok s1 ∧ s1.removeOrder g e = .ok s := by
  have he' : e ∈ (world h).live := by rw [← alive_eq]; exact he
  have hn' : e ∉ (world h).order g := by rw [← sequence_eq]; exact hn
  have key : ∀ (ev : Event) (s1 : Store), SameSubject.aboutGroup g ev → Loose (world h) ev → Returns U dbg s ev s1 →
      (sequence g (ev :: h)).erase e = sequence g h → s1.removeOrder g e = .ok s := by
    intro ev s1 h1 h2 h3 h4
    have hx1 : LooseExec U dbg cap (ev :: h) s1 := .step ev hx h2 h3
    have he1 : e ∈ (world (ev :: h)).live := by
      have : alive (ev :: h) = alive h := by cases ev <;> first | rfl | cases h1
      rw [← alive_eq, this]
      exact he
    obtain ⟨s2, g2, -⟩ := (loose_core hx1).unordered (g := g) he1
    have hy : LooseExec U dbg cap ([.unordered g e, ev] ++ h) s2 := .step (.unordered g e) hx1 he1 g2
    have : s2 = s := group_back (g := g) (two_about h1) hx hy (.inl hg)
      (by simp only [List.cons_append, List.nil_append]; rw [sequence, if_pos rfl, h4])
    rw [g2, this]
  refine ⟨?_, fun x hxm => ?_⟩
  · obtain ⟨s1, h1, -⟩ := (loose_core hx).orderedLast (dbg := dbg) he' hn'
    refine ⟨s1, h1, key (.orderedLast g e) s1 rfl ⟨he', hn'⟩ h1 ?_⟩
    rw [sequence, if_pos rfl, List.erase_append_right _ hn, List.erase_cons_head, List.append_nil]
  · have hx' : x ∈ (world h).order g := by rw [← sequence_eq]; exact hxm
    constructor
    · obtain ⟨s1, h1, -⟩ := (loose_core hx).orderedAfter (dbg := dbg) he' hn' hx'
      refine ⟨s1, h1, key (.orderedAfter g e x) s1 rfl ⟨he', hn', hx'⟩ h1 ?_⟩
      rw [sequence, if_pos rfl, erase_insertAfter hn]
    · obtain ⟨s1, h1, -⟩ := (loose_core hx).orderedBefore (dbg := dbg) he' hn' hx'
      refine ⟨s1, h1, key (.orderedBefore g e x) s1 rfl ⟨he', hn', hx'⟩ h1 ?_⟩
      rw [sequence, if_pos rfl, erase_insertBefore hn]

/-- **C108** Removing a member is undone by adding it behind the one it followed, in front of the one that followed it, or, if it
was the last, at the end. -/
theorem C108_unorder_undo (hx : LooseExec U dbg cap h s) {g : Nat} {e : Entity} {A B : List Entity}
    (hs : sequence g h = A ++ e :: B) : ∃ s1, s.removeOrder g e = .ok s1 ∧
    (∀ p, A.getLast? = some p → s1.addOrderNextTo dbg g e p = .ok s) ∧
    (∀ f, B.head? = some f → s1.addOrderPreviousTo dbg g e f = .ok s) ∧
    (B = [] → s1.addOrder dbg g e = .ok s) := by
  have hm : e ∈ sequence g h := by rw [hs]; simp
  have he' : e ∈ (world h).live := (loose_core hx).ordLive g e (by rw [← sequence_eq]; exact hm)
  have hnd : (A ++ e :: B).Nodup := by rw [← hs, sequence_eq]; exact (loose_core hx).order_nodup g
  have hA : e ∉ A := fun h1 => (List.nodup_append.1 hnd).2.2 e h1 e List.mem_cons_self rfl
  have hB : e ∉ B := (List.nodup_cons.1 (List.nodup_append.1 hnd).2.1).1
  obtain ⟨s1, h1, -⟩ := (loose_core hx).unordered (g := g) he'
  have hx1 : LooseExec U dbg cap (.unordered g e :: h) s1 := .step (.unordered g e) hx he' h1
  have hs1 : sequence g (.unordered g e :: h) = A ++ B := by rw [sequence, if_pos rfl, hs, erase_mid hA]
  have hn1 : e ∉ (world (.unordered g e :: h)).order g := by rw [← sequence_eq, hs1, List.mem_append]; exact fun h => h.elim hA hB
  have key : ∀ (ev : Event) (s2 : Store), SameSubject.aboutGroup g ev → Loose (world (.unordered g e :: h)) ev →
      Returns U dbg s1 ev s2 → sequence g (ev :: .unordered g e :: h) = A ++ e :: B → s2 = s := by
    intro ev s2 k1 k2 k3 k4
    have hy : LooseExec U dbg cap ([ev, .unordered g e] ++ h) s2 := .step ev hx1 k2 k3
    exact group_back (g := g) (two_about' k1) hx hy (.inl (named_of_member hx hm)) (k4.trans hs.symm)
  refine ⟨s1, h1, fun p hp => ?_, fun f hf => ?_, fun hb => ?_⟩
  · obtain ⟨A', rfl⟩ : ∃ A', A = A' ++ [p] := ⟨A.dropLast, by
      rw [List.dropLast_append_getLast? p hp]⟩
    have hpm : p ∈ (world (.unordered g e :: h)).order g := by rw [← sequence_eq, hs1]; simp
    obtain ⟨s2, k, -⟩ := (loose_core hx1).orderedAfter (dbg := dbg) (e := e) he' hn1 hpm
    rw [k, key (.orderedAfter g e p) s2 rfl ⟨he', hn1, hpm⟩ k ?_]
    have hpA : p ∉ A' := fun h1 => (List.nodup_append.1 (List.nodup_append.1 hnd).1).2.2 p h1 p List.mem_cons_self rfl
    rw [sequence, if_pos rfl, hs1, List.append_assoc, List.singleton_append, insertAfter_at hpA, List.append_assoc]
    rfl
  · obtain ⟨B', rfl⟩ : ∃ B', B = f :: B' := by
      cases B with
      | nil => cases hf
      | cons b B => cases hf; exact ⟨B, rfl⟩
    have hfm : f ∈ (world (.unordered g e :: h)).order g := by rw [← sequence_eq, hs1]; simp
    obtain ⟨s2, k, -⟩ := (loose_core hx1).orderedBefore (dbg := dbg) (e := e) he' hn1 hfm
    rw [k, key (.orderedBefore g e f) s2 rfl ⟨he', hn1, hfm⟩ k ?_]
    have hfA : f ∉ A := fun h1 => (List.nodup_append.1 hnd).2.2 f h1 f (by simp) rfl
    rw [sequence, if_pos rfl, hs1, insertBefore_at hfA]
  · subst hb
    obtain ⟨s2, k, -⟩ := (loose_core hx1).orderedLast (dbg := dbg) (e := e) he' hn1
    rw [k, key (.orderedLast g e) s2 rfl ⟨he', hn1⟩ k ?_]
    rw [sequence, if_pos rfl, hs1, List.append_nil]

/-! ### Exchanging calls -/

theorem erase_insertAfter_comm {l : List Entity} {x e d : Entity} (h1 : d ≠ e) (h2 : d ≠ x) :
    (insertAfter x e l).erase d = insertAfter x e (l.erase d) := by
  induction l with
  | nil => rfl
  | cons a l ih =>
    by_cases ha : a = d
    · subst ha
      rw [List.erase_cons_head, insertAfter, if_neg h2, List.erase_cons_head]
    · have hb : ¬ (a == d) = true := fun h => ha (beq_iff_eq.1 h)
      have hc : ¬ (e == d) = true := fun h => h1 (beq_iff_eq.1 h).symm
      rw [List.erase_cons, if_neg hb, insertAfter, insertAfter]
      split
      · rw [List.erase_cons, if_neg hb, List.erase_cons, if_neg hc]
      · rw [List.erase_cons, if_neg hb, ih]

theorem erase_insertBefore_comm {l : List Entity} {x e d : Entity} (h1 : d ≠ e) (h2 : d ≠ x) :
    (insertBefore x e l).erase d = insertBefore x e (l.erase d) := by
  induction l with
  | nil => rfl
  | cons a l ih =>
    by_cases ha : a = d
    · subst ha
      rw [List.erase_cons_head, insertBefore, if_neg h2, List.erase_cons_head]
    · have hb : ¬ (a == d) = true := fun h => ha (beq_iff_eq.1 h)
      have hc : ¬ (e == d) = true := fun h => h1 (beq_iff_eq.1 h).symm
      rw [List.erase_cons, if_neg hb, insertBefore, insertBefore]
      split
      · rw [List.erase_cons, if_neg hc, List.erase_cons, if_neg hb]
      · rw [List.erase_cons, if_neg hb, ih]

/-- A call about a group and the destruction of an entity, in either order. -/
theorem sequence_destroyed {d : Entity} {b : Event} (hb : ∃ g, SameSubject.aboutGroup g b)
    (h2 : ∃ s2, LooseExec U dbg cap (b :: .destroyed d :: h) s2) (g : Nat) :
    sequence g (.destroyed d :: b :: h) = sequence g (b :: .destroyed d :: h) := by
  obtain ⟨s2, hx⟩ := h2
  cases hx with
  | step _ hx1 hl hr =>
  have hnd : (world h).live.Nodup := by
    cases hx1 with
    | step _ hx0 _ _ => exact (loose_core hx0).ents.nodup_live
  have hnl : d ∉ (world (.destroyed d :: h)).live := fun hm => ((List.Nodup.mem_erase_iff hnd).1 hm).1 rfl
  have hno : ∀ g', d ∉ (world (.destroyed d :: h)).order g' := fun g' hm => hnl ((loose_core hx1).ordLive g' d hm)
  obtain ⟨g0, hb⟩ := hb
  cases b with
  | orderedLast g' e =>
    have hde : d ≠ e := fun h => hnl (h ▸ hl.1)
    simp only [sequence]
    split
    · have hc : ¬ (e == d) = true := fun h => hde (beq_iff_eq.1 h).symm
      by_cases hm : d ∈ sequence g h
      · rw [List.erase_append_left _ hm]
      · rw [List.erase_append_right _ hm, List.erase_cons, if_neg hc, List.erase_nil, List.erase_of_not_mem hm]
    · rfl
  | orderedAfter g' e x =>
    have hde : d ≠ e := fun h => hnl (h ▸ hl.1)
    have hdx : d ≠ x := fun h => hno g' (h ▸ hl.2.2)
    simp only [sequence]
    split
    · exact erase_insertAfter_comm hde hdx
    · rfl
  | orderedBefore g' e x =>
    have hde : d ≠ e := fun h => hnl (h ▸ hl.1)
    have hdx : d ≠ x := fun h => hno g' (h ▸ hl.2.2)
    simp only [sequence]
    split
    · exact erase_insertBefore_comm hde hdx
    · rfl
  | unordered g' e =>
    simp only [sequence]
    split
    · exact List.erase_comm _ _
    · rfl
  | _ => cases hb

theorem sequence_swap {a b : Event} (hn : ¬ SameSubject a b) (hm : aboutMarks a = true ∨ aboutMarks b = true)
    (h1 : ∃ s1, LooseExec U dbg cap (a :: b :: h) s1) (h2 : ∃ s2, LooseExec U dbg cap (b :: a :: h) s2) (g : Nat) :
    sequence g (a :: b :: h) = sequence g (b :: a :: h) := by
  by_cases ha : ∃ d, a = .destroyed d
  · obtain ⟨d, rfl⟩ := ha
    by_cases hb : ∃ g, SameSubject.aboutGroup g b
    · exact sequence_destroyed hb h2 g
    · cases b <;> first
        | rfl
        | (exfalso; revert hm; simp [aboutMarks, aboutTags, aboutOrders]; done)
        | (exfalso; apply hb; constructor; exact rfl)
  · by_cases hb : ∃ d, b = .destroyed d
    · obtain ⟨d, rfl⟩ := hb
      by_cases hb : ∃ g, SameSubject.aboutGroup g a
      · exact (sequence_destroyed hb h1 g).symm
      · cases a <;> first
          | rfl
          | (exfalso; revert hm; simp [aboutMarks, aboutTags, aboutOrders]; done)
          | (exfalso; apply hb; constructor; exact rfl)
    · have key : ∀ g1 g2 : Nat, SameSubject.aboutGroup g1 a → SameSubject.aboutGroup g2 b → g1 ≠ g2 := by
        intro g1 g2 k1 k2 h
        subst h
        refine hn ?_
        cases a <;> first | (cases k1; done) | exact ⟨g1, k1, k2⟩
      cases a <;> cases b <;> first
        | rfl
        | exact absurd ⟨_, rfl⟩ ha
        | exact absurd ⟨_, rfl⟩ hb
        | (have hk := key _ _ rfl rfl
           simp only [sequence]
           split
           · rename_i e1; subst e1; rw [if_neg (fun h => hk h.symm), if_neg (fun h => hk h.symm)]
           · rfl)

/-- **C108** Two calls, one of them about tags or groups, can be exchanged if they are not about the same tag of the same entity,
nor about the same group: if both orders are possible without mistakes, they end with the same store. -/
theorem C108_commute {a b : Event} (hn : ¬ SameSubject a b) (hm : aboutMarks a = true ∨ aboutMarks b = true)
    (hx : LooseExec U dbg cap (a :: b :: h) s) (hy : LooseExec U dbg cap (b :: a :: h) s') : s = s' := by
  have hrest : SameRest (a :: b :: h) (b :: a :: h) := by
    have : without false false (a :: b :: h) = without false false (b :: a :: h) := by
      unfold without
      simp only [aboutMarks, Bool.or_eq_true] at hm
      rcases hm with (h1 | h1) | (h1 | h1) <;> simp [List.filter_cons, h1]
    unfold SameRest
    rw [this, List.forall₂_same]
    exact fun ev _ => sameCall_refl ev
  have hmem : ∀ ev, ev ∈ a :: b :: h ↔ ev ∈ b :: a :: h := fun ev => by
    simp only [List.mem_cons]
    exact or_left_comm
  refine (C108_remembers hx hy hrest).2 ⟨fun t e _ => ?_, sequence_swap hn hm ⟨s, hx⟩ ⟨s', hy⟩, fun t => ?_, fun g => ?_⟩
  · cases a <;> cases b <;> first
      | rfl
      | (simp only [lastTag]
         split
         · rename_i e1
           obtain ⟨rfl, rfl⟩ := e1
           rw [if_neg]
           rintro ⟨rfl, rfl⟩
           exact hn ⟨rfl, rfl⟩
         · rfl)
  · exact exists_congr fun e => hmem _
  · exact exists_congr fun e => or_congr (hmem _) (exists_congr fun x => or_congr (hmem _) (hmem _))

/-- **C108** A tag that was used before must be asked for: the first use of a tag is not undone by taking the tag away. Before, a
query filtered by it panics, and afterwards it does not. -/
theorem C108_first_use_remains : ∃ (h : List Event) (s s1 s2 : Store) (e : Entity), LooseExec demo true 1 h s ∧ e ∈ alive h ∧
    lastTag 5 e h = false ∧ s.addTag 5 e = .ok s1 ∧ s1.removeTag 5 e = .ok s2 ∧ s2 ≠ s ∧
    runComponentQueryFilterTag demo true s (.write [1]) 5 [] 9 = .error (.panic .missingTag) ∧
    runComponentQueryFilterTag demo true s2 (.write [1]) 5 [] 9 = .ok [] := by
  have h : ((runLoose demo true 1 [.created ⟨0, 1⟩]).any fun s => decide
      (runComponentQueryFilterTag demo true s (.write [1]) 5 [] 9 = .error (.panic .missingTag)) && okAnd (s.addTag 5 ⟨0, 1⟩)
        fun s1 => okAnd (s1.removeTag 5 ⟨0, 1⟩) fun s2 => decide
          (runComponentQueryFilterTag demo true s2 (.write [1]) 5 [] 9 = .ok [])) = true := by decide +kernel
  obtain ⟨s, hs, h⟩ := any_some h
  obtain ⟨h1, h⟩ := Bool.and_eq_true_iff.1 h
  obtain ⟨s1, h2, h3⟩ := okAnd_iff h
  obtain ⟨s2, h4, h5⟩ := okAnd_iff h3
  have h1 := of_decide_eq_true h1
  have h5 := of_decide_eq_true h5
  refine ⟨_, s, s1, s2, ⟨0, 1⟩, runLoose_sound hs, by simp [alive], rfl, h2, h4, fun hh => ?_, h1, h5⟩
  rw [hh, h1] at h5
  cases h5

/-! ### A case -/

/-- Three entities; two are tagged, all are put in a group one after the other. -/
def straight : List Event :=
  [.orderedLast 7 ⟨2, 1⟩, .orderedLast 7 ⟨1, 1⟩, .orderedLast 7 ⟨0, 1⟩, .tagged 5 ⟨1, 1⟩, .tagged 6 ⟨0, 1⟩,
   .added ⟨1, 1⟩ [(1, [2])], .created ⟨2, 1⟩, .created ⟨1, 1⟩, .created ⟨0, 1⟩]

/-- The same with detours. -/
def winding : List Event :=
  [.orderedLast 7 ⟨2, 1⟩, .unordered 7 ⟨2, 1⟩, .orderedAfter 7 ⟨2, 1⟩ ⟨0, 1⟩, .tagged 5 ⟨1, 1⟩, .orderedBefore 7 ⟨0, 1⟩ ⟨1, 1⟩,
   .added ⟨1, 1⟩ [(1, [2])], .tagged 6 ⟨0, 1⟩, .untagged 5 ⟨0, 1⟩, .created ⟨2, 1⟩, .orderedLast 7 ⟨1, 1⟩, .created ⟨1, 1⟩,
   .tagged 5 ⟨0, 1⟩, .created ⟨0, 1⟩]

theorem straight_winding : SameRest straight winding ∧ SameMarks straight winding := by
  refine ⟨?_, fun t e he => ?_, fun g => ?_, fun t => ?_, fun g => ?_⟩
  · have : without false false straight = without false false winding := rfl
    unfold SameRest
    rw [this, List.forall₂_same]
    exact fun ev _ => sameCall_refl ev
  · simp only [straight, alive, List.mem_cons, List.not_mem_nil, or_false] at he
    by_cases h5 : t = 5
    · subst h5
      rcases he with rfl | rfl | rfl <;> decide
    · by_cases h6 : t = 6
      · subst h6
        rcases he with rfl | rfl | rfl <;> decide
      · simp [straight, winding, lastTag, Ne.symm h5, Ne.symm h6]
  · by_cases h7 : g = 7
    · subst h7
      decide
    · simp [straight, winding, sequence, Ne.symm h7]
  · simp [tagNamed, straight, winding, exists_or]
    tauto
  · simp [groupNamed, straight, winding, exists_or]

/-- The hypotheses of the theorems above: two programs with the same end. -/
example : ∃ s, LooseExec demo true 1 straight s ∧ LooseExec demo true 1 winding s ∧ SameRest straight winding ∧
    s.hasTag 5 ⟨0, 1⟩ = .ok false ∧ s.hasTag 5 ⟨1, 1⟩ = .ok true ∧ s.getNextOrdered 7 ⟨1, 1⟩ = .ok (some ⟨2, 1⟩) := by
  have h : ((runLoose demo true 1 straight).any fun s => decide (s.hasTag 5 ⟨0, 1⟩ = .ok false ∧ s.hasTag 5 ⟨1, 1⟩ = .ok true ∧
    s.getNextOrdered 7 ⟨1, 1⟩ = .ok (some ⟨2, 1⟩))) = true := by decide +kernel
  have h' : ((runLoose demo true 1 winding).any fun _ => true) = true := by decide +kernel
  obtain ⟨s, hs, h⟩ := any_some h
  obtain ⟨s', hs', -⟩ := any_some h'
  obtain rfl : s = s' := (C108_remembers (runLoose_sound hs) (runLoose_sound hs') straight_winding.1).2 straight_winding.2
  exact ⟨s, runLoose_sound hs, runLoose_sound hs', straight_winding.1, of_decide_eq_true h⟩

/-- The second member of the group can be taken out and put back in two ways. -/
example : ∃ s s1, LooseExec demo true 1 straight s ∧ s.removeOrder 7 ⟨1, 1⟩ = .ok s1 ∧
    s1.addOrderNextTo true 7 ⟨1, 1⟩ ⟨0, 1⟩ = .ok s ∧ s1.addOrderPreviousTo true 7 ⟨1, 1⟩ ⟨2, 1⟩ = .ok s ∧
    s1.getNextOrdered 7 ⟨0, 1⟩ = .ok (some ⟨2, 1⟩) := by
  have h : ((runLoose demo true 1 straight).any fun s => okAnd (s.removeOrder 7 ⟨1, 1⟩) fun s1 =>
    decide (s1.getNextOrdered 7 ⟨0, 1⟩ = .ok (some ⟨2, 1⟩))) = true := by decide +kernel
  obtain ⟨s, hs, h⟩ := any_some h
  obtain ⟨s1, h1, h⟩ := okAnd_iff h
  obtain ⟨s2, h2, h3, h4, -⟩ := C108_unorder_undo (runLoose_sound hs) (g := 7) (e := ⟨1, 1⟩) (A := [⟨0, 1⟩]) (B := [⟨2, 1⟩]) (by decide)
  rw [h1] at h2
  cases h2
  exact ⟨s, s1, runLoose_sound hs, h1, h3 _ rfl, h4 _ rfl, of_decide_eq_true h⟩

/-- A call about a group and a destruction that can be exchanged. -/
example : ∃ s, LooseExec demo true 1 (.destroyed ⟨0, 1⟩ :: .unordered 7 ⟨2, 1⟩ :: straight) s ∧
    LooseExec demo true 1 (.unordered 7 ⟨2, 1⟩ :: .destroyed ⟨0, 1⟩ :: straight) s := by
  have h : ((runLoose demo true 1 (.destroyed ⟨0, 1⟩ :: .unordered 7 ⟨2, 1⟩ :: straight)).any fun _ => true) = true := by decide +kernel
  have h' : ((runLoose demo true 1 (.unordered 7 ⟨2, 1⟩ :: .destroyed ⟨0, 1⟩ :: straight)).any fun _ => true) = true := by
    decide +kernel
  obtain ⟨s, hs, -⟩ := any_some h
  obtain ⟨s', hs', -⟩ := any_some h'
  obtain rfl : s = s' := C108_commute (by rintro ⟨g, h1, -⟩; exact h1) (.inr rfl) (runLoose_sound hs) (runLoose_sound hs')
  exact ⟨s, runLoose_sound hs, runLoose_sound hs'⟩

end Ecs.Props
