import Verif.Props.QueryAny
import Verif.Props.Stale
import Verif.Proofs.Foreign

/-! Property C101: handles of another store. Nothing ties a handle to the store it came from, so a store may be given a
handle it never returned. Handles whose id is beyond the memory of the store are in C52; here the id is inside. -/

namespace Ecs.Props
open Spec

section
variable {U : Universe} {dbg : Bool} {cap : Nat} {h : List Event} {s s' : Store}

/-- **C101**, calls about components: a handle that is not one of the live ones — whether the store ever returned it or
not — is not alive, has no archetype and no components, and components can be neither added nor removed. A handle of
another store that equals a live one is that one. -/
theorem C101_components (hx : LooseExec U dbg cap h s) {e : Entity} (hc : e.id < s.ents.capacity) :
    s.isAlive dbg e = .ok (decide (e ∈ alive h)) ∧
    (e ∉ alive h → s.getEntityArchetype dbg e = .ok none ∧
      (∀ ts, s.getComponentsRefs U dbg e ts = .ok none ∧ s.getComponents U dbg e ts = .ok none ∧
        s.removeComponents U dbg e ts = .ok s) ∧
      ∀ vals, s.addComponents U dbg e vals = .ok s) := by
  have ha : s.isAlive dbg e = .ok (decide (e ∈ alive h)) := by
    rw [alive_eq]; exact (loose_core hx).isAlive hc
  refine ⟨ha, fun hd => ?_⟩
  have ha' : s.isAlive dbg e = .ok false := by rw [ha]; simp [hd]
  have hv : s.isValidEntityWithArchetype dbg e = .ok false := by
    unfold Store.isValidEntityWithArchetype
    rw [ha']; rfl
  have hg : ∀ ts, s.getComponentsRefs U dbg e ts = .ok none := by
    intro ts
    unfold Store.getComponentsRefs
    rw [hv]; rfl
  refine ⟨?_, fun ts => ⟨hg ts, ?_, ?_⟩, fun vals => ?_⟩
  · unfold Store.getEntityArchetype
    rw [hv]; rfl
  · unfold Store.getComponents
    rw [hg]; rfl
  · unfold Store.removeComponents
    rw [hv]; rfl
  · unfold Store.addComponents
    rw [ha']; rfl

/-- **C101**, `destroy_entity` in a debug build: with a handle whose id the store never issued it panics. -/
theorem C101_destroy_debug (hx : LooseExec U true cap h s) {e : Entity} (hc : e.id < s.ents.capacity)
    (hn : ∀ x ∈ handles h, x.id ≠ e.id) : s.destroyEntity true e = .error (.panic .debugAssert) := by
  have hd : e ∉ (world h).live := fun hm => hn e (by rw [handles_eq]; exact (loose_core hx).ents.sub _ hm) rfl
  unfold Store.destroyEntity
  rw [destroyRow_fresh hx hc hn]
  simp only [ok_bind, (loose_core hx).ents.destroy_debug_dead hd]
  rfl

/-- **C101**, `destroy_entity` in a release build: with a handle whose id the store never issued it returns, leaves the
other entities as they are, and kills an entity that does not exist yet: the next entity that is created gets the id and
is dead from birth. -/
theorem C101_destroy_release (hx : LooseExec U false cap h s) {e : Entity} (hc : e.id < s.ents.capacity)
    (hid : e.id + 1 < u32Size) (hn : ∀ x ∈ handles h, x.id ≠ e.id) :
    ∃ s', s.destroyEntity false e = .ok s' ∧ (∀ x ∈ handles h, SameComponents U false s s' x) ∧
      ∃ s'' x, s'.createEntity false = .ok (s'', x) ∧ x.id = e.id ∧ x ∉ handles h ∧ s''.isAlive false x = .ok false := by
  have hcr := loose_core hx
  obtain ⟨w, h1, h2, h3⟩ := Words.toggle_of_lt (w := s.ents.aliveBits) (i := e.id)
    (by rw [hcr.ents.blen]; exact Words.div_lt_getLen hc)
  have hnext := next_le_of_fresh hx hn
  obtain ⟨n, hs, hne⟩ : ∃ n, subU32 false s.ents.nextFreeId 1 = .ok n ∧ e.id ≠ n := by
    unfold subU32
    split
    · exact ⟨_, rfl, by omega⟩
    · exact ⟨_, rfl, by omega⟩
  have hdes : s.ents.destroy false e = .ok { s.ents with aliveBits := w, gapIds := s.ents.gapIds ++ [e.id] } := by
    unfold Ents.destroy Ents.validateVersionWithPanic
    simp only [Bool.false_eq_true, if_false, h1, ok_bind, pure_ok, hs, if_neg hne]
  obtain ⟨tg, t1, _⟩ := Tags.removeAll_spec hcr.tags (id := e.id) (by rw [hcr.tcap]; exact hc)
  obtain ⟨od, o1, _⟩ := hcr.orders.removeAll (e := e.id) (by rw [hcr.ocap]; exact hc) (by omega)
  have hbit : s.ents.aliveBits.bit e.id = false := by
    by_contra hb
    obtain ⟨x, hx1, hx2⟩ := List.mem_map.1 ((hcr.ents.bits e.id).1 (by simpa using hb))
    exact hn x (by rw [handles_eq]; exact hcr.ents.sub _ hx1) hx2
  refine ⟨{ s with ents := { s.ents with aliveBits := w, gapIds := s.ents.gapIds ++ [e.id] }, tags := tg, orders := od },
    ?_, fun x hxm => ?_, ?_⟩
  · unfold Store.destroyEntity
    simp only [destroyRow_fresh hx hc hn, hdes, t1, o1, ok_bind, pure_ok]
  · have hxne := hn x hxm
    rw [handles_eq] at hxm
    have hxl := hcr.ents.issued_id_lt hxm
    refine SameComponents.of ?_ rfl rfl rfl rfl
    have hw : x.id / 32 < s.ents.aliveBits.length := by rw [hcr.ents.blen]; exact Words.div_lt_getLen hxl
    unfold Store.isAlive Ents.isAlive Ents.validateVersion
    dsimp only
    rw [Words.isOn_of_lt hw, Words.isOn_of_lt (by rw [h2]; exact hw), h3]
    simp only [hxne, decide_false, Bool.false_xor]
    rfl
  · obtain ⟨v, hv, hv1, hv2⟩ := hcr.ents.vinit e.id hc
    obtain ⟨w2, g1, g2, g3⟩ := Words.toggle_of_lt (w := w) (i := e.id)
      (by rw [h2, hcr.ents.blen]; exact Words.div_lt_getLen hc)
    obtain ⟨v', hv'⟩ : ∃ v', addU32 false v 1 = .ok v' := by
      unfold addU32; split <;> exact ⟨_, rfl⟩
    have hwr := Raw.write_of_lt (a := s.ents.versions) (i := e.id) v' (by rw [hcr.ents.vlen]; exact hc)
    obtain ⟨b, b1⟩ : ∃ b, s.hasArch.setOff e.id = .ok b := by
      obtain ⟨b, b1, _⟩ := Words.setOff_of_lt (w := s.hasArch) (i := e.id) (by rw [hcr.blen]; exact Words.div_lt_getLen hc)
      exact ⟨b, b1⟩
    refine ⟨{ s with
        ents := { s.ents with aliveBits := w2, versions := s.ents.versions.set e.id (some v') }
        tags := tg, orders := od, hasArch := b }, ⟨e.id, v'⟩, ?_, rfl, fun hm => hn _ hm rfl, ?_⟩
    · unfold Store.createEntity Store.registerNewEntity Ents.create Ents.takeId
      simp only [List.getLast?_append, List.getLast?_singleton, Option.some_or, List.dropLast_concat, ok_bind, g1,
        Raw.read_of_some hv, hv', hwr, pure_ok, EntityCreation.wasGrow]
      simp only [bne_self_eq_false, Bool.false_eq_true, if_false, ok_bind, b1]
    · unfold Store.isAlive Ents.isAlive Ents.validateVersion
      dsimp only
      rw [Words.isOn_of_lt (by rw [g2, h2, hcr.ents.blen]; exact Words.div_lt_getLen hc), g3, h3, hbit]
      rw [Raw.read_of_some (x := v') (by rw [List.getElem?_set]; simp [hcr.ents.vlen, hc])]
      simp [dassert]

/-- **C101**, tags: a tag given to an id the store never issued is there when an entity with the id is created. -/
theorem C101_tag (hx : LooseExec U dbg cap h s) {e : Entity} (hc : e.id < s.ents.capacity) (tag : Nat)
    (hb : (handles h).length + 1 < u32Size) :
    ∃ s', s.addTag tag e = .ok s' ∧ ∃ s'' x, s'.createEntity dbg = .ok (s'', x) ∧ s''.isAlive dbg x = .ok true ∧ x ∉ handles h ∧
      (x.id = e.id → s''.hasTag tag x = .ok true) := by
  have hcr := loose_core hx
  obtain ⟨tg, t1, t2, t3, t4⟩ := Tags.addTag_spec hcr.tags tag (id := e.id) (by rw [hcr.tcap]; exact hc)
  refine ⟨{ s with tags := tg }, by unfold Store.addTag; simp only [t1, ok_bind, pure_ok], ?_⟩
  have hid : IdCore { s with tags := tg } (world h).issued (world h).live (fun g => ((world h).order g).map (·.id)) :=
    ⟨hcr.ents, hcr.plen, hcr.ilen, hcr.blen, t2, by simp only [t3]; exact hcr.tcap, hcr.orders, hcr.ocap⟩
  obtain ⟨s1, x, r1, r2, r3, r4, r5, r6, r7, r8, r9, r10, r11, r12, r13, r14, r15, r16⟩ :=
    hid.register (dbg := dbg) (by rw [← handles_eq]; exact hb)
  have hxl : x.id < s1.ents.capacity := r2.issued_id_lt List.mem_cons_self
  obtain ⟨b, b1, b2⟩ := Words.setOff_of_lt (w := s1.hasArch) (i := x.id) (by rw [r9]; exact Words.div_lt_getLen hxl)
  refine ⟨{ s1 with hasArch := b }, x, ?_, ?_, ?_, fun hxe => ?_⟩
  · unfold Store.createEntity
    simp only [r1, ok_bind, b1, pure_ok]
  · show s1.ents.isAlive dbg x = _
    rw [r2.isAlive_of_lt hxl]
    simp
  · rw [handles_eq]; exact r3
  · show s1.tags.hasTag tag x.id = _
    rw [Tags.hasTag_spec r13 tag (by rw [r14]; exact hxl), r15, t4]
    simp [hxe]

/-- **C101**, order groups: a handle whose id the store never issued can be added to a group. The group then ends in a handle
that is not alive and that the store never returned, and if the next entity created gets the id, it is the last of the group
from birth. -/
theorem C101_order (hx : LooseExec U dbg cap h s) {e : Entity} (hc : e.id < s.ents.capacity) (hid : e.id + 1 < u32Size)
    (hn : ∀ x ∈ handles h, x.id ≠ e.id) (g : Nat) (hb : (handles h).length + 1 < u32Size) :
    ∃ s', s.addOrder dbg g e = .ok s' ∧
      (∃ f, s'.getLastOrdered g = .ok (some f) ∧ f.id = e.id ∧ f ∉ handles h ∧ s'.isAlive dbg f = .ok false) ∧
      ∃ s'' x, s'.createEntity dbg = .ok (s'', x) ∧ s''.isAlive dbg x = .ok true ∧ x ∉ handles h ∧
        (x.id = e.id → s''.getLastOrdered g = .ok (some x)) := by
  have hcr := loose_core hx
  have hout : e.id ∉ ((world h).order g).map (·.id) := by
    intro hm
    obtain ⟨x, hx1, hx2⟩ := List.mem_map.1 hm
    exact hn x (by rw [handles_eq]; exact hcr.ents.sub _ (hcr.ordLive g x hx1)) hx2
  obtain ⟨od, o1, o2, o3⟩ := hcr.orders.add dbg g (e := e.id) (by rw [hcr.ocap]; exact hc) (by omega) hout
  refine ⟨{ s with orders := od }, by unfold Store.addOrder; simp only [o1, ok_bind, pure_ok], ?_, ?_⟩
  · obtain ⟨v, hv, _⟩ := hcr.ents.vinit e.id hc
    refine ⟨⟨e.id, v⟩, ?_, rfl, fun hm => hn _ hm rfl, ?_⟩
    · unfold Store.getLastOrdered
      simp only [o2.getTail, Orders.upd, if_true, List.getLast?_append, List.getLast?_singleton, Option.some_or, ok_bind,
        Store.mapEntity, Store.getEntityById, Raw.read_of_some hv, pure_ok]
    · have ha : s.isAlive dbg ⟨e.id, v⟩ = .ok (decide (⟨e.id, v⟩ ∈ (world h).live)) := hcr.isAlive hc
      refine Eq.trans ha ?_
      rw [decide_eq_false fun hm => hn ⟨e.id, v⟩ (by rw [handles_eq]; exact hcr.ents.sub _ hm) rfl]
  · have hid : IdCore { s with orders := od } (world h).issued (world h).live
        (Orders.upd (fun g => ((world h).order g).map (·.id)) g (((world h).order g).map (·.id) ++ [e.id])) :=
      ⟨hcr.ents, hcr.plen, hcr.ilen, hcr.blen, hcr.tags, hcr.tcap, o2, by simp only [o3]; exact hcr.ocap⟩
    obtain ⟨s1, x, r1, r2, r3, r4, r5, r6, r7, r8, r9, r10, r11, r12, r13, r14, r15, r16, _⟩ :=
      hid.register (dbg := dbg) (by rw [← handles_eq]; exact hb)
    have hxl : x.id < s1.ents.capacity := r2.issued_id_lt List.mem_cons_self
    obtain ⟨b, b1, b2⟩ := Words.setOff_of_lt (w := s1.hasArch) (i := x.id) (by rw [r9]; exact Words.div_lt_getLen hxl)
    refine ⟨{ s1 with hasArch := b }, x, ?_, ?_, ?_, fun hxe => ?_⟩
    · unfold Store.createEntity
      simp only [r1, ok_bind, b1, pure_ok]
    · show s1.ents.isAlive dbg x = _
      rw [r2.isAlive_of_lt hxl]
      simp
    · rw [handles_eq]; exact r3
    · unfold Store.getLastOrdered
      have hl := r2.lver x List.mem_cons_self
      simp only [r16.getTail, Orders.upd, if_true, List.getLast?_append, List.getLast?_singleton, Option.some_or, ok_bind,
        Store.mapEntity, Store.getEntityById, ← hxe, Raw.read_of_some hl, pure_ok]

/-- **C101**, queries over a group to which such a handle was added: the query returns one item for each member whose recorded
archetype has the queried components, and the handle counts as a member. If there is no record for it — as for all ids beyond the
initial capacity — or for another member, the query reads memory that was never written or the first element of an empty vector. -/
theorem C101_order_query (hx : LooseExec U dbg cap h s) {e : Entity} (hc : e.id < s.ents.capacity) (hid : e.id + 1 < u32Size)
    (hn : ∀ x ∈ handles h, x.id ≠ e.id) {g : Nat} (hr : s.addOrder dbg g e = .ok s') {acc : Access}
    (old : List (Range × IterView)) {fuel : Nat} (hf : (sequence g h).length + 1 < fuel) :
    (cap ≤ e.id → recordedArchetype s e.id = none) ∧
    (((∃ x ∈ sequence g h ++ [e], recordedArchetype s x.id = none) ∧
      ∃ u, (u = .uninit ∨ u = .oob) ∧ runOrderedQuery U dbg s' g acc old fuel = .error (.ub u)) ∨
    ((∀ x ∈ sequence g h ++ [e], (recordedArchetype s x.id).isSome = true) ∧
      ∃ items, runOrderedQuery U dbg s' g acc old fuel = .ok items ∧
        items.length = ((sequence g h ++ [e]).filter fun x =>
          (recordedArchetype s x.id).any fun a => decide (Covers a.ids acc)).length)) := by
  classical
  have hcr := loose_core hx
  have hrd := loose_readable hx
  have hs : sequence g h = (world h).order g := sequence_eq g h
  rw [hs] at hf ⊢
  have hout : e.id ∉ ((world h).order g).map (·.id) := by
    intro hm
    obtain ⟨x, hx1, hx2⟩ := List.mem_map.1 hm
    exact hn x (by rw [handles_eq]; exact hcr.ents.sub _ (hcr.ordLive g x hx1)) hx2
  obtain ⟨od, o1, o2, o3⟩ := hcr.orders.add dbg g (e := e.id) (by rw [hcr.ocap]; exact hc) (by omega) hout
  have hs' : s' = { s with orders := od } := by
    unfold Store.addOrder at hr
    simp only [o1, ok_bind, pure_ok] at hr
    exact (Except.ok.inj hr).symm
  subst hs'
  constructor
  · intro hcap
    unfold recordedArchetype
    split
    · next p hp =>
      rcases (page_inited hx e.id).1 ⟨p, hp⟩ with h1 | h1
      · omega
      · obtain ⟨x, hx1, hx2⟩ := stored_given h1
        exact (hn x ((given_bit hx).1 x hx1) hx2).elim
    · rfl
  rcases hrd.ordered_query_of (U := U) (dbg := dbg) (acc := acc) (g := g) (L := (world h).order g ++ [e]) o2 (by rw [o3, hcr.ocap])
    (by simp [Orders.upd]) old (by rw [List.length_append]; exact hf) with ⟨⟨x, hxm, k1⟩, u, hu, _, k2⟩ | ⟨k0, it, _, _, k2⟩
  · refine .inl ⟨⟨x, hxm, ?_⟩, u, hu, k2⟩
    rw [recorded_iff hrd] at k1
    rwa [Option.eq_none_iff_forall_ne_some, ← not_exists]
  · refine .inr ⟨fun x hx => Option.isSome_iff_exists.2 ((recorded_iff hrd).1 (k0 x hx)), _, k2, ?_⟩
    rw [List.length_map]
    congr 1
    refine List.filter_congr fun x hxm => ?_
    rw [Bool.eq_iff_iff, decide_eq_true_eq, shown_iff hrd, Option.any_eq_true]
    simp only [decide_eq_true_eq]

/-- **C101**, order groups: removing from a group a handle whose id the store never issued returns and changes no group. -/
theorem C101_order_remove (hx : LooseExec U dbg cap h s) {e : Entity} (hc : e.id < s.ents.capacity) (hid : e.id + 1 < u32Size)
    (hn : ∀ x ∈ handles h, x.id ≠ e.id) (g : Nat) :
    ∃ s', s.removeOrder g e = .ok s' ∧
      ∀ g', s'.getFirstOrdered g' = s.getFirstOrdered g' ∧ s'.getLastOrdered g' = s.getLastOrdered g' ∧
        ∀ x ∈ handles h, s'.getNextOrdered g' x = s.getNextOrdered g' x ∧
          s'.getPreviousOrdered g' x = s.getPreviousOrdered g' x := by
  have hcr := loose_core hx
  have hout : e.id ∉ ((world h).order g).map (·.id) := by
    intro hm
    obtain ⟨x, hx1, hx2⟩ := List.mem_map.1 hm
    exact hn x (by rw [handles_eq]; exact hcr.ents.sub _ (hcr.ordLive g x hx1)) hx2
  obtain ⟨od, o1, o2, o3⟩ := hcr.orders.remove g (e := e.id) (by rw [hcr.ocap]; exact hc) (by omega)
  rw [List.erase_of_not_mem hout] at o2
  have heq : Orders.upd (fun g => ((world h).order g).map (·.id)) g (((world h).order g).map (·.id)) =
      fun g => ((world h).order g).map (·.id) := by
    funext k
    unfold Orders.upd
    split
    · rename_i hk; rw [hk]
    · rfl
  rw [heq] at o2
  refine ⟨{ s with orders := od }, by unfold Store.removeOrder; simp only [o1, ok_bind, pure_ok], fun g' => ?_⟩
  have hm : ∀ o, Store.mapEntity { s with orders := od } o = s.mapEntity o := fun o => by cases o <;> rfl
  refine ⟨?_, ?_, fun x hxm => ?_⟩
  · unfold Store.getFirstOrdered
    simp only [o2.getHead, hcr.orders.getHead, ok_bind, hm]
  · unfold Store.getLastOrdered
    simp only [o2.getTail, hcr.orders.getTail, ok_bind, hm]
  · rw [handles_eq] at hxm
    have hxl := hcr.ents.issued_id_lt hxm
    have hl1 : x.id < od.entityCapacity := by rw [o3, hcr.ocap]; exact hxl
    have hl2 : x.id < s.orders.entityCapacity := by rw [hcr.ocap]; exact hxl
    unfold Store.getNextOrdered Store.getPreviousOrdered
    simp only [o2.getNext g' hl1, o2.getPrevious g' hl1, hcr.orders.getNext g' hl2, hcr.orders.getPrevious g' hl2, ok_bind, hm]
    exact ⟨trivial, trivial⟩

end

/-- **C101 is false of a release build**: room for four entities, one created; destroying handle 1 of another store
makes the next entity created dead from birth, and the one after it gets the same id. The tag given through another such
handle is found on the new entity. -/
theorem C101_counterexample : ∃ s s1 s2 s3 s4 s5, WellExec demo false 4 [.created ⟨0, 1⟩] s ∧
    s.destroyEntity false ⟨1, 1⟩ = .ok s1 ∧ s1.createEntity false = .ok (s2, ⟨1, 1⟩) ∧ s2.isAlive false ⟨1, 1⟩ = .ok false ∧
    s2.createEntity false = .ok (s3, ⟨1, 2⟩) ∧ s3.isAlive false ⟨1, 2⟩ = .ok true ∧
    s.addTag 7 ⟨1, 1⟩ = .ok s4 ∧ s4.createEntity false = .ok (s5, ⟨1, 1⟩) ∧ s5.hasTag 7 ⟨1, 1⟩ = .ok true := by
  have h : ((runWell demo false 4 [.created ⟨0, 1⟩]).any fun s =>
      okAnd (s.destroyEntity false ⟨1, 1⟩) fun s1 =>
      okAnd (s1.createEntity false) fun r2 =>
      okAnd (r2.1.createEntity false) fun r3 =>
      okAnd (s.addTag 7 ⟨1, 1⟩) fun s4 =>
      okAnd (s4.createEntity false) fun r5 =>
      decide (r2.2 = ⟨1, 1⟩) && (decide (r2.1.isAlive false ⟨1, 1⟩ = .ok false) && (decide (r3.2 = ⟨1, 2⟩) &&
      (decide (r3.1.isAlive false ⟨1, 2⟩ = .ok true) && (decide (r5.2 = ⟨1, 1⟩) &&
      decide (r5.1.hasTag 7 ⟨1, 1⟩ = .ok true)))))) = true := by decide
  obtain ⟨s, hs, h⟩ := any_some h
  obtain ⟨s1, hs1, h⟩ := okAnd_iff h
  obtain ⟨⟨s2, e2⟩, hs2, h⟩ := okAnd_iff h
  obtain ⟨⟨s3, e3⟩, hs3, h⟩ := okAnd_iff h
  obtain ⟨s4, hs4, h⟩ := okAnd_iff h
  obtain ⟨⟨s5, e5⟩, hs5, h⟩ := okAnd_iff h
  simp only [Bool.and_eq_true, decide_eq_true_eq] at h
  obtain ⟨rfl, h2, rfl, h4, rfl, h6⟩ := h
  exact ⟨s, s1, s2, s3, s4, s5, runWell_sound hs, hs1, hs2, h2, hs3, h4, hs4, hs5, h6⟩

/-- One entity with a component, in a group. -/
def headed : List Event := [.orderedLast 9 ⟨0, 1⟩, .added ⟨0, 1⟩ [(1, [7])], .created ⟨0, 1⟩]

/-- Three entities in a store that had room for one and had to grow; the first has a component. -/
def grownThree : List Event := [.added ⟨0, 1⟩ [(1, [7])], .created ⟨2, 1⟩, .created ⟨1, 1⟩, .created ⟨0, 1⟩]

/-- **C101 is false of the code** in both build modes: two handles of another store added to a group make the mutable query
over the group hand out the same reference twice, to memory that belongs to no entity, and a handle of another store in the list of an entity
query makes the query read memory that was never written. -/
theorem C101_counterexample_queries (dbg : Bool) :
    (∃ s s1 s2 r q, WellExec demo dbg 4 headed s ∧ s.addOrder dbg 9 ⟨1, 1⟩ = .ok s1 ∧ s1.addOrder dbg 9 ⟨2, 1⟩ = .ok s2 ∧
      s2.getComponentsRefs demo dbg ⟨0, 1⟩ [1] = .ok (some [r]) ∧ q ≠ r ∧
      runOrderedQuery demo dbg s2 9 (.write [1]) [] 10 = .ok [[r], [q], [q]]) ∧
    ∃ s, WellExec demo dbg 1 grownThree s ∧ 3 < s.ents.capacity ∧ (∀ x ∈ handles grownThree, x.id ≠ 3) ∧
      runEntityQuery demo dbg s [⟨0, 1⟩, ⟨3, 1⟩] (.readonly [1]) [] 10 = .error (.ub .uninit) := by
  have h1 : ((runWell demo dbg 4 headed).any fun s =>
      okAnd (s.addOrder dbg 9 ⟨1, 1⟩) fun s1 =>
      okAnd (s1.addOrder dbg 9 ⟨2, 1⟩) fun s2 =>
      decide (s2.getComponentsRefs demo dbg ⟨0, 1⟩ [1] = .ok (some [⟨4, 0, 1⟩]) ∧
        runOrderedQuery demo dbg s2 9 (.write [1]) [] 10 = .ok [[⟨4, 0, 1⟩], [⟨0, 0, 1⟩], [⟨0, 0, 1⟩]])) = true := by
    cases dbg <;> decide
  have h2 : ((runWell demo dbg 1 grownThree).any fun s => decide (3 < s.ents.capacity ∧
      runEntityQuery demo dbg s [⟨0, 1⟩, ⟨3, 1⟩] (.readonly [1]) [] 10 = .error (.ub .uninit))) = true := by
    cases dbg <;> decide
  constructor
  · obtain ⟨s, hs, h⟩ := any_some h1
    obtain ⟨s1, hs1, h⟩ := okAnd_iff h
    obtain ⟨s2, hs2, h⟩ := okAnd_iff h
    obtain ⟨h3, h4⟩ := of_decide_eq_true h
    exact ⟨s, s1, s2, _, _, runWell_sound hs, hs1, hs2, h3, by decide, h4⟩
  · obtain ⟨s, hs, h⟩ := any_some h2
    obtain ⟨h3, h4⟩ := of_decide_eq_true h
    exact ⟨s, runWell_sound hs, h3, by decide, h4⟩

/-- The hypotheses of the theorems above are met by the same history, in both build modes: handle 1 is inside the
memory and was never issued. -/
example (dbg : Bool) : ∃ s, LooseExec demo dbg 4 [.created ⟨0, 1⟩] s ∧ (⟨1, 1⟩ : Entity).id < s.ents.capacity ∧
    (∀ x ∈ handles [.created ⟨0, 1⟩], x.id ≠ (⟨1, 1⟩ : Entity).id) ∧ ⟨1, 1⟩ ∉ alive [.created ⟨0, 1⟩] := by
  have h : ((runLoose demo dbg 4 [.created ⟨0, 1⟩]).any fun s => decide (1 < s.ents.capacity)) = true := by
    cases dbg <;> decide
  obtain ⟨s, hs, h⟩ := any_some h
  exact ⟨s, runLoose_sound hs, of_decide_eq_true h, by decide, by decide⟩

end Ecs.Props
