import Verif.Proofs.Endless
import Verif.Props.QueryAny
import Verif.Props.Orders
import Verif.Spec.AddAgain

/-! Property C107: what adding a member of a group again does where it does not panic — in a release build, and with the sole
member of a group in any build. -/

namespace Ecs.Props
open Spec

section
variable {U : Universe} {dbg : Bool} {cap : Nat} {h : List Event} {s : Store}

private theorem stalled_of (hx : LooseExec U dbg cap h s) {g : Nat} {o : Orders} {gr : Group} {S : List Entity}
    (hb : o.Holds g gr) (hS : ∀ e ∈ S, e ∈ sequence g h) (hg : gr.Stuck s.ents.capacity (S.map (·.id))) :
    Stalled U h g { s with orders := o } := by
  have hr := loose_readable hx
  have hc := loose_core hx
  have hlive : ∀ e ∈ S, e ∈ (world h).live := fun e he => hc.ordLive g e (by rw [← sequence_eq]; exact hS e he)
  obtain ⟨⟨e, he, h1, h2⟩, h3⟩ := hc.stuck hb hlive hg
  have hdef : ∀ acc old fuel, orderedQueryIter U { s with orders := o } g acc old fuel = (do
      let (ranges, count) ← orderedOuterLoop U s acc gr.fwd fuel e.id
      return ⟨old.take 0 ++ ranges, 0, 0, 0, count⟩) := by
    intro acc old fuel
    obtain ⟨i, hb, hi⟩ := hb
    unfold orderedQueryIter Orders.getGroupIndex
    rw [hb]
    simp only [idxUnchecked_of_some hi, ok_bind, Readable.ordOuterLoop_orders, h1]
  refine ⟨⟨S, ⟨e, he, h2⟩, fun x hx => (h3 x hx).1⟩, fun acc old fuel it hit => ?_, fun hall acc old fuel => ?_⟩
  · rw [hdef] at hit
    obtain ⟨r, hr, _⟩ := bind_eq_ok.1 hit
    exact hg.outerLoop_not_ok acc fuel he r hr
  · rw [hdef, hg.outerLoop hr (fun x hxS => ?_) acc fuel he]
    · rfl
    · refine hr.of_bit ?_
      exact ((given_bit hx).2 x (by rw [alive_eq]; exact hlive x hxS)).2 (hall x (hS x hxS))

private theorem shrunk_of (hx : LooseExec U dbg cap h s) {g : Nat} {o : Orders} {gr : Group} {L : List Entity}
    (hb : o.Holds g gr) (hL : ∀ e ∈ L, e ∈ sequence g h) (hg : gr.Path s.ents.capacity (L.map (·.id))) :
    Shrunk U dbg h g { s with orders := o } L := by
  classical
  have hr := loose_readable hx
  have hc := loose_core hx
  have hlive : ∀ e ∈ L, e ∈ (world h).live := fun e he => hc.ordLive g e (by rw [← sequence_eq]; exact hL e he)
  have hid : ∀ e ∈ L, e.id < s.ents.capacity := fun e he => (hg.lt e.id (List.mem_map_of_mem he)).1
  refine ⟨hc.path hb hlive hg, fun hall acc old fuel hf => ?_⟩
  have hbit : ∀ e ∈ L, s.hasArch.bit e.id = true := fun e he =>
    ((given_bit hx).2 e (by rw [alive_eq]; exact hlive e he)).2 (hall e he)
  rcases hr.ordered_query_path (U := U) (dbg := dbg) (acc := acc) hb hg old hf with ⟨⟨e, he, k1⟩, _⟩ | ⟨_, _, _, _, k2⟩
  · exact (k1 (hr.of_bit (hbit e he))).elim
  · refine ⟨_, k2, ?_⟩
    have hfe : (L.filter fun e => decide (Shown s acc e)) = L.filter (selected dbg s acc) := by
      refine List.filter_congr fun e he => ?_
      rw [Bool.eq_iff_iff, decide_eq_true_eq, hr.selected_iff (hid e he)]
      exact ⟨fun h0 => ⟨hlive e he, hbit e he, h0⟩, fun h0 => h0.2.2⟩
    have hsel : selected dbg { s with orders := o } acc = selected dbg s acc := rfl
    rw [hsel, hfe, List.forall₂_map_right_iff, List.forall₂_same]
    intro e he
    obtain ⟨h1, h2⟩ := List.mem_filter.1 he
    exact hr.recordRefs_selected (hid e h1) h2

private theorem on_group (hx : LooseExec U dbg cap h s) (g : Nat) {op : Group → Res Group} {P : Group → Prop}
    (hop : ∀ gr : Group, gr.Rep s.ents.capacity ((sequence g h).map (·.id)) → ∃ g', op gr = .ok g' ∧ P g') :
    ∃ c' g', (s.orders.reserveGroup g).1.onGroup (s.orders.reserveGroup g).2 op = .ok c' ∧ c'.Holds g g' ∧ P g' := by
  have hc := loose_core hx
  refine hc.orders.onGroup_holds (gid := g) (op := op) (P := P) fun gr hgr => hop gr ?_
  rw [hc.ocap] at hgr
  rw [sequence_eq]
  exact hgr

private theorem add_eq {g : Nat} {e : Entity} {c' : Orders}
    (h : (s.orders.reserveGroup g).1.onGroup (s.orders.reserveGroup g).2 (fun gr => gr.add dbg e.id) = .ok c') :
    s.addOrder dbg g e = .ok { s with orders := c' } := by
  unfold Store.addOrder Orders.add; simp only [h, ok_bind, pure_ok]

private theorem addNextTo_eq {g : Nat} {e x : Entity} {c' : Orders}
    (h : (s.orders.reserveGroup g).1.onGroup (s.orders.reserveGroup g).2 (fun gr => gr.addNextTo dbg e.id x.id) = .ok c') :
    s.addOrderNextTo dbg g e x = .ok { s with orders := c' } := by
  unfold Store.addOrderNextTo Orders.addNextTo; simp only [h, ok_bind, pure_ok]

private theorem addPreviousTo_eq {g : Nat} {e x : Entity} {c' : Orders}
    (h : (s.orders.reserveGroup g).1.onGroup (s.orders.reserveGroup g).2 (fun gr => gr.addPreviousTo dbg e.id x.id) = .ok c') :
    s.addOrderPreviousTo dbg g e x = .ok { s with orders := c' } := by
  unfold Store.addOrderPreviousTo Orders.addPreviousTo; simp only [h, ok_bind, pure_ok]

/-- **C107**, the sole member of a group, in both build modes: adding it again, at the end, next to itself or in front of
itself, returns and leaves a group without end, over which no ordered query returns. -/
theorem C107_sole_member (hx : LooseExec U dbg cap h s) {g : Nat} {e : Entity} (h1 : sequence g h = [e]) :
    (∃ s', s.addOrder dbg g e = .ok s' ∧ Stalled U h g s') ∧
    (∃ s', s.addOrderNextTo dbg g e e = .ok s' ∧ Stalled U h g s') ∧
    (∃ s', s.addOrderPreviousTo dbg g e e = .ok s' ∧ Stalled U h g s') := by
  have hmem : ∀ x ∈ [e], x ∈ sequence g h := by rw [h1]; exact fun _ h => h
  refine ⟨?_, ?_, ?_⟩
  · obtain ⟨c', g', k1, k2, k3⟩ := on_group hx g (op := fun gr => gr.add dbg e.id)
      (P := fun gr => gr.Stuck s.ents.capacity ([e].map (·.id)))
      (fun gr hgr => by rw [h1] at hgr; exact hgr.add_again (by simp) (.inr rfl))
    exact ⟨_, add_eq k1, stalled_of hx k2 hmem k3⟩
  · obtain ⟨c', g', k1, k2, k3⟩ := on_group hx g (op := fun gr => gr.addNextTo dbg e.id e.id)
      (P := fun gr => gr.Stuck s.ents.capacity ([e].map (·.id)))
      (fun gr hgr => by rw [h1] at hgr; exact hgr.addNextTo_self (A := []) (C := []) (.inr rfl))
    exact ⟨_, addNextTo_eq k1, stalled_of hx k2 hmem k3⟩
  · obtain ⟨c', g', k1, k2, k3⟩ := on_group hx g (op := fun gr => gr.addPreviousTo dbg e.id e.id)
      (P := fun gr => gr.Stuck s.ents.capacity ([e].map (·.id)))
      (fun gr hgr => by rw [h1] at hgr; exact hgr.addPreviousTo_self (A := []) (C := []) (.inr rfl))
    exact ⟨_, addPreviousTo_eq k1, stalled_of hx k2 hmem k3⟩

/-- **C107**, release builds: adding any member of a group at the end again returns and leaves a group without end. -/
theorem C107_add_again (hx : LooseExec U false cap h s) {g : Nat} {e : Entity} (he : e ∈ sequence g h) :
    ∃ s', s.addOrder false g e = .ok s' ∧ Stalled U h g s' := by
  obtain ⟨c', g', k1, k2, k3⟩ := on_group hx g (op := fun gr => gr.add false e.id)
    (P := fun gr => gr.Stuck s.ents.capacity ((sequence g h).map (·.id)))
    (fun gr hgr => hgr.add_again (List.mem_map_of_mem he) (.inl rfl))
  exact ⟨_, add_eq k1, stalled_of hx k2 (fun _ h => h) k3⟩

/-- **C107**, release builds: adding a member again next to itself, to an earlier member or to the last member leaves a group
without end; next to any other member `x`, it makes `x` and all members between the two disappear from the group. -/
theorem C107_next_to_again (hx : LooseExec U false cap h s) {g : Nat} {e : Entity} :
    (∀ A C, sequence g h = A ++ e :: C → ∃ s', s.addOrderNextTo false g e e = .ok s' ∧ Stalled U h g s') ∧
    (∀ x A B C, sequence g h = A ++ x :: B ++ e :: C → ∃ s', s.addOrderNextTo false g e x = .ok s' ∧ Stalled U h g s') ∧
    (∀ x A B, sequence g h = A ++ e :: B ++ [x] → ∃ s', s.addOrderNextTo false g e x = .ok s' ∧ Stalled U h g s') ∧
    (∀ x y A B C, sequence g h = A ++ e :: B ++ x :: y :: C →
      ∃ s', s.addOrderNextTo false g e x = .ok s' ∧ Shrunk U false h g s' (A ++ e :: y :: C)) := by
  refine ⟨fun A C h1 => ?_, fun x A B C h1 => ?_, fun x A B h1 => ?_, fun x y A B C h1 => ?_⟩
  · obtain ⟨c', g', k1, k2, k3⟩ := on_group hx g (op := fun gr => gr.addNextTo false e.id e.id)
      (P := fun gr => gr.Stuck s.ents.capacity ((A ++ [e]).map (·.id)))
      (fun gr hgr => by
        rw [h1] at hgr
        simp only [List.map_append, List.map_cons, List.map_nil] at hgr ⊢
        exact hgr.addNextTo_self (.inl rfl))
    refine ⟨_, addNextTo_eq k1, stalled_of hx k2 (fun z hz => ?_) k3⟩
    rw [h1]
    simp only [List.mem_append, List.mem_cons, List.not_mem_nil, or_false] at hz ⊢
    tauto
  · obtain ⟨c', g', k1, k2, k3⟩ := on_group hx g (op := fun gr => gr.addNextTo false e.id x.id)
      (P := fun gr => gr.Stuck s.ents.capacity ((A ++ x :: B ++ [e]).map (·.id)))
      (fun gr hgr => by
        rw [h1] at hgr
        simp only [List.map_append, List.map_cons, List.map_nil] at hgr ⊢
        exact hgr.addNextTo_earlier)
    refine ⟨_, addNextTo_eq k1, stalled_of hx k2 (fun z hz => ?_) k3⟩
    rw [h1]
    simp only [List.mem_append, List.mem_cons, List.not_mem_nil, or_false] at hz ⊢
    tauto
  · obtain ⟨c', g', k1, k2, k3⟩ := on_group hx g (op := fun gr => gr.addNextTo false e.id x.id)
      (P := fun gr => gr.Stuck s.ents.capacity ((A ++ e :: B ++ [x]).map (·.id)))
      (fun gr hgr => by
        rw [h1] at hgr
        simp only [List.map_append, List.map_cons, List.map_nil] at hgr ⊢
        exact hgr.addNextTo_last)
    exact ⟨_, addNextTo_eq k1, stalled_of hx k2 (fun z hz => by rw [h1]; exact hz) k3⟩
  · obtain ⟨c', g', k1, k2, k3⟩ := on_group hx g (op := fun gr => gr.addNextTo false e.id x.id)
      (P := fun gr => gr.Path s.ents.capacity ((A ++ e :: y :: C).map (·.id)))
      (fun gr hgr => by
        rw [h1] at hgr
        simp only [List.map_append, List.map_cons] at hgr ⊢
        exact hgr.addNextTo_later)
    refine ⟨_, addNextTo_eq k1, shrunk_of hx k2 (fun z hz => ?_) k3⟩
    rw [h1]
    simp only [List.mem_append, List.mem_cons] at hz ⊢
    tauto

/-- **C107**, release builds: adding a member again in front of itself or of an earlier member leaves a group without end; in
front of a later member, it makes all members between the two disappear from the group. -/
theorem C107_previous_to_again (hx : LooseExec U false cap h s) {g : Nat} {e : Entity} :
    (∀ A C, sequence g h = A ++ e :: C → ∃ s', s.addOrderPreviousTo false g e e = .ok s' ∧ Stalled U h g s') ∧
    (∀ x A B C, sequence g h = A ++ x :: B ++ e :: C → ∃ s', s.addOrderPreviousTo false g e x = .ok s' ∧ Stalled U h g s') ∧
    (∀ x A B C, sequence g h = A ++ e :: B ++ x :: C →
      ∃ s', s.addOrderPreviousTo false g e x = .ok s' ∧ Shrunk U false h g s' (A ++ e :: x :: C)) := by
  refine ⟨fun A C h1 => ?_, fun x A B C h1 => ?_, fun x A B C h1 => ?_⟩
  · obtain ⟨c', g', k1, k2, k3⟩ := on_group hx g (op := fun gr => gr.addPreviousTo false e.id e.id)
      (P := fun gr => gr.Stuck s.ents.capacity ((A ++ [e]).map (·.id)))
      (fun gr hgr => by
        rw [h1] at hgr
        simp only [List.map_append, List.map_cons, List.map_nil] at hgr ⊢
        exact hgr.addPreviousTo_self (.inl rfl))
    refine ⟨_, addPreviousTo_eq k1, stalled_of hx k2 (fun z hz => ?_) k3⟩
    rw [h1]
    simp only [List.mem_append, List.mem_cons, List.not_mem_nil, or_false] at hz ⊢
    tauto
  · obtain ⟨c', g', k1, k2, k3⟩ := on_group hx g (op := fun gr => gr.addPreviousTo false e.id x.id)
      (P := fun gr => gr.Stuck s.ents.capacity ((A ++ x :: B ++ [e]).map (·.id)))
      (fun gr hgr => by
        rw [h1] at hgr
        simp only [List.map_append, List.map_cons, List.map_nil] at hgr ⊢
        exact hgr.addPreviousTo_earlier)
    refine ⟨_, addPreviousTo_eq k1, stalled_of hx k2 (fun z hz => ?_) k3⟩
    rw [h1]
    simp only [List.mem_append, List.mem_cons, List.not_mem_nil, or_false] at hz ⊢
    tauto
  · obtain ⟨c', g', k1, k2, k3⟩ := on_group hx g (op := fun gr => gr.addPreviousTo false e.id x.id)
      (P := fun gr => gr.Path s.ents.capacity ((A ++ e :: x :: C).map (·.id)))
      (fun gr hgr => by
        rw [h1] at hgr
        simp only [List.map_append, List.map_cons] at hgr ⊢
        exact hgr.addPreviousTo_later)
    refine ⟨_, addPreviousTo_eq k1, shrunk_of hx k2 (fun z hz => ?_) k3⟩
    rw [h1]
    simp only [List.mem_append, List.mem_cons] at hz ⊢
    tauto

private theorem ends_not (hn : NeverEnds s g) (l : List Entity) : ¬ GoesThrough s g l := by
  obtain ⟨S, ⟨e, he, h1⟩, h2⟩ := hn
  rintro ⟨h3, h4⟩
  rw [h1] at h3
  rw [← Except.ok.inj h3] at h4
  have : ∀ (l : List Entity) e, e ∈ S → ¬ WalksForward s g (some e) l := by
    intro l
    induction l with
    | nil => intro e _ hw; cases hw
    | cons a l ih =>
      intro e he hw
      obtain ⟨y, hy, hn⟩ := h2 e he
      cases hw with
      | step k1 k2 =>
        rw [hn] at k1
        cases k1
        exact ih y hy k2
  exact this l e he h4

private theorem split_two {L : List Entity} {e x : Entity} (he : e ∈ L) (hx : x ∈ L) :
    (e = x ∧ ∃ A C, L = A ++ e :: C) ∨ (∃ A B C, L = A ++ x :: B ++ e :: C) ∨ ∃ A B C, L = A ++ e :: B ++ x :: C := by
  obtain ⟨A, C, rfl⟩ := List.append_of_mem he
  rcases List.mem_append.1 hx with h1 | h1
  · obtain ⟨A, B, rfl⟩ := List.append_of_mem h1
    exact .inr (.inl ⟨A, B, C, rfl⟩)
  · rcases List.mem_cons.1 h1 with rfl | h1
    · exact .inl ⟨rfl, A, C, rfl⟩
    · obtain ⟨B, C, rfl⟩ := List.append_of_mem h1
      exact .inr (.inr ⟨A, B, C, by simp⟩)

/-- **C107**, exactly, in release builds: after a member was added again to a group next to (in front of) a member, walking
through the group comes to an end if and only if the reference comes after it and is not the last one (comes after it). -/
theorem C107_ends_iff (hx : LooseExec U false cap h s) {g : Nat} {e x : Entity} (he : e ∈ sequence g h) (hxm : x ∈ sequence g h) :
    (∀ s', s.addOrderNextTo false g e x = .ok s' →
      ((∃ l, GoesThrough s' g l) ↔ ∃ A B y C, sequence g h = A ++ e :: B ++ x :: y :: C)) ∧
    (∀ s', s.addOrderPreviousTo false g e x = .ok s' →
      ((∃ l, GoesThrough s' g l) ↔ ∃ A B C, sequence g h = A ++ e :: B ++ x :: C)) := by
  obtain ⟨n1, n2, n3, n4⟩ := C107_next_to_again hx (g := g) (e := e)
  obtain ⟨p1, p2, p3⟩ := C107_previous_to_again hx (g := g) (e := e)
  constructor <;> intro s' hr <;> constructor
  · rintro ⟨l, hl⟩
    rcases split_two he hxm with ⟨rfl, A, C, h1⟩ | ⟨A, B, C, h1⟩ | ⟨A, B, C, h1⟩
    · obtain ⟨s1, k1, k2⟩ := n1 A C h1
      rw [hr] at k1; cases k1
      exact (ends_not k2.members l hl).elim
    · obtain ⟨s1, k1, k2⟩ := n2 x A B C h1
      rw [hr] at k1; cases k1
      exact (ends_not k2.members l hl).elim
    · cases C with
      | nil =>
        obtain ⟨s1, k1, k2⟩ := n3 x A B h1
        rw [hr] at k1; cases k1
        exact (ends_not k2.members l hl).elim
      | cons y C => exact ⟨A, B, y, C, h1⟩
  · rintro ⟨A, B, y, C, h1⟩
    obtain ⟨s1, k1, k2⟩ := n4 x y A B C h1
    rw [hr] at k1; cases k1
    exact ⟨_, k2.members⟩
  · rintro ⟨l, hl⟩
    rcases split_two he hxm with ⟨rfl, A, C, h1⟩ | ⟨A, B, C, h1⟩ | ⟨A, B, C, h1⟩
    · obtain ⟨s1, k1, k2⟩ := p1 A C h1
      rw [hr] at k1; cases k1
      exact (ends_not k2.members l hl).elim
    · obtain ⟨s1, k1, k2⟩ := p2 x A B C h1
      rw [hr] at k1; cases k1
      exact (ends_not k2.members l hl).elim
    · exact ⟨A, B, C, h1⟩
  · rintro ⟨A, B, C, h1⟩
    obtain ⟨s1, k1, k2⟩ := p3 x A B C h1
    rw [hr] at k1; cases k1
    exact ⟨_, k2.members⟩

/-- **C107**, for comparison: as long as no member is added again (`LooseExec`), every walk through a group comes to an end, and
starting a query over it takes at most one step more than the group has members. -/
theorem C107_otherwise_ends (hx : LooseExec U dbg cap h s) (g : Nat) :
    GoesThrough s g (sequence g h) ∧
    ∀ acc old fuel, (sequence g h).length < fuel → orderedQueryIter U s g acc old fuel ≠ .error .outOfFuel := by
  refine ⟨?_, fun acc old fuel hf h0 => ?_⟩
  · obtain ⟨first, last, l, k1, _, k2, _, _, _, rfl, _⟩ := C42_walks_agree hx g
    have k3 := (C41_group_is_sequence hx g).2.2.1
    rw [k1] at k3
    cases k3
    exact ⟨k1, k2⟩
  · rw [sequence_eq] at hf
    rcases (loose_readable hx).ordered_query (U := U) (dbg := dbg) (acc := acc) (g := g) old hf with
      ⟨_, u, _, k1, _⟩ | ⟨_, it, k1, _⟩ <;> rw [h0] at k1 <;> cases k1

end

/-- A group with four members, all of which have components. -/
def quartet : List Event :=
  [.orderedLast 7 ⟨3, 1⟩, .orderedLast 7 ⟨2, 1⟩, .orderedLast 7 ⟨1, 1⟩, .orderedLast 7 ⟨0, 1⟩,
   .added ⟨3, 1⟩ [(1, [4])], .added ⟨2, 1⟩ [(1, [3])], .added ⟨1, 1⟩ [(1, [2])], .added ⟨0, 1⟩ [(1, [1])],
   .created ⟨3, 1⟩, .created ⟨2, 1⟩, .created ⟨1, 1⟩, .created ⟨0, 1⟩]

/-- `C107_add_again`, `C107_next_to_again`, `C107_previous_to_again`, `C107_ends_iff` apply to the group of `quartet`; and
adding its first member again next to the third one takes the second and third one from it. -/
example : ∃ s, LooseExec demo false 1 quartet s ∧ (∀ x ∈ sequence 7 quartet, x ∈ given quartet) ∧
    sequence 7 quartet = [] ++ ⟨0, 1⟩ :: [⟨1, 1⟩] ++ ⟨2, 1⟩ :: ⟨3, 1⟩ :: [] ∧
    sequence 7 quartet = [⟨0, 1⟩] ++ ⟨1, 1⟩ :: [] ++ ⟨2, 1⟩ :: [⟨3, 1⟩] ∧
    ∃ s', s.addOrderNextTo false 7 ⟨0, 1⟩ ⟨2, 1⟩ = .ok s' ∧ s'.getNextOrdered 7 ⟨0, 1⟩ = .ok (some ⟨3, 1⟩) ∧
      okAnd (runOrderedQuery demo false s 7 (.readonly [1]) [] 10) (fun l => decide (l.length = 4)) = true ∧
      okAnd (runOrderedQuery demo false s' 7 (.readonly [1]) [] 10) (fun l => decide (l.length = 2)) = true := by
  have h : ((runLoose demo false 1 quartet).any fun s =>
      okAnd (s.addOrderNextTo false 7 ⟨0, 1⟩ ⟨2, 1⟩) fun s' =>
        decide (s'.getNextOrdered 7 ⟨0, 1⟩ = .ok (some ⟨3, 1⟩)) &&
        (okAnd (runOrderedQuery demo false s 7 (.readonly [1]) [] 10) (fun l => decide (l.length = 4)) &&
        okAnd (runOrderedQuery demo false s' 7 (.readonly [1]) [] 10) (fun l => decide (l.length = 2)))) = true := by
    decide +kernel
  obtain ⟨s, hs, h⟩ := any_some h
  obtain ⟨s', hs', h⟩ := okAnd_iff h
  rw [Bool.and_eq_true, Bool.and_eq_true, decide_eq_true_eq] at h
  exact ⟨s, runLoose_sound hs, by decide, by decide, by decide, s', hs', h.1, h.2.1, h.2.2⟩

/-- `C107_sole_member` applies, in a debug build, to a group of one entity with a component. -/
example : ∃ s, LooseExec demo true 1 [.orderedLast 7 ⟨0, 1⟩, .added ⟨0, 1⟩ [(1, [1])], .created ⟨0, 1⟩] s ∧
    sequence 7 [.orderedLast 7 ⟨0, 1⟩, .added ⟨0, 1⟩ [(1, [1])], .created ⟨0, 1⟩] = [⟨0, 1⟩] ∧
    ⟨0, 1⟩ ∈ given [.orderedLast 7 ⟨0, 1⟩, .added ⟨0, 1⟩ [(1, [1])], .created ⟨0, 1⟩] := by
  have h : (runLoose demo true 1 [.orderedLast 7 ⟨0, 1⟩, .added ⟨0, 1⟩ [(1, [1])], .created ⟨0, 1⟩]).isSome = true := by
    decide +kernel
  obtain ⟨s, hs⟩ := Option.isSome_iff_exists.1 h
  exact ⟨s, runLoose_sound hs, by decide, by decide⟩

/-- **C107**, an infinite loop without any unsafe code and in a debug build: a program that returns from all its calls and then
starts a query that never returns. -/
theorem C107_debug_loop_exists : ∃ s s', LooseExec demo true 1
      [.orderedLast 7 ⟨0, 1⟩, .added ⟨0, 1⟩ [(1, [1])], .created ⟨0, 1⟩] s ∧
    s.addOrder true 7 ⟨0, 1⟩ = .ok s' ∧
    ∀ acc old fuel, orderedQueryIter demo s' 7 acc old fuel = .error .outOfFuel := by
  have h : (runLoose demo true 1 [.orderedLast 7 ⟨0, 1⟩, .added ⟨0, 1⟩ [(1, [1])], .created ⟨0, 1⟩]).isSome = true := by
    decide +kernel
  obtain ⟨s, hs⟩ := Option.isSome_iff_exists.1 h
  have hx := runLoose_sound hs
  obtain ⟨⟨s', h1, h2⟩, _⟩ := C107_sole_member hx (g := 7) (e := ⟨0, 1⟩) (by decide)
  exact ⟨s, s', hx, h1, h2.forever (by decide)⟩

end Ecs.Props
