import Verif.Proofs.QueryCost
import Verif.Props.Pages
import Verif.Props.Slots
import Verif.Props.QueryAny

/-! C106: what starting a query examines and remembers. -/

namespace Ecs.Props
open Spec Meter

section
variable {U : Universe} {dbg : Bool} {cap : Nat} {h : List Event} {s : Store} {acc : Access} {w : Work}

private theorem counted {α : Type} {m : Meter α} {r : Res α} {P : α → Work → Prop} (hm : Measured m r P) (a : α) :
    r = .ok a ↔ ∃ w, m {} = .ok (a, w) := by
  have := hm {}
  cases r with
  | ok b =>
    obtain ⟨w, h1, _⟩ := this
    rw [Work.zero_add] at h1
    constructor
    · rintro ⟨⟩; exact ⟨w, h1⟩
    · rintro ⟨v, h2⟩; rw [h1] at h2; cases h2; rfl
  | error f =>
    dsimp only at this
    constructor
    · rintro ⟨⟩
    · rintro ⟨v, h2⟩; rw [this] at h2; cases h2

private theorem holds {α : Type} {m : Meter α} {r : Res α} {P : α → Work → Prop} (hm : Measured m r P) {a : α} {w : Work}
    (h : m {} = .ok (a, w)) : P a w := by
  obtain ⟨v, h1, h2⟩ := hm.ok ((counted hm a).2 ⟨w, h⟩) {}
  rw [Work.zero_add] at h1
  rw [h1] at h
  cases h
  exact h2

/-- The links of a group lead from member to member. -/
private theorem measured_ordered (hx : LooseExec U dbg cap h s) (g : Nat) (old : List (Range × IterView)) (fuel : Nat) :
    Measured (orderedQueryIterM U s g acc old fuel) (orderedQueryIter U s g acc old fuel)
      (fun it w => w = { entities := w.entities } ∧ (sequence g h).length ≤ w.entities ∧
        w.entities ≤ (sequence g h).length + it.ranges.length ∧ w.entities ≤ 2 * (sequence g h).length - 1 ∧
        it.ranges.length ≤ (sequence g h).length) := by
  have hc := loose_core hx
  have hs : sequence g h = (world h).order g := sequence_eq g h
  rw [hs]
  unfold orderedQueryIterM orderedQueryIter Orders.getGroupIndex
  cases hb : binarySearch s.orders.groupIds g with
  | notFound j =>
    have hnil : (world h).order g = [] := List.map_eq_nil_iff.1 (hc.orders.unreg g (lookupK_notFound hb))
    rw [hnil]
    exact Measured.pure _ ⟨rfl, by simp⟩
  | found i =>
    obtain ⟨gr, h1, h2, h3⟩ := hc.orders.get hb
    have hh : gr.head = headId (((world h).order g).drop 0) := by
      rw [h3.head, List.drop_zero]; unfold headId; rw [List.head?_map]
    dsimp only
    rw [idxUnchecked_of_some h1]
    refine Measured.step fun y hy => ?_
    cases hy
    rw [hh]
    refine Measured.bind (measured_orderedOuter h3 fuel 0 (Nat.zero_le _)) (fun r _ => Measured.pure0 _) ?_
    rintro r b v w - hb2 hq rfl
    cases hb2
    rw [Work.add_zero]
    simpa using hq

/-- **C106**, counting changes nothing: in any state, a query starts with some iterator exactly if the counting version does. -/
theorem C106_counts (l : List Entity) (g : Nat) (old : List IterView) (old' : List (Range × IterView)) (fuel : Nat) :
    (∀ it, componentQueryIter U s acc old = .ok it ↔ ∃ w, componentQueryIterM U s acc old {} = .ok (it, w)) ∧
    (∀ it, entityQueryIter U dbg s l acc old' = .ok it ↔ ∃ w, entityQueryIterM U dbg s l acc old' {} = .ok (it, w)) ∧
    (∀ it, orderedQueryIter U s g acc old' fuel = .ok it ↔ ∃ w, orderedQueryIterM U s g acc old' fuel {} = .ok (it, w)) :=
  ⟨fun _ => counted (measured_component old) _, fun _ => counted (measured_entity l old') _,
    fun _ => counted (measured_ordered_any g old' fuel) _⟩

theorem passed_eq (hx : LooseExec U dbg cap h s) :
    passedPages s.archs acc (List.range s.archs.archetypes.length) = pagesWith s acc := by
  have hsh := (loose_shape hx).archs
  unfold passedPages pagesWith
  refine List.flatMap_congr fun i hi => ?_
  rw [List.mem_range] at hi
  obtain ⟨a, ha⟩ : ∃ a, s.archs.archetypes[i]? = some a := ⟨_, List.getElem?_eq_getElem hi⟩
  obtain ⟨l, hl⟩ : ∃ l, s.archs.layouts[i]? = some l := ⟨_, List.getElem?_eq_getElem (by rw [hsh.llen]; exact hi)⟩
  have hc : acc.included a = decide (Covers a.ids acc) := by
    rw [Bool.eq_iff_iff, decide_eq_true_eq]
    exact Access.included_covers (hsh.even i a l ha hl).1.sorted
  simp only [ha, Option.any_some, hc]

theorem pagesWith_nodup (hx : LooseExec U dbg cap h s) : (pagesWith s acc).Nodup ∧ ∀ p ∈ pagesWith s acc, p < s.archs.pages.length := by
  have hu := (loose_rows hx).use
  have hmem : ∀ (i p : Nat), p ∈ (if (s.archs.archetypes[i]?).any fun a => decide (Covers a.ids acc) then
      (s.archs.archPages[i]?).getD [] else []) → ∃ ps, s.archs.archPages[i]? = some ps ∧ p ∈ ps := by
    intro i p hp
    split at hp
    · cases hps : s.archs.archPages[i]? with
      | none => rw [hps] at hp; cases hp
      | some ps => rw [hps] at hp; exact ⟨ps, rfl, hp⟩
    · cases hp
  constructor
  · unfold pagesWith
    rw [List.nodup_flatMap]
    refine ⟨fun i _ => ?_, ?_⟩
    · split
      · cases hps : s.archs.archPages[i]? with
        | none => exact List.nodup_nil
        | some ps => exact hu.psNodup ps (List.mem_of_getElem? hps)
      · exact List.nodup_nil
    · refine List.nodup_range.imp fun {i j} hij => ?_
      intro p hp hq
      obtain ⟨ps, h1, h2⟩ := hmem i p hp
      obtain ⟨qs, h3, h4⟩ := hmem j p hq
      have := (hu.owner i ps p h1 h2).symm.trans (hu.owner j qs p h3 h4)
      exact hij (Option.some.inj this)
  · intro p hp
    obtain ⟨i, _, hp⟩ := List.mem_flatMap.1 hp
    obtain ⟨ps, h1, h2⟩ := hmem i p hp
    exact (loose_shape hx).archs.listed ps (List.mem_of_getElem? h1) p h2

/-- **C106**, component queries: starting one goes through all archetypes once, and through all pages of those with the types. It
remembers one view for each of these pages that is not empty; these are at most as many as the items. -/
theorem C106_component (hx : LooseExec U dbg cap h s) {old : List IterView} {it : CompIter}
    (hq : componentQueryIterM U s acc old {} = .ok (it, w)) :
    w = { archetypes := s.archs.archetypes.length, pages := (pagesWith s acc).length } ∧
    it.pageViews.length = ((pagesWith s acc).filter fun p => decide (rowsIn s p ≠ 0)).length ∧
    it.len = ((pagesWith s acc).map (rowsIn s)).sum ∧ it.pageViews.length ≤ it.len := by
  obtain ⟨h1, h2, h3⟩ := holds (measured_component old) hq
  rw [passed_eq hx] at h1 h2 h3
  refine ⟨h1, h2, h3, ?_⟩
  rw [h2, show it.len = _ from h3]
  generalize pagesWith s acc = l
  induction l with
  | nil => exact Nat.le_refl _
  | cons p l ih =>
    rw [List.map_cons, List.sum_cons]
    by_cases h0 : (s.archs.pages[p]?).elim 0 Page.entityCount ≠ 0
    · rw [List.filter_cons_of_pos (by simpa using h0), List.length_cons]
      omega
    · rw [List.filter_cons_of_neg (by simpa using h0)]
      omega

/-- **C106**, queries over a list, in any state: starting one looks at every entity of the list once or twice, the second time only
at the first entity after a range. There are at most as many ranges as entities in the list. -/
theorem C106_entities {l : List Entity} {old : List (Range × IterView)} {it : EntIter}
    (hq : entityQueryIterM U dbg s l acc old {} = .ok (it, w)) :
    w = { entities := w.entities } ∧ l.length ≤ w.entities ∧ w.entities ≤ l.length + it.ranges.length ∧
      w.entities ≤ 2 * l.length - 1 ∧ it.ranges.length ≤ l.length := holds (measured_entity l old) hq

/-- **C106**, queries over a group: the same, with the members of the group in place of the list. -/
theorem C106_ordered (hx : LooseExec U dbg cap h s) {g : Nat} {old : List (Range × IterView)} {fuel : Nat} {it : OrdIter}
    (hq : orderedQueryIterM U s g acc old fuel {} = .ok (it, w)) :
    w = { entities := w.entities } ∧ (sequence g h).length ≤ w.entities ∧
      w.entities ≤ (sequence g h).length + it.ranges.length ∧ w.entities ≤ 2 * (sequence g h).length - 1 ∧
      it.ranges.length ≤ (sequence g h).length := holds (measured_ordered hx g old fuel) hq

/-- **C106**, a bound: if never more than `L` entities were alive at once, starting a component query examines at most `L + 2`
archetypes and `2 * L + 5` pages. -/
theorem C106_bounded (hx : LooseExec U dbg cap h s) {L : Nat} (hL : ∀ h', h' <:+ h → (alive h').length ≤ L)
    {old : List IterView} {it : CompIter} (hq : componentQueryIterM U s acc old {} = .ok (it, w)) :
    AtMost w { archetypes := L + 2, pages := 2 * L + 5 } := by
  have hp := C61_pages_bounded hx hL
  have ha := C68_slots_bounded hx hL
  rw [(C106_component hx hq).1]
  refine ⟨ha, Nat.le_trans ?_ hp, Nat.le_refl _, Nat.le_refl _⟩
  obtain ⟨h1, h2⟩ := pagesWith_nodup (acc := acc) hx
  have := h1.length_le_of_subset (l₂ := List.range s.archs.pages.length) fun p hp => List.mem_range.2 (h2 p hp)
  simpa using this

end

/-! ### Examples -/

/-- Three entities with component 1 and one with component 4. Group 9 has the three, the last of them first. -/
def backwards : List Event :=
  [.orderedLast 9 ⟨0, 1⟩, .orderedLast 9 ⟨1, 1⟩, .orderedLast 9 ⟨2, 1⟩, .added ⟨2, 1⟩ [(1, [3])], .added ⟨1, 1⟩ [(1, [2])],
   .added ⟨0, 1⟩ [(1, [1])], .added ⟨3, 1⟩ [(4, [4])], .created ⟨3, 1⟩, .created ⟨2, 1⟩, .created ⟨1, 1⟩, .created ⟨0, 1⟩]

/-- The hypotheses of the theorems, and the counts. The component query goes through both archetypes and the one page with
component 1, and remembers one view. Over the list, in the order of the rows, the query looks at every entity once, and remembers
one range. Over the group it remembers three ranges, and looks at all entities but the first twice: both bounds are reached. -/
example : ∃ s it it' it'', LooseExec demo true 1 backwards s ∧ (∀ h', h' <:+ backwards → (alive h').length ≤ 4) ∧
    componentQueryIterM demo s (.write [1]) [] {} = .ok (it, { archetypes := 2, pages := 1 }) ∧ it.pageViews.length = 1 ∧ it.len = 3 ∧
    entityQueryIterM demo true s [⟨0, 1⟩, ⟨1, 1⟩, ⟨2, 1⟩] (.write [1]) [] {} = .ok (it', { entities := 3 }) ∧
    it'.ranges.length = 1 ∧
    orderedQueryIterM demo s 9 (.write [1]) [] 10 {} = .ok (it'', { entities := 5 }) ∧ it''.ranges.length = 3 := by
  have hrun : ((runLoose demo true 1 backwards).any fun s =>
      okAnd (componentQueryIterM demo s (.write [1]) [] {} : Res (CompIter × Work)) (fun x =>
        decide (x.2 = { archetypes := 2, pages := 1 } ∧ x.1.pageViews.length = 1 ∧ x.1.len = 3)) &&
      okAnd (entityQueryIterM demo true s [⟨0, 1⟩, ⟨1, 1⟩, ⟨2, 1⟩] (.write [1]) [] {} : Res (EntIter × Work)) (fun x =>
        decide (x.2 = { entities := 3 } ∧ x.1.ranges.length = 1)) &&
      okAnd (orderedQueryIterM demo s 9 (.write [1]) [] 10 {} : Res (OrdIter × Work)) (fun x =>
        decide (x.2 = { entities := 5 } ∧ x.1.ranges.length = 3))) = true := by decide +kernel
  obtain ⟨s, hs, hrun⟩ := any_some hrun
  rw [Bool.and_eq_true, Bool.and_eq_true] at hrun
  obtain ⟨⟨h1, h2⟩, h3⟩ := hrun
  obtain ⟨⟨it, w⟩, h1, k1⟩ := okAnd_iff h1
  obtain ⟨⟨it', w'⟩, h2, k2⟩ := okAnd_iff h2
  obtain ⟨⟨it'', w''⟩, h3, k3⟩ := okAnd_iff h3
  obtain ⟨a1, a2, a3⟩ := of_decide_eq_true k1
  obtain ⟨b1, b2⟩ := of_decide_eq_true k2
  obtain ⟨c1, c2⟩ := of_decide_eq_true k3
  dsimp only at a1 b1 c1
  subst a1 b1 c1
  refine ⟨s, it, it', it'', runLoose_sound hs, fun h' hh => ?_, h1, a2, a3, h2, b2, h3, c2⟩
  have : ∀ k ∈ List.range (backwards.length + 1), (alive (backwards.drop k)).length ≤ 4 := by decide
  obtain ⟨t, ht⟩ := hh
  have hd : backwards.drop t.length = h' := by rw [← ht, List.drop_left]
  rw [← hd]
  refine this _ (List.mem_range.2 ?_)
  rw [← ht, List.length_append]
  omega

end Ecs.Props
