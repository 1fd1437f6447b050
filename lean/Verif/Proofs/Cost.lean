import Verif.Spec.Cost
import Verif.Proofs.BuildUp
import Verif.Proofs.Pages

/-! The counting functions compute what the others compute, and bounds for what they count. -/

namespace Ecs
open Spec

theorem Work.add_def (v w : Work) : v + w =
    ⟨v.archetypes + w.archetypes, v.pages + w.pages, v.tags + w.tags, v.groups + w.groups,
      v.entities + w.entities⟩ := rfl

theorem Work.add_zero (v : Work) : v + {} = v := rfl

theorem Work.add_assoc (u v w : Work) : u + v + w = u + (v + w) := by
  simp only [Work.add_def, Nat.add_assoc]

theorem Work.zero_add (v : Work) : ({} : Work) + v = v := by
  simp only [Work.add_def, Nat.zero_add]

namespace Meter

/-- The counting function `m` does what `r` says, and counts `w` with `P w`. -/
def Measured {α : Type} (m : Meter α) (r : Res α) (P : α → Work → Prop) : Prop :=
  ∀ w0, match r with
    | .ok a => ∃ w, m w0 = .ok (a, w0 + w) ∧ P a w
    | .error f => m w0 = .error f

variable {α β : Type}

theorem Measured.ok {m : Meter α} {r : Res α} {P : α → Work → Prop} (h : Measured m r P) {a : α} (hr : r = .ok a) (w0 : Work) :
    ∃ w, m w0 = .ok (a, w0 + w) ∧ P a w := by
  have := h w0
  rw [hr] at this
  exact this

theorem Measured.pure (a : α) {P : α → Work → Prop} (h : P a {}) : Measured (pure a) (pure a) P :=
  fun _ => ⟨{}, rfl, h⟩

theorem Measured.pureOk (a : α) {P : α → Work → Prop} (h : P a {}) : Measured (Pure.pure a) (.ok a) P :=
  fun _ => ⟨{}, rfl, h⟩

theorem Measured.mono {m : Meter α} {r : Res α} {P Q : α → Work → Prop} (h : Measured m r P)
    (hq : ∀ a w, r = .ok a → P a w → Q a w) : Measured m r Q := by
  intro w0
  have := h w0
  cases r with
  | error f => exact this
  | ok a => obtain ⟨w, h1, h2⟩ := this; exact ⟨w, h1, hq a w rfl h2⟩

theorem Measured.bind {m : Meter α} {r : Res α} {k : α → Meter β} {k' : α → Res β} {P : α → Work → Prop}
    {Q : α → β → Work → Prop} {R : β → Work → Prop} (h : Measured m r P)
    (hk : ∀ a, r = .ok a → Measured (k a) (k' a) (Q a))
    (hR : ∀ a b v w, r = .ok a → k' a = .ok b → P a v → Q a b w → R b (v + w)) :
    Measured (m >>= k) (r >>= k') R := by
  intro w0
  have h1 := h w0
  cases r with
  | error f =>
    show (m >>= k) w0 = _
    rw [show (m >>= k) w0 = (m w0 >>= fun p => k p.1 p.2) from rfl, h1]; rfl
  | ok a =>
    obtain ⟨v, h1, hP⟩ := h1
    have h2 := hk a rfl (w0 + v)
    rw [ok_bind]
    have he : (m >>= k) w0 = k a (w0 + v) := by
      rw [show (m >>= k) w0 = (m w0 >>= fun p => k p.1 p.2) from rfl, h1, ok_bind]
    cases hb : k' a with
    | error f => rw [hb] at h2; exact he.trans h2
    | ok b =>
      rw [hb] at h2
      obtain ⟨w, h2, hQ⟩ := h2
      exact ⟨v + w, by rw [← Work.add_assoc]; exact he.trans h2, hR a b v w rfl hb hP hQ⟩

theorem Measured.bindOk {m : Meter α} {a : α} {k : α → Meter β} {r : Res β} {P : α → Work → Prop}
    {Q R : β → Work → Prop} (h : Measured m (.ok a) P) (hk : Measured (k a) r Q)
    (hR : ∀ b v w, r = .ok b → P a v → Q b w → R b (v + w)) : Measured (m >>= k) r R :=
  Measured.bind (k' := fun _ => r) (r := .ok a) (Q := fun _ => Q) h (fun b hb => by cases hb; exact hk)
    fun b c v w hb hc hp hq => by cases hb; exact hR c v w hc hp hq

theorem Measured.pure0 (a : α) : Measured (Pure.pure a) (Pure.pure a) (fun _ w => w = {}) := Measured.pure a rfl

theorem Measured.step {r : Res α} {k : α → Meter β} {k' : α → Res β} {Q : β → Work → Prop}
    (hk : ∀ a, r = .ok a → Measured (k a) (k' a) Q) : Measured (Meter.step r >>= k) (r >>= k') Q := by
  intro w0
  cases r with
  | error f => rfl
  | ok a => exact hk a rfl w0

theorem Measured.last {r : Res α} {P : α → Work → Prop} (h : ∀ a, r = .ok a → P a {}) : Measured (Meter.step r) r P := by
  intro w0
  cases r with
  | error f => rfl
  | ok a => exact ⟨{}, rfl, h a rfl⟩

theorem Measured.tick {m : Meter α} {r : Res α} {P Q : α → Work → Prop} {w : Work} (h : Measured m r P)
    (hq : ∀ a v, r = .ok a → P a v → Q a (w + v)) : Measured (Meter.tick w >>= fun _ => m) r Q := by
  intro w0
  have := h (w0 + w)
  cases r with
  | error f => exact this
  | ok a =>
    obtain ⟨v, h1, h2⟩ := this
    exact ⟨w + v, by rw [← Work.add_assoc]; exact h1, hq a v rfl h2⟩

theorem Measured.ite {c : Prop} [Decidable c] {m m' : Meter α} {r r' : Res α} {P : α → Work → Prop}
    (h1 : c → Measured m r P) (h2 : ¬ c → Measured m' r' P) : Measured (if c then m else m') (if c then r else r') P := by
  split
  · next h => exact h1 h
  · next h => exact h2 h

/-- A loop that counts `w` in every iteration. -/
theorem measured_mapM {α' : Type} {f : α → Res α'} {w : Work} :
    ∀ l : List α, Measured (l.mapM fun x => do Meter.tick w; Meter.step (f x)) (l.mapM f)
      (fun _ v => v = ⟨l.length * w.archetypes, l.length * w.pages, l.length * w.tags, l.length * w.groups,
        l.length * w.entities⟩)
  | [] => by
    rw [List.mapM_nil, List.mapM_nil]
    refine Measured.pure _ ?_
    simp
  | x :: l => by
    rw [List.mapM_cons, List.mapM_cons, bind_assoc]
    refine Measured.tick (w := w) (P := fun _ v => v = ⟨l.length * w.archetypes, l.length * w.pages, l.length * w.tags,
      l.length * w.groups, l.length * w.entities⟩) ?_ ?_
    · refine Measured.step fun a _ => ?_
      refine Measured.bind (measured_mapM l) (fun b _ => Measured.pure (P := fun _ v => v = {}) _ rfl) ?_
      rintro _ _ v _ _ _ rfl rfl
      rfl
    · rintro _ v _ rfl
      simp only [Work.add_def, List.length_cons, Nat.add_mul, Nat.one_mul, Work.mk.injEq]
      omega

end Meter

open Meter

theorem searched_le {α : Type} (p : α → Bool) (l : List α) : searched p l ≤ l.length := by
  induction l with
  | nil => exact Nat.le_refl 0
  | cons x l ih => unfold searched; rw [List.length_cons]; split <;> omega

theorem searched_congr {α : Type} {p q : α → Bool} {l : List α} (h : ∀ x ∈ l, p x = q x) : searched p l = searched q l := by
  induction l with
  | nil => rfl
  | cons x l ih =>
    unfold searched
    rw [h x List.mem_cons_self, ih fun y hy => h y (List.mem_cons_of_mem _ hy)]

namespace Archs

/-- The archetypes have at most `B` pages each. -/
def Thin (c : Archs) (B : Nat) : Prop := ∀ ps ∈ c.archPages, ps.length ≤ B

variable {dbg : Bool} {c c' : Archs} {B : Nat}

theorem thin_sum (c : Archs) : c.Thin (c.archPages.map List.length).sum := by
  unfold Thin
  generalize c.archPages = l
  induction l with
  | nil => exact fun _ h => nomatch h
  | cons x l ih =>
    intro ps hps
    rw [List.map_cons, List.sum_cons]
    rcases List.mem_cons.1 hps with rfl | h
    · exact Nat.le_add_right _ _
    · exact Nat.le_trans (ih ps h) (Nat.le_add_left _ _)

theorem measured_findSame (a : Archetype) : ∀ (i : Nat) (l : List Archetype), Measured (findSameM a i l) (.ok (findSame a i l))
    (fun _ w => w = { archetypes := searched (·.isSameAs a) l })
  | i, [] => Measured.pureOk _ rfl
  | i, b :: l => by
    unfold findSameM findSame searched
    cases hb : b.isSameAs a with
    | true =>
      simp only [if_true]
      exact Measured.tick (Measured.pureOk (P := fun _ w => w = {}) _ rfl) (by rintro _ _ _ rfl; rfl)
    | false =>
      simp only [Bool.false_eq_true, if_false]
      refine Measured.tick (measured_findSame a (i + 1) l) ?_
      rintro _ _ _ rfl
      simp [Work.add_def, Nat.add_comm]

theorem measured_reserveArchetype (a : Archetype) : Measured (c.reserveArchetypeM dbg a) (c.reserveArchetype dbg a)
    (fun _ w => w = { archetypes := searched (·.isSameAs a) c.archetypes }) := by
  unfold reserveArchetypeM reserveArchetype
  refine Measured.bindOk (measured_findSame a 0 c.archetypes) (Q := fun _ w => w = {}) ?_ ?_
  · generalize findSame a 0 c.archetypes = o
    cases o with
    | some i =>
      dsimp only
      generalize binarySearch c.freeArchetypes i = o
      cases o <;> exact Measured.pure0 _
    | none =>
      refine Measured.step fun l _ => ?_
      generalize c.freeArchetypes.getLast? = o
      cases o with
      | some f => exact Measured.step fun _ _ => Measured.step fun _ _ => Measured.pure0 _
      | none => exact Measured.pure0 _
  · rintro _ _ _ _ rfl rfl
    rfl

theorem measured_findFreePage (pages : List Page) : ∀ l : List Nat, Measured (findFreePageM pages l) (findFreePage pages l)
    (fun _ w => w = { pages := searched (fun p => (pages[p]?).any Page.hasFreeSpace) l })
  | [] => Measured.pureOk _ rfl
  | p :: l => by
    unfold findFreePageM findFreePage searched
    refine Measured.tick (P := fun _ w => w = { pages := (if (pages[p]?).any Page.hasFreeSpace then 0 else
      searched (fun p => (pages[p]?).any Page.hasFreeSpace) l) }) (Measured.step fun page hp => ?_) ?_
    · have hp := idx_ok.1 hp
      rw [hp]
      cases hb : page.hasFreeSpace with
      | true => exact Measured.pure _ (by simp [hb])
      | false =>
        refine (measured_findFreePage pages l).mono ?_
        rintro _ _ _ rfl
        simp [hb]
    · rintro _ _ _ rfl
      split <;> simp [Work.add_def, Nat.add_comm]

theorem measured_reservePage (id i : Nat) : Measured (c.reservePageM dbg id i) (c.reservePage dbg id i)
    (fun _ w => ∃ ps, c.archPages[i]? = some ps ∧
      w = { pages := searched (fun p => (c.pages[p]?).any Page.hasFreeSpace) ps.reverse }) := by
  unfold reservePageM reservePage
  refine Measured.step fun ps hps => ?_
  refine Measured.bind (measured_findFreePage c.pages ps.reverse) (Q := fun _ _ w => w = {}) ?_ ?_
  · intro o _
    cases o with
    | some p => exact Measured.step fun _ _ => Measured.step fun _ _ => Measured.pure _ rfl
    | none =>
      refine Measured.bind (P := fun _ w => w = {}) (Q := fun _ _ w => w = {}) ?_ ?_ ?_
      · generalize c.freePages.getLast? = o
        cases o with
        | some p => exact Measured.pure0 _
        | none => exact Measured.step fun _ _ => Measured.step fun _ _ => Measured.pure0 _
      · intro x _
        exact Measured.step fun _ _ => Measured.step fun _ _ => Measured.step fun _ _ => Measured.step fun _ _ =>
          Measured.step fun _ _ => Measured.pure _ rfl
      · rintro _ _ _ _ _ _ rfl rfl
        rfl
  · rintro _ _ _ _ _ _ rfl rfl
    exact ⟨ps, idx_ok.1 hps, rfl⟩

theorem measured_findPage (p : Nat) : ∀ l : List Nat, Measured (findPageM p l) (.ok (l.contains p))
    (fun _ w => w = { pages := searched (fun q => decide (q = p)) l })
  | [] => Measured.pureOk _ rfl
  | q :: l => by
    unfold findPageM searched
    by_cases h : q = p
    · subst h
      have : (q :: l).contains q = true := by simp
      rw [this]
      simp only [if_true, decide_true]
      exact Measured.tick (Measured.pureOk (P := fun _ w => w = {}) _ rfl) (by rintro _ _ _ rfl; rfl)
    · have : (q :: l).contains p = l.contains p := by simp [Ne.symm h]
      rw [this]
      simp only [h, decide_false, if_false, Bool.false_eq_true]
      refine Measured.tick (measured_findPage p l) ?_
      rintro _ _ _ rfl
      simp [Work.add_def, Nat.add_comm]

theorem measured_freePage (p : Nat) (hB : c.Thin B) : Measured (c.freePageM p) (c.freePage p)
    (fun _ w => w.archetypes = 0 ∧ w.tags = 0 ∧ w.groups = 0 ∧ w.pages ≤ B) := by
  unfold freePageM freePage
  refine Measured.step fun i _ => Measured.ite (fun _ => Measured.pure _ ⟨rfl, rfl, rfl, Nat.zero_le _⟩) fun _ => ?_
  refine Measured.step fun ps hps => ?_
  refine Measured.bindOk (measured_findPage p ps) (Measured.pure0 _) ?_
  rintro _ _ _ _ rfl rfl
  refine ⟨rfl, rfl, rfl, ?_⟩
  have h1 := searched_le (fun q => decide (q = p)) ps
  have h2 := hB ps (List.mem_of_getElem? (idx_ok.1 hps))
  simp only [Work.add_def]
  omega

theorem measured_swapRemove (q : Loc) (hB : c.Thin B) : Measured (c.swapRemoveEntityM q) (c.swapRemoveEntity q)
    (fun _ w => w.archetypes = 0 ∧ w.tags = 0 ∧ w.groups = 0 ∧ w.pages ≤ B) := by
  unfold swapRemoveEntityM swapRemoveEntity
  refine Measured.step fun i _ => Measured.step fun pg _ => Measured.step fun a _ => Measured.step fun l _ =>
    Measured.step fun r _ => ?_
  dsimp only
  cases pg.entityCount == 1 with
  | true =>
    refine Measured.bind (measured_freePage _ hB) (fun _ _ => Measured.pure0 _) ?_
    rintro _ _ _ _ _ _ h rfl
    exact h
  | false => exact Measured.pure _ ⟨rfl, rfl, rfl, Nat.zero_le _⟩

theorem Thin.reserveArchetype {a : Archetype} {i : Nat} (hB : c.Thin B) (hr : c.reserveArchetype dbg a = .ok (c', i)) : c'.Thin B := by
  unfold Archs.reserveArchetype at hr
  split at hr
  · split at hr <;> cases hr <;> exact hB
  · obtain ⟨_, _, hr⟩ := bind_eq_ok.1 hr
    split at hr
    · obtain ⟨_, _, hr⟩ := bind_eq_ok.1 hr
      obtain ⟨_, _, hr⟩ := bind_eq_ok.1 hr
      cases hr
      exact hB
    · cases hr
      intro ps hps
      rcases List.mem_append.1 hps with h | h
      · exact hB ps h
      · rw [List.mem_singleton] at h; subst h; exact Nat.zero_le _

theorem Thin.reservePage {id i : Nat} {q : Loc} (hB : c.Thin B) (hr : c.reservePage dbg id i = .ok (c', q)) : c'.Thin (B + 1) := by
  unfold Archs.reservePage at hr
  obtain ⟨pl, h1, hr⟩ := bind_eq_ok.1 hr
  obtain ⟨o, h2, hr⟩ := bind_eq_ok.1 hr
  split at hr
  · obtain ⟨_, _, hr⟩ := bind_eq_ok.1 hr
    obtain ⟨_, _, hr⟩ := bind_eq_ok.1 hr
    cases hr
    intro ps hps
    exact Nat.le_succ_of_le (hB ps hps)
  · obtain ⟨⟨c1, p⟩, h3, hr⟩ := bind_eq_ok.1 hr
    have hc1 : c1.archPages = c.archPages := by
      split at h3
      · cases h3; rfl
      · obtain ⟨_, _, h3⟩ := bind_eq_ok.1 h3
        obtain ⟨_, _, h3⟩ := bind_eq_ok.1 h3
        cases h3; rfl
    obtain ⟨_, _, hr⟩ := bind_eq_ok.1 hr
    obtain ⟨_, _, hr⟩ := bind_eq_ok.1 hr
    obtain ⟨pl', h4, hr⟩ := bind_eq_ok.1 hr
    obtain ⟨_, _, hr⟩ := bind_eq_ok.1 hr
    obtain ⟨_, _, hr⟩ := bind_eq_ok.1 hr
    cases hr
    intro ps hps
    dsimp only at hps h4
    rw [hc1] at hps h4
    rcases List.mem_or_eq_of_mem_set hps with h | rfl
    · exact Nat.le_succ_of_le (hB ps h)
    · rw [List.length_append, List.length_singleton]
      exact Nat.succ_le_succ (hB pl' (List.mem_of_getElem? (idx_ok.1 h4)))

theorem measured_addEntity (id : Nat) (a : Archetype) (hB : c.Thin B) : Measured (c.addEntityM dbg id a) (c.addEntity dbg id a)
    (fun _ w => w.archetypes = searched (·.isSameAs a) c.archetypes ∧ w.tags = 0 ∧ w.groups = 0 ∧ w.pages ≤ B) := by
  unfold addEntityM addEntity
  refine Measured.bind (measured_reserveArchetype a) (fun x _ => measured_reservePage id x.2) ?_
  rintro ⟨c1, i⟩ _ _ _ h _ rfl ⟨ps, h1, rfl⟩
  have := hB.reserveArchetype h ps (List.mem_of_getElem? h1)
  have h2 := searched_le (fun p => (c1.pages[p]?).any Page.hasFreeSpace) ps.reverse
  rw [List.length_reverse] at h2
  refine ⟨rfl, rfl, rfl, ?_⟩
  simp only [Work.add_def]
  omega

theorem measured_move (id : Nat) (q : Loc) (j : Nat) (a : Archetype) (hB : c.Thin B) :
    Measured (c.moveEntityToOtherArchetypeM dbg id q j a) (c.moveEntityToOtherArchetype dbg id q j a)
    (fun x w => w.archetypes = searched (·.isSameAs a) c.archetypes ∧ w.tags = 0 ∧ w.groups = 0 ∧ w.pages ≤ B ∧ x.1.Thin (B + 1)) := by
  unfold moveEntityToOtherArchetypeM moveEntityToOtherArchetype
  refine Measured.bind (measured_reserveArchetype a)
    (Q := fun x y w => ∃ c1 ps, x.1.archPages[x.2]? = some ps ∧ x.1.reservePage dbg id x.2 = .ok c1 ∧ y.1.archPages = c1.1.archPages ∧
      w = { pages := searched (fun p => (x.1.pages[p]?).any Page.hasFreeSpace) ps.reverse }) ?_ ?_
  · intro x _
    refine Measured.bind (measured_reservePage id x.2) (Q := fun c1 y w => y.1.archPages = c1.1.archPages ∧ w = {}) ?_ ?_
    · intro y _
      refine Measured.step fun _ _ => Measured.step fun _ _ => Measured.step fun _ _ => Measured.step fun _ _ =>
        Measured.step fun _ _ => Measured.step fun _ _ => Measured.pure _ ⟨rfl, rfl⟩
    · rintro c1 y _ _ h1 _ ⟨ps, h2, rfl⟩ ⟨h3, rfl⟩
      exact ⟨c1, ps, h2, h1, h3, rfl⟩
  · rintro ⟨c1, i⟩ y _ _ h _ rfl ⟨⟨c2, q'⟩, ps, h1, h2, h3, rfl⟩
    have hB1 := hB.reserveArchetype h
    have := hB1 ps (List.mem_of_getElem? h1)
    have h4 := searched_le (fun p => (c1.pages[p]?).any Page.hasFreeSpace) ps.reverse
    rw [List.length_reverse] at h4
    refine ⟨rfl, rfl, rfl, ?_, ?_⟩
    · simp only [Work.add_def]
      omega
    · unfold Thin
      rw [h3]
      exact hB1.reservePage h2

end Archs
end Ecs

namespace Ecs
open Spec Meter

theorem Tags.measured_removeAll (c : Tags) (id : Nat) : Measured (c.removeAllTagsForEntityM id) (c.removeAllTagsForEntity id)
    (fun _ w => w = { tags := c.bitvecs.length }) := by
  unfold Tags.removeAllTagsForEntityM Tags.removeAllTagsForEntity
  refine Measured.bind (measured_mapM c.bitvecs) (fun _ _ => Measured.pure0 _) ?_
  rintro _ _ _ _ _ _ rfl rfl
  simp [Work.add_def]

theorem Tags.measured_grow (c : Tags) (n : Nat) : Measured (c.growM n) (c.grow n) (fun _ w => w = { tags := c.bitvecs.length }) := by
  unfold Tags.growM Tags.grow
  refine Measured.bind (measured_mapM c.bitvecs) (fun _ _ => Measured.pure0 _) ?_
  rintro _ _ _ _ _ _ rfl rfl
  simp [Work.add_def]

theorem Orders.measured_removeAll (c : Orders) (id : Nat) : Measured (c.removeAllM id) (c.removeAll id)
    (fun _ w => w = { groups := c.groups.length }) := by
  unfold Orders.removeAllM Orders.removeAll
  refine Measured.bind (measured_mapM c.groups) (fun _ _ => Measured.pure0 _) ?_
  rintro _ _ _ _ _ _ rfl rfl
  simp [Work.add_def]

theorem Orders.measured_grow (dbg : Bool) (c : Orders) (n : Nat) : Measured (c.growM dbg n) (c.grow dbg n)
    (fun _ w => w = { groups := c.groups.length }) := by
  unfold Orders.growM Orders.grow
  refine Measured.step fun _ _ => Measured.bind (measured_mapM c.groups) (fun _ _ => Measured.pure0 _) ?_
  rintro _ _ _ _ _ _ rfl rfl
  simp [Work.add_def]

namespace Store
variable {U : Universe} {dbg : Bool} {s : Store} {B : Nat}

theorem measured_growEntities (n : Nat) : Measured (s.growEntitiesInternalM dbg n) (s.growEntitiesInternal dbg n)
    (fun s' w => w = { tags := s.tags.bitvecs.length, groups := s.orders.groups.length } ∧ s'.archs = s.archs) := by
  unfold growEntitiesInternalM growEntitiesInternal
  refine Measured.step fun _ _ => Measured.step fun _ _ => Measured.step fun _ _ => ?_
  refine Measured.bind (Tags.measured_grow _ _) (Q := fun _ s' w => w = { groups := s.orders.groups.length } ∧ s'.archs = s.archs)
    (fun _ _ => ?_) ?_
  · refine Measured.bind (Orders.measured_grow _ _ _) (Q := fun _ s' w => w = {} ∧ s'.archs = s.archs)
      (fun _ _ => Measured.pure _ ⟨rfl, rfl⟩) ?_
    rintro _ _ _ _ _ _ rfl ⟨rfl, h⟩
    exact ⟨rfl, h⟩
  · rintro _ _ _ _ _ _ rfl ⟨rfl, h⟩
    exact ⟨by simp [Work.add_def], h⟩

theorem measured_register : Measured (s.registerNewEntityM dbg) (s.registerNewEntity dbg)
    (fun r w => w.archetypes = 0 ∧ w.pages = 0 ∧ w.tags ≤ s.tags.bitvecs.length ∧ w.groups ≤ s.orders.groups.length ∧
      r.1.archs = s.archs) := by
  unfold registerNewEntityM registerNewEntity
  refine Measured.step fun r _ => ?_
  dsimp only
  cases r.2.wasGrow with
  | true =>
    refine Measured.bind (measured_growEntities _) (Q := fun a b w => w = {} ∧ b.1 = a) (fun _ _ => Measured.pure _ ⟨rfl, rfl⟩) ?_
    rintro _ ⟨_, _⟩ _ _ _ _ ⟨rfl, h⟩ ⟨rfl, rfl⟩
    exact ⟨rfl, rfl, Nat.le_refl _, Nat.le_refl _, h⟩
  | false => exact Measured.pure _ ⟨rfl, rfl, Nat.zero_le _, Nat.zero_le _, rfl⟩

theorem measured_create : Measured (s.createEntityM dbg) (s.createEntity dbg)
    (fun _ w => w.archetypes = 0 ∧ w.pages = 0 ∧ w.tags ≤ s.tags.bitvecs.length ∧ w.groups ≤ s.orders.groups.length) := by
  unfold createEntityM createEntity
  refine Measured.bind measured_register (fun _ _ => Measured.step fun _ _ => Measured.pure0 _) ?_
  rintro _ _ _ _ _ _ ⟨h1, h2, h3, h4, _⟩ rfl
  exact ⟨h1, h2, h3, h4⟩

theorem measured_createWith (a : Archetype) (hB : s.archs.Thin B) :
    Measured (s.createEntityWithArchetypeM dbg a) (s.createEntityWithArchetype dbg a)
    (fun _ w => w.archetypes = searched (·.isSameAs a) s.archs.archetypes ∧ w.pages ≤ B ∧ w.tags ≤ s.tags.bitvecs.length ∧
      w.groups ≤ s.orders.groups.length) := by
  unfold createEntityWithArchetypeM createEntityWithArchetype
  refine Measured.bind measured_register
    (Q := fun x _ w => x.1.archs = s.archs → w.archetypes = searched (·.isSameAs a) s.archs.archetypes ∧ w.tags = 0 ∧
      w.groups = 0 ∧ w.pages ≤ B) (fun x _ => ?_) ?_
  · dsimp only
    by_cases hx : x.1.archs = s.archs
    · rw [hx]
      refine Measured.bind (Archs.measured_addEntity x.2.id a hB) (fun _ _ => Measured.step fun _ _ => Measured.pure0 _) ?_
      rintro _ _ _ _ _ _ h rfl _
      exact h
    · refine Measured.bind (P := fun _ _ => True) (Q := fun _ _ _ => True)
        ((Archs.measured_addEntity x.2.id a (B := (x.1.archs.archPages.map List.length).sum) ?_).mono fun _ _ _ _ => trivial)
        (fun _ _ => Measured.step fun _ _ => Measured.pure _ trivial) (fun _ _ _ _ _ _ _ _ h => absurd h hx)
      exact Archs.thin_sum _
  · rintro ⟨s1, e⟩ _ v w _ _ ⟨h1, h2, h3, h4, h5⟩ h
    obtain ⟨k1, k2, k3, k4⟩ := h h5
    simp only [Work.add_def]
    omega

theorem measured_swapRemoveInternal (q : Loc) (hB : s.archs.Thin B) : Measured (s.swapRemoveInternalM q) (s.swapRemoveInternal q)
    (fun s' w => w.archetypes = 0 ∧ w.tags = 0 ∧ w.groups = 0 ∧ w.pages ≤ B ∧ s'.tags = s.tags ∧ s'.orders = s.orders) := by
  unfold swapRemoveInternalM swapRemoveInternal
  refine Measured.bind (Archs.measured_swapRemove q hB) (Q := fun _ s' w => w = {} ∧ s'.tags = s.tags ∧ s'.orders = s.orders)
    (fun x _ => ?_) ?_
  · obtain ⟨c1, o⟩ := x
    cases o with
    | some i => exact Measured.step fun _ _ => Measured.pure _ ⟨rfl, rfl, rfl⟩
    | none => exact Measured.pure _ ⟨rfl, rfl, rfl⟩
  · rintro _ _ _ _ _ _ ⟨h1, h2, h3, h4⟩ ⟨rfl, h5, h6⟩
    exact ⟨h1, h2, h3, h4, h5, h6⟩

theorem measured_destroyRow (e : Entity) (hB : s.archs.Thin B) : Measured (s.destroyRowM e) (s.destroyRow e)
    (fun s' w => w.archetypes = 0 ∧ w.tags = 0 ∧ w.groups = 0 ∧ w.pages ≤ B ∧ s'.tags = s.tags ∧ s'.orders = s.orders) := by
  unfold destroyRowM destroyRow
  refine Measured.step fun b _ => ?_
  cases b with
  | true => exact Measured.step fun q _ => measured_swapRemoveInternal q hB
  | false => exact Measured.pure _ ⟨rfl, rfl, rfl, Nat.zero_le _, rfl, rfl⟩

theorem measured_destroy (e : Entity) (hB : s.archs.Thin B) : Measured (s.destroyEntityM dbg e) (s.destroyEntity dbg e)
    (fun _ w => w.archetypes = 0 ∧ w.pages ≤ B ∧ w.tags = s.tags.bitvecs.length ∧ w.groups = s.orders.groups.length) := by
  unfold destroyEntityM destroyEntity
  refine Measured.bind (measured_destroyRow e hB)
    (Q := fun s1 _ w => w = { tags := s1.tags.bitvecs.length, groups := s1.orders.groups.length }) (fun s1 _ => ?_) ?_
  · refine Measured.step fun _ _ => Measured.bind (Tags.measured_removeAll _ _)
      (Q := fun _ _ w => w = { groups := s1.orders.groups.length }) (fun _ _ => ?_) ?_
    · refine Measured.bind (Orders.measured_removeAll _ _) (fun _ _ => Measured.pure0 _) ?_
      rintro _ _ _ _ _ _ rfl rfl
      rfl
    · rintro _ _ _ _ _ _ rfl rfl
      simp [Work.add_def]
  · rintro s1 _ v _ _ _ ⟨h1, h2, h3, h4, h5, h6⟩ rfl
    rw [h5, h6]
    simp only [Work.add_def]
    omega

theorem measured_move (e : Entity) (a : Archetype) (hB : s.archs.Thin B) :
    Measured (s.moveEntityToOtherArchetypeM dbg e a) (s.moveEntityToOtherArchetype dbg e a)
    (fun _ w => w.archetypes = searched (·.isSameAs a) s.archs.archetypes ∧ w.tags = 0 ∧ w.groups = 0 ∧ w.pages ≤ 2 * B + 1) := by
  unfold moveEntityToOtherArchetypeM moveEntityToOtherArchetype
  refine Measured.step fun q _ => Measured.step fun i _ => ?_
  refine Measured.bind (Archs.measured_move e.id q i a hB)
    (Q := fun x _ w => x.1.Thin (B + 1) → w.archetypes = 0 ∧ w.tags = 0 ∧ w.groups = 0 ∧ w.pages ≤ B + 1) (fun x _ => ?_) ?_
  · refine Measured.step fun _ _ => Measured.step fun _ _ => ?_
    by_cases hx : x.1.Thin (B + 1)
    · refine Measured.bind (measured_swapRemoveInternal q hx) (fun _ _ => Measured.pure0 _) ?_
      rintro _ _ _ _ _ _ ⟨h1, h2, h3, h4, _⟩ rfl _
      exact ⟨h1, h2, h3, h4⟩
    · refine Measured.bind (P := fun _ _ => True) (Q := fun _ _ _ => True)
        ((measured_swapRemoveInternal q (B := (x.1.archPages.map List.length).sum) ?_).mono fun _ _ _ _ => trivial)
        (fun _ _ => Measured.pure _ trivial) (fun _ _ _ _ _ _ _ _ h => absurd h hx)
      exact Archs.thin_sum _
  · rintro _ _ v w _ _ ⟨h1, h2, h3, h4, h5⟩ h
    obtain ⟨k1, k2, k3, k4⟩ := h h5
    simp only [Work.add_def]
    omega

theorem measured_ensure (e : Entity) (ts : List TypeId) (hB : s.archs.Thin B) :
    Measured (s.ensureComponentsM U dbg e ts) (s.ensureComponents U dbg e ts)
    (fun _ w => w.archetypes ≤ s.archs.archetypes.length ∧ w.tags = 0 ∧ w.groups = 0 ∧ w.pages ≤ 2 * B + 1) := by
  unfold ensureComponentsM ensureComponents
  refine Measured.step fun b _ => ?_
  cases b with
  | true =>
    simp only [if_true]
    refine Measured.step fun q _ => Measured.step fun i _ => Measured.step fun a _ => ?_
    refine Measured.ite (fun _ => Measured.pure _ ⟨Nat.zero_le _, rfl, rfl, Nat.zero_le _⟩) fun _ => Measured.step fun x _ => ?_
    refine (measured_move e x.1 hB).mono ?_
    rintro _ w _ ⟨h1, h2, h3, h4⟩
    exact ⟨by rw [h1]; exact searched_le _ _, h2, h3, h4⟩
  | false =>
    simp only [Bool.false_eq_true, if_false]
    refine Measured.step fun a _ => Measured.bind (Archs.measured_addEntity e.id a hB)
      (fun _ _ => Measured.step fun _ _ => Measured.pure0 _) ?_
    rintro _ _ w _ _ _ ⟨h1, h2, h3, h4⟩ rfl
    have := searched_le (·.isSameAs a) s.archs.archetypes
    simp only [Work.add_def]
    omega

theorem measured_add (e : Entity) (vals : TupleVal) (hB : s.archs.Thin B) :
    Measured (s.addComponentsM U dbg e vals) (s.addComponents U dbg e vals)
    (fun _ w => w.archetypes ≤ s.archs.archetypes.length ∧ w.tags = 0 ∧ w.groups = 0 ∧ w.pages ≤ 2 * B + 1) := by
  unfold addComponentsM addComponents
  refine Measured.step fun b _ => ?_
  cases b with
  | true =>
    refine Measured.bind (measured_ensure e _ hB) (fun _ _ => Measured.step fun _ _ => Measured.step fun _ _ =>
      Measured.step fun _ _ => Measured.pure0 _) ?_
    rintro _ _ w _ _ _ h rfl
    exact h
  | false => exact Measured.pure _ ⟨Nat.zero_le _, rfl, rfl, Nat.zero_le _⟩

theorem measured_remove (e : Entity) (ts : List TypeId) (hB : s.archs.Thin B) :
    Measured (s.removeComponentsM U dbg e ts) (s.removeComponents U dbg e ts)
    (fun _ w => w.archetypes ≤ s.archs.archetypes.length ∧ w.tags = 0 ∧ w.groups = 0 ∧ w.pages ≤ 2 * B + 1) := by
  unfold removeComponentsM removeComponents
  refine Measured.step fun b _ => ?_
  cases b with
  | true =>
    refine Measured.step fun _ _ => Measured.step fun _ _ => Measured.step fun _ _ => Measured.step fun x _ => ?_
    refine Measured.bind (measured_move e x.1 hB) (fun _ _ => Measured.pure0 _) ?_
    rintro _ _ w _ _ _ ⟨h1, h2, h3, h4⟩ rfl
    exact ⟨by rw [Work.add_zero, h1]; exact searched_le _ _, h2, h3, h4⟩
  | false => exact Measured.pure _ ⟨Nat.zero_le _, rfl, rfl, Nat.zero_le _⟩

end Store
end Ecs
