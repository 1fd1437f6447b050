import Verif.Proofs.Hint
import Verif.Props.Stray

/-! What can be read from two stores that differ in their capacities only. -/

namespace Ecs
open Spec

namespace Spec.SameUnlessUninit
variable {α β : Type}

theorem refl (r : Res α) : SameUnlessUninit r r := Or.inl rfl

theorem bind {r r' : Res α} {f f' : α → Res β} (h : SameUnlessUninit r r')
    (hf : ∀ a, r = .ok a → SameUnlessUninit (f a) (f' a)) : SameUnlessUninit (r >>= f) (r' >>= f') := by
  rcases h with rfl | rfl | rfl
  · cases r with
    | error _ => exact Or.inl rfl
    | ok a => exact hf a rfl
  · exact Or.inr (Or.inl rfl)
  · exact Or.inr (Or.inr rfl)

theorem read {a b : Raw Nat} {i : Nat} (ha : i < a.length) (hb : i < b.length) (h : b.val i = a.val i) :
    SameUnlessUninit (Raw.read a i) (Raw.read b i) := by
  cases hx : a[i]? with
  | none => exact absurd (List.getElem?_eq_none_iff.1 hx) (by omega)
  | some x =>
    cases hy : b[i]? with
    | none => exact absurd (List.getElem?_eq_none_iff.1 hy) (by omega)
    | some y =>
      cases x with
      | none =>
        refine Or.inr (Or.inl ?_)
        unfold Raw.read
        rw [hx]
      | some x =>
        cases y with
        | none =>
          refine Or.inr (Or.inr ?_)
          unfold Raw.read
          rw [hy]
        | some y =>
          left
          rw [Raw.read_val ⟨x, hx⟩, Raw.read_val ⟨y, hy⟩, h]

theorem drain {σ : Type} {f g : σ → Res (Option α × σ)} (Good : σ → Prop) (hs : ∀ it, Good it → SameUnlessUninit (f it) (g it))
    (hp : ∀ it r it', Good it → f it = .ok (r, it') → Good it') (n : Nat) :
    ∀ it, Good it → SameUnlessUninit (Ecs.drain f n it) (Ecs.drain g n it) := by
  induction n with
  | zero => exact fun _ _ => refl _
  | succ n ih =>
    intro it hg
    unfold Ecs.drain
    refine bind (hs it hg) fun a ha => ?_
    obtain ⟨r, it'⟩ := a
    cases r with
    | none => exact refl _
    | some x => exact bind (ih it' (hp it _ it' hg ha)) fun _ _ => refl _

end Spec.SameUnlessUninit

theorem drain_same {σ α : Type} {f g : σ → Res (Option α × σ)} (Good : σ → Prop) (hs : ∀ it, Good it → f it = g it)
    (hp : ∀ it r it', Good it → f it = .ok (r, it') → Good it') (n : Nat) : ∀ it, Good it → drain f n it = drain g n it := by
  induction n with
  | zero => exact fun _ _ => rfl
  | succ n ih =>
    intro it hg
    unfold drain
    rw [← hs it hg]
    cases hr : f it with
    | error _ => rfl
    | ok a =>
      obtain ⟨r, it'⟩ := a
      cases r with
      | none => rfl
      | some x =>
        show (drain f n it' >>= _) = (drain g n it' >>= _)
        rw [ih it' (hp it _ it' hg hr)]

/-- All ids an iterator can come across have property `P`. -/
structure CompIter.Ids (P : Nat → Prop) (it : CompIter) : Prop where
  views : ∀ v ∈ it.pageViews, ∀ i ∈ v.entityIds, P i
  cur : ∀ i ∈ it.cur.view.entityIds, P i

namespace CompIter.Ids
variable {P : Nat → Prop} {U : Universe} {acc : Access}

theorem pageNext {it : PageIter} : (it.next).2.view = it.view := by
  unfold PageIter.next
  split <;> rfl

theorem next {it it' : CompIter} {r : Option (List Ref)} (h : it.Ids P) (hr : it.next = .ok (r, it')) : it'.Ids P := by
  unfold CompIter.next at hr
  have hv := pageNext (it := it.cur)
  split at hr
  · rename_i v cur hn
    cases hr
    rw [hn] at hv
    exact ⟨h.views, by rw [show cur.view = it.cur.view from hv]; exact h.cur⟩
  · rename_i cur hn
    dsimp only at hr
    split at hr
    · obtain ⟨view, h1, hr⟩ := bind_eq_ok.1 hr
      have hm : view ∈ it.pageViews := by
        unfold idxUnchecked at h1
        split at h1
        · rename_i hx
          cases h1
          exact List.mem_of_getElem? hx
        · cases h1
      have hv2 := pageNext (it := PageIter.new view)
      cases hr
      exact ⟨h.views, by rw [show (PageIter.new view).next.2.view = view from hv2]; exact h.views view hm⟩
    · cases hr
      exact ⟨h.views, fun i hi => by cases hi⟩

theorem pages {pages : List Page} {offs : List Nat} (ho : Owned P pages) :
    ∀ {ps : List Nat} {vs vs' : List IterView} {n n' : Nat}, (∀ v ∈ vs, ∀ i ∈ v.entityIds, P i) →
      collectPages U acc pages offs ps (vs, n) = .ok (vs', n') → ∀ v ∈ vs', ∀ i ∈ v.entityIds, P i := by
  intro ps
  induction ps with
  | nil =>
    intro vs vs' n n' h hr
    cases hr
    exact h
  | cons p ps ih =>
    intro vs vs' n n' h hr
    unfold collectPages at hr
    obtain ⟨page, h1, hr⟩ := bind_eq_ok.1 hr
    split at hr
    · exact ih h hr
    · refine ih ?_ hr
      intro v hv
      rcases List.mem_append.1 hv with hv | hv
      · exact h v hv
      · rw [List.mem_singleton.1 hv]
        exact ho page (List.mem_of_getElem? (idx_ok.1 h1))

theorem archetypes {c : Archs} (ho : Owned P c.pages) :
    ∀ {ais : List Nat} {vs vs' : List IterView} {n n' : Nat}, (∀ v ∈ vs, ∀ i ∈ v.entityIds, P i) →
      collectArchetypes U acc c ais (vs, n) = .ok (vs', n') → ∀ v ∈ vs', ∀ i ∈ v.entityIds, P i := by
  intro ais
  induction ais with
  | nil =>
    intro vs vs' n n' h hr
    cases hr
    exact h
  | cons ai ais ih =>
    intro vs vs' n n' h hr
    unfold collectArchetypes at hr
    obtain ⟨arch, _, hr⟩ := bind_eq_ok.1 hr
    obtain ⟨layout, _, hr⟩ := bind_eq_ok.1 hr
    split at hr
    · exact ih h hr
    · obtain ⟨offs, _, hr⟩ := bind_eq_ok.1 hr
      obtain ⟨ps, _, hr⟩ := bind_eq_ok.1 hr
      obtain ⟨⟨vs1, n1⟩, h1, hr⟩ := bind_eq_ok.1 hr
      exact ih (pages ho h h1) hr

theorem start {s : Store} (ho : Owned P s.archs.pages) {old : List IterView} {it : CompIter}
    (hr : componentQueryIter U s acc old = .ok it) : it.Ids P := by
  unfold componentQueryIter at hr
  obtain ⟨⟨views, count⟩, h1, hr⟩ := bind_eq_ok.1 hr
  have hv := archetypes (vs := old.take 0) ho (by simp) h1
  dsimp only at hr
  split at hr
  · obtain ⟨v, h2, hr⟩ := bind_eq_ok.1 hr
    cases hr
    exact ⟨hv, hv v (List.mem_of_getElem? (idx_ok.1 h2))⟩
  · cases hr
    exact ⟨hv, fun i hi => by cases hi⟩

end CompIter.Ids

namespace Twins
variable {U : Universe} {dbg : Bool} {cap cap' : Nat} {h : List Event} {s s' t : Store}

theorem ownHandles_tail {ev : Event} (ho : ownHandles (ev :: h)) : ownHandles h := by
  cases ev <;> first | exact ho | exact ho.2

/-- A store of another capacity. -/
theorem exists_twin (hx : LooseExec U dbg cap h s) (ho : ownHandles h) {s0 : Store} (hs : Store.withCapacity dbg cap' = .ok s0) :
    ∃ s', LooseExec U dbg cap' h s' ∧ Twins s s' := by
  induction hx with
  | init h0 =>
    refine ⟨s0, .init hs, ?_⟩
    unfold Store.withCapacity at h0 hs
    obtain ⟨_, _, h0⟩ := bind_eq_ok.1 h0
    obtain ⟨_, _, hs⟩ := bind_eq_ok.1 hs
    cases h0
    cases hs
    have hz : ∀ n i, Raw.val (Raw.allocZeroed 0 n) i = 0 := by
      intro n i
      unfold Raw.val Raw.allocZeroed
      rw [List.getElem?_replicate]
      split <;> rfl
    exact ⟨⟨rfl, fun i => by rw [Words.bit_alloc, Words.bit_alloc], fun i => by rw [hz, hz], fun i => by rw [hz, hz]⟩, rfl⟩
  | step ev hx hl hr ih =>
    obtain ⟨s', hx', hT⟩ := ih (ownHandles_tail ho)
    obtain ⟨t', hr', hT'⟩ := hT.step hx hx' hl ho hr
    exact ⟨t', .step ev hx' hl hr', hT'⟩

theorem componentQueryIter (hT : Twins s s') (acc : Access) (old : List IterView) :
    Ecs.componentQueryIter U s acc old = Ecs.componentQueryIter U s' acc old := by
  unfold Ecs.componentQueryIter
  rw [hT.alike.archs]

theorem issued (hx : LooseExec U dbg cap h s) : Owned (fun i => ∃ e ∈ handles h, e.id = i) s.archs.pages :=
  (loose_owned hx).mono fun i hi => by
    obtain ⟨e, he, h1⟩ := hi
    exact ⟨e, by rw [handles_eq]; exact he, h1⟩

theorem version (hx : LooseExec U dbg cap h s) (hx' : LooseExec U dbg cap' h s') {i : Nat} (hi : ∃ e ∈ handles h, e.id = i) :
    Raw.read s.ents.versions i = Raw.read s'.ents.versions i := by
  obtain ⟨e, h1, _, _⟩ := Strays.newest_some hi
  rw [Raw.read_of_some ((stray_core hx.stray).cur i e h1), Raw.read_of_some ((stray_core hx'.stray).cur i e h1)]

theorem currentId {P : Nat → Prop} {it : PageIter} {i : Nat} (h : ∀ i ∈ it.view.entityIds, P i)
    (hr : it.currentEntityId dbg = .ok i) : P i := by
  unfold PageIter.currentEntityId at hr
  obtain ⟨k, _, hr⟩ := bind_eq_ok.1 hr
  unfold idxUnchecked at hr
  split at hr
  · rename_i hx
    cases hr
    exact h i (List.mem_of_getElem? hx)
  · cases hr

theorem nextWithEntity (hx : LooseExec U dbg cap h s) (hx' : LooseExec U dbg cap' h s') {it : CompIter}
    (hg : it.Ids fun i => ∃ e ∈ handles h, e.id = i) : it.nextWithEntity dbg s = it.nextWithEntity dbg s' := by
  unfold CompIter.nextWithEntity
  cases hn : it.next with
  | error _ => rfl
  | ok a =>
    obtain ⟨r, it'⟩ := a
    cases r with
    | none => rfl
    | some refs =>
      have hg' := hg.next hn
      show (it'.cur.currentEntityId dbg >>= _) = (it'.cur.currentEntityId dbg >>= _)
      cases hi : it'.cur.currentEntityId dbg with
      | error _ => rfl
      | ok i =>
        show (Raw.read s.ents.versions i >>= _) = (Raw.read s'.ents.versions i >>= _)
        rw [version hx hx' (currentId hg'.cur hi)]

theorem nextWithEntity_ids {P : Nat → Prop} {it it' : CompIter} {r : Option (Entity × List Ref)} (hg : it.Ids P)
    (hr : it.nextWithEntity dbg s = .ok (r, it')) : it'.Ids P ∧ ∀ e refs, r = some (e, refs) → P e.id := by
  unfold CompIter.nextWithEntity at hr
  obtain ⟨⟨o, it1⟩, h1, hr⟩ := bind_eq_ok.1 hr
  have hg' := hg.next h1
  cases o with
  | none =>
    cases hr
    exact ⟨hg', fun _ _ h => by cases h⟩
  | some refs =>
    obtain ⟨i, h2, hr⟩ := bind_eq_ok.1 hr
    obtain ⟨v, h3, hr⟩ := bind_eq_ok.1 hr
    cases hr
    refine ⟨hg', fun e refs' he => ?_⟩
    cases he
    exact currentId hg'.cur h2

theorem nextFiltered (hx : LooseExec U dbg cap h s) (hx' : LooseExec U dbg cap' h s') {bv bv' : Words}
    (hb : ∀ i, (∃ e ∈ handles h, e.id = i) → bv.isOn i = bv'.isOn i) (n : Nat) : ∀ {it : CompIter},
    (it.Ids fun i => ∃ e ∈ handles h, e.id = i) → it.nextFiltered dbg s bv n = it.nextFiltered dbg s' bv' n := by
  induction n with
  | zero => intro _ _; rfl
  | succ n ih =>
    intro it hg
    unfold CompIter.nextFiltered
    rw [← nextWithEntity hx hx' hg]
    cases hn : it.nextWithEntity dbg s with
    | error _ => rfl
    | ok a =>
      obtain ⟨r, it'⟩ := a
      obtain ⟨hg', hi⟩ := nextWithEntity_ids hg hn
      cases r with
      | none => rfl
      | some x =>
        obtain ⟨e, refs⟩ := x
        show (bv.isOn e.id >>= _) = (bv'.isOn e.id >>= _)
        rw [← hb e.id (hi e refs rfl)]
        cases bv.isOn e.id with
        | error _ => rfl
        | ok b =>
          cases b with
          | true => rfl
          | false => exact ih hg'

theorem nextFiltered_ids {P : Nat → Prop} {bv : Words} (n : Nat) : ∀ {it it' : CompIter} {r : Option (Entity × List Ref)},
    it.Ids P → it.nextFiltered dbg s bv n = .ok (r, it') → it'.Ids P := by
  induction n with
  | zero => intro _ _ _ _ hr; cases hr
  | succ n ih =>
    intro it it' r hg hr
    unfold CompIter.nextFiltered at hr
    obtain ⟨⟨o, it1⟩, h1, hr⟩ := bind_eq_ok.1 hr
    obtain ⟨hg', _⟩ := nextWithEntity_ids hg h1
    cases o with
    | none =>
      cases hr
      exact hg'
    | some x =>
      obtain ⟨e, refs⟩ := x
      obtain ⟨b, h2, hr⟩ := bind_eq_ok.1 hr
      cases b with
      | true =>
        cases hr
        exact hg'
      | false => exact ih hg' hr

/-- The bit vectors of a tag agree on all ids handed out. -/
theorem bitvec (hx : LooseExec U dbg cap h s) (hx' : LooseExec U dbg cap' h s') (hT : Twins s s') (tag : Nat) :
    (∃ bv bv', s.tags.hasTagBitvec tag = .ok bv ∧ s'.tags.hasTagBitvec tag = .ok bv' ∧
      ∀ i, (∃ e ∈ handles h, e.id = i) → bv.isOn i = bv'.isOn i) ∨
    ∃ e, s.tags.hasTagBitvec tag = .error e ∧ s'.tags.hasTagBitvec tag = .error e := by
  have key : ∀ i, (∃ e ∈ handles h, e.id = i) → s.tags.hasTag tag i = s'.tags.hasTag tag i := by
    rintro i ⟨e, he, rfl⟩
    have h1 := (stray_core hx.stray).hasTag he tag
    have h2 := (stray_core hx'.stray).hasTag he tag
    exact h1.trans h2.symm
  unfold Tags.hasTag at key
  unfold Tags.hasTagBitvec
  rw [hT.tagIds] at key ⊢
  cases hb : binarySearch s.tags.tagIds tag with
  | notFound k => exact Or.inr ⟨_, rfl, rfl⟩
  | found k =>
    simp only [hb] at key
    left
    have hk : k < s.tags.tagIds.length := by
      have := (binarySearch_found hb)
      exact (List.getElem?_eq_some_iff.1 this).1
    have l1 := (loose_core hx).tags.len
    have l2 := (loose_core hx').tags.len
    rw [hT.tagIds] at l2
    have e1 : s.tags.bitvecs[k]? = some s.tags.bitvecs[k] := List.getElem?_eq_getElem (by omega)
    have e2 : s'.tags.bitvecs[k]? = some s'.tags.bitvecs[k] := List.getElem?_eq_getElem (by omega)
    have e1 := idxUnchecked_of_some e1
    have e2 := idxUnchecked_of_some e2
    rw [e1, e2] at key
    exact ⟨_, _, e1, e2, key⟩

theorem archetype (hx : LooseExec U dbg cap h s) (hx' : LooseExec U dbg cap' h s') (hT : Twins s s') {e : Entity} (he : e ∈ handles h) :
    s.getEntityArchetype dbg e = s'.getEntityArchetype dbg e := by
  have hi : e ∈ (world h).issued := by rw [← handles_eq]; exact he
  exact hT.alike.archetype ((loose_core hx).room hi) ((loose_core hx').room hi) ((hasRow hx).2 e.id) ((hasRow hx').2 e.id)
    (isAlive hx hx' he)

theorem refs (hx : LooseExec U dbg cap h s) (hx' : LooseExec U dbg cap' h s') (hT : Twins s s') {e : Entity} (he : e ∈ handles h)
    (ts : List TypeId) : s.getComponentsRefs U dbg e ts = s'.getComponentsRefs U dbg e ts := by
  have hi : e ∈ (world h).issued := by rw [← handles_eq]; exact he
  exact hT.alike.refs ((loose_core hx).room hi) ((loose_core hx').room hi) ((hasRow hx).2 e.id) ((hasRow hx').2 e.id)
    (isAlive hx hx' he) ts

theorem readPage (hx : LooseExec U dbg cap h s) (hx' : LooseExec U dbg cap' h s') (hT : Twins s s') {e : Entity}
    (he : e ∈ handles h) : SameUnlessUninit (Raw.read s.toPage e.id) (Raw.read s'.toPage e.id) := by
  have hi : e ∈ (world h).issued := by rw [← handles_eq]; exact he
  exact .read ((loose_core hx).room hi).1 ((loose_core hx').room hi).1 (hT.alike.page e.id)

theorem readIndex (hx : LooseExec U dbg cap h s) (hx' : LooseExec U dbg cap' h s') (hT : Twins s s') {e : Entity}
    (he : e ∈ handles h) : SameUnlessUninit (Raw.read s.toIndex e.id) (Raw.read s'.toIndex e.id) := by
  have hi : e ∈ (world h).issued := by rw [← handles_eq]; exact he
  exact .read ((loose_core hx).room hi).2.1 ((loose_core hx').room hi).2.1 (hT.alike.index e.id)

theorem rangeLoop (hx : LooseExec U dbg cap h s) (hx' : LooseExec U dbg cap' h s') (hT : Twins s s') (p : Nat) :
    ∀ (rest : List Entity) (n : Nat), (∀ e ∈ rest, e ∈ handles h) →
      SameUnlessUninit (entityRangeLoop dbg s p rest n) (entityRangeLoop dbg s' p rest n) := by
  intro rest
  induction rest with
  | nil => exact fun _ _ => .refl _
  | cons e rest ih =>
    intro n hm
    unfold entityRangeLoop
    refine .bind (readPage hx hx' hT (hm e (by simp))) fun page _ => ?_
    rw [isAlive hx hx' (hm e (by simp))]
    refine .bind (.refl _) fun alive _ => ?_
    split
    · exact .refl _
    · exact ih _ fun x hx => hm x (List.mem_cons_of_mem _ hx)

theorem rangeLoop_sub {p : Nat} : ∀ {rest : List Entity} {n m : Nat} {rest' : List Entity},
    entityRangeLoop dbg s p rest n = .ok (m, rest') → ∀ e ∈ rest', e ∈ rest := by
  intro rest
  induction rest with
  | nil =>
    intro n m rest' hr
    cases hr
    exact fun _ h => h
  | cons e rest ih =>
    intro n m rest' hr
    unfold entityRangeLoop at hr
    obtain ⟨page, _, hr⟩ := bind_eq_ok.1 hr
    obtain ⟨alive, _, hr⟩ := bind_eq_ok.1 hr
    split at hr
    · cases hr
      exact fun _ h => h
    · exact fun x hx => List.mem_cons_of_mem _ (ih hr x hx)

theorem outerLoop (hx : LooseExec U dbg cap h s) (hx' : LooseExec U dbg cap' h s') (hT : Twins s s') (acc : Access) (fuel : Nat) :
    ∀ (rest : List Entity) (n : Nat), (∀ e ∈ rest, e ∈ handles h) →
      SameUnlessUninit (entityOuterLoop U dbg s acc fuel rest n) (entityOuterLoop U dbg s' acc fuel rest n) := by
  induction fuel with
  | zero =>
    intro rest n _
    cases rest <;> exact .refl _
  | succ fuel ih =>
    intro rest n hm
    cases rest with
    | nil => exact .refl _
    | cons e rest =>
      unfold entityOuterLoop
      have hv : isValidEntityForQuery dbg s acc e = isValidEntityForQuery dbg s' acc e := by
        unfold isValidEntityForQuery
        rw [archetype hx hx' hT (hm e (by simp))]
      rw [hv, hT.alike.archs]
      have hm' : ∀ x ∈ rest, x ∈ handles h := fun x hx => hm x (List.mem_cons_of_mem _ hx)
      refine .bind (.refl _) fun v _ => ?_
      split
      · exact ih rest _ hm'
      · refine .bind (readPage hx hx' hT (hm e (by simp))) fun page _ => ?_
        refine .bind (.refl _) fun ai _ => ?_
        refine .bind (.refl _) fun arch _ => ?_
        refine .bind (.refl _) fun layout _ => ?_
        refine .bind (.refl _) fun pg _ => ?_
        refine .bind (.refl _) fun offs _ => ?_
        refine .bind (rangeLoop hx hx' hT page rest _ hm') fun a ha => ?_
        obtain ⟨m, rest'⟩ := a
        exact .bind (ih rest' m fun x hx => hm' x (rangeLoop_sub ha x hx)) fun _ _ => .refl _

theorem entNext (hx : LooseExec U dbg cap h s) (hx' : LooseExec U dbg cap' h s') (hT : Twins s s') {it : EntIter}
    (hm : ∀ e ∈ it.entities, e ∈ handles h) : SameUnlessUninit (it.next dbg s) (it.next dbg s') := by
  unfold EntIter.next
  split
  · exact .refl _
  · refine .bind (.refl _) fun a _ => ?_
    obtain ⟨range, view⟩ := a
    refine .bind (.refl _) fun e he => ?_
    have hmem : e ∈ it.entities := by
      unfold idxUnchecked at he
      split at he
      · rename_i hx
        cases he
        exact List.mem_of_getElem? hx
      · cases he
    exact .bind (readIndex hx hx' hT (hm e hmem)) fun _ _ => .refl _

theorem entNext_entities {it it' : EntIter} {r : Option (List Ref)} (hr : it.next dbg s = .ok (r, it')) :
    it'.entities = it.entities := by
  unfold EntIter.next at hr
  split at hr
  · cases hr
    rfl
  · obtain ⟨⟨range, view⟩, _, hr⟩ := bind_eq_ok.1 hr
    obtain ⟨e, _, hr⟩ := bind_eq_ok.1 hr
    obtain ⟨i, _, hr⟩ := bind_eq_ok.1 hr
    obtain ⟨last, _, hr⟩ := bind_eq_ok.1 hr
    cases hr
    split <;> rfl

theorem entIter (hx : LooseExec U dbg cap h s) (hx' : LooseExec U dbg cap' h s') (hT : Twins s s') {es : List Entity}
    (hm : ∀ e ∈ es, e ∈ handles h) (acc : Access) (old : List (Range × IterView)) :
    SameUnlessUninit (entityQueryIter U dbg s es acc old) (entityQueryIter U dbg s' es acc old) := by
  unfold entityQueryIter
  exact .bind (outerLoop hx hx' hT acc _ es 0 hm) fun _ _ => .refl _

theorem entIter_entities {es : List Entity} {acc : Access} {old : List (Range × IterView)} {it : EntIter}
    (hr : entityQueryIter U dbg s es acc old = .ok it) : it.entities = es := by
  unfold entityQueryIter at hr
  obtain ⟨_, _, hr⟩ := bind_eq_ok.1 hr
  cases hr
  rfl

/-- What has to agree for a walk along the links `l` and `l'`, as long as it stays among the ids `S`. -/
structure Walks (s s' : Store) (S : List Nat) (l l' : Raw Nat) : Prop where
  page : ∀ i ∈ S, SameUnlessUninit (Raw.read s.toPage i) (Raw.read s'.toPage i)
  index : ∀ i ∈ S, SameUnlessUninit (Raw.read s.toIndex i) (Raw.read s'.toIndex i)
  link : ∀ i ∈ S, Raw.read l i = Raw.read l' i
  closed : ∀ i ∈ S, ∀ v, Raw.read l i = .ok v → v = NULL_ID ∨ v ∈ S

theorem ordRangeLoop {S : List Nat} {l l' : Raw Nat} (hw : Walks s s' S l l') (p : Nat) (fuel : Nat) :
    ∀ x n, (x = NULL_ID ∨ x ∈ S) → SameUnlessUninit (orderedRangeLoop s l p fuel x n) (orderedRangeLoop s' l' p fuel x n) := by
  induction fuel with
  | zero => exact fun _ _ _ => .refl _
  | succ fuel ih =>
    intro x n hxS
    unfold orderedRangeLoop
    split
    · exact .refl _
    · rename_i hne
      have hm := hxS.resolve_left hne
      refine .bind (hw.page x hm) fun page _ => ?_
      refine .bind (hw.index x hm) fun index _ => ?_
      split
      · exact .refl _
      · rw [← hw.link x hm]
        exact .bind (.refl _) fun y hy => ih y _ (hw.closed x hm y hy)

theorem ordRangeLoop_closed {S : List Nat} {l : Raw Nat} (hc : ∀ i ∈ S, ∀ v, Raw.read l i = .ok v → v = NULL_ID ∨ v ∈ S)
    {p : Nat} (fuel : Nat) : ∀ {x n y m : Nat}, (x = NULL_ID ∨ x ∈ S) → orderedRangeLoop s l p fuel x n = .ok (y, m) →
      y = NULL_ID ∨ y ∈ S := by
  induction fuel with
  | zero => intro _ _ _ _ _ hr; cases hr
  | succ fuel ih =>
    intro x n y m hxS hr
    unfold orderedRangeLoop at hr
    split at hr
    · cases hr
      exact hxS
    · rename_i hne
      have hm := hxS.resolve_left hne
      obtain ⟨page, _, hr⟩ := bind_eq_ok.1 hr
      obtain ⟨index, _, hr⟩ := bind_eq_ok.1 hr
      split at hr
      · cases hr
        exact hxS
      · obtain ⟨z, h1, hr⟩ := bind_eq_ok.1 hr
        exact ih (hc x hm z h1) hr

theorem ordOuterLoop {S : List Nat} {l l' : Raw Nat} (hT : Twins s s') (hw : Walks s s' S l l') (acc : Access) (fuel : Nat) :
    ∀ x, (x = NULL_ID ∨ x ∈ S) → SameUnlessUninit (orderedOuterLoop U s acc l fuel x) (orderedOuterLoop U s' acc l' fuel x) := by
  induction fuel with
  | zero => exact fun _ _ => .refl _
  | succ fuel ih =>
    intro x hxS
    unfold orderedOuterLoop
    split
    · exact .refl _
    · rename_i hne
      have hm := hxS.resolve_left hne
      rw [hT.alike.archs]
      refine .bind (hw.page x hm) fun page _ => ?_
      refine .bind (hw.index x hm) fun index _ => ?_
      refine .bind (.refl _) fun pg _ => ?_
      refine .bind (.refl _) fun ai _ => ?_
      refine .bind (.refl _) fun arch _ => ?_
      refine .bind (.refl _) fun layout _ => ?_
      rw [← hw.link x hm]
      split
      · exact .bind (.refl _) fun y hy => ih y (hw.closed x hm y hy)
      · refine .bind (.refl _) fun offs _ => ?_
        refine .bind (.refl _) fun y hy => ?_
        refine .bind (ordRangeLoop hw page fuel y _ (hw.closed x hm y hy)) fun a ha => ?_
        obtain ⟨z, m⟩ := a
        exact .bind (ih z (ordRangeLoop_closed hw.closed fuel (hw.closed x hm y hy) ha)) fun _ _ => .refl _

theorem ordOuterLoop_ids {P : Nat → Prop} (ho : Owned P s.archs.pages) {acc : Access} {l : Raw Nat} (fuel : Nat) :
    ∀ {x : Nat} {rs : List (Range × IterView)} {n : Nat}, orderedOuterLoop U s acc l fuel x = .ok (rs, n) →
      ∀ r ∈ rs, ∀ i ∈ r.2.entityIds, P i := by
  induction fuel with
  | zero => intro _ _ _ hr; cases hr
  | succ fuel ih =>
    intro x rs n hr
    unfold orderedOuterLoop at hr
    split at hr
    · cases hr
      exact fun r hr => by cases hr
    · obtain ⟨page, _, hr⟩ := bind_eq_ok.1 hr
      obtain ⟨index, _, hr⟩ := bind_eq_ok.1 hr
      obtain ⟨pg, hpg, hr⟩ := bind_eq_ok.1 hr
      obtain ⟨ai, _, hr⟩ := bind_eq_ok.1 hr
      obtain ⟨arch, _, hr⟩ := bind_eq_ok.1 hr
      obtain ⟨layout, _, hr⟩ := bind_eq_ok.1 hr
      split at hr
      · obtain ⟨y, _, hr⟩ := bind_eq_ok.1 hr
        exact ih hr
      · obtain ⟨offs, _, hr⟩ := bind_eq_ok.1 hr
        obtain ⟨y, _, hr⟩ := bind_eq_ok.1 hr
        obtain ⟨⟨z, m⟩, _, hr⟩ := bind_eq_ok.1 hr
        obtain ⟨⟨more, k⟩, h1, hr⟩ := bind_eq_ok.1 hr
        cases hr
        intro r hr
        rcases List.mem_cons.1 hr with rfl | hr
        · unfold idxUnchecked at hpg
          split at hpg
          · rename_i hx
            cases hpg
            exact ho pg (List.mem_of_getElem? hx)
          · cases hpg
        · exact ih h1 r hr

/-- Either the group is empty, and the query finds nothing in both stores, or it is registered in both. -/
theorem ordIter (hx : LooseExec U dbg cap h s) (hx' : LooseExec U dbg cap' h s') (hT : Twins s s') (g : Nat) (acc : Access)
    (old : List (Range × IterView)) (fuel : Nat) :
    SameUnlessUninit (orderedQueryIter U s g acc old (fuel + 1)) (orderedQueryIter U s' g acc old (fuel + 1)) := by
  have c := stray_core hx.stray
  have c' := stray_core hx'.stray
  have hempty : ∀ {s1 : Store}, Strays s1 h → idSequence g h = [] → orderedQueryIter U s1 g acc old (fuel + 1) =
      .ok { ranges := [], nextRangeIndex := 0, currentIndexInPage := 0, nextOffsetFromRange := 0, len := 0 } := by
    intro s1 c he
    unfold orderedQueryIter Orders.getGroupIndex
    cases hb : binarySearch s1.orders.groupIds g with
    | notFound j => simp
    | found i =>
      obtain ⟨gr, h1, h2, h3⟩ := c.core.orders.get hb
      have hh := h3.head
      rw [he] at hh
      simp only [idxUnchecked_of_some h1, ok_bind, hh]
      unfold orderedOuterLoop
      simp
  by_cases he : idSequence g h = []
  · rw [hempty c he, hempty c' he]
    exact .refl _
  · have hreg : ∀ {s1 : Store}, Strays s1 h → ∃ i gr, s1.orders.getGroupIndex g = some i ∧ s1.orders.groups[i]? = some gr ∧
        gr.Rep s1.orders.entityCapacity (idSequence g h) := by
      intro s1 c
      unfold Orders.getGroupIndex
      cases hb : binarySearch s1.orders.groupIds g with
      | notFound j => exact absurd (c.core.orders.unreg g (lookupK_notFound hb)) he
      | found i =>
        obtain ⟨gr, h1, h2, h3⟩ := c.core.orders.get hb
        exact ⟨i, gr, rfl, h1, h3⟩
    obtain ⟨i, gr, h1, h2, h3⟩ := hreg c
    obtain ⟨i', gr', h1', h2', h3'⟩ := hreg c'
    have hw : Walks s s' (idSequence g h) gr.fwd gr'.fwd := by
      refine ⟨fun i hi => ?_, fun i hi => ?_, fun i hi => ?_, fun i hi v hv => ?_⟩
      · obtain ⟨e, he, rfl⟩ := c.mem g i hi
        exact readPage hx hx' hT he
      · obtain ⟨e, he, rfl⟩ := c.mem g i hi
        exact readIndex hx hx' hT he
      · rw [h3.fwd.read (h3.lt i hi).1, h3'.fwd.read (h3'.lt i hi).1]
      · rw [h3.fwd.read (h3.lt i hi).1] at hv
        cases hf : follower (idSequence g h) i with
        | none =>
          rw [hf] at hv
          cases hv
          exact Or.inl rfl
        | some y =>
          rw [hf] at hv
          cases hv
          exact Or.inr (mem_of_follower hf)
    unfold orderedQueryIter
    simp only [h1, h1', idxUnchecked_of_some h2, idxUnchecked_of_some h2', ok_bind]
    rw [h3.head, h3'.head]
    refine .bind (ordOuterLoop hT hw acc (fuel + 1) _ ?_) fun _ _ => .refl _
    cases hh : (idSequence g h).head? with
    | none => exact Or.inl rfl
    | some y => exact Or.inr (List.mem_of_mem_head? hh)

theorem ordIter_ids {P : Nat → Prop} (ho : Owned P s.archs.pages) {g : Nat} {acc : Access} {old : List (Range × IterView)} {fuel : Nat}
    {it : OrdIter} (hr : orderedQueryIter U s g acc old fuel = .ok it) : ∀ r ∈ it.ranges, ∀ i ∈ r.2.entityIds, P i := by
  unfold orderedQueryIter at hr
  dsimp only at hr
  split at hr
  · cases hr
    intro r hr
    simp at hr
  · obtain ⟨gr, _, hr⟩ := bind_eq_ok.1 hr
    obtain ⟨⟨rs, n⟩, h1, hr⟩ := bind_eq_ok.1 hr
    cases hr
    intro r hr
    simp only [List.take_zero, List.nil_append] at hr
    exact ordOuterLoop_ids ho fuel h1 r hr

theorem ordNext_ranges {it it' : OrdIter} {r : Option (List Ref)} (hr : it.next dbg = .ok (r, it')) : it'.ranges = it.ranges := by
  unfold OrdIter.next at hr
  split at hr
  · cases hr
    rfl
  · obtain ⟨⟨range, view⟩, _, hr⟩ := bind_eq_ok.1 hr
    obtain ⟨last, _, hr⟩ := bind_eq_ok.1 hr
    cases hr
    split <;> rfl

theorem ordNextWith (hx : LooseExec U dbg cap h s) (hx' : LooseExec U dbg cap' h s') {it : OrdIter}
    (hg : ∀ r ∈ it.ranges, ∀ i ∈ r.2.entityIds, ∃ e ∈ handles h, e.id = i) :
    it.nextWithEntity dbg s = it.nextWithEntity dbg s' := by
  unfold OrdIter.nextWithEntity
  cases hn : it.next dbg with
  | error _ => rfl
  | ok a =>
    obtain ⟨r, it'⟩ := a
    have hrs := ordNext_ranges hn
    cases r with
    | none => rfl
    | some refs =>
      show (idxUnchecked it'.ranges (it'.nextRangeIndex - 1) >>= _) = (idxUnchecked it'.ranges (it'.nextRangeIndex - 1) >>= _)
      cases hv : idxUnchecked it'.ranges (it'.nextRangeIndex - 1) with
      | error _ => rfl
      | ok rv =>
        obtain ⟨range, view⟩ := rv
        show (idxUnchecked view.entityIds it'.currentIndexInPage >>= _) = (idxUnchecked view.entityIds it'.currentIndexInPage >>= _)
        cases hi : idxUnchecked view.entityIds it'.currentIndexInPage with
        | error _ => rfl
        | ok i =>
          have hm : (range, view) ∈ it.ranges := by
            unfold idxUnchecked at hv
            split at hv
            · rename_i hx
              cases hv
              rw [← hrs]
              exact List.mem_of_getElem? hx
            · cases hv
          have him : i ∈ view.entityIds := by
            unfold idxUnchecked at hi
            split at hi
            · rename_i hx
              cases hi
              exact List.mem_of_getElem? hx
            · cases hi
          show (Raw.read s.ents.versions i >>= _) = (Raw.read s'.ents.versions i >>= _)
          rw [version hx hx' (hg _ hm i him)]

theorem ordNextWith_ranges {it it' : OrdIter} {r : Option (Entity × List Ref)} (hr : it.nextWithEntity dbg s = .ok (r, it')) :
    it'.ranges = it.ranges := by
  unfold OrdIter.nextWithEntity at hr
  obtain ⟨⟨o, it1⟩, h1, hr⟩ := bind_eq_ok.1 hr
  have := ordNext_ranges h1
  cases o with
  | none =>
    cases hr
    exact this
  | some refs =>
    obtain ⟨⟨range, view⟩, _, hr⟩ := bind_eq_ok.1 hr
    obtain ⟨i, _, hr⟩ := bind_eq_ok.1 hr
    obtain ⟨v, _, hr⟩ := bind_eq_ok.1 hr
    cases hr
    exact this

/-- Without fuel the ordered query does not get anywhere. -/
theorem ord_zero {α : Type} {f : OrdIter → Res (Option α × OrdIter)} {g : Nat} {acc : Access} {old : List (Range × IterView)}
    (c : Strays s h) : (orderedQueryIter U s g acc old 0 >>= drain f 0) = .error .outOfFuel := by
  unfold orderedQueryIter Orders.getGroupIndex
  cases hb : binarySearch s.orders.groupIds g with
  | notFound j => rfl
  | found i =>
    obtain ⟨gr, h1, _, _⟩ := c.core.orders.get hb
    simp only [idxUnchecked_of_some h1, ok_bind]
    rfl

theorem sameFor (hx : LooseExec U dbg cap h s) (hx' : LooseExec U dbg cap' h s') (hT : Twins s s') :
    SameFor U dbg (handles h) s s' where
  alive _ he := isAlive hx hx' he
  archetype _ he := archetype hx hx' hT he
  refs _ he ts := refs hx hx' hT he ts
  values e he ts := by
    unfold Store.getComponents
    rw [refs hx hx' hT he ts, hT.alike.archs]
  tags e he tag := ((stray_core hx.stray).hasTag he tag).trans ((stray_core hx'.stray).hasTag he tag).symm
  next e he g := by
    rw [(Props.C64_groups_are_id_sequences hx.stray g).2.2.2.2.1 e he, (Props.C64_groups_are_id_sequences hx'.stray g).2.2.2.2.1 e he]
  previous e he g := by
    rw [(Props.C64_groups_are_id_sequences hx.stray g).2.2.2.2.2 e he, (Props.C64_groups_are_id_sequences hx'.stray g).2.2.2.2.2 e he]
  first g := by
    rw [(Props.C64_groups_are_id_sequences hx.stray g).2.2.1, (Props.C64_groups_are_id_sequences hx'.stray g).2.2.1]
  last g := by
    rw [(Props.C64_groups_are_id_sequences hx.stray g).2.2.2.1, (Props.C64_groups_are_id_sequences hx'.stray g).2.2.2.1]
  query acc old fuel := by
    unfold runComponentQuery
    rw [hT.componentQueryIter]
  queryWithEntities acc old fuel := by
    unfold runComponentQueryWithEntities
    rw [← hT.componentQueryIter]
    cases hr : Ecs.componentQueryIter U s acc old with
    | error _ => rfl
    | ok it =>
      exact drain_same _ (fun it hg => nextWithEntity hx hx' hg) (fun it r it' hg hr => (nextWithEntity_ids hg hr).1) fuel it
        (CompIter.Ids.start (issued hx) hr)
  queryFilterTag acc tag old fuel := by
    unfold runComponentQueryFilterTag
    rw [← hT.componentQueryIter]
    cases hr : Ecs.componentQueryIter U s acc old with
    | error _ => rfl
    | ok it =>
      show (s.tags.hasTagBitvec tag >>= _) = (s'.tags.hasTagBitvec tag >>= _)
      rcases bitvec hx hx' hT tag with ⟨bv, bv', h1, h2, hb⟩ | ⟨e, h1, h2⟩
      · rw [h1, h2]
        exact drain_same _ (fun it hg => nextFiltered hx hx' hb fuel hg) (fun it r it' hg hr => nextFiltered_ids fuel hg hr) fuel it
          (CompIter.Ids.start (issued hx) hr)
      · rw [h1, h2]
        rfl
  entities es hm acc old fuel := by
    unfold runEntityQuery
    refine .bind (entIter hx hx' hT hm acc old) fun it hr => ?_
    refine .drain (fun it => it.entities = es) (fun it hg => entNext hx hx' hT (by rw [hg]; exact hm))
      (fun it r it' hg hr => (entNext_entities hr).trans hg) fuel it (entIter_entities hr)
  entitiesWithEntities es hm acc old fuel := by
    unfold runEntityQueryWithEntities
    refine .bind (entIter hx hx' hT hm acc old) fun it hr => ?_
    refine .drain (fun it => it.entities = es) (fun it hg => ?_) (fun it r it' hg hr => ?_) fuel it (entIter_entities hr)
    · unfold EntIter.nextWithEntity
      exact .bind (entNext hx hx' hT (by rw [hg]; exact hm)) fun _ _ => .refl _
    · unfold EntIter.nextWithEntity at hr
      obtain ⟨⟨o, it1⟩, h1, hr⟩ := bind_eq_ok.1 hr
      have := entNext_entities h1
      cases o with
      | none =>
        cases hr
        exact this.trans hg
      | some refs =>
        obtain ⟨e, _, hr⟩ := bind_eq_ok.1 hr
        cases hr
        exact this.trans hg
  ordered g acc old fuel := by
    cases fuel with
    | zero =>
      exact Or.inl ((ord_zero (stray_core hx.stray)).trans (ord_zero (stray_core hx'.stray)).symm)
    | succ fuel =>
      unfold runOrderedQuery
      exact .bind (ordIter hx hx' hT g acc old fuel) fun _ _ => .refl _
  orderedWithEntities g acc old fuel := by
    cases fuel with
    | zero =>
      exact Or.inl ((ord_zero (stray_core hx.stray)).trans (ord_zero (stray_core hx'.stray)).symm)
    | succ fuel =>
      unfold runOrderedQueryWithEntities
      refine .bind (ordIter hx hx' hT g acc old fuel) fun it hr => Or.inl ?_
      exact drain_same (fun it : OrdIter => ∀ r ∈ it.ranges, ∀ i ∈ r.2.entityIds, ∃ e ∈ handles h, e.id = i)
        (fun it hg => ordNextWith hx hx' hg) (fun it r it' hg hr => by rw [ordNextWith_ranges hr]; exact hg) (fuel + 1) it
        (ordIter_ids (issued hx) hr)

end Twins
end Ecs
