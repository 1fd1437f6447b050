import Verif.Spec.Panics
import Verif.Proofs.UnwindCalm
import Verif.Proofs.QueryAny
import Verif.Proofs.Regs

/-! Exactly when the calls that look for room panic. -/

namespace Ecs
open Spec

/-- If the computation panics, then `C`. -/
def Blames {α : Type} (r : Res α) (C : Prop) : Prop := ∀ p, r = .error (.panic p) → C

namespace Blames
variable {α β : Type} {C D : Prop}

theorem mono {r : Res α} (h : Blames r C) (hc : C → D) : Blames r D := fun p hp => hc (h p hp)

theorem calm {r : Res α} (h : Calm r) : Blames r C := fun p hp => absurd hp (h p)

theorem bind {r : Res α} {f : α → Res β} (hr : Blames r C) (hf : ∀ a, r = .ok a → Blames (f a) C) : Blames (r >>= f) C := by
  cases r with
  | ok a => exact hf a rfl
  | error e => exact fun p h => hr p (by cases e <;> cases h; rfl)

theorem onPanic {σ : Type} {m : Unw σ α} {s : σ} {Q : σ → Prop} (h : m.OnPanic s Q) : Blames (m.result s) (∃ s', Q s') := by
  intro p hp
  unfold Unw.result at hp
  rcases hm : m s with ⟨r, s'⟩
  rw [hm] at hp
  cases r with
  | ok a => cases hp
  | error e =>
    cases hp
    exact ⟨s', h s' ⟨p, hm⟩⟩

end Blames

theorem panics_bind {α β : Type} {r : Res α} {f : α → Res β} (h : ∃ p, r = .error (.panic p)) : ∃ p, (r >>= f) = .error (.panic p) := by
  obtain ⟨p, rfl⟩ := h
  exact ⟨p, rfl⟩

theorem Layout.new_error {dbg : Bool} {a : Archetype} {f : Fault} (h : Layout.new dbg a = .error f) : ∃ p, f = .panic p := by
  have hbind : ∀ {α β : Type} {r : Res α} {g : α → Res β} (_ : ∀ f, r = .error f → ∃ p, f = .panic p)
      (_ : ∀ x f, g x = .error f → ∃ p, f = .panic p) f, (r >>= g) = .error f → ∃ p, f = .panic p := by
    intro α β r g h1 h2 f hf
    cases r with
    | ok a => exact h2 a f hf
    | error e => exact h1 f (by cases hf; rfl)
  have hpure : ∀ {α : Type} (x : α) f, (pure x : Res α) = .error f → ∃ p, f = .panic p := fun _ _ h => by cases h
  have hdiv : ∀ a b f, divChecked a b = .error f → ∃ p, f = .panic p := by
    intro a b f h
    unfold divChecked at h
    split at h <;> cases h
    exact ⟨_, rfl⟩
  have hmap : ∀ (k : Nat) (l : List Nat) f, (l.mapM fun s => divChecked k s) = .error f → ∃ p, f = .panic p := by
    intro k l
    induction l with
    | nil => exact fun f h => by cases h
    | cons x l ih =>
      intro f h
      rw [List.mapM_cons] at h
      exact hbind (hdiv k x) (fun y => hbind ih fun _ => hpure _) f h
  refine hbind (r := calcCapacity dbg a.sizes a.aligns) ?_ (fun cap => hbind ?_ fun _ => hpure _) f h
  · unfold calcCapacity
    refine hbind ?_ fun m => hbind (hdiv _ _) fun r => hbind ?_ fun k => hbind (hmap _ _) fun c => ?_
    · intro f h; cases hs : a.aligns <;> rw [hs] at h <;> cases h; exact ⟨_, rfl⟩
    · intro f h
      unfold subUsize at h
      split at h
      · cases h
      · split at h <;> cases h
        exact ⟨_, rfl⟩
    · intro f h; cases c <;> cases h; exact ⟨_, rfl⟩
  · unfold calcOffsets
    refine hbind ?_ fun _ => hpure _
    intro f h
    unfold rassert at h
    split at h <;> cases h
    exact ⟨_, rfl⟩

/-- The container version of `NoPlace`. -/
def Archs.NoPlace (U : Universe) (dbg : Bool) (c : Archs) (T : List TypeId) : Prop :=
  (∀ a ∈ c.archetypes, ¬ HasSet a T) ∧ rowsPerPage U dbg T = none

/-- What is known of the container after calls with distinct types. -/
structure Archs.Known (U : Universe) (dbg : Bool) (c : Archs) : Prop where
  wf : ∀ b ∈ c.archetypes, b.WF U
  lay : c.LayoutsOk dbg
  llen : c.layouts.length = c.archetypes.length

namespace Archs
variable {U : Universe} {dbg : Bool} {c c' : Archs}

theorem reserveArchetype_at {a : Archetype} {i : Nat} (hr : c.reserveArchetype dbg a = .ok (c', i)) :
    ∃ b, c'.archetypes[i]? = some b ∧ b.ids = a.ids := by
  unfold reserveArchetype at hr
  split at hr
  · next k hk =>
    obtain ⟨_, b, hb, he⟩ := findSame_some _ hk
    rw [Nat.sub_zero] at hb
    split at hr <;> cases hr <;> exact ⟨b, hb, he⟩
  · obtain ⟨_, _, hr⟩ := bind_eq_ok.1 hr
    split at hr
    · obtain ⟨_, h3, hr⟩ := bind_eq_ok.1 hr
      obtain ⟨_, _, hr⟩ := bind_eq_ok.1 hr
      cases hr
      obtain ⟨h4, rfl⟩ := idxSet_ok h3
      exact ⟨a, List.getElem?_set_self h4, rfl⟩
    · cases hr
      exact ⟨a, by simp, rfl⟩

theorem Known.reserveArchetype {a : Archetype} {i : Nat} (h : c.Known U dbg) (ha : a.WF U)
    (hr : c.reserveArchetype dbg a = .ok (c', i)) : c'.Known U dbg ∧ c'.archetypes[i]? = some a := by
  have hwf : ∀ b ∈ c'.archetypes, b.WF U := fun b hb => (reserveArchetype_regs hr b hb).elim (fun h => h ▸ ha) (h.wf b)
  refine ⟨⟨hwf, reserveArchetype_layouts hr h.llen h.lay, ?_⟩, ?_⟩
  · have := h.llen
    unfold Archs.reserveArchetype at hr
    split at hr
    · split at hr <;> cases hr <;> exact this
    · obtain ⟨_, _, hr⟩ := bind_eq_ok.1 hr
      split at hr
      · obtain ⟨_, h3, hr⟩ := bind_eq_ok.1 hr
        obtain ⟨_, h4, hr⟩ := bind_eq_ok.1 hr
        cases hr
        rw [(idxSet_ok h3).2, (idxSet_ok h4).2]
        simpa using this
      · cases hr; simpa using this
  · obtain ⟨b, h1, h2⟩ := reserveArchetype_at hr
    rw [h1, (hwf b (List.mem_of_getElem? h1)).ext ha h2]

theorem noPlace_iff {a : Archetype} {T : List Nat} (h : ∀ b ∈ c.archetypes, b.WF U) (ha : a.WF U) (hT : HasSet a T) :
    c.NoPlace U dbg T ↔ findSame a 0 c.archetypes = none ∧ ∃ p, Layout.new dbg a = .error (.panic p) := by
  have h1 : (∀ b ∈ c.archetypes, ¬ HasSet b T) ↔ findSame a 0 c.archetypes = none := by
    constructor
    · intro hno
      cases hf : findSame a 0 c.archetypes with
      | none => rfl
      | some k =>
        obtain ⟨_, b, hb, he⟩ := findSame_some _ hf
        exact absurd (fun t => by rw [he]; exact hT t) (hno b (List.mem_of_getElem? hb))
    · intro hf b hb hs
      exact findSame_none _ hf b hb (by rw [(h b hb).eq_of_set ha hs hT])
  have h2 : rowsPerPage U dbg T = none ↔ ∃ p, Layout.new dbg a = .error (.panic p) := by
    rw [rowsPerPage_of ha hT]
    split
    · next l hl => rw [hl]; simp
    · next f hf =>
      obtain ⟨p, rfl⟩ := Layout.new_error hf
      exact ⟨fun _ => ⟨p, hf⟩, fun _ => rfl⟩
  exact and_congr h1 h2

theorem reserveArchetype_panics {a : Archetype} (h1 : findSame a 0 c.archetypes = none)
    (h2 : ∃ p, Layout.new dbg a = .error (.panic p)) : ∃ p, c.reserveArchetype dbg a = .error (.panic p) := by
  unfold Archs.reserveArchetype
  rw [h1]
  exact panics_bind h2

theorem reserveArchetype_blames (hs : c.Shape) (hf : c.FreeOk) (a : Archetype) :
    Blames (c.reserveArchetype dbg a) (findSame a 0 c.archetypes = none ∧ ∃ p, Layout.new dbg a = .error (.panic p)) := by
  unfold Archs.reserveArchetype
  split
  · split <;> exact .calm (.ok _)
  · next h1 =>
    refine .bind (fun p hp => ⟨h1, p, hp⟩) fun l _ => .calm ?_
    split
    · next k hk =>
      have hk' := hf.free k (List.mem_of_getLast? hk)
      rw [idxSet_of_lt _ hk', idxSet_of_lt _ (by rw [hs.llen]; exact hk')]
      exact .pure _
    · exact .pure _

/-- Looking for room panics only if there is no place or, in debug builds, no row. -/
theorem reserve_blames (hs : c.Shape) (hf : c.FreeOk) (hu : c.Use) (hk : c.Known U dbg) {a : Archetype} (ha : a.WF U)
    {T : List Nat} (hT : HasSet a T) :
    Blames (c.reserveArchetype dbg a) (c.NoPlace U dbg T) ∧ ∀ c1 i, c.reserveArchetype dbg a = .ok (c1, i) → ∀ id,
      Blames (c1.reservePage dbg id i) (dbg = true ∧ rowsPerPage U dbg T = some 0) := by
  refine ⟨(reserveArchetype_blames hs hf a).mono (noPlace_iff hk.wf ha hT).2, fun c1 i h1 id => ?_⟩
  obtain ⟨k1, k2, k3, _⟩ := hs.reserveArchetype ha.even h1
  obtain ⟨j1, j2⟩ := hk.reserveArchetype ha h1
  have := Blames.onPanic (reservePageU_onPanic (dbg := dbg) k1 (hu.reserveArchetype h1) k2 id)
  rw [reservePageU_result] at this
  refine this.mono fun ⟨c', h⟩ => ⟨h.debug, ?_⟩
  obtain ⟨l, hl, hz⟩ := h.zero
  rw [rowsPerPage_of ha hT, j1.lay i a l j2 hl]
  exact congrArg some hz

theorem addEntity_blames (hs : c.Shape) (hf : c.FreeOk) (hu : c.Use) (hk : c.Known U dbg) {a : Archetype} (ha : a.WF U)
    {T : List Nat} (hT : HasSet a T) (id : Nat) :
    Blames (c.addEntity dbg id a) (c.NoPlace U dbg T ∨ dbg = true ∧ rowsPerPage U dbg T = some 0) := by
  obtain ⟨h1, h2⟩ := reserve_blames hs hf hu hk ha hT
  unfold addEntity
  exact .bind (h1.mono .inl) fun ⟨c1, i⟩ hr => (h2 c1 i hr id).mono .inr

theorem addEntity_panics (hk : c.Known U dbg) {a : Archetype} (ha : a.WF U) {T : List Nat} (hT : HasSet a T)
    (hn : c.NoPlace U dbg T) (id : Nat) : ∃ p, c.addEntity dbg id a = .error (.panic p) := by
  obtain ⟨h1, h2⟩ := (noPlace_iff hk.wf ha hT).1 hn
  exact panics_bind (reserveArchetype_panics h1 h2)

theorem move_panics (hk : c.Known U dbg) {a : Archetype} (ha : a.WF U) {T : List Nat} (hT : HasSet a T)
    (hn : c.NoPlace U dbg T) (id : Nat) (prev : Loc) (pi : Nat) :
    ∃ p, c.moveEntityToOtherArchetype dbg id prev pi a = .error (.panic p) := by
  obtain ⟨h1, h2⟩ := (noPlace_iff hk.wf ha hT).1 hn
  exact panics_bind (reserveArchetype_panics h1 h2)

theorem move_blames (hs : c.Shape) (hf : c.FreeOk) (hu : c.Use) (hk : c.Known U dbg) {a : Archetype} (ha : a.WF U)
    {T : List Nat} (hT : HasSet a T) (id : Nat) {prev : Loc} {pi : Nat} (hp : prev.page < c.pages.length)
    (hpi : pi < c.archetypes.length) :
    Blames (c.moveEntityToOtherArchetype dbg id prev pi a)
      (c.NoPlace U dbg T ∨ dbg = true ∧ rowsPerPage U dbg T = some 0) := by
  obtain ⟨h1, h2⟩ := reserve_blames hs hf hu hk ha hT
  unfold Archs.moveEntityToOtherArchetype
  refine .bind (h1.mono .inl) fun ⟨c1, i⟩ hr => .bind ((h2 c1 i hr id).mono .inr) fun ⟨c2, q⟩ hr2 => .calm ?_
  dsimp only at hr2 ⊢
  obtain ⟨k1, k2, k3, _⟩ := hs.reserveArchetype ha.even hr
  obtain ⟨j1, j2, j3, j4, j5⟩ := k1.reservePage k2 hr2
  have hlen : c.archetypes.length ≤ c1.archetypes.length := by
    unfold Archs.reserveArchetype at hr
    split at hr
    · split at hr <;> cases hr <;> exact Nat.le_refl _
    · obtain ⟨_, _, hr⟩ := bind_eq_ok.1 hr
      split at hr
      · obtain ⟨_, h3, hr⟩ := bind_eq_ok.1 hr
        obtain ⟨_, _, hr⟩ := bind_eq_ok.1 hr
        cases hr
        rw [(idxSet_ok h3).2]; simp
      · cases hr; simp
  have hp2 : prev.page < c2.pages.length := by rw [k3] at j3; omega
  refine (Calm.idx hp2).bind fun _ _ => (Calm.idx j2).bind fun _ _ => (Calm.idx (by rw [j4]; omega)).bind fun _ _ =>
    (Calm.idx (by rw [j1.llen, j4]; omega)).bind fun _ _ => (Calm.idx (by rw [j1.llen, j4]; omega)).bind fun _ _ => ?_
  exact (copyLoop_calm _ _ _ _ _ _ _ hp2 j2).bind fun _ _ => .pure _

theorem reservePage_regs {id i : Nat} {q : Loc} (hr : c.reservePage dbg id i = .ok (c', q)) :
    c'.archetypes = c.archetypes ∧ c'.layouts = c.layouts := by
  unfold Archs.reservePage at hr
  obtain ⟨pl, h1, hr⟩ := bind_eq_ok.1 hr
  obtain ⟨o, h2, hr⟩ := bind_eq_ok.1 hr
  split at hr
  · obtain ⟨page, h3, hr⟩ := bind_eq_ok.1 hr
    obtain ⟨⟨page', ix⟩, h4, hr⟩ := bind_eq_ok.1 hr
    cases hr
    exact ⟨rfl, rfl⟩
  · obtain ⟨⟨c1, p⟩, h3, hr⟩ := bind_eq_ok.1 hr
    dsimp only at hr
    obtain ⟨layout, h4, hr⟩ := bind_eq_ok.1 hr
    obtain ⟨page, h5, hr⟩ := bind_eq_ok.1 hr
    obtain ⟨pl', h6, hr⟩ := bind_eq_ok.1 hr
    obtain ⟨pa, h7, hr⟩ := bind_eq_ok.1 hr
    obtain ⟨⟨page', ix⟩, h8, hr⟩ := bind_eq_ok.1 hr
    cases hr
    split at h3
    · cases h3; exact ⟨rfl, rfl⟩
    · obtain ⟨_, _, h3⟩ := bind_eq_ok.1 h3
      obtain ⟨_, _, h3⟩ := bind_eq_ok.1 h3
      cases h3
      exact ⟨rfl, rfl⟩

theorem swapRemoveEntity_regs {q : Loc} {o : Option Nat} (hr : c.swapRemoveEntity q = .ok (c', o)) :
    c'.archetypes = c.archetypes ∧ c'.layouts = c.layouts := by
  unfold Archs.swapRemoveEntity at hr
  obtain ⟨ai, h1, hr⟩ := bind_eq_ok.1 hr
  obtain ⟨pg, h2, hr⟩ := bind_eq_ok.1 hr
  obtain ⟨a, h3, hr⟩ := bind_eq_ok.1 hr
  obtain ⟨l, h4, hr⟩ := bind_eq_ok.1 hr
  obtain ⟨⟨pg', o'⟩, h5, hr⟩ := bind_eq_ok.1 hr
  dsimp only at hr
  split at hr
  · obtain ⟨c2, h6, hr⟩ := bind_eq_ok.1 hr
    cases hr
    unfold Archs.freePage at h6
    obtain ⟨ai', h7, h6⟩ := bind_eq_ok.1 h6
    split at h6
    · cases h6; exact ⟨rfl, rfl⟩
    · obtain ⟨pl, h8, h6⟩ := bind_eq_ok.1 h6
      cases h6
      split <;> exact ⟨rfl, rfl⟩
  · cases hr; exact ⟨rfl, rfl⟩

theorem Known.same (h : c.Known U dbg) (h1 : c'.archetypes = c.archetypes ∧ c'.layouts = c.layouts) : c'.Known U dbg :=
  ⟨by rw [h1.1]; exact h.wf, by unfold LayoutsOk; rw [h1.1, h1.2]; exact h.lay, by rw [h1.1, h1.2]; exact h.llen⟩

end Archs

/-- The set of an archetype and more types: what `ArchetypeBuilder` makes of it. -/
theorem built_union {U : Universe} {b : Archetype} (hb : b.WF U) (ts : List Nat) :
    ∃ a bb, ((ArchetypeBuilder.new.includeArchetype b).includeComponents U ts).build = .ok (a, bb) ∧ a.WF U ∧
      HasSet a (b.ids ++ ts) := by
  obtain ⟨r, h1, h2⟩ := (BuilderRep.new U).includeArchetype hb
  obtain ⟨r', h3, h4⟩ := h1.includeComponents ts
  have hne : r' ≠ [] := by
    rintro rfl
    cases hids : b.ids with
    | nil => exact hb.ne hids
    | cons t l =>
      have := (h4 t).2 (.inl ((h2 t).2 (.inr (by rw [hids]; simp))))
      cases this
  obtain ⟨a, bb, h5, h6, h7, _⟩ := h3.build hne
  refine ⟨a, bb, h5, h6, fun t => ?_⟩
  rw [h7.mem_iff, h4, h2, List.mem_append]
  simp

/-- The same with types excluded. -/
theorem built_diff {U : Universe} {b : Archetype} (hb : b.WF U) (ts : List Nat) :
    if b.ids.filter (· ∉ ts) = [] then
      ((ArchetypeBuilder.new.includeArchetype b).excludeComponents U ts).build = .error (.panic .assertFailed)
    else ∃ a bb, ((ArchetypeBuilder.new.includeArchetype b).excludeComponents U ts).build = .ok (a, bb) ∧ a.WF U ∧
      HasSet a (b.ids.filter (· ∉ ts)) := by
  obtain ⟨r, h1, h2⟩ := (BuilderRep.new U).includeArchetype hb
  obtain ⟨r', h3, h4⟩ := h1.excludeComponents ts
  have hmem : ∀ t, t ∈ r' ↔ t ∈ b.ids.filter (· ∉ ts) := fun t => by
    rw [h4, h2, List.mem_filter]
    simp
  split
  · next h0 =>
    have : r' = [] := List.eq_nil_iff_forall_not_mem.2 fun t ht => by
      rw [hmem, h0] at ht; cases ht
    subst this
    exact h3.build_nil
  · next h0 =>
    have hne : r' ≠ [] := by
      rintro rfl
      exact h0 (List.eq_nil_iff_forall_not_mem.2 fun t ht => by rw [← hmem] at ht; cases ht)
    obtain ⟨a, bb, h5, h6, h7, _⟩ := h3.build hne
    exact ⟨a, bb, h5, h6, fun t => by rw [h7.mem_iff, hmem]⟩

section
variable {U : Universe} {dbg : Bool} {cap : Nat} {h : List Event} {s : Store}

theorem asks_wf {c : Archs} {a : Archetype} {ev : Event} (hc : ∀ b ∈ c.archetypes, b.WF U)
    (hd : ∀ e vals, ev = .added e vals → (vals.map (·.1)).Nodup) (ha : Asks U c a ev) : a.WF U := by
  cases ev with
  | createdWith e ts init => exact Built.wf ha
  | added e vals =>
    rcases ha with ha | ⟨b, hb, bb, ha⟩
    · exact Built.wf (.tuple _ (hd e vals rfl) ha)
    · obtain ⟨a', bb', h1, h2, _⟩ := built_union (hc b hb) (vals.map (·.1))
      rw [h1] at ha
      cases ha
      exact h2
  | removed e ts =>
    obtain ⟨b, hb, bb, ha⟩ := ha
    have := built_diff (hc b hb) ts
    split at this
    · rw [this] at ha; cases ha
    · obtain ⟨a', bb', h1, h2, _⟩ := this
      rw [h1] at ha
      cases ha
      exact h2
  | _ => exact ha.elim

theorem loose_known (hx : LooseExec U dbg cap h s) (hd : DistinctAdds h) : s.archs.Known U dbg := by
  induction hx with
  | init hs =>
    unfold Store.withCapacity at hs
    obtain ⟨_, _, hs⟩ := bind_eq_ok.1 hs
    cases hs
    exact ⟨by simp [Archs.new], by simp [Archs.LayoutsOk, Archs.new], rfl⟩
  | @step h s s' ev hx hl hr ih =>
    have hd' : DistinctAdds h := fun e vals hm => hd e vals (List.mem_cons_of_mem _ hm)
    refine archs_step (R := fun c c' => c.Known U dbg → c'.Known U dbg) (fun _ h => h) (fun c c' id a q ha hr h => ?_)
      (fun c c' c'' q o hc hr h => (hc h).same (Archs.swapRemoveEntity_regs hr))
      (fun c c' ps hc h => (hc h).same ⟨rfl, rfl⟩) hx hl hr (ih hd')
    unfold Archs.addEntity at hr
    obtain ⟨⟨c1, i⟩, h1, hr⟩ := bind_eq_ok.1 hr
    have hw := asks_wf h.wf (fun e vals he => hd e vals (by rw [he]; simp)) ha
    exact (h.reserveArchetype hw h1).1.same (Archs.reservePage_regs hr)

/-- What `get_entity_archetype` reads. -/
theorem loose_found (hx : LooseExec U dbg cap h s) {e : Entity} (he : e ∈ alive h) :
    s.isAlive dbg e = .ok true ∧
    ((s.hasArch.isOn e.id = .ok false ∧ heldTypes dbg s e = []) ∨
    (s.hasArch.isOn e.id = .ok true ∧ Holder h e.id ∧ ∃ q ai a, s.getLocUnchecked e.id = .ok q ∧
      s.archs.pageToArch[q.page]? = some ai ∧ s.archs.archetypes[ai]? = some a ∧ q.page < s.archs.pages.length ∧
      s.archs.row q = some e.id ∧ heldTypes dbg s e = a.ids)) := by
  have he' := he
  rw [alive_eq] at he'
  have hc := loose_core hx
  have hlt := hc.ents.issued_id_lt (hc.ents.sub e he')
  have hal := hc.isAlive (dbg := dbg) hlt
  simp only [he', decide_true] at hal
  have hon : s.hasArch.isOn e.id = .ok (s.hasArch.bit e.id) :=
    Words.isOn_of_lt (by rw [hc.blen]; exact Words.div_lt_getLen hlt)
  refine ⟨hal, ?_⟩
  cases hb : s.hasArch.bit e.id with
  | false =>
    refine .inl ⟨by rw [hon, hb], ?_⟩
    unfold heldTypes Store.getEntityArchetype Store.isValidEntityWithArchetype
    simp [hal, hon, hb]
  | true =>
    have hold : Holder h e.id := ⟨e, he, ((given_bit hx).2 e he).1 hb, rfl⟩
    obtain ⟨p, x, ai, a, l, pg, h1, h2, h3, h4, h5, h6, h7, h8⟩ := (loose_shape hx).found hb ((hasRow hx).2 _ hb)
    have hq : s.getLocUnchecked e.id = .ok ⟨p, x⟩ := by
      unfold Store.getLocUnchecked; simp [h1, h2]
    refine .inr ⟨by rw [hon, hb], hold, ⟨p, x⟩, ai, a, hq, h3, h4, (List.getElem?_eq_some_iff.1 h6).1,
      ((loose_rows hx).forget hold (Store.Rows.getLoc hq)).2, ?_⟩
    unfold heldTypes Store.getEntityArchetype Store.isValidEntityWithArchetype
    simp [hal, hon, hb, h1, idx_of_some h3, idx_of_some h4]

theorem Blames.onPanicNever {σ α : Type} {m : Unw σ α} {s : σ} (h : m.OnPanic s fun _ => False) : Calm (m.result s) :=
  fun p hp => (Blames.onPanic h p hp).elim fun _ h => h

theorem swapRemoveInternal_calm (hs : s.archs.Shape) (hu : s.archs.Use) {q : Loc} {id : Nat} (hq : s.archs.row q = some id) :
    Calm (s.swapRemoveInternal q) := by
  have := Blames.onPanicNever (Store.swapRemoveInternalU_onPanic hs hu hq (Q := fun _ => False))
  rw [Store.swapRemoveInternalU_result] at this
  exact fun p hp => this p (by rw [hp]; rfl)

theorem move_blames (hx : LooseExec U dbg cap h s) (hd : DistinctAdds h) {e : Entity} {q : Loc} {ai : Nat}
    (h1 : s.getLocUnchecked e.id = .ok q) (h2 : s.archs.pageToArch[q.page]? = some ai)
    (h3 : ai < s.archs.archetypes.length) (h4 : q.page < s.archs.pages.length) (hrow : s.archs.row q = some e.id)
    {a : Archetype} (ha : a.WF U) {T : List Nat} (hT : HasSet a T) :
    Blames (s.moveEntityToOtherArchetype dbg e a) (s.archs.NoPlace U dbg T ∨ dbg = true ∧ rowsPerPage U dbg T = some 0) := by
  have hs := loose_shape hx
  have hr := loose_rows hx
  unfold Store.moveEntityToOtherArchetype
  rw [h1]
  simp only [ok_bind, idx_of_some h2]
  refine .bind (Archs.move_blames hs.archs (loose_free hx) hr.use (loose_known hx hd) ha hT e.id h4 h3) fun ⟨c, q'⟩ h6 => .calm ?_
  dsimp only
  refine (Calm.write _ _ _).bind fun _ _ => (Calm.write _ _ _).bind fun _ _ => Calm.bind ?_ fun _ _ => .pure _
  obtain ⟨k1, k2, k3⟩ := hr.use.move hs.archs ha.even h6
  refine swapRemoveInternal_calm (id := e.id) (hs.archs.move ha.even h6).1 k1 ?_
  dsimp only
  rw [k3, if_neg]
  · exact hrow
  · rintro rfl
    rw [k2] at hrow; cases hrow

theorem move_panics (hx : LooseExec U dbg cap h s) (hd : DistinctAdds h) {e : Entity} {q : Loc} {ai : Nat}
    (h1 : s.getLocUnchecked e.id = .ok q) (h2 : s.archs.pageToArch[q.page]? = some ai)
    {a : Archetype} (ha : a.WF U) {T : List Nat} (hT : HasSet a T) (hn : s.archs.NoPlace U dbg T) :
    ∃ p, s.moveEntityToOtherArchetype dbg e a = .error (.panic p) := by
  unfold Store.moveEntityToOtherArchetype
  rw [h1]
  simp only [ok_bind, idx_of_some h2]
  exact panics_bind (Archs.move_panics (loose_known hx hd) ha hT hn _ _ _)

theorem ensure_panics (hx : LooseExec U dbg cap h s) (hd : DistinctAdds h) {e : Entity} (he : e ∈ alive h) {ts : List TypeId}
    (hn : ts.Nodup) (hr : RowsIfDebug U dbg (heldTypes dbg s e ++ ts)) :
    (∃ p, s.ensureComponents U dbg e ts = .error (.panic p)) ↔ NoPlace U dbg s (heldTypes dbg s e ++ ts) := by
  have hs := loose_shape hx
  have hrows := loose_rows hx
  have hk := loose_known hx hd
  have hcut : ∀ {T}, RowsIfDebug U dbg T → (s.archs.NoPlace U dbg T ∨ dbg = true ∧ rowsPerPage U dbg T = some 0) →
      NoPlace U dbg s T := fun h h' => h'.elim id fun h' => absurd h'.2 (h h'.1)
  obtain ⟨_, ⟨h1, h2⟩ | ⟨h1, hold, q, ai, a, h2, h3, h4, h5, h6, h7⟩⟩ := loose_found hx he
  · rw [h2, List.nil_append] at hr ⊢
    unfold Store.ensureComponents
    simp only [h1, ok_bind, Bool.false_eq_true, if_false]
    by_cases h0 : ts = []
    · subst h0
      rw [Archetype.withComponents_nil]
      refine ⟨fun _ => ⟨fun b hb hh => (hk.wf b hb).ne (List.eq_nil_iff_forall_not_mem.2 fun t ht => ?_), rowsPerPage_nil⟩,
        fun _ => ⟨_, rfl⟩⟩
      have := (hh t).1 ht
      cases this
    · obtain ⟨a, k1, k2, k3⟩ := Archetype.withComponents_spec (U := U) hn h0
      have hT : HasSet a ts := fun t => k3.mem_iff
      rw [k1]
      simp only [ok_bind]
      constructor
      · rintro ⟨p, hp⟩
        refine hcut hr (Blames.bind (Archs.addEntity_blames hs.archs (loose_free hx) hrows.use hk k2 hT e.id) ?_ p hp)
        exact fun _ _ => .calm ((Calm.recordRow _ _ _).bind fun _ _ => .pure _)
      · exact fun hno => panics_bind (Archs.addEntity_panics hk k2 hT hno _)
  · rw [h7] at hr ⊢
    have hw := hk.wf a (List.mem_of_getElem? h4)
    unfold Store.ensureComponents
    simp only [h1, h2, idx_of_some h3, idxUnchecked_of_some h4, ok_bind, if_true]
    split
    · next hi =>
      refine ⟨fun hp => (by obtain ⟨p, hp⟩ := hp; cases hp), fun hno => absurd ?_ (hno.1 a (List.mem_of_getElem? h4))⟩
      intro t
      have := (Archetype.isIncludeIds_iff hw.incr hn).1 hi t
      rw [List.mem_append]
      tauto
    · obtain ⟨b, bb, k1, k2, k3⟩ := built_union hw ts
      rw [k1]
      simp only [ok_bind]
      constructor
      · rintro ⟨p, hp⟩
        exact hcut hr (move_blames hx hd h2 h3 (List.getElem?_eq_some_iff.1 h4).1 h5 h6 k2 k3 p hp)
      · exact fun hno => move_panics hx hd h2 h3 k2 k3 hno

theorem add_panics (hx : LooseExec U dbg cap h s) (hd : DistinctAdds h) {e : Entity} (he : e ∈ handles h) {vals : TupleVal}
    (hn : (vals.map (·.1)).Nodup) (hr : RowsIfDebug U dbg (heldTypes dbg s e ++ vals.map (·.1))) :
    (∃ p, s.addComponents U dbg e vals = .error (.panic p)) ↔
      e ∈ alive h ∧ NoPlace U dbg s (heldTypes dbg s e ++ vals.map (·.1)) := by
  by_cases hlive : e ∈ alive h
  · rw [← ensure_panics hx hd hlive hn hr]
    unfold Store.addComponents
    simp only [(loose_found hx hlive).1, ok_bind, Bool.not_true, Bool.false_eq_true, if_false, hlive, true_and]
    constructor
    · rintro ⟨p, hp⟩
      refine Blames.bind (fun p hp => ⟨p, hp⟩) (fun ⟨s1, q⟩ _ => .calm ?_) p hp
      exact (Calm.view _ _).bind fun _ _ => (Calm.offsets _ _ _).bind fun _ _ => (Calm.assign _ _ _).bind fun _ _ => .pure _
    · exact fun h => panics_bind h
  · have hc := loose_core hx
    rw [handles_eq] at he
    have hal := hc.isAlive (dbg := dbg) (hc.ents.issued_id_lt he)
    rw [alive_eq] at hlive
    unfold Store.addComponents
    rw [hal]
    rw [alive_eq]
    simp [hlive, ok_bind]

theorem remove_panics (hx : LooseExec U dbg cap h s) (hd : DistinctAdds h) {e : Entity} (he : e ∈ handles h) {ts : List TypeId}
    (hr : RowsIfDebug U dbg ((heldTypes dbg s e).filter (· ∉ ts))) :
    (∃ p, s.removeComponents U dbg e ts = .error (.panic p)) ↔
      heldTypes dbg s e ≠ [] ∧ NoPlace U dbg s ((heldTypes dbg s e).filter (· ∉ ts)) := by
  have hk := loose_known hx hd
  have hcut : ∀ {T}, RowsIfDebug U dbg T → (s.archs.NoPlace U dbg T ∨ dbg = true ∧ rowsPerPage U dbg T = some 0) →
      NoPlace U dbg s T := fun h h' => h'.elim id fun h' => absurd h'.2 (h h'.1)
  by_cases hlive : e ∈ alive h
  · obtain ⟨h0, ⟨h1, h2⟩ | ⟨h1, hold, q, ai, a, h2, h3, h4, h5, h6, h7⟩⟩ := loose_found hx hlive
    · rw [h2]
      unfold Store.removeComponents Store.isValidEntityWithArchetype
      simp [h0, h1]
    · rw [h7] at hr ⊢
      have hw := hk.wf a (List.mem_of_getElem? h4)
      simp only [Ne, hw.ne, not_false_eq_true, true_and]
      unfold Store.removeComponents Store.isValidEntityWithArchetype
      simp only [h0, h1, ok_bind, if_true, Bool.not_true, Bool.false_eq_true, if_false, h2, idx_of_some h3, idxUnchecked_of_some h4]
      have hb := built_diff hw ts
      split at hb
      · next hnil =>
        rw [hb, hnil]
        refine ⟨fun _ => ⟨fun b hb hh => (hk.wf b hb).ne (List.eq_nil_iff_forall_not_mem.2 fun t ht => ?_), rowsPerPage_nil⟩,
          fun _ => ⟨_, rfl⟩⟩
        have := (hh t).1 ht
        cases this
      · obtain ⟨b, bb, k1, k2, k3⟩ := hb
        rw [k1]
        simp only [ok_bind]
        constructor
        · rintro ⟨p, hp⟩
          exact hcut hr (Blames.bind (move_blames hx hd h2 h3 (List.getElem?_eq_some_iff.1 h4).1 h5 h6 k2 k3)
            (fun _ _ => .calm (.pure _)) p hp)
        · exact fun hno => panics_bind (move_panics hx hd h2 h3 k2 k3 hno)
  · have hc := loose_core hx
    rw [handles_eq] at he
    have hal := hc.isAlive (dbg := dbg) (hc.ents.issued_id_lt he)
    rw [alive_eq] at hlive
    have h1 : heldTypes dbg s e = [] := by
      unfold heldTypes Store.getEntityArchetype Store.isValidEntityWithArchetype
      simp [hal, hlive]
    rw [h1]
    unfold Store.removeComponents Store.isValidEntityWithArchetype
    simp [hal, hlive, ok_bind]

theorem createWith_panics (hx : LooseExec U dbg cap h s) (hd : DistinctAdds h) (hb : (handles h).length + 1 < u32Size)
    {a : Archetype} (ha : Built U a) (hr : RowsIfDebug U dbg a.ids) :
    (∃ p, s.createEntityWithArchetype dbg a = .error (.panic p)) ↔ NoPlace U dbg s a.ids := by
  have hk := loose_known hx hd
  rw [handles_eq] at hb
  obtain ⟨s1, e1, k1, _, k3, k4, k5, _⟩ := (loose_core hx).register (dbg := dbg) hb
  have hT : HasSet a a.ids := fun t => Iff.rfl
  unfold Store.createEntityWithArchetype
  rw [k1]
  simp only [ok_bind, k5]
  constructor
  · rintro ⟨p, hp⟩
    refine (Blames.bind (Archs.addEntity_blames (loose_shape hx).archs (loose_free hx) (loose_rows hx).use hk ha.wf hT e1.id)
      ?_ p hp).elim id fun h' => absurd h'.2 (hr h'.1)
    exact fun _ _ => .calm ((Calm.recordRow _ _ _).bind fun _ _ => .pure _)
  · exact fun hno => panics_bind (Archs.addEntity_panics hk ha.wf hT hno _)

end

end Ecs
