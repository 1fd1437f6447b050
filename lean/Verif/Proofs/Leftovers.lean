import Verif.Spec.Leftovers
import Verif.Props.Opaque

/-! Proofs for C94. -/

namespace Ecs
open Spec

/-- What was stored is the value in the world. -/
theorem stored_value {e : Entity} {t : TypeId} {bs : List UInt8} : ∀ {h : List Event}, lastGiven e t h = some bs →
    (world h).value e t = bs.map some
  | [], hs => nomatch hs
  | ev :: h, hs => by
    have ih := @stored_value e t bs h
    have key : ∀ vals : TupleVal, (TupleVal.find vals t).or (lastGiven e t h) = some bs →
        Spec.store vals ((world h).value e) t = bs.map some := by
      intro vals hv
      unfold Spec.store
      cases hf : TupleVal.find vals t with
      | none => rw [hf] at hv; exact ih hv
      | some v => rw [hf] at hv; cases hv; rfl
    cases ev with
    | created e' =>
      unfold lastGiven at hs
      split at hs
      · exact nomatch hs
      · exact ih hs
    | createdWith e' ts init =>
      unfold lastGiven at hs
      split at hs
      · exact nomatch hs
      · rename_i hne
        show at' (world h).value e' init e t = _
        rw [at', if_neg (Ne.symm hne)]
        exact ih hs
    | added e' vals =>
      unfold lastGiven at hs
      show ((world h).apply (.added e' vals)).value e t = _
      simp only [World.apply]
      by_cases hl : e' ∈ (world h).live
      · simp only [if_pos hl]
        by_cases he : e' = e
        · subst he
          rw [if_pos ⟨rfl, hl⟩] at hs
          rw [at', if_pos rfl]
          exact key vals hs
        · rw [if_neg (fun hh => he hh.1)] at hs
          rw [at', if_neg (Ne.symm he)]
          exact ih hs
      · simp only [if_neg hl]
        rw [if_neg (fun ⟨h1, h2⟩ => hl (h1 ▸ h2))] at hs
        exact ih hs
    | assigned e' vals =>
      unfold lastGiven at hs
      show ((world h).apply (.assigned e' vals)).value e t = _
      simp only [World.apply]
      by_cases hl : e' ∈ (world h).live ∧ ∀ p ∈ vals, p.1 ∈ (world h).types e'
      · simp only [if_pos hl]
        by_cases he : e' = e
        · subst he
          rw [if_pos ⟨rfl, hl⟩] at hs
          rw [at', if_pos rfl]
          exact key vals hs
        · rw [if_neg (fun hh => he hh.1)] at hs
          rw [at', if_neg (Ne.symm he)]
          exact ih hs
      · simp only [if_neg hl]
        rw [if_neg (fun ⟨h1, h2⟩ => hl (h1 ▸ h2))] at hs
        exact ih hs
    | removed e' ts =>
      unfold lastGiven at hs
      split at hs
      · exact nomatch hs
      · show ((world h).apply (.removed e' ts)).value e t = _
        simp only [World.apply]
        split
        · exact ih hs
        · exact ih hs
    | destroyed e' => exact ih hs
    | tagged a b => exact ih hs
    | untagged a b => exact ih hs
    | orderedLast a b => exact ih hs
    | orderedAfter a b c => exact ih hs
    | orderedBefore a b c => exact ih hs
    | unordered a b => exact ih hs

theorem find_isSome {vals : TupleVal} {t : TypeId} (h : t ∈ vals.map (·.1)) : (TupleVal.find vals t).isSome = true := by
  obtain ⟨p, hp, rfl⟩ := List.mem_map.1 h
  unfold TupleVal.find
  rw [Option.isSome_map, List.find?_isSome]
  exact ⟨p, hp, by simp⟩

/-- Components that did not come with an archetype have been stored. -/
theorem stored_isSome {e : Entity} {t : TypeId} : ∀ {h : List Event}, e ∉ fromArchetype h → t ∈ (world h).types e →
    (lastGiven e t h).isSome = true
  | [], _, ht => nomatch ht
  | ev :: h, hn, ht => by
    have ih := @stored_isSome e t h
    have other : ∀ (f : Entity → List TypeId) (e' : Entity) (T : List TypeId), t ∈ at' f e' T e → e' ≠ e → t ∈ f e := by
      intro f e' T h1 h2
      rwa [at', if_neg (Ne.symm h2)] at h1
    cases ev with
    | created e' =>
      unfold lastGiven
      by_cases he : e' = e
      · subst he
        have : t ∈ at' (world h).types e' [] e' := ht
        rw [at', if_pos rfl] at this
        exact nomatch this
      · rw [if_neg he]
        exact ih hn (other _ _ _ ht he)
    | createdWith e' ts init =>
      have hn' : e ≠ e' ∧ e ∉ fromArchetype h := by
        refine ⟨fun hh => hn ?_, fun hh => hn ?_⟩
        · exact hh ▸ List.mem_cons_self
        · exact List.mem_cons_of_mem _ hh
      unfold lastGiven
      rw [if_neg (Ne.symm hn'.1)]
      refine ih hn'.2 ?_
      have h1 : t ∈ at' (at' (world h).types e' []) e' ts e := ht
      exact other _ _ _ (other _ _ _ h1 (Ne.symm hn'.1)) (Ne.symm hn'.1)
    | added e' vals =>
      have ht : t ∈ ((world h).apply (.added e' vals)).types e := ht
      simp only [World.apply] at ht
      unfold lastGiven
      by_cases hl : e' = e ∧ e ∈ (world h).live
      · rw [if_pos hl]
        obtain ⟨rfl, hl⟩ := hl
        rw [Option.isSome_or, Bool.or_eq_true]
        rw [if_pos hl] at ht
        by_cases ha : ∀ p ∈ vals, p.1 ∈ (world h).types e'
        · rw [if_pos ha] at ht
          exact .inr (ih hn ht)
        · rw [if_neg ha] at ht
          have ht : t ∈ at' (world h).types e' ((world h).types e' ++ (vals.map (·.1)).filter (· ∉ (world h).types e')) e' := ht
          rw [at', if_pos rfl, List.mem_append] at ht
          rcases ht with ht | ht
          · exact .inr (ih hn ht)
          · exact .inl (find_isSome (List.mem_filter.1 ht).1)
      · rw [if_neg hl]
        refine ih hn ?_
        by_cases hl' : e' ∈ (world h).live
        · have hne : e' ≠ e := fun hh => hl ⟨hh, hh ▸ hl'⟩
          rw [if_pos hl'] at ht
          by_cases ha : ∀ p ∈ vals, p.1 ∈ (world h).types e'
          · rw [if_pos ha] at ht; exact ht
          · rw [if_neg ha] at ht
            exact other (world h).types e' _ ht hne
        · rw [if_neg hl'] at ht
          exact ht
    | assigned e' vals =>
      have ht : t ∈ (world h).types e := by
        have ht : t ∈ ((world h).apply (.assigned e' vals)).types e := ht
        simp only [World.apply] at ht
        split at ht
        · exact ht
        · exact ht
      unfold lastGiven
      split
      · rw [Option.isSome_or, Bool.or_eq_true]
        exact .inr (ih hn ht)
      · exact ih hn ht
    | removed e' ts =>
      have ht : t ∈ ((world h).apply (.removed e' ts)).types e := ht
      simp only [World.apply] at ht
      unfold lastGiven
      by_cases he : e' = e
      · subst he
        by_cases hl : e' ∈ (world h).live
        · rw [if_pos hl] at ht
          have ht : t ∈ at' (world h).types e' (((world h).types e').filter (· ∉ ts)) e' := ht
          rw [at', if_pos rfl, List.mem_filter] at ht
          rw [if_neg (fun hh => of_decide_eq_true ht.2 hh.2.2)]
          exact ih hn ht.1
        · rw [if_neg hl] at ht
          rw [if_neg (fun hh => hl hh.2.1)]
          exact ih hn ht
      · rw [if_neg (fun hh => he hh.1)]
        refine ih hn ?_
        split at ht
        · exact other (world h).types e' _ ht he
        · exact ht
    | destroyed e' =>
      refine ih hn ?_
      by_cases he : e' = e
      · subst he
        have : t ∈ at' (world h).types e' [] e' := ht
        rw [at', if_pos rfl] at this
        exact nomatch this
      · exact other _ _ _ ht he
    | tagged a b => exact ih hn ht
    | untagged a b => exact ih hn ht
    | orderedLast a b => exact ih hn ht
    | orderedAfter a b c => exact ih hn ht
    | orderedBefore a b c => exact ih hn ht
    | unordered a b => exact ih hn ht

/-- Every run is related to itself by the relation "uninitialised, or a given byte". -/
theorem recoded_given {H : List Event} : ∀ {h : List Event}, (∀ ev ∈ h, ev ∈ H) →
    List.Forall₂ (Recoded fun c c' => c = c' ∧ ∀ b, c = some b → GivenByte H b) h h
  | [], _ => .nil
  | ev :: h, hH => by
    refine .cons ?_ (recoded_given fun x hx => hH x (List.mem_cons_of_mem _ hx))
    have hm := hH ev List.mem_cons_self
    have tuple : ∀ vals : TupleVal, (∀ p ∈ vals, ∀ b ∈ p.2, GivenByte H b) →
        SameTuple (fun c c' => c = c' ∧ ∀ b, c = some b → GivenByte H b) vals vals := by
      intro vals hv
      refine List.forall₂_same.2 fun p hp => ⟨rfl, List.forall₂_same.2 fun b hb => ⟨rfl, fun b' hb' => ?_⟩⟩
      cases hb'
      exact hv p hp _ hb
    cases ev with
    | added e vals => exact ⟨rfl, tuple vals fun p hp b hb => ⟨e, vals, .inl hm, p, hp, hb⟩⟩
    | assigned e vals => exact ⟨rfl, tuple vals fun p hp b hb => ⟨e, vals, .inr hm, p, hp, hb⟩⟩
    | _ =>
      simp only [Recoded]
      exact Props.sameCall_refl _

/-- The bytes of page `i`. -/
def Archs.memory (c : Archs) (i : Nat) : Option Bytes := c.pages[i]?.map (·.data)

/-- Memory that there was is unchanged, memory that is new is uninitialised. -/
def SameMemory (c c' : Archs) : Prop :=
  ∀ i, c'.memory i = c.memory i ∨ c.memory i = none ∧ c'.memory i = some fun _ => none

theorem addEntityId_data {dbg : Bool} {p p' : Page} {id i : Nat} (h : p.addEntityId dbg id = .ok (p', i)) : p'.data = p.data := by
  unfold Page.addEntityId at h
  obtain ⟨_, -, h⟩ := bind_eq_ok.1 h
  cases h
  rfl

theorem SameMemory.set {c c' : Archs} (h : SameMemory c c') {i : Nat} {p p' : Page} (hp : c'.pages[i]? = some p)
    (hd : p'.data = p.data) {c'' : Archs} (hc : c''.pages = c'.pages.set i p') : SameMemory c c'' := by
  intro j
  have : c''.memory j = c'.memory j := by
    unfold Archs.memory
    rw [hc, List.getElem?_set]
    split
    · rename_i hij
      subst hij
      have hlt : i < c'.pages.length := (List.getElem?_eq_some_iff.1 hp).1
      rw [if_pos hlt, hp]
      simp [hd]
    · rfl
  rw [this]
  exact h j

theorem SameMemory.refl {c c' : Archs} (hp : c'.pages = c.pages) : SameMemory c c' := by
  intro i
  unfold Archs.memory
  rw [hp]
  exact .inl rfl

theorem reservePage_memory {dbg : Bool} {c c' : Archs} {id ai : Nat} {loc : Loc} (h : c.reservePage dbg id ai = .ok (c', loc)) :
    SameMemory c c' := by
  unfold Archs.reservePage at h
  obtain ⟨pageList, -, h⟩ := bind_eq_ok.1 h
  obtain ⟨r, -, h⟩ := bind_eq_ok.1 h
  cases r with
  | some i =>
    obtain ⟨page, hp, h⟩ := bind_eq_ok.1 h
    obtain ⟨⟨page', index⟩, ha, h⟩ := bind_eq_ok.1 h
    cases h
    exact (SameMemory.refl rfl).set (idx_ok.1 hp) (addEntityId_data ha) rfl
  | none =>
    obtain ⟨⟨c1, pi⟩, hc1, h⟩ := bind_eq_ok.1 h
    obtain ⟨layout, -, h⟩ := bind_eq_ok.1 h
    obtain ⟨page, hp, h⟩ := bind_eq_ok.1 h
    obtain ⟨pl, -, h⟩ := bind_eq_ok.1 h
    obtain ⟨pta, -, h⟩ := bind_eq_ok.1 h
    obtain ⟨⟨page', index⟩, ha, h⟩ := bind_eq_ok.1 h
    cases h
    have h1 : SameMemory c c1 := by
      cases hl : c.freePages.getLast? with
      | some i =>
        rw [hl] at hc1
        cases hc1
        exact .refl rfl
      | none =>
        rw [hl] at hc1
        obtain ⟨pages, hv, hc1⟩ := bind_eq_ok.1 hc1
        obtain ⟨pta, -, hc1⟩ := bind_eq_ok.1 hc1
        cases hc1
        unfold vecInsert at hv
        rw [if_pos (Nat.le_refl _)] at hv
        cases hv
        intro i
        unfold Archs.memory
        simp only [List.insertIdx_length_self]
        by_cases hi : i < c.pages.length
        · rw [List.getElem?_append_left hi]; exact .inl rfl
        · rw [show c.pages[i]? = none from List.getElem?_eq_none (by omega)]
          by_cases hi' : i = c.pages.length
          · subst hi'
            right
            simp [Page.new]
          · left
            rw [List.getElem?_eq_none (by simp; omega)]
    refine h1.set (idx_ok.1 hp) ?_ rfl
    rw [addEntityId_data ha]
    rfl

theorem reserveArchetype_pages {dbg : Bool} {c c' : Archs} {a : Archetype} {i : Nat}
    (h : c.reserveArchetype dbg a = .ok (c', i)) : c'.pages = c.pages := by
  unfold Archs.reserveArchetype at h
  split at h
  · split at h
    · cases h; rfl
    · cases h; rfl
  · obtain ⟨layout, -, h⟩ := bind_eq_ok.1 h
    split at h
    · obtain ⟨as, -, h⟩ := bind_eq_ok.1 h
      obtain ⟨ls, -, h⟩ := bind_eq_ok.1 h
      cases h; rfl
    · cases h; rfl

theorem createWith_memory {dbg : Bool} {s s' : Store} {a : Archetype} {e : Entity}
    (h : s.createEntityWithArchetype dbg a = .ok (s', e)) : SameMemory s.archs s'.archs := by
  unfold Store.createEntityWithArchetype at h
  obtain ⟨⟨s1, e1⟩, h1, h⟩ := bind_eq_ok.1 h
  obtain ⟨⟨archs, loc⟩, h2, h⟩ := bind_eq_ok.1 h
  obtain ⟨s2, h3, h⟩ := bind_eq_ok.1 h
  cases h
  have e1 : s1.archs = s.archs := by
    unfold Store.registerNewEntity at h1
    obtain ⟨⟨en, cr⟩, -, h1⟩ := bind_eq_ok.1 h1
    dsimp only at h1
    split at h1
    · obtain ⟨s3, h4, h1⟩ := bind_eq_ok.1 h1
      cases h1
      unfold Store.growEntitiesInternal at h4
      obtain ⟨_, -, h4⟩ := bind_eq_ok.1 h4
      obtain ⟨_, -, h4⟩ := bind_eq_ok.1 h4
      obtain ⟨_, -, h4⟩ := bind_eq_ok.1 h4
      obtain ⟨_, -, h4⟩ := bind_eq_ok.1 h4
      obtain ⟨_, -, h4⟩ := bind_eq_ok.1 h4
      cases h4
      rfl
    · cases h1; rfl
  have e2 : s'.archs = archs := by
    unfold Store.recordRow at h3
    obtain ⟨_, -, h3⟩ := bind_eq_ok.1 h3
    obtain ⟨_, -, h3⟩ := bind_eq_ok.1 h3
    obtain ⟨_, -, h3⟩ := bind_eq_ok.1 h3
    cases h3
    rfl
  rw [e2, ← e1]
  unfold Archs.addEntity at h2
  obtain ⟨⟨c, i⟩, h5, h2⟩ := bind_eq_ok.1 h2
  have h6 := reservePage_memory h2
  intro j
  have := h6 j
  unfold Archs.memory at this ⊢
  rw [reserveArchetype_pages h5] at this
  exact this

end Ecs
