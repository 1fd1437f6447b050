import Verif.Spec.TypeNames
import Verif.Proofs.Archetype

/-! Archetypes with names are archetypes, and their arrays of names agree with their ids. -/

namespace Ecs
open Spec

theorem insertByKey_map {α β : Type} (f : α → β) (k : α → Nat) (k' : β → Nat) (h : ∀ a, k' (f a) = k a) (a : α) (l : List α) :
    insertByKey k' (f a) (l.map f) = (insertByKey k a l).map f := by
  induction l with
  | nil => rfl
  | cons b l ih =>
    simp only [List.map_cons, insertByKey, h]
    split
    · rfl
    · rw [ih]; rfl

theorem sortByKey_map {α β : Type} (f : α → β) (k : α → Nat) (k' : β → Nat) (h : ∀ a, k' (f a) = k a) (l : List α) :
    sortByKey k' (l.map f) = (sortByKey k l).map f := by
  have key : ∀ (l acc : List α), (l.map f).foldl (fun acc a => insertByKey k' a acc) (acc.map f) =
      (l.foldl (fun acc a => insertByKey k a acc) acc).map f := by
    intro l
    induction l with
    | nil => exact fun _ => rfl
    | cons c l ih =>
      intro acc
      rw [List.map_cons, List.foldl_cons, List.foldl_cons, insertByKey_map f k k' h, ih]
  exact key l []

/-- The same type without its name. -/
def NamedType.strip (c : NamedType) : ComponentType := { id := c.id, size := c.size, align := c.align }

/-- A list of types as `ComponentType::of` makes them. -/
def Own (U : Universe) (N : TypeId → String) (l : List NamedType) : Prop := ∀ c ∈ l, c = NamedType.of U N c.id

theorem own_of (U : Universe) (N : TypeId → String) (ts : List TypeId) : Own U N (ts.map (NamedType.of U N)) := by
  intro c hc
  obtain ⟨t, _, rfl⟩ := List.mem_map.1 hc
  rfl

namespace NamedBuilder

theorem includeOne_own {U : Universe} {N : TypeId → String} {l : List NamedType} {c : NamedType} (hl : Own U N l)
    (hc : c = NamedType.of U N c.id) : Own U N (includeOne l c) := by
  unfold includeOne
  split
  · exact hl
  · intro d hd
    rcases List.mem_append.1 hd with h | h
    · exact hl d h
    · rw [List.mem_singleton.1 h]; exact hc

theorem include_own {U : Universe} {N : TypeId → String} {cs : List NamedType} (hc : Own U N cs) {l : List NamedType} (hl : Own U N l) :
    Own U N (cs.foldl includeOne l) := by
  induction cs generalizing l with
  | nil => exact hl
  | cons c cs ih =>
    exact ih (fun d hd => hc d (List.mem_cons_of_mem _ hd)) (includeOne_own hl (hc c List.mem_cons_self))

theorem exclude_own {U : Universe} {N : TypeId → String} (cs : List NamedType) {l : List NamedType} (hl : Own U N l) :
    Own U N (cs.foldl excludeOne l) := by
  induction cs generalizing l with
  | nil => exact hl
  | cons c cs ih => exact ih (fun d hd => hl d (List.mem_of_mem_eraseP hd))

theorem include_strip (cs l : List NamedType) :
    (cs.map (·.strip)).foldl ArchetypeBuilder.includeOne (l.map (·.strip)) = (cs.foldl includeOne l).map (·.strip) := by
  induction cs generalizing l with
  | nil => rfl
  | cons c cs ih =>
    rw [List.map_cons, List.foldl_cons, List.foldl_cons, ← ih]
    congr 1
    unfold ArchetypeBuilder.includeOne includeOne
    rw [List.any_map]
    have : (l.any ((fun d => d.eqv c.strip) ∘ fun x => x.strip)) = l.any (fun d => d.eqv c) := rfl
    rw [this]
    split
    · rfl
    · rw [List.map_append]; rfl

theorem exclude_strip (cs l : List NamedType) :
    (cs.map (·.strip)).foldl ArchetypeBuilder.excludeOne (l.map (·.strip)) = (cs.foldl excludeOne l).map (·.strip) := by
  induction cs generalizing l with
  | nil => rfl
  | cons c cs ih =>
    rw [List.map_cons, List.foldl_cons, List.foldl_cons, ← ih]
    congr 1
    unfold ArchetypeBuilder.excludeOne excludeOne
    rw [List.eraseP_map]
    rfl

end NamedBuilder

/-- The arrays of an archetype agree. -/
structure NamedArchetype.WF (U : Universe) (N : TypeId → String) (a : NamedArchetype) : Prop where
  ne : a.ids ≠ []
  sizes : a.sizes = a.ids.map U.size
  aligns : a.aligns = a.ids.map U.align
  names : a.names = a.ids.map N

namespace NamedArchetype

theorem new_named {U : Universe} {N : TypeId → String} {l : List NamedType} (hl : Own U N l) {a : NamedArchetype} (h : new l = .ok a) :
    a.WF U N ∧ Archetype.new (l.map (·.strip)) = .ok (nameless a) := by
  unfold new at h
  obtain ⟨u, h1, h⟩ := bind_eq_ok.1 h
  cases h
  have hne : l ≠ [] := by rintro rfl; cases h1
  refine ⟨⟨by simpa using hne, ?_, ?_, ?_⟩, ?_⟩
  · simp only [List.map_map]
    exact List.map_congr_left fun c hc => congrArg NamedType.size (hl c hc)
  · simp only [List.map_map]
    exact List.map_congr_left fun c hc => congrArg NamedType.align (hl c hc)
  · simp only [List.map_map]
    exact List.map_congr_left fun c hc => congrArg NamedType.name (hl c hc)
  · unfold Archetype.new
    rw [List.length_map, h1]
    show Except.ok _ = _
    simp only [List.map_map, nameless]
    rfl

theorem new_nameless (l : List NamedType) (a' : Archetype) (h : Archetype.new (l.map (·.strip)) = .ok a') :
    ∃ a, new l = .ok a := by
  unfold Archetype.new at h
  rw [List.length_map] at h
  obtain ⟨u, h1, _⟩ := bind_eq_ok.1 h
  exact ⟨_, by unfold new; rw [h1]; rfl⟩

/-- Reading all indices of a list one after the other. -/
theorem mapM_range {α β : Type} {f : Nat → Res β} {l : List α} {g : α → β}
    (h : ∀ i x, l[i]? = some x → f i = .ok (g x)) : (List.range l.length).mapM f = .ok (l.map g) := by
  match l, h with
  | [], _ => rfl
  | d :: l, h =>
    rw [mapM_of_forall (g := fun i => g ((d :: l).getD i d))]
    · congr 1
      refine List.ext_getElem (by simp) fun i h1 h2 => ?_
      have hi : i < (d :: l).length := by simpa using h2
      simp only [List.getElem_map, List.getElem_range]
      rw [List.getD_eq_getElem?_getD, List.getElem?_eq_getElem hi]
      rfl
    · intro i hi
      have hi : i < (d :: l).length := List.mem_range.1 hi
      rw [h i _ (List.getElem?_eq_getElem hi), List.getD_eq_getElem?_getD, List.getElem?_eq_getElem hi]
      rfl

theorem firstOf_eq {α : Type} (l : List α) {n : Nat} (h : n = l.length) : firstOf l n = .ok l := by
  subst h
  unfold firstOf
  rw [mapM_range (g := id) fun i x hx => idxUnchecked_of_some hx, List.map_id]

theorem WF.componentsIter {U : Universe} {N : TypeId → String} {a : NamedArchetype} (h : a.WF U N) :
    a.componentsIter = .ok (a.ids.map (NamedType.of U N)) := by
  refine mapM_range fun i t ht => ?_
  unfold componentAt
  have e1 : a.sizes[i]? = some (U.size t) := by rw [h.sizes, List.getElem?_map, ht]; rfl
  have e2 : a.aligns[i]? = some (U.align t) := by rw [h.aligns, List.getElem?_map, ht]; rfl
  have e3 : a.names[i]? = some (N t) := by rw [h.names, List.getElem?_map, ht]; rfl
  rw [idxUnchecked_of_some ht, idxUnchecked_of_some e1, idxUnchecked_of_some e2, idxUnchecked_of_some e3]
  rfl

theorem WF.clone {U : Universe} {N : TypeId → String} {a : NamedArchetype} (h : a.WF U N) : a.clone = .ok a := by
  unfold NamedArchetype.clone componentCount
  rw [firstOf_eq a.ids rfl, firstOf_eq a.sizes (by rw [h.sizes, List.length_map]), firstOf_eq a.aligns (by rw [h.aligns, List.length_map]),
    firstOf_eq a.names (by rw [h.names, List.length_map])]
  rfl

theorem WF.display {U : Universe} {N : TypeId → String} {a : NamedArchetype} (h : a.WF U N) (quote : String → String) :
    a.display quote = .ok ("Archetype { Components:: [" ++ ", ".intercalate (a.ids.map fun t => quote (N t)) ++ "] }") := by
  unfold NamedArchetype.display componentCount
  rw [firstOf_eq a.names (by rw [h.names, List.length_map]), h.names, ok_bind, List.map_map]
  rfl

end NamedArchetype

theorem strip_of (U : Universe) (N : TypeId → String) (ts : List TypeId) :
    (ts.map (NamedType.of U N)).map (·.strip) = ts.map (ComponentType.of U) := by
  rw [List.map_map]; rfl

namespace NamedBuilder

/-- The same builder without names. -/
def strip (b : NamedBuilder) : ArchetypeBuilder := { componentTypes := b.componentTypes.map (·.strip) }

theorem sort_own {U : Universe} {N : TypeId → String} {l : List NamedType} (h : Own U N l) : Own U N (sortByKey (·.id) l) :=
  fun c hc => h c ((sortByKey_perm (·.id) l).mem_iff.1 hc)

theorem build_named {U : Universe} {N : TypeId → String} {b b' : NamedBuilder} {a : NamedArchetype} (hb : Own U N b.componentTypes)
    (h : b.build = .ok (a, b')) :
    a.WF U N ∧ Own U N b'.componentTypes ∧ b.strip.build = .ok (nameless a, b'.strip) := by
  unfold build at h
  obtain ⟨x, h1, h⟩ := bind_eq_ok.1 h
  cases h
  obtain ⟨h2, h3⟩ := NamedArchetype.new_named (sort_own hb) h1
  refine ⟨h2, sort_own hb, ?_⟩
  unfold ArchetypeBuilder.build strip
  simp only [sortByKey_map NamedType.strip (·.id) (·.id) (fun _ => rfl)]
  rw [h3]
  rfl

theorem run_named {U : Universe} {N : TypeId → String} {b b' : NamedBuilder} (hb : Own U N b.componentTypes) (op : NamedOp)
    (ho : ∀ x, op = .includeArchetype x → x.WF U N) (h : op.run U N b = .ok b') :
    Own U N b'.componentTypes ∧ op.nameless.run U b.strip = .ok b'.strip := by
  cases op with
  | includeTypes ts =>
    cases h
    refine ⟨include_own (own_of U N ts) hb, ?_⟩
    show Except.ok _ = _
    unfold ArchetypeBuilder.includeComponents ArchetypeBuilder.includeComponentTypes strip includeComponentTypes
    rw [← strip_of U N, include_strip]
  | excludeTypes ts =>
    cases h
    refine ⟨exclude_own _ hb, ?_⟩
    show Except.ok _ = _
    unfold ArchetypeBuilder.excludeComponents ArchetypeBuilder.excludeComponentTypes strip excludeComponentTypes
    rw [← strip_of U N, exclude_strip]
  | includeArchetype x =>
    have hx := ho x rfl
    change includeArchetype b x = _ at h
    unfold includeArchetype at h
    rw [hx.componentsIter] at h
    cases h
    refine ⟨include_own (own_of U N _) hb, ?_⟩
    show Except.ok (ArchetypeBuilder.includeArchetype _ _) = _
    have e : (nameless x).componentsIter = (x.ids.map (NamedType.of U N)).map (·.strip) := by
      rw [strip_of]
      unfold Archetype.componentsIter
      apply List.ext_getElem
      · simp [nameless]
      · intro i h1 h2
        have hi : i < x.ids.length := by simpa using h2
        simp [ComponentType.of, nameless, hx.sizes, hx.aligns, List.getD, hi]
    unfold ArchetypeBuilder.includeArchetype ArchetypeBuilder.includeComponentTypes strip includeComponentTypes
    rw [e, include_strip]
  | build =>
    change (b.build >>= fun p => _) = _ at h
    obtain ⟨⟨a, b''⟩, h1, h⟩ := bind_eq_ok.1 h
    cases h
    obtain ⟨_, h2, h3⟩ := build_named hb h1
    refine ⟨h2, ?_⟩
    show (ArchetypeBuilder.build _ >>= fun p => _) = _
    rw [h3]
    rfl

theorem runNamed_spec {U : Universe} {N : TypeId → String} (ops : List NamedOp) {b b' : NamedBuilder} (hb : Own U N b.componentTypes)
    (ho : ∀ x, .includeArchetype x ∈ ops → x.WF U N) (h : runNamed U N b ops = .ok b') :
    Own U N b'.componentTypes ∧ runBuilder U b.strip (ops.map (·.nameless)) = .ok b'.strip := by
  induction ops generalizing b with
  | nil => cases h; exact ⟨hb, rfl⟩
  | cons op ops ih =>
    obtain ⟨b1, h1, h⟩ := bind_eq_ok.1 h
    obtain ⟨h2, h3⟩ := run_named hb op (fun x hx => ho x (hx ▸ List.mem_cons_self)) h1
    obtain ⟨h4, h5⟩ := ih h2 (fun x hx => ho x (List.mem_cons_of_mem _ hx)) h
    refine ⟨h4, ?_⟩
    rw [List.map_cons, runBuilder, h3]
    exact h5

end NamedBuilder

theorem named_spec {U : Universe} {N : TypeId → String} {a : NamedArchetype} (h : Named U N a) : a.WF U N ∧ Built U (nameless a) := by
  induction h with
  | tuple ts hn h =>
    obtain ⟨h1, h2⟩ := NamedArchetype.new_named (NamedBuilder.sort_own (own_of U N ts)) h
    refine ⟨h1, .tuple ts hn ?_⟩
    unfold Archetype.withComponents
    rw [← strip_of U N, sortByKey_map NamedType.strip (·.id) (·.id) (fun _ => rfl)]
    exact h2
  | builder ops ho hr hb ih =>
    obtain ⟨h1, h2⟩ := NamedBuilder.runNamed_spec ops (by intro c hc; cases hc) (fun x hx => (ih x hx).1) hr
    obtain ⟨h3, _, h4⟩ := NamedBuilder.build_named h1 hb
    refine ⟨h3, .builder (ops.map NamedOp.nameless) ?_ h2 h4⟩
    intro x hx
    obtain ⟨op, hop, e⟩ := List.mem_map.1 hx
    cases op <;> cases e
    exact (ih _ hop).2
  | copy _ hc ih =>
    rw [ih.1.clone] at hc
    cases hc
    exact ih

namespace NamedBuilder

/-- Every run without names is one with names. -/
theorem run_lift {U : Universe} {N : TypeId → String} {b : NamedBuilder} (op : NamedOp)
    (ho : ∀ x, op = .includeArchetype x → x.WF U N) {c : ArchetypeBuilder} (h : op.nameless.run U b.strip = .ok c) :
    ∃ b', op.run U N b = .ok b' := by
  cases op with
  | includeTypes ts => exact ⟨_, rfl⟩
  | excludeTypes ts => exact ⟨_, rfl⟩
  | includeArchetype x =>
    refine ⟨b.includeComponentTypes (x.ids.map (NamedType.of U N)), ?_⟩
    show includeArchetype b x = _
    unfold includeArchetype
    rw [(ho x rfl).componentsIter]
    rfl
  | build =>
    change (ArchetypeBuilder.build _ >>= fun p => _) = _ at h
    obtain ⟨p, h1, _⟩ := bind_eq_ok.1 h
    unfold ArchetypeBuilder.build strip at h1
    simp only [sortByKey_map NamedType.strip (·.id) (·.id) (fun _ => rfl)] at h1
    obtain ⟨a', h2, _⟩ := bind_eq_ok.1 h1
    obtain ⟨a, h3⟩ := NamedArchetype.new_nameless _ _ h2
    refine ⟨⟨sortByKey (·.id) b.componentTypes⟩, ?_⟩
    show (build b >>= fun p => _) = _
    unfold build
    simp only [h3]
    rfl

theorem runNamed_lift {U : Universe} {N : TypeId → String} (ops : List NamedOp) {b : NamedBuilder} (hb : Own U N b.componentTypes)
    (ho : ∀ x, .includeArchetype x ∈ ops → x.WF U N) {c : ArchetypeBuilder} (h : runBuilder U b.strip (ops.map (·.nameless)) = .ok c) :
    ∃ b', runNamed U N b ops = .ok b' := by
  induction ops generalizing b with
  | nil => exact ⟨b, rfl⟩
  | cons op ops ih =>
    rw [List.map_cons] at h
    obtain ⟨c1, h1, h⟩ := bind_eq_ok.1 h
    have ho1 : ∀ x, op = .includeArchetype x → x.WF U N := fun x hx => ho x (hx ▸ List.mem_cons_self)
    obtain ⟨b1, h2⟩ := run_lift (N := N) op ho1 h1
    obtain ⟨h3, h4⟩ := run_named hb op ho1 h2
    rw [h1] at h4
    cases h4
    obtain ⟨b', h5⟩ := ih h3 (fun x hx => ho x (List.mem_cons_of_mem _ hx)) h
    refine ⟨b', ?_⟩
    rw [runNamed, h2]
    exact h5

end NamedBuilder

theorem named_of_built {U : Universe} (N : TypeId → String) {x : Archetype} (h : Built U x) : ∃ a, Named U N a ∧ nameless a = x := by
  induction h with
  | tuple ts hn h =>
    unfold Archetype.withComponents at h
    rw [← strip_of U N, sortByKey_map NamedType.strip (·.id) (·.id) (fun _ => rfl)] at h
    obtain ⟨a, h1⟩ := NamedArchetype.new_nameless _ _ h
    obtain ⟨_, h2⟩ := NamedArchetype.new_named (NamedBuilder.sort_own (own_of U N ts)) h1
    rw [h2] at h
    cases h
    exact ⟨a, .tuple ts hn h1, rfl⟩
  | builder ops ho hr hb ih =>
    have hl : ∃ nops : List NamedOp, nops.map (fun op => op.nameless) = ops ∧ ∀ x, .includeArchetype x ∈ nops → Named U N x := by
      clear hr ho
      induction ops with
      | nil => exact ⟨[], rfl, fun x hx => by cases hx⟩
      | cons op ops ih2 =>
        obtain ⟨nops, h1, h2⟩ := ih2 (fun x hx => ih x (List.mem_cons_of_mem _ hx))
        have : ∃ n : NamedOp, n.nameless = op ∧ ∀ x, n = .includeArchetype x → Named U N x := by
          cases op with
          | includeTypes ts => exact ⟨.includeTypes ts, rfl, fun x hx => by cases hx⟩
          | excludeTypes ts => exact ⟨.excludeTypes ts, rfl, fun x hx => by cases hx⟩
          | includeArchetype y =>
            obtain ⟨a, ha, e⟩ := ih y List.mem_cons_self
            exact ⟨.includeArchetype a, congrArg _ e, fun x hx => by cases hx; exact ha⟩
          | build => exact ⟨.build, rfl, fun x hx => by cases hx⟩
        obtain ⟨n, h3, h4⟩ := this
        refine ⟨n :: nops, by rw [List.map_cons, h3, h1], fun x hx => ?_⟩
        rcases List.mem_cons.1 hx with h | h
        · exact h4 x h.symm
        · exact h2 x h
    obtain ⟨nops, h1, h2⟩ := hl
    subst h1
    have hw : ∀ x, .includeArchetype x ∈ nops → x.WF U N := fun x hx => (named_spec (h2 x hx)).1
    have hnil : Own U N NamedBuilder.new.componentTypes := by intro c hc; cases hc
    obtain ⟨nb, h3⟩ := NamedBuilder.runNamed_lift nops hnil hw hr
    obtain ⟨h4, h5⟩ := NamedBuilder.runNamed_spec nops hnil hw h3
    change runBuilder U .new _ = _ at h5
    rw [hr] at h5
    cases h5
    have hb' := hb
    unfold ArchetypeBuilder.build NamedBuilder.strip at hb'
    simp only [sortByKey_map NamedType.strip (·.id) (·.id) (fun _ => rfl)] at hb'
    obtain ⟨a', h6, _⟩ := bind_eq_ok.1 hb'
    obtain ⟨a, h7⟩ := NamedArchetype.new_nameless _ _ h6
    have h8 : nb.build = .ok (a, ⟨sortByKey (·.id) nb.componentTypes⟩) := by
      unfold NamedBuilder.build
      simp only [h7]
      rfl
    obtain ⟨_, _, h9⟩ := NamedBuilder.build_named h4 h8
    rw [hb] at h9
    cases h9
    exact ⟨a, .builder nops h2 h3 h8, rfl⟩

end Ecs
