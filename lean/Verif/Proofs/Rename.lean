import Verif.Spec.Rename
import Verif.Proofs.OpaqueStore
import Mathlib.Data.Nat.Lattice

/-! Archetypes, tags and groups under order-preserving renamings of type ids. -/

namespace Ecs
open Spec

/-- The second outcome is the image of the first. -/
def Maps {α β : Type} (f : α → β) (r : Res α) (r' : Res β) : Prop := Both (fun a b => b = f a) r r'

namespace Maps
variable {α β γ δ : Type} {f : α → β} {g : γ → δ}

theorem bind {r : Res α} {r' : Res β} {k : α → Res γ} {k' : β → Res δ} (h : Maps f r r') (hk : ∀ a, Maps g (k a) (k' (f a))) :
    Maps g (r >>= k) (r' >>= k') :=
  Both.bind h fun a _ hb => by subst hb; exact hk a

theorem same {r : Res α} {k : α → Res γ} {k' : α → Res δ} (hk : ∀ a, Maps g (k a) (k' a)) : Maps g (r >>= k) (r >>= k') :=
  Both.same hk

theorem eq {r : Res α} {r' : Res β} (h : Maps f r r') : r' = r.map f := by
  cases r with
  | error x =>
    cases r' with
    | error y => rw [show x = y from h]; rfl
    | ok b => exact h.elim
  | ok a =>
    cases r' with
    | error y => exact h.elim
    | ok b => rw [show b = f a from h]; rfl

theorem idx (f : α → β) (l : List α) (i : Nat) : Maps f (Ecs.idx l i) (Ecs.idx (l.map f) i) := by
  unfold Ecs.idx
  rw [List.getElem?_map]
  cases l[i]? <;> exact rfl

theorem idxUnchecked (f : α → β) (l : List α) (i : Nat) : Maps f (Ecs.idxUnchecked l i) (Ecs.idxUnchecked (l.map f) i) := by
  unfold Ecs.idxUnchecked
  rw [List.getElem?_map]
  cases l[i]? <;> exact rfl

theorem idxSet (f : α → β) (l : List α) (i : Nat) (a : α) :
    Maps (List.map f) (Ecs.idxSet l i a) (Ecs.idxSet (l.map f) i (f a)) := by
  unfold Ecs.idxSet
  rw [List.length_map]
  split
  · exact List.map_set.symm
  · exact rfl

end Maps

variable {ρ : TypeId → TypeId}

theorem getD_map_of_lt {l : List Nat} {i : Nat} (h : i < l.length) : (l.map ρ).getD i 0 = ρ (l.getD i 0) := by
  simp [List.getD_eq_getElem?_getD, List.getElem?_eq_getElem h]

theorem bsLoop_rename (hρ : StrictMono ρ) (l : List Nat) (x fuel : Nat) : ∀ size base, 0 < size → base + size ≤ l.length →
    bsLoop (l.map ρ) (ρ x) fuel size base = bsLoop l x fuel size base ∧ bsLoop l x fuel size base < l.length := by
  induction fuel with
  | zero => intro size base h0 h; exact ⟨rfl, by unfold bsLoop; omega⟩
  | succ n ih =>
    intro size base h0 h
    unfold bsLoop
    split
    · have hm : base + size / 2 < l.length := by omega
      dsimp only
      rw [getD_map_of_lt hm]
      have : (ρ (l.getD (base + size / 2) 0) > ρ x) = (l.getD (base + size / 2) 0 > x) := propext hρ.lt_iff_lt
      simp only [this]
      split
      · exact ih _ _ (by omega) (by omega)
      · exact ih _ _ (by omega) (by omega)
    · exact ⟨rfl, by omega⟩

theorem binarySearch_rename (hρ : StrictMono ρ) (l : List Nat) (x : Nat) : binarySearch (l.map ρ) (ρ x) = binarySearch l x := by
  unfold binarySearch
  rw [List.length_map]
  split
  · rfl
  · obtain ⟨h1, h2⟩ := bsLoop_rename hρ l x l.length l.length 0 (by omega) (by omega)
    dsimp only
    rw [h1, getD_map_of_lt h2]
    simp only [hρ.injective.eq_iff, hρ.lt_iff_lt]

namespace ComponentType

def rename (ρ : TypeId → TypeId) (c : ComponentType) : ComponentType := { c with id := ρ c.id }

theorem eqv_rename (hρ : StrictMono ρ) (c d : ComponentType) : (c.rename ρ).eqv (d.rename ρ) = c.eqv d := by
  unfold eqv rename
  rw [Bool.eq_iff_iff]
  simp [hρ.injective.eq_iff]

theorem of_rename {U U' : Universe} (hU : Transported ρ U U') (t : TypeId) : of U' (ρ t) = (of U t).rename ρ := by
  unfold of rename
  rw [hU.size, hU.align]

theorem map_of {U U' : Universe} (hU : Transported ρ U U') (ts : List TypeId) :
    (ts.map ρ).map (of U') = (ts.map (of U)).map (rename ρ) := by
  rw [List.map_map, List.map_map]
  exact List.map_congr_left fun t _ => of_rename hU t

end ComponentType

theorem insertByKey_rename (hρ : StrictMono ρ) (c : ComponentType) (l : List ComponentType) :
    insertByKey (·.id) (c.rename ρ) (l.map (ComponentType.rename ρ)) = (insertByKey (·.id) c l).map (ComponentType.rename ρ) := by
  induction l with
  | nil => rfl
  | cons d l ih =>
    show (if ρ c.id < ρ d.id then _ else _) = List.map _ (if c.id < d.id then _ else _)
    rw [apply_ite (List.map (ComponentType.rename ρ))]
    simp only [hρ.lt_iff_lt]
    split
    · rfl
    · rw [List.map_cons, ← ih]

theorem sortByKey_rename (hρ : StrictMono ρ) (l : List ComponentType) :
    sortByKey (·.id) (l.map (ComponentType.rename ρ)) = (sortByKey (·.id) l).map (ComponentType.rename ρ) := by
  have key : ∀ (l acc : List ComponentType),
      (l.map (ComponentType.rename ρ)).foldl (fun acc a => insertByKey (·.id) a acc) (acc.map (ComponentType.rename ρ)) =
        (l.foldl (fun acc a => insertByKey (·.id) a acc) acc).map (ComponentType.rename ρ) := by
    intro l
    induction l with
    | nil => exact fun _ => rfl
    | cons c l ih =>
      intro acc
      rw [List.map_cons, List.foldl_cons, List.foldl_cons, insertByKey_rename hρ, ih]
  exact key l []

namespace Archetype

theorem new_rename (l : List ComponentType) : Maps (rename ρ) (new l) (new (l.map (ComponentType.rename ρ))) := by
  unfold new
  rw [List.length_map]
  refine .same fun _ => ?_
  show _ = _
  simp only [rename, List.map_map]
  rfl

theorem withComponents_rename (hρ : StrictMono ρ) {U U' : Universe} (hU : Transported ρ U U') (ts : List TypeId) :
    Maps (rename ρ) (withComponents U ts) (withComponents U' (ts.map ρ)) := by
  unfold withComponents
  rw [ComponentType.map_of hU, sortByKey_rename hρ]
  exact new_rename _

theorem componentsIter_rename (a : Archetype) : (a.rename ρ).componentsIter = a.componentsIter.map (ComponentType.rename ρ) := by
  unfold componentsIter rename
  rw [List.map_map, List.length_map]
  refine List.map_congr_left fun i hi => ?_
  simp only [Function.comp, ComponentType.rename]
  rw [getD_map_of_lt (List.mem_range.1 hi)]

theorem find_rename (hρ : StrictMono ρ) (a : Archetype) (t : TypeId) :
    (a.rename ρ).findComponentIndex (ρ t) = a.findComponentIndex t := by
  unfold findComponentIndex rename
  rw [binarySearch_rename hρ]

theorem isSameAs_rename (hρ : StrictMono ρ) (a b : Archetype) : (a.rename ρ).isSameAs (b.rename ρ) = a.isSameAs b := by
  unfold isSameAs componentCount rename
  simp only [List.length_map]
  have : (a.ids.map ρ == b.ids.map ρ) = (a.ids == b.ids) := by
    rw [Bool.eq_iff_iff, beq_iff_eq, beq_iff_eq]
    exact (List.map_injective_iff.2 hρ.injective).eq_iff
  rw [this]

theorem allFound_rename (hρ : StrictMono ρ) (l m : List TypeId) : allFound (l.map ρ) (m.map ρ) = allFound l m := by
  induction m with
  | nil => rfl
  | cons t m ih =>
    rw [List.map_cons]
    unfold allFound
    rw [binarySearch_rename hρ, ih]

end Archetype

theorem tupleIncluded_rename (hρ : StrictMono ρ) (ts : List TypeId) (a : Archetype) :
    tupleIncluded (ts.map ρ) (a.rename ρ) = tupleIncluded ts a := by
  unfold tupleIncluded Archetype.isIncludeIds Archetype.rename
  simp only [List.length_map]
  rw [Archetype.allFound_rename hρ]

namespace ArchetypesUnion

theorem innerLoop_rename (hρ : StrictMono ρ) (t : TypeId) (l : List TypeId) : ∀ i, innerLoop (ρ t) i (l.map ρ) = innerLoop t i l := by
  induction l with
  | nil => exact fun _ => rfl
  | cons x l ih =>
    intro i
    rw [List.map_cons]
    unfold innerLoop
    rw [ih]
    have h1 : (ρ x > ρ t) = (x > t) := propext hρ.lt_iff_lt
    have h2 : (ρ x = ρ t) = (x = t) := propext hρ.injective.eq_iff
    simp only [h1, h2]

theorem outerLoop_rename (hρ : StrictMono ρ) (m l : List TypeId) : ∀ o, outerLoop (m.map ρ) o (l.map ρ) = outerLoop m o l := by
  induction l with
  | nil => exact fun _ => rfl
  | cons x l ih =>
    intro o
    rw [List.map_cons]
    unfold outerLoop
    rw [ih, innerLoop_rename hρ]

theorem calculate_rename (hρ : StrictMono ρ) (a b : Archetype) : calculate (a.rename ρ) (b.rename ρ) = calculate a b := by
  unfold calculate Archetype.componentCount Archetype.rename
  simp only [List.length_map, outerLoop_rename hρ]

end ArchetypesUnion

namespace ArchetypeBuilder

def rename (ρ : TypeId → TypeId) (b : ArchetypeBuilder) : ArchetypeBuilder := ⟨b.componentTypes.map (ComponentType.rename ρ)⟩

theorem includeOne_rename (hρ : StrictMono ρ) (l : List ComponentType) (c : ComponentType) :
    includeOne (l.map (ComponentType.rename ρ)) (c.rename ρ) = (includeOne l c).map (ComponentType.rename ρ) := by
  unfold includeOne
  rw [List.any_map]
  have : ((fun d : ComponentType => d.eqv (c.rename ρ)) ∘ ComponentType.rename ρ) = fun d => d.eqv c :=
    funext fun d => ComponentType.eqv_rename hρ d c
  rw [this]
  split
  · rfl
  · rw [List.map_append]
    rfl

theorem excludeOne_rename (hρ : StrictMono ρ) (l : List ComponentType) (c : ComponentType) :
    excludeOne (l.map (ComponentType.rename ρ)) (c.rename ρ) = (excludeOne l c).map (ComponentType.rename ρ) := by
  unfold excludeOne
  have : ((fun d : ComponentType => d.eqv (c.rename ρ)) ∘ ComponentType.rename ρ) = fun d => d.eqv c :=
    funext fun d => ComponentType.eqv_rename hρ d c
  rw [List.eraseP_map, this]

theorem foldl_rename {f : List ComponentType → ComponentType → List ComponentType}
    (hf : ∀ l c, f (l.map (ComponentType.rename ρ)) (c.rename ρ) = (f l c).map (ComponentType.rename ρ)) (cs : List ComponentType) :
    ∀ l, (cs.map (ComponentType.rename ρ)).foldl f (l.map (ComponentType.rename ρ)) = (cs.foldl f l).map (ComponentType.rename ρ) := by
  induction cs with
  | nil => exact fun _ => rfl
  | cons c cs ih =>
    intro l
    rw [List.map_cons, List.foldl_cons, List.foldl_cons, hf, ih]

theorem includeComponents_rename (hρ : StrictMono ρ) {U U' : Universe} (hU : Transported ρ U U') (b : ArchetypeBuilder)
    (ts : List TypeId) : (b.rename ρ).includeComponents U' (ts.map ρ) = (b.includeComponents U ts).rename ρ := by
  unfold includeComponents includeComponentTypes rename
  rw [ComponentType.map_of hU, foldl_rename (includeOne_rename hρ)]

theorem excludeComponents_rename (hρ : StrictMono ρ) {U U' : Universe} (hU : Transported ρ U U') (b : ArchetypeBuilder)
    (ts : List TypeId) : (b.rename ρ).excludeComponents U' (ts.map ρ) = (b.excludeComponents U ts).rename ρ := by
  unfold excludeComponents excludeComponentTypes rename
  rw [ComponentType.map_of hU, foldl_rename (excludeOne_rename hρ)]

theorem includeArchetype_rename (hρ : StrictMono ρ) (b : ArchetypeBuilder) (a : Archetype) :
    (b.rename ρ).includeArchetype (a.rename ρ) = (b.includeArchetype a).rename ρ := by
  unfold includeArchetype includeComponentTypes rename
  rw [Archetype.componentsIter_rename, foldl_rename (includeOne_rename hρ)]

theorem build_rename (hρ : StrictMono ρ) (b : ArchetypeBuilder) :
    Maps (fun x => (x.1.rename ρ, x.2.rename ρ)) b.build (b.rename ρ).build := by
  unfold build
  show Maps _ _ (Archetype.new (sortByKey (·.id) (b.componentTypes.map (ComponentType.rename ρ))) >>= fun a =>
    pure (a, ArchetypeBuilder.mk (sortByKey (·.id) (b.componentTypes.map (ComponentType.rename ρ)))))
  rw [sortByKey_rename hρ]
  exact .bind (Archetype.new_rename _) fun a => rfl

end ArchetypeBuilder

theorem getOffsets_rename (hρ : StrictMono ρ) (a : Archetype) (l : Layout) (ts : List TypeId) :
    getOffsets (a.rename ρ) l (ts.map ρ) = getOffsets a l ts := by
  induction ts with
  | nil => rfl
  | cons t ts ih =>
    rw [List.map_cons]
    unfold getOffsets
    rw [Archetype.find_rename hρ, ih]

theorem getOffsetsUnchecked_rename (hρ : StrictMono ρ) (a : Archetype) (l : Layout) (ts : List TypeId) :
    getOffsetsUnchecked (a.rename ρ) l (ts.map ρ) = getOffsetsUnchecked a l ts := by
  induction ts with
  | nil => rfl
  | cons t ts ih =>
    rw [List.map_cons]
    unfold getOffsetsUnchecked
    rw [Archetype.find_rename hρ, ih]

theorem getRefs_rename {U U' : Universe} (hU : Transported ρ U U') (p i : Nat) (ts : List TypeId) :
    ∀ offs, getRefs U' p i (ts.map ρ) offs = getRefs U p i ts offs := by
  unfold getRefs
  induction ts with
  | nil => exact fun _ => rfl
  | cons t ts ih =>
    intro offs
    cases offs with
    | nil => rfl
    | cons o offs =>
      rw [List.map_cons, List.zip_cons_cons, List.zip_cons_cons, List.map_cons, List.map_cons, ih]
      simp only [hU.size]

namespace Access

theorem included_rename (hρ : StrictMono ρ) (acc : Access) (a : Archetype) :
    (acc.rename ρ).included (a.rename ρ) = acc.included a := by
  cases acc <;> simp only [rename, included, tupleIncluded_rename hρ]

theorem getOffsets_rename (hρ : StrictMono ρ) (acc : Access) (a : Archetype) (l : Layout) :
    (acc.rename ρ).getOffsets (a.rename ρ) l = acc.getOffsets a l := by
  cases acc <;> simp only [rename, getOffsets, getOffsetsUnchecked_rename hρ]

theorem types_rename (acc : Access) : (acc.rename ρ).types = acc.types.map ρ := by
  cases acc <;> simp [rename, types]

end Access

theorem IterView.new_rename {U U' : Universe} (hU : Transported ρ U U') (acc : Access) (i : Nat) (p : Page) (offs : List Nat) :
    IterView.new U' (acc.rename ρ) i p offs = IterView.new U acc i p offs := by
  unfold IterView.new Access.getPtrs
  rw [Access.types_rename, getRefs_rename hU]

/-! ### Tags and groups -/

def Tags.rename (ρ : TypeId → TypeId) (c : Tags) : Tags := { c with tagIds := c.tagIds.map ρ }

namespace Tags

theorem insertIdx_map {α β : Type} (f : α → β) (l : List α) (i : Nat) (a : α) : (l.insertIdx i a).map f = (l.map f).insertIdx i (f a) := by
  induction l generalizing i with
  | nil => cases i <;> rfl
  | cons x l ih =>
    cases i with
    | zero => rfl
    | succ i => simp only [List.insertIdx_succ_cons, List.map_cons, ih]

theorem hasTagBitvec_rename (hρ : StrictMono ρ) (c : Tags) (t : Nat) : (c.rename ρ).hasTagBitvec (ρ t) = c.hasTagBitvec t := by
  unfold hasTagBitvec rename
  rw [binarySearch_rename hρ]

theorem hasTag_rename (hρ : StrictMono ρ) (c : Tags) (t e : Nat) : (c.rename ρ).hasTag (ρ t) e = c.hasTag t e := by
  unfold hasTag rename
  rw [binarySearch_rename hρ]

theorem reserveTag_rename (hρ : StrictMono ρ) (c : Tags) (t : Nat) :
    (c.rename ρ).reserveTag (ρ t) = ((c.reserveTag t).1.rename ρ, (c.reserveTag t).2) := by
  unfold reserveTag
  show (match binarySearch (c.tagIds.map ρ) (ρ t) with | .found i => _ | .notFound i => _) = _
  rw [binarySearch_rename hρ]
  cases binarySearch c.tagIds t with
  | found i => rfl
  | notFound i => simp only [rename, insertIdx_map]

theorem addTag_rename (hρ : StrictMono ρ) (c : Tags) (t e : Nat) : Maps (rename ρ) (c.addTag t e) ((c.rename ρ).addTag (ρ t) e) := by
  unfold addTag
  rw [reserveTag_rename hρ]
  exact .same fun _ => .same fun _ => rfl

theorem removeTag_rename (hρ : StrictMono ρ) (c : Tags) (t e : Nat) :
    Maps (rename ρ) (c.removeTag t e) ((c.rename ρ).removeTag (ρ t) e) := by
  unfold removeTag
  show Maps _ _ (match binarySearch (c.tagIds.map ρ) (ρ t) with | .found i => _ | .notFound i => _)
  rw [binarySearch_rename hρ]
  cases binarySearch c.tagIds t with
  | found i => exact .same fun _ => .same fun _ => rfl
  | notFound i => exact rfl

theorem removeAll_rename (c : Tags) (e : Nat) :
    Maps (rename ρ) (c.removeAllTagsForEntity e) ((c.rename ρ).removeAllTagsForEntity e) := .same fun _ => rfl

theorem grow_rename (c : Tags) (n : Nat) : Maps (rename ρ) (c.grow n) ((c.rename ρ).grow n) := .same fun _ => rfl

end Tags

def Orders.rename (ρ : TypeId → TypeId) (c : Orders) : Orders := { c with groupIds := c.groupIds.map ρ }

namespace Orders

theorem reserveGroup_rename (hρ : StrictMono ρ) (c : Orders) (g : Nat) :
    (c.rename ρ).reserveGroup (ρ g) = ((c.reserveGroup g).1.rename ρ, (c.reserveGroup g).2) := by
  unfold reserveGroup
  show (match binarySearch (c.groupIds.map ρ) (ρ g) with | .found i => _ | .notFound i => _) = _
  rw [binarySearch_rename hρ]
  cases binarySearch c.groupIds g with
  | found i => rfl
  | notFound i => simp only [rename, Tags.insertIdx_map]

theorem onGroup_rename (c : Orders) (i : Nat) (f : Group → Res Group) : Maps (rename ρ) (c.onGroup i f) ((c.rename ρ).onGroup i f) :=
  .same fun _ => .same fun _ => rfl

variable {dbg : Bool}

theorem add_rename (hρ : StrictMono ρ) (c : Orders) (g e : Nat) : Maps (rename ρ) (c.add dbg g e) ((c.rename ρ).add dbg (ρ g) e) := by
  unfold add
  rw [reserveGroup_rename hρ]
  exact onGroup_rename _ _ _

theorem addNextTo_rename (hρ : StrictMono ρ) (c : Orders) (g e x : Nat) :
    Maps (rename ρ) (c.addNextTo dbg g e x) ((c.rename ρ).addNextTo dbg (ρ g) e x) := by
  unfold addNextTo
  rw [reserveGroup_rename hρ]
  exact onGroup_rename _ _ _

theorem addPreviousTo_rename (hρ : StrictMono ρ) (c : Orders) (g e x : Nat) :
    Maps (rename ρ) (c.addPreviousTo dbg g e x) ((c.rename ρ).addPreviousTo dbg (ρ g) e x) := by
  unfold addPreviousTo
  rw [reserveGroup_rename hρ]
  exact onGroup_rename _ _ _

theorem remove_rename (hρ : StrictMono ρ) (c : Orders) (g e : Nat) : Maps (rename ρ) (c.remove g e) ((c.rename ρ).remove (ρ g) e) := by
  unfold remove
  show Maps _ _ (match binarySearch (c.groupIds.map ρ) (ρ g) with | .notFound _ => _ | .found i => _)
  rw [binarySearch_rename hρ]
  cases binarySearch c.groupIds g with
  | notFound i => exact rfl
  | found i => exact onGroup_rename _ _ _

theorem removeAll_rename (c : Orders) (e : Nat) : Maps (rename ρ) (c.removeAll e) ((c.rename ρ).removeAll e) := .same fun _ => rfl

theorem grow_rename (c : Orders) (n : Nat) : Maps (rename ρ) (c.grow dbg n) ((c.rename ρ).grow dbg n) :=
  .same fun _ => .same fun _ => rfl

theorem getNext_rename (hρ : StrictMono ρ) (c : Orders) (g e : Nat) : (c.rename ρ).getNext (ρ g) e = c.getNext g e := by
  unfold getNext rename
  rw [binarySearch_rename hρ]

theorem getPrevious_rename (hρ : StrictMono ρ) (c : Orders) (g e : Nat) : (c.rename ρ).getPrevious (ρ g) e = c.getPrevious g e := by
  unfold getPrevious rename
  rw [binarySearch_rename hρ]

theorem getGroupIndex_rename (hρ : StrictMono ρ) (c : Orders) (g : Nat) : (c.rename ρ).getGroupIndex (ρ g) = c.getGroupIndex g := by
  unfold getGroupIndex rename
  rw [binarySearch_rename hρ]

theorem getHead_rename (hρ : StrictMono ρ) (c : Orders) (g : Nat) : (c.rename ρ).getHead (ρ g) = c.getHead g := by
  unfold getHead
  rw [getGroupIndex_rename hρ]
  rfl

theorem getTail_rename (hρ : StrictMono ρ) (c : Orders) (g : Nat) : (c.rename ρ).getTail (ρ g) = c.getTail g := by
  unfold getTail
  rw [getGroupIndex_rename hρ]
  rfl

end Orders
end Ecs
