import Verif.Spec.HeapCalls
import Verif.Proofs.Heap
import Verif.Proofs.Shape
import Verif.Proofs.UnwindCalm

/-! The shape of a store and the shape of its memory change in the same way. -/

namespace Ecs
open Spec StorePtrs

theorem binarySearch_notFound_le {l : List Nat} {x j : Nat} (h : binarySearch l x = .notFound j) : j ≤ l.length := by
  unfold binarySearch at h
  split at h
  · cases h; exact Nat.zero_le _
  · have := bsLoop_lt l x l.length l.length 0 (Nat.le_refl _) (by omega) (by omega)
    dsimp only at h
    split at h
    · cases h
    · cases h
      split <;> omega

namespace Unw
variable {σ τ α β : Type}

/-- If `m` started in `s` returns or panics, then `Q` holds. -/
def Sat (m : Unw σ α) (s : σ) (Q : Res α → σ → Prop) : Prop := Ended (m s).1 → Q (m s).1 (m s).2

/-- `m` keeps `P`, whether it returns or panics. -/
def Keeps (P : σ → Prop) (m : Unw σ α) : Prop := ∀ s, P s → m.Sat s fun _ => P

namespace Sat
variable {m : Unw σ α} {s : σ} {Q : Res β → σ → Prop}

theorem bind {f : α → Unw σ β} (hok : ∀ a s1, m s = (.ok a, s1) → (f a).Sat s1 Q)
    (herr : ∀ e s1, m s = (.error e, s1) → Ended (.error e : Res β) → Q (.error e) s1) : (m >>= f).Sat s Q := by
  unfold Sat
  show Ended (Unw.bind m f s).1 → Q (Unw.bind m f s).1 (Unw.bind m f s).2
  unfold Unw.bind
  rcases h : m s with ⟨_ | a, s1⟩
  · exact herr _ s1 h
  · exact hok a s1 h

theorem mono {Q' : Res β → σ → Prop} {n : Unw σ β} (h : n.Sat s Q) (hq : ∀ r s', Q r s' → Q' r s') : n.Sat s Q' :=
  fun he => hq _ _ (h he)

theorem pure {b : β} (h : Q (.ok b) s) : (Pure.pure b : Unw σ β).Sat s Q := fun _ => h

theorem get {f : σ → Unw σ β} (h : (f s).Sat s Q) : (Unw.get >>= f).Sat s Q :=
  bind (fun a s1 he => by cases he; exact h) (fun e s1 he => by cases he)

theorem lift {r : Res α} {f : α → Unw σ β} (hok : ∀ a, r = .ok a → (f a).Sat s Q)
    (herr : ∀ e, r = .error e → Ended (.error e : Res β) → Q (.error e) s) : (Unw.lift r >>= f).Sat s Q :=
  bind (fun a s1 he => by cases he; exact hok a rfl) (fun e s1 he => by cases he; exact herr e rfl)

theorem step {g : σ → Res σ} {f : Unit → Unw σ β} (hok : ∀ s1, g s = .ok s1 → (f ()).Sat s1 Q)
    (herr : ∀ e, g s = .error e → Ended (.error e : Res β) → Q (.error e) s) : (Unw.step g >>= f).Sat s Q := by
  refine bind (fun a s1 he => ?_) fun e s1 he => ?_ <;> unfold Unw.step at he <;> cases hg : g s <;> rw [hg] at he <;> cases he
  · exact hok _ hg
  · exact herr _ hg

theorem step' {g : σ → Res (σ × α)} {f : α → Unw σ β} (hok : ∀ s1 a, g s = .ok (s1, a) → (f a).Sat s1 Q)
    (herr : ∀ e, g s = .error e → Ended (.error e : Res β) → Q (.error e) s) : (Unw.step' g >>= f).Sat s Q := by
  refine bind (fun a s1 he => ?_) fun e s1 he => ?_ <;> unfold Unw.step' at he <;> cases hg : g s <;> rw [hg] at he <;> cases he
  · exact hok _ _ hg
  · exact herr _ hg

/-- The last step. -/
theorem step_last {g : σ → Res σ} {Q : Res Unit → σ → Prop} (hok : ∀ s1, g s = .ok s1 → Q (.ok ()) s1)
    (herr : ∀ e, g s = .error e → Ended (.error e : Res Unit) → Q (.error e) s) : (Unw.step g).Sat s Q := by
  unfold Sat Unw.step
  cases hg : g s with
  | ok s1 => exact fun _ => hok s1 hg
  | error e => exact herr e hg

theorem step'_last {g : σ → Res (σ × β)} (hok : ∀ s1 b, g s = .ok (s1, b) → Q (.ok b) s1)
    (herr : ∀ e, g s = .error e → Ended (.error e : Res β) → Q (.error e) s) : (Unw.step' g).Sat s Q := by
  unfold Sat Unw.step'
  cases hg : g s with
  | ok p => exact fun _ => hok p.1 p.2 hg
  | error e => exact herr e hg

theorem on {g : σ → τ} {w : σ → τ → σ} {n : Unw τ β} {R : Res β → τ → Prop} (h : n.Sat (g s) R)
    (hQ : ∀ r t, R r t → Q r (w s t)) : (n.on g w).Sat s Q := fun he => hQ _ _ (h he)

/-- After a part that is known to satisfy something. -/
theorem seq {m : Unw σ α} {f : α → Unw σ β} {R : Res α → σ → Prop} (h : m.Sat s R) (hok : ∀ a s1, R (.ok a) s1 → (f a).Sat s1 Q)
    (herr : ∀ e s1, R (.error e) s1 → Q (.error e) s1) : (m >>= f).Sat s Q := by
  refine bind (fun a s1 he => hok a s1 ?_) fun e s1 he hE => herr e s1 ?_
  · have := h (by rw [he]; trivial)
    rwa [he] at this
  · have := h (by rw [he]; cases e <;> exact hE)
    rwa [he] at this

end Sat

namespace Keeps
variable {P : σ → Prop}

theorem bind {m : Unw σ α} {f : α → Unw σ β} (h : Keeps P m) (hf : ∀ a, Keeps P (f a)) : Keeps P (m >>= f) := fun s hs =>
  .seq (h s hs) (fun a s1 h1 => hf a s1 h1) fun _ _ h1 => h1

theorem pure (a : α) : Keeps P (Pure.pure a : Unw σ α) := fun _ hs => .pure hs

theorem get : Keeps P (Unw.get : Unw σ σ) := fun _ hs _ => hs

theorem lift (r : Res α) : Keeps P (Unw.lift r : Unw σ α) := fun _ hs _ => hs

theorem step {g : σ → Res σ} (h : ∀ s s', P s → g s = .ok s' → P s') : Keeps P (Unw.step g) := fun s hs =>
  .step_last (fun s1 h1 => h s s1 hs h1) fun _ _ _ => hs

theorem step' {g : σ → Res (σ × α)} (h : ∀ s s' a, P s → g s = .ok (s', a) → P s') : Keeps P (Unw.step' g) := fun s hs =>
  .step'_last (fun s1 a h1 => h s s1 a hs h1) fun _ _ _ => hs

theorem ite {c : Prop} [Decidable c] {m n : Unw σ α} (h1 : Keeps P m) (h2 : Keeps P n) : Keeps P (if c then m else n) := by
  split
  · exact h1
  · exact h2

theorem on {g : σ → τ} {w : σ → τ → σ} {n : Unw τ α} {R : τ → Prop} (h : Keeps R n) (hg : ∀ s, P s → R (g s))
    (hw : ∀ s t, P s → R t → P (w s t)) : Keeps P (n.on g w) := fun s hs => .on (h _ (hg s hs)) fun _ t ht => hw s t hs ht

end Keeps
end Unw

namespace Archs

/-- The component counts of the archetypes and the number of pages are these, and the vectors are in step. -/
structure Sized (counts : List Nat) (pages : Nat) (c : Archs) : Prop where
  layouts : c.layouts.length = c.archetypes.length
  lists : c.archPages.length = c.archetypes.length
  free : ∀ i ∈ c.freeArchetypes, i < c.archetypes.length
  counts : c.archetypes.map (·.componentCount) = counts
  pages : c.pages.length = pages

variable {k : List Nat} {n : Nat} {c : Archs}

theorem Sized.length (h : c.Sized k n) : c.archetypes.length = k.length := by rw [← h.counts, List.length_map]

theorem layout_new_ok {dbg : Bool} {a : Archetype} {cap : Nat} (h : Layout.calcCapacity dbg a.sizes a.aligns = .ok cap) :
    ((Layout.calcOffsets a.sizes a.aligns cap).isOk = true ∧ ∃ l, Layout.new dbg a = .ok l) ∨
    ((Layout.calcOffsets a.sizes a.aligns cap).isOk = false ∧ Layout.new dbg a = .error (.panic .assertFailed)) := by
  unfold Layout.new
  rw [h]
  simp only [res_ok_bind]
  unfold Layout.calcOffsets rassert
  dsimp only
  split
  · exact .inl ⟨rfl, _, rfl⟩
  · exact .inr ⟨rfl, rfl⟩

/-- What `reserve_archetype` does, by the operation on the heap. -/
def Reserved (k : List Nat) (n : Nat) (c : Archs) (r : Res Nat) (c' : Archs) : Option (Nat × Nat × Bool) → Prop
  | none => c'.Sized k n
  | some (_, _, false) => c' = c ∧ r = .error (.panic .assertFailed)
  | some (count, slot, true) => c'.Sized (ArchsPtrs.putCount k slot count) n

theorem reserveArchetypeU_sized (dbg : Bool) (a : Archetype) (h : c.Sized k n) :
    (reserveArchetypeU dbg a).Sat c fun r c' => Reserved k n c r c' (c.heapReserve dbg a) := by
  unfold reserveArchetypeU heapReserve
  refine .get ?_
  cases hi : findSame a 0 c.archetypes with
  | some i =>
    dsimp only
    show Unw.Sat _ c fun r c' => c'.Sized k n
    split
    · refine .seq (R := fun _ c' => c'.Sized k n) ?_ (fun _ _ h1 => .pure h1) fun _ _ h1 => h1
      refine .step_last (fun s1 h1 => ?_) fun _ _ _ => h
      cases h1
      exact ⟨h.layouts, h.lists, fun j hj => h.free j (List.mem_of_mem_eraseIdx hj), h.counts, h.pages⟩
    · exact .pure h
  | none =>
    cases hc : Layout.calcCapacity dbg a.sizes a.aligns with
    | error e =>
      dsimp only
      refine .lift (fun l hl => ?_) fun _ _ _ => h
      unfold Layout.new at hl
      rw [hc] at hl
      cases hl
    | ok cap =>
      dsimp only
      rcases layout_new_ok hc with ⟨h1, l, h2⟩ | ⟨h1, h2⟩
      · rw [h1, h2]
        refine .lift (fun l' hl => ?_) fun e he => by cases he
        cases hl
        cases hg : c.freeArchetypes.getLast? with
        | some j =>
          have hj := h.free j (List.mem_of_getLast? hg)
          have hf : ∀ i ∈ c.freeArchetypes.dropLast, i < c.archetypes.length := fun i hi =>
            h.free i (List.dropLast_subset _ hi)
          dsimp only [Option.getD_some]
          refine .step (fun c1 e1 => ?_) fun e he => by cases he
          cases e1
          refine .step (fun c1 e1 => ?_) fun e he => ?_
          · dsimp only at e1
            rw [idxSet_of_lt _ hj] at e1
            cases e1
            refine .step (fun c1 e1 => ?_) fun e he => ?_
            · dsimp only at e1
              rw [idxSet_of_lt _ (by rw [h.layouts]; exact hj)] at e1
              cases e1
              refine .pure ⟨?_, ?_, ?_, ?_, h.pages⟩
              · simp only [List.length_set]; exact h.layouts
              · simp only [List.length_set]; exact h.lists
              · simpa only [List.length_set] using hf
              · simp only [ArchsPtrs.putCount, ← h.length, hj, if_true, List.map_set, h.counts]
            · dsimp only at he
              rw [idxSet_of_lt _ (by rw [h.layouts]; exact hj)] at he
              cases he
          · dsimp only at he
            rw [idxSet_of_lt _ hj] at he
            cases he
        | none =>
          dsimp only [Option.getD_none]
          refine .step (fun c1 e1 => ?_) fun e he => by cases he
          cases e1
          refine .get (.pure ⟨?_, ?_, ?_, ?_, h.pages⟩)
          · simp [h.layouts]
          · simp [h.lists]
          · intro i hi
            have := h.free i hi
            simp only [List.length_append]
            omega
          · simp only [ArchsPtrs.putCount, ← h.length, Nat.lt_irrefl, if_false, List.map_append, h.counts, List.map_cons, List.map_nil]
      · rw [h1, h2]
        exact .lift (fun l' hl => by cases hl) fun e he _ => by cases he; exact ⟨rfl, rfl⟩

theorem pushIdU_keeps (dbg : Bool) (p i : Nat) : Unw.Keeps (Sized k n) (pushIdU dbg p i) := by
  refine .step' fun s s' a hs he => ?_
  obtain ⟨pg, -, he⟩ := bind_eq_ok.1 he
  obtain ⟨⟨pg', j⟩, -, he⟩ := bind_eq_ok.1 he
  cases he
  exact ⟨hs.layouts, hs.lists, hs.free, hs.counts, by simp [hs.pages]⟩

theorem takeThenPush_sized (dbg : Bool) (id i : Nat) (h : c.Sized k n) : ((do
      let p ← takePageU i
      Unw.step fun c => do
        let layout ← idx c.layouts i
        let page ← idx c.pages p
        return { c with pages := c.pages.set p (page.setLayout layout) }
      Unw.step fun c => do
        let pageList ← idx c.archPages i
        return { c with archPages := c.archPages.set i (pageList ++ [p]) }
      Unw.step fun c => do
        let pageToArch ← idxSet c.pageToArch p i
        return { c with pageToArch := pageToArch }
      let index ← pushIdU dbg p id
      return (⟨p, index⟩ : Loc) : Unw Archs Loc)).Sat c fun _ c' => c'.Sized k (if c.freePages.isEmpty then n + 1 else n) := by
  have rest : ∀ (p : Nat) (m : Nat), Unw.Keeps (Sized k m) (do
      Unw.step fun c => do
        let layout ← idx c.layouts i
        let page ← idx c.pages p
        return { c with pages := c.pages.set p (page.setLayout layout) }
      Unw.step fun c => do
        let pageList ← idx c.archPages i
        return { c with archPages := c.archPages.set i (pageList ++ [p]) }
      Unw.step fun c => do
        let pageToArch ← idxSet c.pageToArch p i
        return { c with pageToArch := pageToArch }
      let index ← pushIdU dbg p id
      return (⟨p, index⟩ : Loc) : Unw Archs Loc) := by
    intro p m
    refine .bind (.step fun s s' hs he => ?_) fun _ => .bind (.step fun s s' hs he => ?_) fun _ =>
      .bind (.step fun s s' hs he => ?_) fun _ => .bind (pushIdU_keeps dbg p id) fun _ => .pure _
    · obtain ⟨l, -, he⟩ := bind_eq_ok.1 he
      obtain ⟨pg, -, he⟩ := bind_eq_ok.1 he
      cases he
      exact ⟨hs.layouts, hs.lists, hs.free, hs.counts, by simp [hs.pages]⟩
    · obtain ⟨l, -, he⟩ := bind_eq_ok.1 he
      cases he
      exact ⟨hs.layouts, by simp [hs.lists], hs.free, hs.counts, hs.pages⟩
    · obtain ⟨l, -, he⟩ := bind_eq_ok.1 he
      cases he
      exact ⟨hs.layouts, hs.lists, hs.free, hs.counts, hs.pages⟩
  refine .seq (R := fun _ c' => c'.Sized k (if c.freePages.isEmpty then n + 1 else n)) ?_ (fun p c1 h1 => rest p _ c1 h1)
    fun _ _ h1 => h1
  unfold takePageU
  refine .get ?_
  cases hg : c.freePages.getLast? with
  | some p =>
    have he : c.freePages.isEmpty = false := by
      cases hl : c.freePages with
      | nil => rw [hl] at hg; cases hg
      | cons _ _ => rfl
    rw [he]
    refine .step (fun c1 e1 => ?_) fun e he => by cases he
    cases e1
    exact .pure ⟨h.layouts, h.lists, h.free, h.counts, h.pages⟩
  | none =>
    have he : c.freePages = [] := List.getLast?_eq_none_iff.1 hg
    rw [he]
    dsimp only [List.isEmpty_nil, if_true]
    have h1 : vecInsert c.pages c.pages.length Page.new = .ok (c.pages.insertIdx c.pages.length Page.new) := if_pos (Nat.le_refl _)
    refine .step (fun c1 e1 => ?_) fun e he => ?_
    · rw [h1] at e1
      cases e1
      have hA : Sized k (n + 1) { c with pages := c.pages.insertIdx c.pages.length Page.new } :=
        ⟨h.layouts, h.lists, h.free, h.counts, by simp [List.length_insertIdx, h.pages]⟩
      refine .step (fun c1 e1 => ?_) fun e _ _ => by simpa using hA
      obtain ⟨l, -, e1⟩ := bind_eq_ok.1 e1
      cases e1
      exact .pure ⟨hA.layouts, hA.lists, hA.free, hA.counts, hA.pages⟩
    · rw [h1] at he
      cases he

theorem reservePageU_sized (dbg : Bool) (id i : Nat) (h : c.Sized k n) :
    (reservePageU dbg id i).Sat c fun _ c' => c'.Sized k (if c.needsPage i then n + 1 else n) := by
  have key : ∀ b, c.needsPage i = b → (reservePageU dbg id i).Sat c fun _ c' => c'.Sized k (if b then n + 1 else n) := by
    intro b hb
    unfold needsPage at hb
    unfold reservePageU
    refine .get ?_
    cases hi : idx c.archPages i with
    | error e =>
      rw [hi] at hb
      cases hb
      exact .lift (fun _ h1 => by cases h1) fun _ _ _ => h
    | ok pl =>
      rw [hi] at hb
      dsimp only at hb
      refine .lift (fun pl' hpl => ?_) fun e he => by cases he
      cases hpl
      cases hf : findFreePage c.pages pl.reverse with
      | error e =>
        rw [hf] at hb
        cases hb
        exact .lift (fun _ h1 => by cases h1) fun _ _ _ => h
      | ok o =>
        rw [hf] at hb
        refine .lift (fun o' ho => ?_) fun e he => by cases he
        cases ho
        cases o with
        | some p =>
          cases hb
          exact (pushIdU_keeps dbg p id).bind (fun _ => .pure _) c h
        | none =>
          dsimp only at hb
          subst hb
          exact takeThenPush_sized dbg id i h
  exact key _ rfl
/-- What a new row does, by the operation on the heap. -/
def Placed {α : Type} (k : List Nat) (n : Nat) (c : Archs) (r : Res α) (c' : Archs) (page : Bool) : Option (Nat × Nat × Bool) → Prop
  | none => c'.Sized k (if page then n + 1 else n)
  | some (_, _, false) => c' = c ∧ r = .error (.panic .assertFailed)
  | some (count, slot, true) => c'.Sized (ArchsPtrs.putCount k slot count) (if page then n + 1 else n)

/-- Whether a new row needs a new page. -/
def placePage (dbg : Bool) (c : Archs) (a : Archetype) : Bool :=
  match c.reserveArchetype dbg a with
  | .ok (c', i) => c'.needsPage i
  | .error _ => false

theorem reserveThen_sized {α : Type} (dbg : Bool) (id : Nat) (a : Archetype) (f : Nat → Loc → Unw Archs α)
    (hf : ∀ i l k n, Unw.Keeps (Sized k n) (f i l)) (h : c.Sized k n) : (do
      let i ← reserveArchetypeU dbg a
      let l ← reservePageU dbg id i
      f i l : Unw Archs α).Sat c fun r c' => Placed k n c r c' (c.placePage dbg a) (c.heapReserve dbg a) := by
  have hr := reserveArchetypeU_result dbg c a
  have hS := reserveArchetypeU_sized dbg a h
  unfold Unw.Sat at hS
  unfold Unw.result at hr
  refine .bind (fun i c1 e1 => ?_) fun e c1 e1 hE => ?_
  · rw [e1] at hr hS
    have hp : c.placePage dbg a = c1.needsPage i := by unfold placePage; rw [← hr]
    rw [hp]
    have hR := hS trivial
    have rest : ∀ k, c1.Sized k n → (do
        let l ← reservePageU dbg id i
        f i l : Unw Archs α).Sat c1 fun _ c' => c'.Sized k (if c1.needsPage i then n + 1 else n) := fun k hk =>
      .seq (reservePageU_sized dbg id i hk) (fun l c2 h2 => hf i l _ _ c2 h2) fun _ _ h2 => h2
    rcases hres : c.heapReserve dbg a with _ | ⟨count, slot, _ | _⟩ <;> rw [hres] at hR
    · exact rest k hR
    · cases hR.2
    · exact rest _ hR
  · rw [e1] at hr hS
    have hp : c.placePage dbg a = false := by unfold placePage; rw [← hr]
    rw [hp]
    have hR := hS (by cases e <;> exact hE)
    rcases hres : c.heapReserve dbg a with _ | ⟨count, slot, _ | _⟩ <;> rw [hres] at hR
    · exact hR
    · exact ⟨hR.1, by cases hR.2; rfl⟩
    · exact hR

theorem addEntityU_sized (dbg : Bool) (id : Nat) (a : Archetype) (h : c.Sized k n) :
    (addEntityU dbg id a).Sat c fun r c' => Placed k n c r c' (c.placePage dbg a) (c.heapReserve dbg a) := by
  have := reserveThen_sized dbg id a (fun _ l => pure l) (fun _ l _ _ => .pure l) h
  have e : (reserveArchetypeU dbg a >>= fun i => reservePageU dbg id i >>= fun l => (pure l : Unw Archs Loc)) = addEntityU dbg id a := by
    unfold addEntityU
    congr 1
    funext i c
    show Unw.bind _ _ c = _
    unfold Unw.bind
    rcases reservePageU dbg id i c with ⟨_ | _, _⟩ <;> rfl
  rwa [e] at this

theorem moveU_sized (dbg : Bool) (id : Nat) (q : Loc) (j : Nat) (a : Archetype) (h : c.Sized k n) :
    (moveEntityToOtherArchetypeU dbg id q j a).Sat c fun r c' => Placed k n c r c' (c.placePage dbg a) (c.heapReserve dbg a) := by
  unfold moveEntityToOtherArchetypeU
  refine reserveThen_sized dbg id a _ (fun i l k n => .bind (.step fun s s' hs he => ?_) fun _ => .pure _) h
  obtain ⟨_, -, he⟩ := bind_eq_ok.1 he
  obtain ⟨_, -, he⟩ := bind_eq_ok.1 he
  obtain ⟨_, -, he⟩ := bind_eq_ok.1 he
  obtain ⟨_, -, he⟩ := bind_eq_ok.1 he
  obtain ⟨_, -, he⟩ := bind_eq_ok.1 he
  obtain ⟨_, hc, he⟩ := bind_eq_ok.1 he
  cases he
  exact ⟨hs.layouts, hs.lists, hs.free, hs.counts, by rw [copyLoop_length _ hc]; exact hs.pages⟩

theorem swapRemoveEntityU_keeps (q : Loc) : Unw.Keeps (Sized k n) (swapRemoveEntityU q) := by
  refine .bind .get fun c => .bind (.lift _) fun ai => .bind (.lift _) fun pg => .bind (.lift _) fun a => .bind (.lift _) fun l =>
    .bind (.step' fun s s' r hs he => ?_) fun info => ?_
  · obtain ⟨⟨pg', j⟩, -, he⟩ := bind_eq_ok.1 he
    cases he
    exact ⟨hs.layouts, hs.lists, hs.free, hs.counts, by simp [hs.pages]⟩
  · split
    · refine .bind (.step fun s s' hs he => ?_) fun _ => .pure _
      unfold freePage at he
      obtain ⟨ai, -, he⟩ := bind_eq_ok.1 he
      split at he
      · cases he; exact hs
      · obtain ⟨pl, hpl, he⟩ := bind_eq_ok.1 he
        have hlt : ai < s.archetypes.length := hs.lists ▸ (List.getElem?_eq_some_iff.1 (idx_ok.1 hpl)).1
        cases he
        split
        · refine ⟨hs.layouts, by simp [hs.lists], ?_, hs.counts, hs.pages⟩
          intro i hi
          dsimp only at hi
          split at hi
          · rcases List.mem_append.1 hi with hi | hi
            · exact hs.free i hi
            · rw [List.mem_singleton.1 hi]; exact hlt
          · exact hs.free i hi
        · exact ⟨hs.layouts, hs.lists, hs.free, hs.counts, hs.pages⟩
    · exact .pure _

end Archs

theorem calm_ended {α β : Type} {r : Res α} {e : Fault} (h : Calm r) (he : r = .error e) : ¬ Ended (.error e : Res β) := by
  intro hE
  cases e with
  | panic p => exact h p he
  | ub u => exact hE
  | outOfFuel => exact hE

namespace Calm

theorem ite' {α : Type} {c : Prop} [Decidable c] {a b : Res α} (ha : Calm a) (hb : Calm b) : Calm (if c then a else b) := by
  split
  · exact ha
  · exact hb

theorem realloc {α : Type} (a : Raw α) (o n : Nat) : Calm (a.realloc o n) := by
  unfold Raw.realloc Raw.dealloc
  repeat' split
  all_goals first
    | exact .pure _
    | exact .ub _

theorem wordsRealloc (a : Words) (o n : Nat) : Calm (a.realloc o n) := by
  unfold Words.realloc Words.dealloc
  dsimp only
  repeat' split
  all_goals first
    | exact .pure _
    | exact .ub _

theorem toggle (a : Words) (i : Nat) : Calm (a.toggle i) := by
  unfold Words.toggle; split
  · exact .ok _
  · exact .ub _

end Calm

namespace Ents

/-- What `takeId` does to the capacity; ids from the old capacity on have version zero. -/
theorem takeId_capacity {dbg : Bool} {c c' : Ents} {id : Nat} (hc : c.capacity < u32Size) (h : c.takeId dbg = .ok (id, c')) :
    c'.capacity = c.capacity ∨
    (c'.capacity = max c.capacity 1 * 2 ∧ ∀ v, Raw.read c'.versions id = .ok v → v = 0) := by
  unfold takeId at h
  split at h
  · cases h; exact .inl rfl
  · obtain ⟨nx, -, h⟩ := bind_eq_ok.1 h
    dsimp only at h
    split at h
    · rename_i hw
      obtain ⟨c2, h2, h⟩ := bind_eq_ok.1 h
      cases h
      unfold grow at h2
      rw [if_neg (by dsimp only; omega)] at h2
      dsimp only at h2
      obtain ⟨vs, h3, h2⟩ := bind_eq_ok.1 h2
      obtain ⟨bs, -, h2⟩ := bind_eq_ok.1 h2
      cases h2
      refine .inr ⟨rfl, fun v hv => ?_⟩
      dsimp only at hv
      have hge : c.capacity ≤ c.nextFreeId := by
        unfold willGrowWithId at hw
        rw [Nat.mod_eq_of_lt hc] at hw
        exact of_decide_eq_true hw
      unfold Raw.reallocZeroing at h3
      split at h3
      · cases h3
      · obtain ⟨_, hd, h3⟩ := bind_eq_ok.1 h3
        unfold Raw.dealloc at hd
        split at hd
        · rename_i hl
          cases h3
          unfold Raw.read at hv
          rw [List.getElem?_append_right (by rw [List.length_take]; omega), List.getElem?_replicate] at hv
          split at hv
          · rename_i x hx
            split at hx
            · cases hx; cases hv; rfl
            · cases hx
          · cases hv
          · cases hv
        · cases hd
    · cases h; exact .inl rfl

theorem createU_capacity {dbg : Bool} {c : Ents} (hc : c.capacity < u32Size) : (createU dbg).Sat c fun r c' =>
    match c.takeId dbg with
    | .error _ => c'.capacity = c.capacity ∧ ∃ e, r = .error e
    | .ok (_, c1) => c'.capacity = c1.capacity ∧ (∀ x, r = .ok x → x.capacityBefore = c.capacity ∧ x.capacityAfter = c1.capacity) ∧
        ∀ e, r = .error e → c1.capacity = c.capacity := by
  unfold createU
  refine .get ?_
  cases ht : c.takeId dbg with
  | error e =>
    refine .step' (fun c1 a h1 => ?_) fun e h1 _ => ⟨rfl, e, rfl⟩
    rw [ht] at h1
    cases h1
  | ok p =>
    obtain ⟨id, c1⟩ := p
    dsimp only
    refine .step' (fun c2 a h1 => ?_) fun e h1 _ => ?_
    · rw [ht] at h1
      cases h1
      refine .step (fun c2 h2 => ?_) fun e h2 hE => absurd hE (calm_ended ?_ h2)
      · obtain ⟨bits, -, h2⟩ := bind_eq_ok.1 h2
        cases h2
        refine .get (.lift (fun v hv => .lift (fun v' hv' => ?_) fun e he hE => ?_) fun e he hE => absurd hE (calm_ended (.read _ _) he))
        · refine .step (fun c2 h2 => ?_) fun e h2 hE => absurd hE (calm_ended ?_ h2)
          · obtain ⟨vs, -, h2⟩ := bind_eq_ok.1 h2
            cases h2
            exact .get (.pure ⟨rfl, fun x hx => by cases hx; exact ⟨rfl, rfl⟩, fun e he => by cases he⟩)
          · exact (Calm.write _ _ _).bind fun _ _ => .pure _
        · refine ⟨rfl, (fun x hx => by cases hx), fun _ _ => ?_⟩
          rcases takeId_capacity hc ht with h | ⟨_, h⟩
          · exact h
          · have hv := h v hv
            subst hv
            cases he
      · exact (Calm.toggle _ _).bind fun _ _ => .pure _
    · rw [ht] at h1
      cases h1

end Ents

namespace Store

/-- The shape of the store, with the vectors in step. -/
structure Sized (S : StorePtrs.Shape) (s : Store) : Prop where
  cap : s.ents.capacity = S.capacity
  tagCap : s.tags.entityCapacity = S.capacity
  orderCap : s.orders.entityCapacity = S.capacity
  tags : s.tags.bitvecs.length = S.tags
  tagIds : s.tags.tagIds.length = S.tags
  groups : s.orders.groups.length = S.groups
  groupIds : s.orders.groupIds.length = S.groups
  archs : s.archs.Sized S.archetypes S.pages
  layouts : S.layouts = S.archetypes

variable {S : StorePtrs.Shape} {s : Store}

theorem growU_sized (dbg : Bool) {o : Nat} (ho : o ≤ s.ents.capacity) (h : Sized S { s with ents := { s.ents with capacity := o } }) :
    (growEntitiesInternalU dbg o).Sat s fun _ s' => s'.Sized { S with capacity := s.ents.capacity } := by
  unfold growEntitiesInternalU
  refine .get ?_
  refine .step (fun s1 h1 => ?_) fun e he hE => absurd hE (calm_ended ((Calm.realloc _ _ _).bind fun _ _ => .pure _) he)
  obtain ⟨_, -, h1⟩ := bind_eq_ok.1 h1
  cases h1
  refine .step (fun s1 h1 => ?_) fun e he hE => absurd hE (calm_ended ((Calm.realloc _ _ _).bind fun _ _ => .pure _) he)
  obtain ⟨_, -, h1⟩ := bind_eq_ok.1 h1
  cases h1
  refine .step (fun s1 h1 => ?_) fun e he hE => absurd hE (calm_ended ((Calm.wordsRealloc _ _ _).bind fun _ _ => .pure _) he)
  obtain ⟨_, -, h1⟩ := bind_eq_ok.1 h1
  cases h1
  refine .step (fun s1 h1 => ?_) fun e he hE => absurd hE (calm_ended (.bind (.bind (.mapM _ (fun _ => Calm.wordsRealloc _ _ _) _)
    fun _ _ => .pure _) fun _ _ => .pure _) he)
  obtain ⟨t, ht, h1⟩ := bind_eq_ok.1 h1
  obtain ⟨bvs, hb, ht⟩ := bind_eq_ok.1 ht
  cases ht
  cases h1
  have hc : s.orders.entityCapacity ≤ s.entitiesCapacity := by
    have := h.orderCap.trans h.cap.symm
    dsimp only at this
    rw [this]
    exact ho
  refine .step_last (fun s1 h1 => ?_) fun e he hE => absurd hE (calm_ended (.bind ?_ fun _ _ => .pure _) he)
  · obtain ⟨os, hos, h1⟩ := bind_eq_ok.1 h1
    obtain ⟨_, -, hos⟩ := bind_eq_ok.1 hos
    obtain ⟨gs, hgs, hos⟩ := bind_eq_ok.1 hos
    cases hos
    cases h1
    exact ⟨rfl, rfl, rfl, (mapM_eq_ok_length hb).trans h.tags, h.tagIds, (mapM_eq_ok_length hgs).trans h.groups, h.groupIds,
      h.archs, h.layouts⟩
  · unfold Orders.grow
    dsimp only
    have e1 : subUsize dbg s.entitiesCapacity s.orders.entityCapacity = .ok (s.entitiesCapacity - s.orders.entityCapacity) := if_pos hc
    rw [e1]
    refine .bind (.ok _) fun _ _ => .bind (.mapM _ (fun g => ?_) _) fun _ _ => .pure _
    unfold Group.grow Group.growLinks
    exact .bind (.bind (.realloc _ _ _) fun _ _ => .pure _) fun _ _ => .bind (.bind (.realloc _ _ _) fun _ _ => .pure _) fun _ _ =>
      .pure _

theorem registerNewEntityU_sized (dbg : Bool) (h : s.Sized S) (hc : s.ents.capacity < u32Size) :
    (registerNewEntityU dbg).Sat s fun _ s' => s'.Sized ((s.createOps dbg).foldl Shape.caught S) := by
  have hS := Ents.createU_capacity (dbg := dbg) hc
  unfold createOps Ents.heapCreate
  unfold registerNewEntityU
  have hS' : (onEnts (Ents.createU dbg)).Sat s fun r s' => ∃ c', s' = { s with ents := c' } ∧
    (match s.ents.takeId dbg with
    | .error _ => c'.capacity = s.ents.capacity ∧ ∃ e, r = .error e
    | .ok (_, c1) => c'.capacity = c1.capacity ∧ (∀ x, r = .ok x → x.capacityBefore = s.ents.capacity ∧ x.capacityAfter = c1.capacity) ∧
        ∀ e, r = .error e → c1.capacity = s.ents.capacity) := .on hS fun r t ht => ⟨t, rfl, ht⟩
  have keep : ∀ c' : Ents, c'.capacity = s.ents.capacity → Sized S { s with ents := c' } := fun c' hc' =>
    ⟨hc'.trans h.cap, h.tagCap, h.orderCap, h.tags, h.tagIds, h.groups, h.groupIds, h.archs, h.layouts⟩
  have same : S.caught (.create false) = S := rfl
  cases ht : s.ents.takeId dbg with
  | error e =>
    rw [ht] at hS'
    refine .seq hS' ?_ ?_
    · rintro a s1 ⟨c', rfl, -, e, he⟩
      cases he
    · rintro e s1 ⟨c', rfl, hc', -⟩
      exact keep c' hc'
  | ok p =>
    obtain ⟨id, c1⟩ := p
    rw [ht] at hS'
    dsimp only at hS' ⊢
    refine .seq hS' ?_ ?_
    · rintro a s1 ⟨c', rfl, hc', hx, -⟩
      obtain ⟨x1, x2⟩ := hx a rfl
      by_cases hg : c1.capacity = s.ents.capacity
      · have hw : a.wasGrow = false := by unfold EntityCreation.wasGrow; rw [x1, x2, hg]; simp
        rw [hw, decide_eq_false (by simpa using hg)]
        exact .pure (keep c' (hc'.trans hg))
      · have hw : a.wasGrow = true := by unfold EntityCreation.wasGrow; rw [x1, x2]; simpa using hg
        rw [hw, decide_eq_true hg, x1]
        have hcap : c1.capacity = max s.ents.capacity 1 * 2 := by
          rcases Ents.takeId_capacity hc ht with h' | h'
          · exact absurd h' hg
          · exact h'.1
        have hgrow := growU_sized (s := { s with ents := c' }) (S := S) dbg (o := s.ents.capacity) (by dsimp only; omega)
          ⟨h.cap, h.tagCap, h.orderCap, h.tags, h.tagIds, h.groups, h.groupIds, h.archs, h.layouts⟩
        refine .seq hgrow (fun _ s2 h2 => .pure ?_) fun _ s2 h2 => ?_
        all_goals
          show s2.Sized { S with capacity := max S.capacity 1 * 2 }
          dsimp only at h2
          rwa [hc', hcap, h.cap] at h2
    · rintro e s1 ⟨c', rfl, hc', -, he⟩
      have hg := he e rfl
      rw [decide_eq_false (by simpa using hg)]
      exact keep c' (hc'.trans hg)

theorem Sized.congr {s' : Store} (h : s.Sized S) (h1 : s'.ents = s.ents) (h2 : s'.tags = s.tags) (h3 : s'.orders = s.orders)
    (h4 : s'.archs = s.archs) : s'.Sized S :=
  ⟨h1 ▸ h.cap, h2 ▸ h.tagCap, h3 ▸ h.orderCap, h2 ▸ h.tags, h2 ▸ h.tagIds, h3 ▸ h.groups, h3 ▸ h.groupIds, h4 ▸ h.archs, h.layouts⟩

/-- The state after some operations; if one of them loses a block then the call panicked. -/
def After {α : Type} (S : StorePtrs.Shape) (ops : List HeapOp) (r : Res α) (s' : Store) : Prop :=
  s'.Sized (ops.foldl Shape.caught S) ∧ (ops.flatMap leak ≠ [] → ∃ p, r = .error (.panic p))

theorem After.keeps {α β : Type} {ops : List HeapOp} {m : Unw Store α} {f : α → Unw Store β} (h : m.Sat s (After S ops))
    (hf : ∀ a S, Unw.Keeps (Sized S) (f a)) : (m >>= f).Sat s (After S ops) := by
  refine .seq h (fun a s1 h1 => ?_) fun e s1 h1 => ⟨h1.1, fun hl => ?_⟩
  · refine (hf a _ s1 h1.1).mono fun r s' h2 => ⟨h2, fun hl => ?_⟩
    obtain ⟨p, hp⟩ := h1.2 hl
    cases hp
  · obtain ⟨p, hp⟩ := h1.2 hl
    cases hp
    exact ⟨p, rfl⟩

theorem After.of_keeps {α : Type} {m : Unw Store α} (h : s.Sized S) (hm : Unw.Keeps (Sized S) m) : m.Sat s (After S []) :=
  (hm s h).mono fun _ _ h1 => ⟨h1, fun hl => absurd rfl hl⟩

theorem After.place {α : Type} {m : Unw Archs α} {dbg : Bool} {t : Option Nat} {a : Archetype} (h : s.Sized S)
    (hm : m.Sat s.archs fun r c' => Archs.Placed S.archetypes S.pages s.archs r c' (s.archs.placePage dbg a) (s.archs.heapReserve dbg a)) :
    (onArchs m).Sat s (After S [s.archs.heapPlace dbg t a]) := by
  refine .on hm fun r c' hp => ?_
  have hop : s.archs.heapPlace dbg t a = .place t (s.archs.heapReserve dbg a) (s.archs.placePage dbg a) := rfl
  rw [hop]
  generalize s.archs.placePage dbg a = page at *
  generalize s.archs.heapReserve dbg a = res at *
  unfold After
  rcases res with _ | ⟨count, slot, _ | _⟩
  · exact ⟨⟨h.cap, h.tagCap, h.orderCap, h.tags, h.tagIds, h.groups, h.groupIds, hp, h.layouts⟩, fun hl => absurd rfl hl⟩
  · refine ⟨?_, fun _ => ⟨_, hp.2⟩⟩
    rw [hp.1]
    exact h
  · exact ⟨⟨h.cap, h.tagCap, h.orderCap, h.tags, h.tagIds, h.groups, h.groupIds, hp, by
      show ArchsPtrs.putCount S.layouts slot count = ArchsPtrs.putCount S.archetypes slot count
      rw [h.layouts]⟩, fun hl => absurd rfl hl⟩

theorem onArchs_keeps {α : Type} {m : Unw Archs α} (hm : ∀ k n, Unw.Keeps (Archs.Sized k n) m) : Unw.Keeps (Sized S) (onArchs m) :=
  .on (hm S.archetypes S.pages) (fun _ h => h.archs) fun _ _ h ht =>
    ⟨h.cap, h.tagCap, h.orderCap, h.tags, h.tagIds, h.groups, h.groupIds, ht, h.layouts⟩

theorem recordRow_keeps (id : Nat) (loc : Loc) : Unw.Keeps (Sized S) (Unw.step fun s => s.recordRow id loc) := by
  refine .step fun s s' hs he => ?_
  obtain ⟨_, -, he⟩ := bind_eq_ok.1 he
  obtain ⟨_, -, he⟩ := bind_eq_ok.1 he
  obtain ⟨_, -, he⟩ := bind_eq_ok.1 he
  cases he
  exact hs.congr rfl rfl rfl rfl

theorem swapRemoveInternalU_keeps (loc : Loc) : Unw.Keeps (Sized S) (swapRemoveInternalU loc) := by
  refine .bind (onArchs_keeps fun k n => Archs.swapRemoveEntityU_keeps loc) fun o => ?_
  cases o with
  | some id =>
    refine .step fun s s' hs he => ?_
    obtain ⟨_, -, he⟩ := bind_eq_ok.1 he
    cases he
    exact hs.congr rfl rfl rfl rfl
  | none => exact .pure _

theorem moveU_after (dbg : Bool) (e : Entity) (a : Archetype) (t : Option Nat) {q : Loc} {j : Nat} (hq : s.getLocUnchecked e.id = .ok q)
    (hj : idx s.archs.pageToArch q.page = .ok j) (h : s.Sized S) :
    (moveEntityToOtherArchetypeU dbg e a).Sat s (After S [s.archs.heapPlace dbg t a]) := by
  unfold moveEntityToOtherArchetypeU
  refine .get ?_
  rw [hq]
  refine .lift (fun q' hq' => ?_) fun _ he => by cases he
  cases hq'
  rw [hj]
  refine .lift (fun j' hj' => ?_) fun _ he => by cases he
  cases hj'
  refine After.keeps (.place h (Archs.moveU_sized dbg e.id q j a h.archs)) fun l S => ?_
  refine .bind (.step fun s s' hs he => ?_) fun _ => .bind (swapRemoveInternalU_keeps q) fun _ => .pure _
  obtain ⟨_, -, he⟩ := bind_eq_ok.1 he
  obtain ⟨_, -, he⟩ := bind_eq_ok.1 he
  cases he
  exact hs.congr rfl rfl rfl rfl

theorem createEntityU_after (dbg : Bool) (h : s.Sized S) (hc : s.ents.capacity < u32Size) :
    (createEntityU dbg).Sat s (After S (s.createOps dbg)) := by
  unfold createEntityU
  refine After.keeps ((registerNewEntityU_sized dbg h hc).mono fun r s' hs => ⟨hs, fun hl => absurd ?_ hl⟩) fun e S =>
    .bind (.step fun s s' hs he => ?_) fun _ => .pure _
  · unfold createOps
    split <;> rfl
  · obtain ⟨_, -, he⟩ := bind_eq_ok.1 he
    cases he
    exact hs.congr rfl rfl rfl rfl

theorem registerNewEntityU_archs (dbg : Bool) (A : Archs) : Unw.Keeps (fun s => s.archs = A) (registerNewEntityU dbg) := by
  have hg : ∀ n, Unw.Keeps (fun s => s.archs = A) (growEntitiesInternalU dbg n) := by
    intro n
    unfold growEntitiesInternalU
    refine .bind .get fun _ => .bind (.step fun s s' hs he => ?_) fun _ => .bind (.step fun s s' hs he => ?_) fun _ =>
      .bind (.step fun s s' hs he => ?_) fun _ => .bind (.step fun s s' hs he => ?_) fun _ => .step fun s s' hs he => ?_
    all_goals
      obtain ⟨_, -, he⟩ := bind_eq_ok.1 he
      cases he
      exact hs
  refine .bind (.on (R := fun _ => True) (fun _ _ _ => trivial) (fun _ _ => trivial) fun s t hs _ => hs) fun c => ?_
  split
  · exact .bind (hg _) fun _ => .pure _
  · exact .pure _

theorem createWithU_after (dbg : Bool) (a : Archetype) (h : s.Sized S) (hc : s.ents.capacity < u32Size) :
    (createEntityWithArchetypeU dbg a).Sat s (After S (s.createWithOps dbg a)) := by
  have hr := registerU_result dbg s
  have hS := registerNewEntityU_sized dbg h hc
  have hA := registerNewEntityU_archs dbg s.archs s rfl
  have hl : (s.createOps dbg).flatMap leak = [] := by unfold createOps; split <;> rfl
  unfold Unw.result at hr
  unfold Unw.Sat at hS hA
  unfold createEntityWithArchetypeU createWithOps
  refine .bind (fun e s1 h1 => ?_) fun e s1 h1 hE => ?_
  · rw [h1] at hr hS hA
    dsimp only at hr
    rw [← hr]
    dsimp only
    have hs1 := hS trivial
    have ha1 : s1.archs = s.archs := hA trivial
    have := After.keeps (After.place (t := none) hs1 (Archs.addEntityU_sized dbg e.id a hs1.archs)) (f := fun loc => do
      Unw.step fun s => s.recordRow e.id loc
      return e) fun loc S => .bind (recordRow_keeps e.id loc) fun _ => .pure _
    refine this.mono fun r s' hq => ?_
    rw [ha1] at hq
    unfold After at hq ⊢
    rw [List.foldl_append, List.flatMap_append, hl, List.nil_append]
    exact hq
  · rw [h1] at hr hS
    dsimp only at hr
    rw [← hr]
    exact ⟨hS (by cases e <;> exact hE), fun hl' => absurd hl hl'⟩

/-- The archetype that `ensureComponents` makes, if it makes one. -/
def ensureArchetype (U : Universe) (s : Store) (e : Entity) (ts : List TypeId) : Res (Option Archetype) := do
  let hasArchetype ← s.hasArch.isOn e.id
  if hasArchetype then
    let loc ← s.getLocUnchecked e.id
    let archIndex ← idx s.archs.pageToArch loc.page
    let arch ← idxUnchecked s.archs.archetypes archIndex
    if tupleIncluded ts arch then
      return none
    else
      let (newArch, _) ← ((ArchetypeBuilder.new.includeArchetype arch).includeComponents U ts).build
      return some newArch
  else
    let archetype ← Archetype.withComponents U ts
    return some archetype

theorem ensureComponentsU_after (U : Universe) (dbg : Bool) (e : Entity) (ts : List TypeId) (h : s.Sized S) :
    (ensureComponentsU U dbg e ts).Sat s (After S (s.placeOps dbg (s.ensureArchetype U e ts))) := by
  have none' : ∀ {α : Type} (r : Res α), After S [] r s := fun r => ⟨h, fun hl => absurd rfl hl⟩
  unfold ensureArchetype
  unfold ensureComponentsU
  refine .get ?_
  cases hh : s.hasArch.isOn e.id with
  | error f => exact .lift (fun _ h1 => by cases h1) fun _ _ _ => none' _
  | ok has =>
    refine .lift (fun b hb => ?_) fun _ he => by cases he
    cases hb
    cases has with
    | true =>
      simp only [res_ok_bind, if_true]
      cases hq : s.getLocUnchecked e.id with
      | error f => exact .lift (fun _ h1 => by cases h1) fun _ _ _ => none' _
      | ok q =>
        refine .lift (fun b hb => ?_) fun _ he => by cases he
        cases hb
        simp only [res_ok_bind]
        cases hj : idx s.archs.pageToArch q.page with
        | error f => exact .lift (fun _ h1 => by cases h1) fun _ _ _ => none' _
        | ok j =>
          refine .lift (fun b hb => ?_) fun _ he => by cases he
          cases hb
          simp only [res_ok_bind]
          cases hx : idxUnchecked s.archs.archetypes j with
          | error f => exact .lift (fun _ h1 => by cases h1) fun _ _ _ => none' _
          | ok arch =>
            refine .lift (fun b hb => ?_) fun _ he => by cases he
            cases hb
            simp only [res_ok_bind]
            split
            · exact .pure (none' _)
            · cases hb : ((ArchetypeBuilder.new.includeArchetype arch).includeComponents U ts).build with
              | error f => exact .lift (fun _ h1 => by cases h1) fun _ _ _ => none' _
              | ok p =>
                refine .lift (fun b hb => ?_) fun _ he => by cases he
                cases hb
                exact moveU_after dbg e p.1 _ hq hj h
    | false =>
      simp only [res_ok_bind, Bool.false_eq_true, if_false]
      cases hw : Archetype.withComponents U ts with
      | error f => exact .lift (fun _ h1 => by cases h1) fun _ _ _ => none' _
      | ok a =>
        refine .lift (fun b hb => ?_) fun _ he => by cases he
        cases hb
        exact After.keeps (After.place h (Archs.addEntityU_sized dbg e.id a h.archs)) fun loc S =>
          .bind (recordRow_keeps e.id loc) fun _ => .pure _

theorem assignStep_keeps (U : Universe) (vals : TupleVal) (loc : Loc) : Unw.Keeps (Sized S) (Unw.step fun s => do
      let view ← s.getPageViewUnchecked loc.page
      let offsets ← getOffsetsUnchecked view.archetype view.layout (vals.map (·.1))
      let refs := getRefs U loc.page loc.index (vals.map (·.1)) offsets
      let pages ← assignToRefs refs (vals.map (·.2)) s.archs.pages
      return { s with archs := { s.archs with pages := pages } }) := by
  refine .step fun s s' hs he => ?_
  obtain ⟨_, -, he⟩ := bind_eq_ok.1 he
  obtain ⟨_, -, he⟩ := bind_eq_ok.1 he
  obtain ⟨ps, hps, he⟩ := bind_eq_ok.1 he
  cases he
  have ha := hs.archs
  exact ⟨hs.cap, hs.tagCap, hs.orderCap, hs.tags, hs.tagIds, hs.groups, hs.groupIds,
    ⟨ha.layouts, ha.lists, ha.free, ha.counts, by rw [assignToRefs_length _ hps]; exact ha.pages⟩, hs.layouts⟩

theorem addComponentsU_after (U : Universe) (dbg : Bool) (e : Entity) (vals : TupleVal) (h : s.Sized S) :
    (addComponentsU U dbg e vals).Sat s (After S (s.placeOps dbg (s.addArchetype U dbg e (vals.map (·.1))))) := by
  have none' : ∀ {α : Type} (r : Res α), After S [] r s := fun r => ⟨h, fun hl => absurd rfl hl⟩
  unfold addComponentsU
  refine .get ?_
  cases ha : s.isAlive dbg e with
  | error f =>
    refine .lift (fun _ h1 => by cases h1) fun _ _ _ => ?_
    unfold addArchetype
    rw [ha]
    exact none' _
  | ok alive =>
    refine .lift (fun b hb => ?_) fun _ he => by cases he
    cases hb
    have hr : s.addArchetype U dbg e (vals.map (·.1)) = if !alive then .ok none else s.ensureArchetype U e (vals.map (·.1)) := by
      unfold addArchetype
      rw [ha]
      rfl
    rw [hr]
    cases alive with
    | false => exact .pure (none' _)
    | true =>
      rw [show (if (!true) = true then Except.ok none else ensureArchetype U s e (vals.map (·.1))) =
        ensureArchetype U s e (vals.map (·.1)) from if_neg (by decide), if_pos rfl]
      refine After.keeps ?_ ?_
      · exact ensureComponentsU_after U dbg e _ h
      · exact fun loc S => assignStep_keeps U vals loc

theorem removeComponentsU_after (U : Universe) (dbg : Bool) (e : Entity) (ts : List TypeId) (h : s.Sized S) :
    (removeComponentsU U dbg e ts).Sat s (After S (s.placeOps dbg (s.removeArchetype U dbg e ts))) := by
  have none' : ∀ {α : Type} (r : Res α), After S [] r s := fun r => ⟨h, fun hl => absurd rfl hl⟩
  unfold removeComponentsU removeArchetype
  refine .get ?_
  cases ha : s.isValidEntityWithArchetype dbg e with
  | error f => exact .lift (fun _ h1 => by cases h1) fun _ _ _ => none' _
  | ok alive =>
    refine .lift (fun b hb => ?_) fun _ he => by cases he
    cases hb
    cases alive with
    | false => exact .pure (none' _)
    | true =>
      simp only [res_ok_bind, if_true, Bool.not_true, Bool.false_eq_true, if_false]
      cases hq : s.getLocUnchecked e.id with
      | error f => exact .lift (fun _ h1 => by cases h1) fun _ _ _ => none' _
      | ok q =>
        refine .lift (fun b hb => ?_) fun _ he => by cases he
        cases hb
        simp only [res_ok_bind]
        cases hj : idx s.archs.pageToArch q.page with
        | error f => exact .lift (fun _ h1 => by cases h1) fun _ _ _ => none' _
        | ok j =>
          refine .lift (fun b hb => ?_) fun _ he => by cases he
          cases hb
          simp only [res_ok_bind]
          cases hx : idxUnchecked s.archs.archetypes j with
          | error f => exact .lift (fun _ h1 => by cases h1) fun _ _ _ => none' _
          | ok arch =>
            refine .lift (fun b hb => ?_) fun _ he => by cases he
            cases hb
            simp only [res_ok_bind]
            cases hb : ((ArchetypeBuilder.new.includeArchetype arch).excludeComponents U ts).build with
            | error f => exact .lift (fun _ h1 => by cases h1) fun _ _ _ => none' _
            | ok p =>
              refine .lift (fun b hb => ?_) fun _ he => by cases he
              cases hb
              exact After.keeps (m := moveEntityToOtherArchetypeU dbg e p.1) (moveU_after dbg e p.1 (some p.1.componentCount) hq hj h) fun _ _ => .pure ()

theorem addTagU_after (t : Nat) (e : Entity) (h : s.Sized S) : (addTagU t e).Sat s (After S (s.tagOps t)) := by
  unfold addTagU tagOps
  have setOn : ∀ (w : Words) i, Calm (w.setOn i) := fun w i => by
    unfold Words.setOn; split
    · exact .ok _
    · exact .ub _
  refine .step_last (fun s1 h1 => ?_) fun e he hE => absurd hE (calm_ended (.bind ?_ fun _ _ => .pure _) he)
  · unfold addTag Tags.addTag Tags.reserveTag at h1
    obtain ⟨ts, ht, h1⟩ := bind_eq_ok.1 h1
    cases h1
    cases hb : binarySearch s.tags.tagIds t with
    | found i =>
      rw [hb] at ht
      obtain ⟨_, -, ht⟩ := bind_eq_ok.1 ht
      obtain ⟨_, -, ht⟩ := bind_eq_ok.1 ht
      cases ht
      exact ⟨⟨h.cap, h.tagCap, h.orderCap, by simpa using h.tags, h.tagIds, h.groups, h.groupIds, h.archs, h.layouts⟩,
        fun hl => absurd rfl hl⟩
    | notFound i =>
      rw [hb] at ht
      obtain ⟨_, -, ht⟩ := bind_eq_ok.1 ht
      obtain ⟨_, -, ht⟩ := bind_eq_ok.1 ht
      cases ht
      have hi := binarySearch_notFound_le hb
      have h1 := h.tags
      have h2 := h.tagIds
      refine ⟨⟨h.cap, h.tagCap, h.orderCap, ?_, ?_, h.groups, h.groupIds, h.archs, h.layouts⟩, fun hl => absurd rfl hl⟩
      · show (List.set _ _ _).length = S.tags + 1
        rw [List.length_set, List.length_insertIdx, if_pos (by omega), h1]
      · show (List.insertIdx _ _ _).length = S.tags + 1
        rw [List.length_insertIdx, if_pos (by omega), h2]
  · exact .bind (.idxUnchecked _ _) fun _ _ => .bind (setOn _ _) fun _ _ => .pure _

theorem onGroupU_after (g : Nat) (f : Group → Res Group) (h : s.Sized S) : (onGroupU g f).Sat s (After S (s.groupOps g)) := by
  unfold onGroupU groupOps Orders.reserveGroup
  have last : ∀ i S, Unw.Keeps (Sized S) (Unw.step fun s => do
      let orders ← s.orders.onGroup i f
      return { s with orders := orders }) := fun i S => .step fun s s' hs he => by
    obtain ⟨o, ho, he⟩ := bind_eq_ok.1 he
    obtain ⟨_, -, ho⟩ := bind_eq_ok.1 ho
    obtain ⟨_, -, ho⟩ := bind_eq_ok.1 ho
    cases ho
    cases he
    exact ⟨hs.cap, hs.tagCap, hs.orderCap, hs.tags, hs.tagIds, by simpa using hs.groups, hs.groupIds, hs.archs, hs.layouts⟩
  refine .step' (fun s1 i h1 => ?_) fun e he => ?_
  · cases hb : binarySearch s.orders.groupIds g with
    | found j =>
      rw [hb] at h1
      cases h1
      exact After.of_keeps h (last _ S)
    | notFound j =>
      rw [hb] at h1
      cases h1
      have hi := binarySearch_notFound_le hb
      have h1 := h.groups
      have h2 := h.groupIds
      refine (last _ { S with groups := S.groups + 1 } _ ?_).mono fun _ _ h3 => ⟨h3, fun hl => absurd rfl hl⟩
      refine ⟨h.cap, h.tagCap, h.orderCap, h.tags, h.tagIds, ?_, ?_, h.archs, h.layouts⟩
      · show (List.insertIdx _ _ _).length = S.groups + 1
        rw [List.length_insertIdx, if_pos (by omega), h1]
      · show (List.insertIdx _ _ _).length = S.groups + 1
        rw [List.length_insertIdx, if_pos (by omega), h2]
  · cases hb : binarySearch s.orders.groupIds g <;> rw [hb] at he <;> cases he

theorem destroyEntityU_keeps (dbg : Bool) (e : Entity) : Unw.Keeps (Sized S) (destroyEntityU dbg e) := by
  have hd : ∀ n, Unw.Keeps (fun c : Ents => c.capacity = n) (Ents.destroyU dbg e) := by
    intro n
    have tail : Unw.Keeps (fun c : Ents => c.capacity = n) (do
        Unw.step fun c => do
          let bits ← c.aliveBits.toggle e.id
          return { c with aliveBits := bits }
        let lastId ← Unw.lift (subU32 dbg (← Unw.get).nextFreeId 1)
        Unw.step fun c =>
          if e.id = lastId then return { c with nextFreeId := e.id }
          else return { c with gapIds := c.gapIds ++ [e.id] } : Unw Ents Unit) := by
      refine .bind (.step fun s s' hs he => ?_) fun _ => .bind .get fun c => .bind (.lift _) fun l => .step fun s s' hs he => ?_
      · obtain ⟨_, -, he⟩ := bind_eq_ok.1 he
        cases he
        exact hs
      · split at he <;> cases he <;> exact hs
    unfold Ents.destroyU
    refine .bind .get fun c => .bind (.lift _) fun _ => ?_
    split
    · exact .bind (.lift _) fun _ => .bind (.lift _) fun _ => tail
    · exact tail
  have rest : Unw.Keeps (Sized S) (do
      onEnts (Ents.destroyU dbg e)
      Unw.step fun s => do
        let tags ← s.tags.removeAllTagsForEntity e.id
        return { s with tags := tags }
      Unw.step fun s => do
        let orders ← s.orders.removeAll e.id
        return { s with orders := orders } : Unw Store Unit) := by
    refine .bind (.on (hd S.capacity) (fun _ h => h.cap) fun _ _ h ht =>
      ⟨ht, h.tagCap, h.orderCap, h.tags, h.tagIds, h.groups, h.groupIds, h.archs, h.layouts⟩) fun _ =>
      .bind (.step fun s s' hs he => ?_) fun _ => .step fun s s' hs he => ?_
    · obtain ⟨t, ht, he⟩ := bind_eq_ok.1 he
      obtain ⟨_, hm, ht⟩ := bind_eq_ok.1 ht
      cases ht
      cases he
      exact ⟨hs.cap, hs.tagCap, hs.orderCap, (mapM_eq_ok_length hm).trans hs.tags, hs.tagIds, hs.groups, hs.groupIds, hs.archs, hs.layouts⟩
    · obtain ⟨t, ht, he⟩ := bind_eq_ok.1 he
      obtain ⟨_, hm, ht⟩ := bind_eq_ok.1 ht
      cases ht
      cases he
      exact ⟨hs.cap, hs.tagCap, hs.orderCap, hs.tags, hs.tagIds, (mapM_eq_ok_length hm).trans hs.groups, hs.groupIds, hs.archs, hs.layouts⟩
  unfold destroyEntityU
  refine .bind .get fun s => .bind (.lift _) fun b => ?_
  split
  · exact .bind (.lift _) fun q => .bind (swapRemoveInternalU_keeps q) fun _ => rest
  · exact rest

theorem call_after (U : Universe) (dbg : Bool) (c : Call) (h : s.Sized S) (hc : s.ents.capacity < u32Size) :
    (c.exec U dbg).Sat s (After S (heapOps U dbg s c)) := by
  cases c with
  | create => exact After.keeps (createEntityU_after dbg h hc) fun _ _ => .pure _
  | createWith a => exact After.keeps (createWithU_after dbg a h hc) fun _ _ => .pure _
  | destroy e => exact After.of_keeps h (destroyEntityU_keeps dbg e)
  | add e vals => exact addComponentsU_after U dbg e vals h
  | remove e ts => exact removeComponentsU_after U dbg e ts h
  | assign e vals =>
    refine After.of_keeps h (.bind (.step' fun s s' b hs he => ?_) fun _ => .pure _)
    unfold setComponents at he
    obtain ⟨o, -, he⟩ := bind_eq_ok.1 he
    cases o with
    | none => cases he; exact hs
    | some refs =>
      obtain ⟨ps, hps, he⟩ := bind_eq_ok.1 he
      cases he
      have ha := hs.archs
      exact ⟨hs.cap, hs.tagCap, hs.orderCap, hs.tags, hs.tagIds, hs.groups, hs.groupIds,
        ⟨ha.layouts, ha.lists, ha.free, ha.counts, by rw [assignToRefs_length _ hps]; exact ha.pages⟩, hs.layouts⟩
  | tag t e => exact addTagU_after t e h
  | untag t e =>
    refine After.of_keeps h (.step fun s s' hs he => ?_)
    unfold removeTag Tags.removeTag at he
    obtain ⟨ts, ht, he⟩ := bind_eq_ok.1 he
    cases he
    split at ht
    · obtain ⟨_, -, ht⟩ := bind_eq_ok.1 ht
      obtain ⟨_, -, ht⟩ := bind_eq_ok.1 ht
      cases ht
      exact ⟨hs.cap, hs.tagCap, hs.orderCap, by simpa using hs.tags, hs.tagIds, hs.groups, hs.groupIds, hs.archs, hs.layouts⟩
    · cases ht
      exact hs
  | orderLast g e => exact onGroupU_after g _ h
  | orderAfter g e x => exact onGroupU_after g _ h
  | orderBefore g e x => exact onGroupU_after g _ h
  | unorder g e =>
    refine After.of_keeps h (.step fun s s' hs he => ?_)
    unfold removeOrder Orders.remove at he
    obtain ⟨ts, ht, he⟩ := bind_eq_ok.1 he
    cases he
    split at ht
    · cases ht
      exact hs
    · obtain ⟨_, -, ht⟩ := bind_eq_ok.1 ht
      obtain ⟨_, -, ht⟩ := bind_eq_ok.1 ht
      cases ht
      exact ⟨hs.cap, hs.tagCap, hs.orderCap, hs.tags, hs.tagIds, by simpa using hs.groups, hs.groupIds, hs.archs, hs.layouts⟩

/-! ### The operations are fair -/

theorem new_pos {l : List ComponentType} {a : Archetype} (h : Archetype.new l = .ok a) : 0 < a.componentCount := by
  unfold Archetype.new rassert at h
  obtain ⟨_, h1, h⟩ := bind_eq_ok.1 h
  split at h1
  · rename_i hl
    cases h
    simpa [Archetype.componentCount] using hl
  · cases h1

theorem heapPlace_fair (dbg : Bool) (c : Archs) {t : Option Nat} {a : Archetype} (ha : 0 < a.componentCount)
    (ht : ∀ n, t = some n → 0 < n) : OpFair (c.heapPlace dbg t a) := by
  refine ⟨ht, fun count slot fits he => ?_⟩
  unfold Archs.heapReserve at he
  split at he
  · cases he
  · split at he
    · cases he
    · cases he
      exact ha

theorem placeOps_fair (dbg : Bool) (s : Store) {r : Res (Option Archetype)} (h : ∀ a, r = .ok (some a) → 0 < a.componentCount) :
    ∀ op ∈ s.placeOps dbg r, OpFair op := by
  intro op hop
  unfold placeOps at hop
  split at hop
  · rename_i a
    rw [List.mem_singleton.1 hop]
    exact heapPlace_fair dbg _ (h a rfl) fun n hn => by cases hn; exact h a rfl
  · cases hop

theorem heapOps_fair (U : Universe) (dbg : Bool) (s : Store) (c : Call) (hc : c.Sensible) : ∀ op ∈ heapOps U dbg s c, OpFair op := by
  have hcr : ∀ op ∈ s.createOps dbg, OpFair op := by
    intro op hop
    unfold createOps at hop
    split at hop
    · rw [List.mem_singleton.1 hop]; trivial
    · cases hop
  have hgr : ∀ g, ∀ op ∈ s.groupOps g, OpFair op := by
    intro g op hop
    unfold groupOps at hop
    split at hop
    · cases hop
    · rw [List.mem_singleton.1 hop]; trivial
  cases c with
  | create => exact hcr
  | createWith a =>
    intro op hop
    simp only [heapOps, createWithOps] at hop
    split at hop
    · rcases List.mem_append.1 hop with hop | hop
      · exact hcr op hop
      · rw [List.mem_singleton.1 hop]
        exact heapPlace_fair dbg _ (List.length_pos_of_ne_nil hc) fun _ h => by cases h
    · exact hcr op hop
  | add e vals =>
    refine placeOps_fair dbg s fun a ha => ?_
    unfold addArchetype at ha
    obtain ⟨al, -, ha⟩ := bind_eq_ok.1 ha
    split at ha
    · cases ha
    · obtain ⟨has, -, ha⟩ := bind_eq_ok.1 ha
      split at ha
      · obtain ⟨_, -, ha⟩ := bind_eq_ok.1 ha
        obtain ⟨_, -, ha⟩ := bind_eq_ok.1 ha
        obtain ⟨_, -, ha⟩ := bind_eq_ok.1 ha
        split at ha
        · cases ha
        · obtain ⟨⟨_, _⟩, hb, ha⟩ := bind_eq_ok.1 ha
          cases ha
          obtain ⟨_, hn, hb⟩ := bind_eq_ok.1 hb
          cases hb
          exact new_pos hn
      · obtain ⟨_, hn, ha⟩ := bind_eq_ok.1 ha
        cases ha
        exact new_pos hn
  | remove e ts =>
    refine placeOps_fair dbg s fun a ha => ?_
    unfold removeArchetype at ha
    obtain ⟨al, -, ha⟩ := bind_eq_ok.1 ha
    split at ha
    · cases ha
    · obtain ⟨_, -, ha⟩ := bind_eq_ok.1 ha
      obtain ⟨_, -, ha⟩ := bind_eq_ok.1 ha
      obtain ⟨_, -, ha⟩ := bind_eq_ok.1 ha
      obtain ⟨⟨_, _⟩, hb, ha⟩ := bind_eq_ok.1 ha
      cases ha
      obtain ⟨_, hn, hb⟩ := bind_eq_ok.1 hb
      cases hb
      exact new_pos hn
  | tag t e =>
    intro op hop
    simp only [heapOps, tagOps] at hop
    split at hop
    · cases hop
    · rw [List.mem_singleton.1 hop]; trivial
  | orderLast g e => exact hgr g
  | orderAfter g e x => exact hgr g
  | orderBefore g e x => exact hgr g
  | destroy e => exact fun _ h => by cases h
  | assign e vals => exact fun _ h => by cases h
  | untag t e => exact fun _ h => by cases h
  | unorder g e => exact fun _ h => by cases h

/-- Executions: the shape of the store is what the operations make of the shape of the memory. -/
theorem heapExec_sized {U : Universe} {dbg : Bool} {cap : Nat} {quiet : Bool} {ops : List HeapOp} {s : Store}
    (h : HeapExec U dbg cap quiet ops s) :
    s.Sized (ops.foldl Shape.caught ⟨cap, 0, 0, [], [], 5⟩) ∧ s.ents.capacity < u32Size ∧ (∀ op ∈ ops, OpFair op) ∧
      (quiet = true → ops.flatMap leak = []) := by
  induction h with
  | @init s hw hc =>
    refine ⟨?_, hc, fun _ h => (by cases h), fun _ => rfl⟩
    unfold withCapacity at hw
    obtain ⟨_, -, hw⟩ := bind_eq_ok.1 hw
    cases hw
    exact ⟨rfl, rfl, rfl, rfl, rfl, rfl, rfl, ⟨rfl, rfl, (fun _ h => by cases h), rfl, rfl⟩, rfl⟩
  | @call ops s r s' c _ hs hr hE hq hc ih =>
    obtain ⟨h1, h2, h3, h4⟩ := ih
    have := call_after U dbg c h1 h2
    unfold Unw.Sat at this
    change c.exec U dbg s = _ at hr
    rw [hr] at this
    refine ⟨?_, hc, fun op hop => ?_, fun hq' => ?_⟩
    · rw [List.foldl_append]
      exact (this hE).1
    · rcases List.mem_append.1 hop with hop | hop
      · exact h3 op hop
      · exact heapOps_fair U dbg s c hs op hop
    · rw [List.flatMap_append, h4 hq', List.nil_append]
      by_contra hl
      obtain ⟨p, hp⟩ := (this hE).2 hl
      have : r = .error (.panic p) := hp
      rw [hq hq'] at this
      cases this

/-! ### The sizes of the blocks -/

theorem bagOf_sizes {α : Type} (f : α → Multiset Block) (F : α → List Nat) (hf : ∀ x, (f x).map Prod.snd = ↑(F x)) (l : List α) :
    (bagOf f l).map Prod.snd = ↑(l.flatMap F) := by
  induction l with
  | nil => rfl
  | cons x l ih =>
    rw [show bagOf f (x :: l) = f x + bagOf f l from List.sum_cons, Multiset.map_add, ih, hf, Multiset.coe_add]
    rfl

theorem flatMap_const {α β : Type} {l : List α} {l' : List β} (h : l.length = l'.length) (xs : List Nat) :
    l.flatMap (fun _ => xs) = l'.flatMap (fun _ => xs) := by
  induction l generalizing l' with
  | nil => cases l' with
    | nil => rfl
    | cons => cases h
  | cons x l ih => cases l' with
    | nil => cases h
    | cons y l' =>
      rw [List.flatMap_cons, List.flatMap_cons, ih (Nat.succ.inj h)]

theorem flatMap_merge (K : List Nat) (F G : Nat → List Nat) :
    ((K.flatMap F : List Nat) : Multiset Nat) + ↑(K.flatMap G) = ↑(K.flatMap fun n => F n ++ G n) := by
  induction K with
  | nil => rfl
  | cons n K ih =>
    simp only [List.flatMap_cons, ← Multiset.coe_add] at ih ⊢
    rw [← ih]
    abel

/-- The blocks of the memory of a store of the right shape. -/
theorem owned {s : Store} {p : StorePtrs} (h : s.Sized p.shape) (hg : p.Good) :
    p.bag.map Prod.snd = ↑(ownedBlocks s) := by
  have hc : s.entitiesCapacity = p.ents.capacity := h.cap
  have ht : s.tags.bitvecs.length = p.tags.bitvecs.length := h.tags
  have ho : s.orders.groups.length = p.orders.links.length := h.groups
  have hp : s.archs.pages.length = p.archs.pages.length := h.archs.pages
  have ha : s.archs.archetypes.map (·.componentCount) = p.archs.archetypes.map (·.count) := h.archs.counts
  have hl : p.archs.layouts.map (·.count) = p.archs.archetypes.map (·.count) := h.layouts
  have e1 : p.tags.bag.map Prod.snd = ↑(s.tags.bitvecs.map fun _ => 4 * bitWords s.entitiesCapacity) := by
    unfold TagsPtrs.bag
    rw [bagOf_sizes _ (fun _ => [4 * bitWords s.entitiesCapacity]) (fun _ => by rw [hg.tags, hc]; rfl), flatMap_const ht.symm]
    rw [List.map_eq_flatMap]
  have e2 : p.orders.bag.map Prod.snd = ↑(s.orders.groups.flatMap fun _ => [4 * s.entitiesCapacity, 4 * s.entitiesCapacity]) := by
    unfold OrdersPtrs.bag
    rw [bagOf_sizes _ (fun _ => [4 * s.entitiesCapacity, 4 * s.entitiesCapacity]) (fun _ => by rw [hg.orders, hc]; rfl),
      flatMap_const ho.symm]
  have e3 : (bagOf pageBag p.archs.pages).map Prod.snd = ↑(s.archs.pages.map fun _ => 16384) := by
    rw [bagOf_sizes _ (fun _ => [16384]) (fun _ => rfl), flatMap_const hp.symm]
    rw [List.map_eq_flatMap]
  have e4 : (bagOf ArchPtrs.bag p.archs.archetypes + bagOf LayoutPtr.bag p.archs.layouts).map Prod.snd =
      ↑(s.archs.archetypes.flatMap fun a => archetypeBlocks a.ids.length) := by
    rw [Multiset.map_add, bagOf_sizes _ (fun a => [typeIdSize * a.count, 8 * a.count, 8 * a.count, strSize * a.count]) (fun _ => rfl),
      bagOf_sizes _ (fun l => [8 * l.count]) (fun _ => rfl)]
    have f1 := List.flatMap_map (·.count) (fun n => [typeIdSize * n, 8 * n, 8 * n, strSize * n]) p.archs.archetypes
    have f2 := List.flatMap_map (·.count) (fun n => [8 * n]) p.archs.layouts
    have f3 := List.flatMap_map (·.componentCount) archetypeBlocks s.archs.archetypes
    rw [← f1, ← f2, hl, flatMap_merge]
    unfold Archetype.componentCount at f3 ha
    rw [← f3, ha]
    rfl
  unfold StorePtrs.bag ArchsPtrs.bag EntsPtrs.bag ownedBlocks
  simp only [Multiset.map_add, Multiset.map_singleton, ← Multiset.coe_add] at e1 e2 e3 e4 ⊢
  rw [e1, e2, e3, e4, hc]
  have : ∀ a b : Nat, (↑[a, a, a, b, b] : Multiset Nat) = {a} + {a} + {a} + {b} + {b} := fun a b => rfl
  rw [this]
  unfold bitWords Words.getLen
  abel

/-- How many blocks there are. -/
theorem Sized.blocks {S : StorePtrs.Shape} {s : Store} (h : s.Sized S) :
    (ownedBlocks s).length = 5 + S.tags + 2 * S.groups + 5 * S.archetypes.length + S.pages := by
  have h5 : ∀ l : List Archetype, (l.flatMap fun a => archetypeBlocks a.ids.length).length = 5 * l.length := by
    intro l
    induction l with
    | nil => rfl
    | cons a l ih =>
      rw [List.flatMap_cons, List.length_append, ih, List.length_cons]
      show 5 + _ = _
      omega
  have h2 : ∀ (l : List Group) (n : Nat), (l.flatMap fun _ => [n, n]).length = 2 * l.length := by
    intro l n
    induction l with
    | nil => rfl
    | cons a l ih =>
      rw [List.flatMap_cons, List.length_append, ih, List.length_cons (as := l)]
      show 2 + _ = _
      omega
  unfold ownedBlocks
  simp only [List.length_append, List.length_map, h5, h2, h.tags, h.groups, h.archs.length, h.archs.pages, List.length_cons,
    List.length_nil]

theorem caught_mono (S : StorePtrs.Shape) (op : HeapOp) :
    S.capacity ≤ (S.caught op).capacity ∧ S.tags ≤ (S.caught op).tags ∧ S.groups ≤ (S.caught op).groups ∧
      S.archetypes.length ≤ (S.caught op).archetypes.length ∧ S.pages ≤ (S.caught op).pages := by
  unfold Shape.caught
  split
  · cases op with
    | create grows =>
      refine ⟨?_, Nat.le_refl _, Nat.le_refl _, Nat.le_refl _, Nat.le_refl _⟩
      show S.capacity ≤ if grows then _ else _
      split <;> omega
    | place t a page =>
      have hp : S.pages ≤ if page then S.pages + 1 else S.pages := by split <;> omega
      rcases a with _ | ⟨count, slot, fits⟩
      · exact ⟨Nat.le_refl _, Nat.le_refl _, Nat.le_refl _, Nat.le_refl _, hp⟩
      · refine ⟨Nat.le_refl _, Nat.le_refl _, Nat.le_refl _, ?_, hp⟩
        show _ ≤ (ArchsPtrs.putCount S.archetypes slot count).length
        unfold ArchsPtrs.putCount
        split <;> simp
    | tag i => exact ⟨Nat.le_refl _, Nat.le_succ _, Nat.le_refl _, Nat.le_refl _, Nat.le_refl _⟩
    | group i => exact ⟨Nat.le_refl _, Nat.le_refl _, Nat.le_succ _, Nat.le_refl _, Nat.le_refl _⟩
  · exact ⟨Nat.le_refl _, Nat.le_refl _, Nat.le_refl _, Nat.le_refl _, Nat.le_refl _⟩

theorem caughts_mono (ops : List HeapOp) (S : StorePtrs.Shape) :
    S.capacity ≤ (ops.foldl Shape.caught S).capacity ∧ S.tags ≤ (ops.foldl Shape.caught S).tags ∧
      S.groups ≤ (ops.foldl Shape.caught S).groups ∧ S.archetypes.length ≤ (ops.foldl Shape.caught S).archetypes.length ∧
      S.pages ≤ (ops.foldl Shape.caught S).pages := by
  induction ops generalizing S with
  | nil => exact ⟨Nat.le_refl _, Nat.le_refl _, Nat.le_refl _, Nat.le_refl _, Nat.le_refl _⟩
  | cons op ops ih =>
    obtain ⟨a1, a2, a3, a4, a5⟩ := caught_mono S op
    obtain ⟨b1, b2, b3, b4, b5⟩ := ih (S.caught op)
    exact ⟨a1.trans b1, a2.trans b2, a3.trans b3, a4.trans b4, a5.trans b5⟩

/-- A call never gives blocks back, and needs no memory if it performs no operations. -/
theorem call_blocks {U : Universe} {dbg : Bool} {cap : Nat} {quiet : Bool} {ops : List HeapOp} {s s' : Store} {c : Call} {r : Res Unit}
    (h : HeapExec U dbg cap quiet ops s) (hr : (c.exec U dbg).run s = (r, s')) (hE : Ended r) :
    s.entitiesCapacity ≤ s'.entitiesCapacity ∧ (ownedBlocks s).length ≤ (ownedBlocks s').length ∧
      (heapOps U dbg s c = [] → ownedBlocks s' = ownedBlocks s) := by
  obtain ⟨h1, h2, -, -⟩ := heapExec_sized h
  have := call_after U dbg c h1 h2
  unfold Unw.Sat at this
  change c.exec U dbg s = _ at hr
  rw [hr] at this
  have h3 := (this hE).1
  obtain ⟨m1, m2, m3, m4, m5⟩ := caughts_mono (heapOps U dbg s c) (ops.foldl Shape.caught ⟨cap, 0, 0, [], [], 5⟩)
  refine ⟨?_, ?_, fun he => ?_⟩
  · unfold entitiesCapacity
    rw [h3.cap, h1.cap]
    exact m1
  · rw [h3.blocks, h1.blocks]
    omega
  · rw [he] at h3
    have hc : s'.entitiesCapacity = s.entitiesCapacity := h3.cap.trans h1.cap.symm
    have ha : s'.archs.archetypes.map (·.componentCount) = s.archs.archetypes.map (·.componentCount) :=
      h3.archs.counts.trans h1.archs.counts.symm
    unfold Archetype.componentCount at ha
    unfold ownedBlocks
    have f1 := List.flatMap_map (fun a : Archetype => a.ids.length) archetypeBlocks s.archs.archetypes
    have f2 := List.flatMap_map (fun a : Archetype => a.ids.length) archetypeBlocks s'.archs.archetypes
    rw [hc, ← f1, ← f2, ha, flatMap_const (h3.groups.trans h1.groups.symm)]
    have ht : s'.tags.bitvecs.length = s.tags.bitvecs.length := h3.tags.trans h1.tags.symm
    have hp : s'.archs.pages.length = s.archs.pages.length := h3.archs.pages.trans h1.archs.pages.symm
    simp only [List.map_const', ht, hp]

end Store
end Ecs
