import Verif.Proofs.OpaqueStore
import Verif.Props.Hint

/-! C80: the store carries component bytes around and never looks at them. -/

namespace Ecs.Props
open Spec

variable {U : Universe} {dbg : Bool} {cap : Nat} {h h' : List Event} {s s' : Store} {Q : Cell → Cell → Prop}

/-- **C80** Take any calls with any arguments, valid or not, that all returned. Change the component values that the program
stores, byte by byte, in a way described by `Q` (uninitialised memory being related to itself). Then the other program runs,
too, and its creations return the same handles. In the end what it reads from components is related by `Q`, and everything else
it can see, including the results of all queries and the failures of all reading calls, is the same. -/
theorem C80_recoded (hn : Q none none) (hx : Runs U dbg cap h s) (hr : List.Forall₂ (Recoded Q) h h') :
    ∃ h'' s', List.Forall₂ SameCall h' h'' ∧ handles h'' = handles h ∧ Runs U dbg cap h'' s' ∧ SeesRecoded U dbg Q s s' := by
  obtain ⟨h'', s', h1, h2, h3, h4⟩ := StoreLike.runs hn hx hr
  exact ⟨h'', s', h1, h2, h3, h4.sees⟩

/-- **C80** Two programs that differ only in the bytes of component values, and whose calls all returned: they got the same handles,
see values related by `Q`, and otherwise the same. -/
theorem C80_opaque (hn : Q none none) (hx : Runs U dbg cap h s) (hy : Runs U dbg cap h' s') (hr : List.Forall₂ (Recoded Q) h h') :
    handles h = handles h' ∧ SeesRecoded U dbg Q s s' :=
  ⟨(StoreLike.runs_both hn hx hy hr).1, (StoreLike.runs_both hn hx hy hr).2.sees⟩

/-- **C80** In two such programs the next call ends in the same way: it returns in both, or fails in both with the same failure. -/
theorem C80_same_outcome (hn : Q none none) (hx : Runs U dbg cap h s) (hy : Runs U dbg cap h' s')
    (hr : List.Forall₂ (Recoded Q) h h') {c c' : Call} (hc : RecodedCall Q c c') : outcome U dbg s c = outcome U dbg s' c' :=
  (StoreLike.runs_both hn hx hy hr).2.outcome hn hc

/-- **C80** Likewise for loops that assign, through the references of a query, values computed from the values read, if the two
computations respect `Q`. -/
theorem C80_loops (hn : Q none none) (hx : Runs U dbg cap h s) (hy : Runs U dbg cap h' s') (hr : List.Forall₂ (Recoded Q) h h')
    (acc : Access) (fuel : Nat) {f f' : Entity → List (List Cell) → List (List UInt8)} (hf : ∀ e, Respects Q (f e) (f' e)) :
    (∀ old, Both (SeesRecoded U dbg Q) (updateComponents U dbg s acc old f fuel) (updateComponents U dbg s' acc old f' fuel)) ∧
    (∀ es old, Both (SeesRecoded U dbg Q) (updateEntities U dbg s es acc old f fuel)
      (updateEntities U dbg s' es acc old f' fuel)) ∧
    (∀ e g old, Both (SeesRecoded U dbg Q) (updateOrdered U dbg s g acc old (f e) fuel)
      (updateOrdered U dbg s' g acc old (f' e) fuel)) := by
  have h := (StoreLike.runs_both hn hx hy hr).2
  refine ⟨fun old => ?_, fun es old => ?_, fun e g old => ?_⟩
  · unfold updateComponents
    rw [h.compIter]
    refine .same fun it => (h.updateLoop (fun s s' h => ?_) (fun a : Entity × List Ref => hf a.1) fuel it).mono fun _ _ h => h.sees
    obtain ⟨c, rfl, _⟩ := h
    rfl
  · unfold updateEntities
    rw [h.entIter]
    refine .same fun it => (h.updateLoop (fun s s' h => ?_) (fun a : Entity × List Ref => hf a.1) fuel it).mono fun _ _ h => h.sees
    obtain ⟨c, rfl, _⟩ := h
    rfl
  · unfold updateOrdered
    rw [h.ordIter]
    exact .same fun it => (h.updateLoop (fun s s' h => rfl) (fun _ => hf e) fuel it).mono fun _ _ h => h.sees

/-- The same call with each byte `b` of a component value replaced by `f b`. -/
def recode (f : UInt8 → UInt8) : Event → Event
  | .added e v => .added e (v.map fun p => (p.1, p.2.map f))
  | .assigned e v => .assigned e (v.map fun p => (p.1, p.2.map f))
  | ev => ev

theorem recoded_recode (f : UInt8 → UInt8) (ev : Event) : Recoded (fun c c' => c' = c.map f) ev (recode f ev) := by
  have key : ∀ v : TupleVal, SameTuple (fun c c' => c' = c.map f) v (v.map fun p => (p.1, p.2.map f)) := by
    intro v
    unfold SameTuple
    rw [List.forall₂_map_right_iff, List.forall₂_same]
    refine fun p _ => ⟨rfl, ?_⟩
    rw [List.forall₂_map_right_iff, List.forall₂_same]
    exact fun b _ => rfl
  cases ev <;> first | exact ⟨rfl, key _⟩ | trivial

/-- **C80** Recoding all values before they are stored is the same as recoding them after they are read: for any function `f` on
bytes, if a program reads `vs` then the program that stores `f b` in place of `b` reads `vs` with `f` applied to each byte. -/
theorem C80_recoding_commutes (f : UInt8 → UInt8) (hx : Runs U dbg cap h s) (hy : Runs U dbg cap (h.map (recode f)) s')
    (e : Entity) (ts : List TypeId) : s'.getComponents U dbg e ts =
      (s.getComponents U dbg e ts).map (Option.map (List.map (List.map (Option.map f)))) := by
  have hr : List.Forall₂ (Recoded fun c c' => c' = c.map f) h (h.map (recode f)) := by
    rw [List.forall₂_map_right_iff, List.forall₂_same]
    exact fun ev _ => recoded_recode f ev
  have hv := ((StoreLike.runs_both (Q := fun c c' => c' = c.map f) rfl hx hy hr).2.sees (U := U) (dbg := dbg)).values e ts
  have flat : ∀ l l' : List Cell, List.Forall₂ (fun c c' => c' = c.map f) l l' → l' = l.map (Option.map f) := by
    intro l l' hl
    induction hl with
    | nil => rfl
    | cons ha _ ih => rw [ha, ih, List.map_cons]
  have flat2 : ∀ l l' : List (List Cell), List.Forall₂ (List.Forall₂ fun c c' => c' = c.map f) l l' →
      l' = l.map (List.map (Option.map f)) := by
    intro l l' hl
    induction hl with
    | nil => rfl
    | cons ha _ ih => rw [flat _ _ ha, ih, List.map_cons]
  cases hg : s.getComponents U dbg e ts with
  | error x =>
    rw [(hv.error x).1 hg]
    rfl
  | ok o =>
    obtain ⟨o', h1, h2⟩ := hv.ok hg
    rw [h1]
    cases h2 with
    | none => rfl
    | some h2 => rw [flat2 _ _ h2]; rfl

/-- The hypotheses of the theorems above: `hinted` with the bits of all values inverted. -/
example : ∃ s s', Runs demo true 1 hinted s ∧ Runs demo true 1 (hinted.map (recode (255 - ·))) s' ∧
    List.Forall₂ (Recoded fun c c' => c' = c.map (255 - ·)) hinted (hinted.map (recode (255 - ·))) ∧
    s.getComponents demo true ⟨0, 2⟩ [1] = .ok (some [[some 7]]) ∧
    s'.getComponents demo true ⟨0, 2⟩ [1] = .ok (some [[some 248]]) := by
  have h : ((runLoose demo true 1 hinted).any fun s =>
      decide (s.getComponents demo true ⟨0, 2⟩ [1] = .ok (some [[some 7]]))) = true := by decide +kernel
  have h' : ((runLoose demo true 1 (hinted.map (recode (255 - ·)))).any fun s =>
      decide (s.getComponents demo true ⟨0, 2⟩ [1] = .ok (some [[some 248]]))) = true := by decide +kernel
  obtain ⟨s, hs, h⟩ := any_some h
  obtain ⟨s', hs', h'⟩ := any_some h'
  refine ⟨s, s', loose_runs (runLoose_sound hs), loose_runs (runLoose_sound hs'), ?_, of_decide_eq_true h, of_decide_eq_true h'⟩
  rw [List.forall₂_map_right_iff, List.forall₂_same]
  exact fun ev _ => recoded_recode _ ev

/-- Two computations that respect the relation "written or not": one stores what it read plus one, the other inverts it. -/
example : Respects (fun c c' => c.isSome = c'.isSome) (fun vs => vs.map (List.map fun c => c.getD 0 + 1))
    (fun vs => vs.map (List.map fun c => 255 - c.getD 0)) := by
  intro vs vs' hv
  rw [List.forall₂_map_left_iff, List.forall₂_map_right_iff]
  refine hv.imp fun l l' hl => ?_
  rw [List.forall₂_map_left_iff, List.forall₂_map_right_iff]
  exact hl.imp fun _ _ _ => rfl

end Ecs.Props
