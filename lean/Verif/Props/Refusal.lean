import Verif.Proofs.Refusal
import Verif.Props.HeapCalls

/-! Property C102: what happens if the allocator refuses a request. The model is `Model/Refusal.lean`: `R n` tells whether the
request number `n` is refused; a refused request gives the null pointer, and nothing in the library looks at it. -/

namespace Ecs.Props
open Spec StorePtrs HeapM

variable {U : Universe} {dbg : Bool} {cap : Nat} {quiet : Bool} {ops : List HeapOp} {s : Store} {R : Nat → Bool}

/-- **C102**, negated in general, with the exact condition: the life of a store, for all programs that catch panics, ends in undefined
behaviour, at the latest when the store is dropped, if the allocator refuses any of the requests that the program makes otherwise;
if it refuses none of them, nothing changes. -/
theorem C102_refusal_is_undefined (hcap : 0 < cap) (h : HeapExec U dbg cap quiet ops s) (R : Nat → Bool) {H : Heap} (hH : NoNull H) :
    ∃ H', life dbg cap ops H = .ok () H' ∧
      (RefusedIn R H H' → ∃ u H'', lifeR R dbg cap ops H = .error (.ub u) H'') ∧
      (¬ RefusedIn R H H' → lifeR R dbg cap ops H = .ok () H') := by
  obtain ⟨-, -, hf, -⟩ := Store.heapExec_sized h
  obtain ⟨_, _, _, _, H', _, -, -, -, -, -, hl, -, -, -⟩ := life_spec dbg hcap ops hf H
  refine ⟨H', hl, ?_⟩
  obtain ⟨-, -, hc⟩ := sim_life (R := R) dbg cap ops H hH.1
  obtain ⟨-, -, ht⟩ := trk_life (R := R) dbg cap ops H hH
  rw [hl] at hc
  change (¬ RefusedIn R H H' ∧ _) ∨ (RefusedIn R H H' ∧ _) at hc
  rcases hc with ⟨hn, he⟩ | ⟨hp, hq⟩
  · exact ⟨fun hr => absurd hr hn, fun _ => he⟩
  · refine ⟨fun _ => ?_, fun hn => absurd hp hn⟩
    cases hr : lifeR R dbg cap ops H with
    | ok a H1 =>
      rw [hr] at ht hq
      exact (ht (.inr hq)).elim
    | error f H1 =>
      rw [hr] at ht hq
      rcases ht with ⟨u, rfl⟩ | ⟨-, hx⟩
      · exact ⟨u, H1, rfl⟩
      · exact (hx (.inr hq)).elim

/-- **C102**: nobody is told. `Store::with_capacity` returns a store whatever is refused, and so does a call that only needs a new
page. -/
theorem C102_unnoticed (hcap : 0 < cap) (R : Nat → Bool) (H : Heap) (p : StorePtrs) :
    (∃ q H', withCapacityR R dbg cap H = .ok q H') ∧ ∃ q H', p.stepR R (.place none none true) H = .ok q H' := by
  have ha : ∀ (size n : Nat) (H : Heap), 0 < size * n → ∃ q H', allocR R size n H = .ok q H' := by
    intro size n H hs
    unfold allocR
    rw [if_neg (Nat.ne_of_gt hs)]
    cases R H.asked.length with
    | true => exact ⟨_, _, if_pos rfl⟩
    | false => exact ⟨_, _, if_neg (by decide)⟩
  have hb : ∀ (α : Type) (size n : Nat) (k : Nat → HeapM α) (H : Heap), 0 < size * n → (∀ q H, ∃ a H', k q H = .ok a H') →
      ∃ a H', (allocR R size n >>= k) H = .ok a H' := by
    intro α size n k H hs hk
    obtain ⟨q, H1, e⟩ := ha size n H hs
    rw [bind_run, e]
    exact hk q H1
  have hbits : 0 < 4 * Words.getLen cap := by unfold Words.getLen; omega
  have hc4 : 0 < 4 * cap := by omega
  constructor
  · unfold withCapacityR EntsPtrs.newR ArchsPtrs.newR bitsAllocR pageNewR
    have hd : (dbg && decide (cap = 0)) = false := by
      have : ¬ cap = 0 := by omega
      simp [this]
    simp only [hd, bind_assoc, pure_bind]
    refine hb _ _ _ _ _ hc4 fun _ _ => hb _ _ _ _ _ hbits fun _ _ => hb _ _ _ _ _ (by decide) fun _ _ => hb _ _ _ _ _ (by decide)
      fun _ _ => hb _ _ _ _ _ (by decide) fun _ _ => hb _ _ _ _ _ (by decide) fun _ _ => hb _ _ _ _ _ (by decide) fun _ _ =>
      hb _ _ _ _ _ hbits fun _ _ => hb _ _ _ _ _ hc4 fun _ _ => hb _ _ _ _ _ hc4 fun _ _ => ⟨_, _, rfl⟩
  · show ∃ q H', placeR R p none true H = .ok q H'
    unfold placeR ArchsPtrs.newPageR pageNewR
    simp only [pure_bind, if_true, bind_assoc]
    exact hb _ _ _ _ _ (by decide) fun _ _ => ⟨_, _, rfl⟩

/-- **C102**: in all other operations (growing, a new component set, tag or order group) the refusal is undefined behaviour at once,
before the call returns, because the call itself writes to the block. -/
theorem C102_at_once (p : StorePtrs) (op : HeapOp) (hop : op.noPage) (R : Nat → Bool) {H : Heap} (hH : NoNull H)
    (hr : RefusedIn R H (heapAfter (p.stepR R op H))) : ∃ u H', p.stepR R op H = .error (.ub u) H' := by
  obtain ⟨-, -, ht⟩ := strict_step (R := R) p op hop False H hH
  cases he : p.stepR R op H with
  | ok a H1 =>
    rw [he] at ht hr
    exact (ht (.inr hr)).elim
  | error f H1 =>
    rw [he] at ht hr
    rcases ht with ⟨u, rfl⟩ | ⟨-, hx⟩
    · exact ⟨u, H1, rfl⟩
    · exact (hx (.inr hr)).elim

/-- **C102** for resource stores into which something is put: the same. -/
theorem C102_resource {size : Nat} (hs : 0 < size) (hcap : 0 < cap) (g : Bool) (ops : List Bool) (R : Nat → Bool) {H : Heap}
    (hH : NoNull H) :
    ∃ H', ResPtrs.life size cap (g :: ops) H = .ok () H' ∧
      (RefusedIn R H H' → ∃ u H'', ResPtrs.lifeR R size cap (g :: ops) H = .error (.ub u) H'') ∧
      (¬ RefusedIn R H H' → ResPtrs.lifeR R size cap (g :: ops) H = .ok () H') := by
  obtain ⟨H', _, _, hl, -, -⟩ := C55_drop_leaks_elements hs hcap (g :: ops) H
  refine ⟨H', hl, ?_⟩
  obtain ⟨-, -, hc⟩ := sim_resLife (R := R) size cap (g :: ops) H hH.1
  obtain ⟨-, -, ht⟩ := trk_resLife (R := R) size cap g ops H hH
  rw [hl] at hc
  change (¬ RefusedIn R H H' ∧ _) ∨ (RefusedIn R H H' ∧ _) at hc
  rcases hc with ⟨hn, he⟩ | ⟨hp, hq⟩
  · exact ⟨fun hr => absurd hr hn, fun _ => he⟩
  · refine ⟨fun _ => ?_, fun hn => absurd hp hn⟩
    cases hr : ResPtrs.lifeR R size cap (g :: ops) H with
    | ok a H1 =>
      rw [hr] at ht hq
      exact (ht (.inr hq)).elim
    | error f H1 =>
      rw [hr] at ht hq
      rcases ht with ⟨u, rfl⟩ | ⟨-, hx⟩
      · exact ⟨u, H1, rfl⟩
      · exact (hx (.inr hq)).elim

/-- **C102**, the only refusal without consequences: that of the array of elements of a resource store that is dropped unused. -/
theorem C102_resource_unused {size : Nat} (hs : 0 < size) (hcap : 0 < cap) (R : Nat → Bool) (H : Heap)
    (h0 : R H.asked.length = true) (h1 : R (H.asked.length + 1) = false) (h2 : R (H.asked.length + 2) = false) :
    ∃ H', ResPtrs.lifeR R size cap [] H = .ok () H' ∧ H'.blocks = H.blocks := by
  have hc : 4 * cap ≠ 0 := by omega
  have hw : 4 * Words.getLen cap ≠ 0 := by unfold Words.getLen; omega
  have hsc : size * cap ≠ 0 := Nat.ne_of_gt (Nat.mul_pos hs hcap)
  refine ⟨{ next := H.next + 2, blocks := H.blocks, asked := (4, Words.getLen cap) :: (4, cap) :: (size, cap) :: H.asked }, ?_, rfl⟩
  unfold ResPtrs.lifeR ResPtrs.withCapacityR EntsPtrs.newR bitsAllocR
  simp only [bind_assoc, pure_bind, List.foldlM_nil]
  rw [bind_run, show allocR R size cap H = _ from (if_neg hsc).trans (if_pos h0)]
  dsimp only
  rw [bind_run, show allocR R 4 cap _ = _ from (if_neg hc).trans (if_neg (by rw [List.length_cons, h1]; decide))]
  dsimp only
  rw [bind_run, show allocR R 4 (Words.getLen cap) _ = _ from
    (if_neg hw).trans (if_neg (by rw [List.length_cons, List.length_cons, h2]; decide))]
  dsimp only
  unfold ResPtrs.drop EntsPtrs.drop bitsDealloc dealloc
  have hf : ∀ (b : Block) (l : List Block) (n : Nat) (as : List (Nat × Nat)), freeBytes b.1 b.2 ⟨n, b :: l, as⟩ = .ok () ⟨n, l, as⟩ := by
    intro b l n as
    unfold freeBytes
    rw [if_pos (List.mem_cons_self ..), List.erase_cons_head]
  rw [bind_run, hf (H.next + 1, 4 * Words.getLen cap)]
  exact hf (H.next, 4 * cap) _ _ _

/-- **C102**: the other two requests of an unused resource store are missed when it is dropped. -/
theorem C102_resource_unused_refused {size : Nat} (hs : 0 < size) (hcap : 0 < cap) (R : Nat → Bool) {H : Heap} (hH : NoNull H)
    (hr : R (H.asked.length + 1) = true ∨ R (H.asked.length + 2) = true) :
    ∃ u H', ResPtrs.lifeR R size cap [] H = .error (.ub u) H' := by
  have hc : 4 * cap ≠ 0 := by omega
  have hw : 4 * Words.getLen cap ≠ 0 := by unfold Words.getLen; omega
  have hsc : size * cap ≠ 0 := Nat.ne_of_gt (Nat.mul_pos hs hcap)
  have ha : ∀ (size n : Nat) (H : Heap), size * n ≠ 0 → ∃ q H', allocR R size n H = .ok q H' ∧ H'.asked.length = H.asked.length + 1 := by
    intro size n H hs
    unfold allocR
    rw [if_neg hs]
    cases R H.asked.length with
    | true => exact ⟨_, _, if_pos rfl, rfl⟩
    | false => exact ⟨_, _, if_neg (by decide), rfl⟩
  obtain ⟨p0, H0, e0, l0⟩ := ha size cap H hsc
  have h0 := (trk_alloc (R := R) (n := False) (E := False) size cap H hH).2.1
  rw [e0] at h0
  obtain ⟨p1, H1, e1, l1⟩ := ha 4 cap H0 hc
  obtain ⟨p2, H2, e2, l2⟩ := ha 4 (Words.getLen cap) H1 hw
  have hn := trk_entsNew (R := R) (n := False) (E := False) cap H0 h0
  have en : EntsPtrs.newR R cap H0 = .ok { capacity := cap, versions := p1, alive := p2 } H2 := by
    unfold EntsPtrs.newR bitsAllocR
    rw [bind_run, e1]
    dsimp only
    rw [bind_run, e2]
    rfl
  rw [en] at hn
  have hnull := hn.2.2 (.inr (by
    rcases hr with hr | hr
    · exact ⟨_, by omega, by omega, hr⟩
    · exact ⟨_, by omega, by omega, hr⟩))
  have hd : Trk R ((False ∨ p1 = 0) ∨ p2 = 0) (EntsPtrs.drop { capacity := cap, versions := p1, alive := p2 }) (fun _ => False) False :=
    Trk.bind (trk_dealloc _ _ _) fun _ => trk_dealloc _ _ _
  have he : ResPtrs.lifeR R size cap [] H = EntsPtrs.drop { capacity := cap, versions := p1, alive := p2 } H2 := by
    unfold ResPtrs.lifeR ResPtrs.withCapacityR
    simp only [bind_assoc, pure_bind, List.foldlM_nil]
    rw [bind_run, e0]
    dsimp only
    rw [bind_run, en]
    rfl
  rw [he]
  have ht := (hd H2 hn.2.1).2.2
  cases hx : EntsPtrs.drop { capacity := cap, versions := p1, alive := p2 } H2 with
  | ok a H3 =>
    rw [hx] at ht
    exact (ht (.inl hnull)).elim
  | error f H3 =>
    rw [hx] at ht
    rcases ht with ⟨u, rfl⟩ | ⟨-, hy⟩
    · exact ⟨u, H3, rfl⟩
    · exact (hy (.inl hnull)).elim

/-- What a life ends with. -/
def ending (r : EStateM.Result Fault Heap Unit) : Option Fault :=
  match r with
  | .ok _ _ => none
  | .error f _ => some f

/-- A life of 40 requests: refusing the 41st changes nothing, refusing the 3rd (a page) is noticed by nobody before the drop, and
refusing the 12th (an array of a component set) is undefined behaviour in the call. -/
example : NoNull ⟨1, [], []⟩ ∧
    ([40, 2, 11].map fun i => ending (lifeR (fun n => n == i) true 1 [.create false, .place none (some (2, 0, true)) false, .create true, .tag 0,
      .group 0, .group 0, .place (some 3) (some (3, 0, true)) true, .create true] ⟨1, [], []⟩)) =
      [none, some (.ub .badDealloc), some (.ub .oob)] :=
  ⟨⟨by decide, by simp⟩, by decide +kernel⟩

/-- A resource store of capacity 1 into which two values are put. -/
example : ([9, 0, 3].map fun i => ending (ResPtrs.lifeR (fun n => n == i) 16 1 [false, true] ⟨1, [], []⟩)) =
    [none, some (.ub .oob), some (.ub .oob)] := by decide +kernel

end Ecs.Props
