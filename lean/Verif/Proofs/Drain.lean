import Verif.Proofs.Bulk
import Verif.Proofs.Sorting
import Verif.Props.Stray

/-! Programs that empty an order group. -/

namespace Ecs
open Spec Props

variable {U : Universe} {dbg : Bool} {cap : Nat}

theorem unordered_alive (g : Nat) : ∀ (l : List Entity) (h : List Event), alive (callsFor (.unordered g) l h) = alive h
  | [], _ => rfl
  | e :: l, h => unordered_alive g l (.unordered g e :: h)

theorem unordered_other {g g' : Nat} (hg : g' ≠ g) : ∀ (l : List Entity) (h : List Event),
    sequence g' (callsFor (.unordered g) l h) = sequence g' h
  | [], _ => rfl
  | e :: l, h => by
    rw [callsFor, unordered_other hg l]
    simp [sequence, Ne.symm hg]

theorem head_rest {g : Nat} {h : List Event} {e : Entity} {l : List Entity} (hs : sequence g h = e :: l) :
    sequence g (.destroyed e :: h) = l ∧ sequence g (.unordered g e :: h) = l := by
  simp [sequence, hs]

theorem drained_empty {g : Nat} : ∀ (l : List Entity) (h : List Event), sequence g h = l → sequence g (callsFor (.unordered g) l h) = []
  | [], _, hs => hs
  | _ :: l, _, hs => drained_empty l _ (head_rest hs).2

/-- Taking the first member out again and again, and walking along the links, make the same calls. -/
theorem drain_unordered {g : Nat} : ∀ (l : List Entity) (h : List Event) (s : Store) (fuel : Nat), sequence g h = l → l.length ≤ fuel →
    LooseExec U dbg cap h s → ∃ s', emptyOut (fun s e => s.removeOrder g e) g fuel s = .ok s' ∧
      emptyAlong (fun s e => s.removeOrder g e) g fuel l.head? s = .ok s' ∧ LooseExec U dbg cap (callsFor (.unordered g) l h) s' ∧
      { s' with orders := s.orders } = s
  | [], h, s, fuel, hs, _, hx => by
    refine ⟨s, ?_, by cases fuel <;> rfl, hx, rfl⟩
    cases fuel with
    | zero => rfl
    | succ fuel => simp [emptyOut, (C41_group_is_sequence hx g).2.2.1, hs, ok_bind]
  | e :: l, h, s, 0, _, hf, _ => by simp at hf
  | e :: l, h, s, fuel + 1, hs, hf, hx => by
    obtain ⟨_, h2, h3, _, h5, _⟩ := C41_group_is_sequence hx g
    have he : e ∈ alive h := h2 e (by rw [hs]; exact List.mem_cons_self)
    obtain ⟨s1, h6, hx1⟩ := (C41_calls_return hx g he).2.2.2
    obtain ⟨s', h7, h8, h9, h10⟩ := drain_unordered l _ s1 fuel (head_rest hs).2 (by simpa using hf) hx1
    have h5 := h5 e he
    rw [hs] at h3 h5
    refine ⟨s', ?_, ?_, h9, ?_⟩
    · simp only [emptyOut, h3, ok_bind, List.head?_cons, h6, h7]
    · simp only [List.head?_cons, emptyAlong, h5, ok_bind, h6, follower, if_true, h8]
    · unfold Store.removeOrder at h6
      obtain ⟨o, _, h6⟩ := bind_eq_ok.1 h6
      cases h6
      exact congrArg (fun t : Store => { t with orders := s.orders }) h10

theorem drain_destroyed {g : Nat} : ∀ (l : List Entity) (h : List Event) (s : Store) (fuel : Nat), sequence g h = l → l.length ≤ fuel →
    Exec U dbg cap h s → ∃ s', emptyOut (fun s e => s.destroyEntity dbg e) g fuel s = .ok s' ∧
      emptyAlong (fun s e => s.destroyEntity dbg e) g fuel l.head? s = .ok s' ∧ Exec U dbg cap (callsFor .destroyed l h) s'
  | [], h, s, fuel, hs, _, hx => by
    refine ⟨s, ?_, by cases fuel <;> rfl, hx⟩
    cases fuel with
    | zero => rfl
    | succ fuel => simp [emptyOut, (C41_group_is_sequence hx.loose g).2.2.1, hs, ok_bind]
  | e :: l, h, s, 0, _, hf, _ => by simp at hf
  | e :: l, h, s, fuel + 1, hs, hf, hx => by
    obtain ⟨_, h2, h3, _, h5, _⟩ := C41_group_is_sequence hx.loose g
    have he : e ∈ alive h := h2 e (by rw [hs]; exact List.mem_cons_self)
    obtain ⟨s1, h6, hx1⟩ := (C46_calls_return_partial hx).1 (.destroyed e) rfl (by rw [alive_eq] at he; exact he) (fun T hT => by cases hT)
    have h6 : s.destroyEntity dbg e = .ok s1 := h6.1
    obtain ⟨s', h7, h8, h9⟩ := drain_destroyed l _ s1 fuel (head_rest hs).1 (by simpa using hf) hx1
    have h5 := h5 e he
    rw [hs] at h3 h5
    refine ⟨s', ?_, ?_, h9⟩
    · simp only [emptyOut, h3, ok_bind, List.head?_cons, h6, h7]
    · simp only [List.head?_cons, emptyAlong, h5, ok_bind, h6, follower, if_true, h8]

theorem moveOver_run {g g' : Nat} (hg : g' ≠ g) : ∀ (l : List Entity) (h : List Event) (s : Store) (fuel : Nat), sequence g h = l →
    (∀ e ∈ l, e ∉ sequence g' h) → l.length ≤ fuel → LooseExec U dbg cap h s →
    ∃ s' h', moveOver dbg g g' fuel s = .ok s' ∧ LooseExec U dbg cap h' s' ∧ alive h' = alive h ∧ sequence g h' = [] ∧
      sequence g' h' = sequence g' h ++ l ∧ (∀ k, k ≠ g → k ≠ g' → sequence k h' = sequence k h) ∧ { s' with orders := s.orders } = s
  | [], h, s, fuel, hs, _, _, hx => by
    refine ⟨s, h, ?_, hx, rfl, hs, (List.append_nil _).symm, fun _ _ _ => rfl, rfl⟩
    cases fuel with
    | zero => rfl
    | succ fuel => simp [moveOver, (C41_group_is_sequence hx g).2.2.1, hs, ok_bind]
  | e :: l, h, s, 0, _, _, hf, _ => by simp at hf
  | e :: l, h, s, fuel + 1, hs, hn, hf, hx => by
    obtain ⟨h1, h2, h3, _, _, _⟩ := C41_group_is_sequence hx g
    have he : e ∈ alive h := h2 e (by rw [hs]; exact List.mem_cons_self)
    obtain ⟨s1, h6, hx1⟩ := (C41_calls_return hx g he).2.2.2
    have hu : sequence g' (.unordered g e :: h) = sequence g' h := if_neg (Ne.symm hg)
    obtain ⟨s2, h7, hx2⟩ := (C41_calls_return hx1 g' (e := e) he).1 (by rw [hu]; exact hn e List.mem_cons_self)
    have hg1 : sequence g (.orderedLast g' e :: .unordered g e :: h) = l := by
      rw [show sequence g (.orderedLast g' e :: .unordered g e :: h) = sequence g (.unordered g e :: h) from if_neg hg]
      exact (head_rest hs).2
    have hg2 : sequence g' (.orderedLast g' e :: .unordered g e :: h) = sequence g' h ++ [e] := by
      rw [show sequence g' (.orderedLast g' e :: .unordered g e :: h) = sequence g' (.unordered g e :: h) ++ [e] from if_pos rfl, hu]
    rw [hs, List.nodup_cons] at h1
    obtain ⟨s', h', k1, k2, k3, k4, k5, k6, k7⟩ := moveOver_run hg l _ s2 fuel hg1 (fun a ha hm => by
      rw [hg2] at hm
      rcases List.mem_append.1 hm with hm | hm
      · exact hn a (List.mem_cons_of_mem _ ha) hm
      · exact h1.1 (List.mem_singleton.1 hm ▸ ha)) (by simpa using hf) hx2
    rw [hs] at h3
    refine ⟨s', h', ?_, k2, k3, k4, ?_, fun k hk hk' => ?_, ?_⟩
    · simp only [moveOver, h3, ok_bind, List.head?_cons, h6, h7, k1]
    · rw [k5, hg2, List.append_assoc]
      rfl
    · rw [k6 k hk hk', show sequence k (.orderedLast g' e :: .unordered g e :: h) = sequence k (.unordered g e :: h) from
        if_neg (Ne.symm hk')]
      exact if_neg (Ne.symm hk)
    · unfold Store.removeOrder at h6
      unfold Store.addOrder at h7
      obtain ⟨o1, _, h6⟩ := bind_eq_ok.1 h6
      obtain ⟨o2, _, h7⟩ := bind_eq_ok.1 h7
      cases h6
      cases h7
      exact congrArg (fun t : Store => { t with orders := s.orders }) k7

theorem drain_loose {g : Nat} : ∀ (l : List Entity) (h : List Event) (s s' : Store) (fuel : Nat), sequence g h = l → l.length ≤ fuel →
    LooseExec U dbg cap h s → emptyOut (fun s e => s.destroyEntity dbg e) g fuel s = .ok s' ∨
      emptyAlong (fun s e => s.destroyEntity dbg e) g fuel l.head? s = .ok s' → LooseExec U dbg cap (callsFor .destroyed l h) s'
  | [], h, s, s', fuel, hs, _, hx, hr => by
    have hr : s = s' := by
      rcases hr with hr | hr
      · cases fuel with
        | zero => cases hr; rfl
        | succ fuel =>
          simp only [emptyOut, (C41_group_is_sequence hx g).2.2.1, hs, ok_bind, List.head?_nil] at hr
          cases hr
          rfl
      · cases fuel <;> (cases hr; rfl)
    exact hr ▸ hx
  | e :: l, h, s, s', 0, _, hf, _, _ => by simp at hf
  | e :: l, h, s, s', fuel + 1, hs, hf, hx, hr => by
    obtain ⟨_, h2, h3, _, h5, _⟩ := C41_group_is_sequence hx g
    have he : e ∈ alive h := h2 e (by rw [hs]; exact List.mem_cons_self)
    have h5 := h5 e he
    rw [hs] at h3 h5
    simp only [emptyOut, h3, ok_bind, List.head?_cons, emptyAlong, h5, follower, if_true] at hr
    have : ∃ s1, s.destroyEntity dbg e = .ok s1 ∧ (emptyOut (fun s e => s.destroyEntity dbg e) g fuel s1 = .ok s' ∨
        emptyAlong (fun s e => s.destroyEntity dbg e) g fuel l.head? s1 = .ok s') := by
      rcases hr with hr | hr
      · obtain ⟨s1, h6, hr⟩ := bind_eq_ok.1 hr
        exact ⟨s1, h6, .inl hr⟩
      · obtain ⟨s1, h6, hr⟩ := bind_eq_ok.1 hr
        exact ⟨s1, h6, .inr hr⟩
    obtain ⟨s1, h6, hr⟩ := this
    exact drain_loose l (.destroyed e :: h) s1 s' fuel (head_rest hs).1 (by simpa using hf)
      (.step _ hx (by rw [alive_eq] at he; exact he) h6) hr

end Ecs
