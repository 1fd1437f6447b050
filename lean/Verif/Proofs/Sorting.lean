import Verif.Spec.Sorting
import Verif.Props.Orders

/-! Programs that sort order groups. -/

namespace Ecs
open Spec Props

variable {U : Universe} {dbg : Bool} {cap : Nat} {h : List Event} {s s' : Store} {g : Nat}

/-- The calls of `rearrange`, newest first. -/
def moves (g : Nat) : List Entity → List Event
  | [] => []
  | e :: l => moves g l ++ [.orderedLast g e, .unordered g e]

theorem moves_alive (l : List Entity) (h : List Event) : alive (moves g l ++ h) = alive h := by
  induction l generalizing h with
  | nil => rfl
  | cons e l ih =>
    rw [moves, List.append_assoc, ih]
    rfl

theorem moves_other {g' : Nat} (hg : g' ≠ g) (l : List Entity) (h : List Event) : sequence g' (moves g l ++ h) = sequence g' h := by
  induction l generalizing h with
  | nil => rfl
  | cons e l ih =>
    rw [moves, List.append_assoc, ih]
    simp [sequence, Ne.symm hg]

theorem moves_sequence (l : List Entity) (hn : l.Nodup) (h : List Event) (hs : (sequence g h).Nodup) :
    sequence g (moves g l ++ h) = (sequence g h).filter (· ∉ l) ++ l := by
  induction l generalizing h with
  | nil => simp [moves]
  | cons e l ih =>
    rw [List.nodup_cons] at hn
    have h1 : sequence g ([.orderedLast g e, .unordered g e] ++ h) = (sequence g h).erase e ++ [e] := by simp [sequence]
    have h2 : ((sequence g h).erase e ++ [e]).Nodup := by
      rw [List.nodup_append]
      refine ⟨hs.erase e, by simp, ?_⟩
      intro a ha b hb
      rw [List.mem_singleton] at hb
      rw [hb]
      exact ((List.Nodup.mem_erase_iff hs).1 ha).1
    rw [moves, List.append_assoc, ih hn.2 _ (by rw [h1]; exact h2), h1, List.filter_append, List.append_assoc, hs.erase_eq_filter,
      List.filter_filter]
    congr 1
    · refine List.filter_congr fun a _ => ?_
      by_cases h3 : a = e <;> by_cases h4 : a ∈ l <;> simp [h3, h4]
    · simp [hn.1]

theorem rearrange_run : ∀ (l : List Entity) (h : List Event) (s : Store), LooseExec U dbg cap h s → (∀ e ∈ l, e ∈ alive h) →
    ∃ s', rearrange dbg g l s = .ok s' ∧ LooseExec U dbg cap (moves g l ++ h) s' ∧ { s' with orders := s.orders } = s
  | [], h, s, hx, _ => ⟨s, rfl, hx, rfl⟩
  | e :: l, h, s, hx, hl => by
    have he := hl e List.mem_cons_self
    obtain ⟨s1, h1, hx1⟩ := (C41_calls_return hx g he).2.2.2
    have hn : e ∉ sequence g (.unordered g e :: h) := by
      simp only [sequence, if_true]
      exact fun hm => ((List.Nodup.mem_erase_iff (C41_group_is_sequence hx g).1).1 hm).1 rfl
    obtain ⟨s2, h2, hx2⟩ := (C41_calls_return hx1 g (e := e) he).1 hn
    obtain ⟨s', h3, hx3, h4⟩ := rearrange_run l _ s2 hx2 fun a ha => hl a (List.mem_cons_of_mem _ ha)
    refine ⟨s', ?_, ?_, ?_⟩
    · simp only [rearrange, h1, ok_bind, h2, h3]
    · rw [moves, List.append_assoc]
      exact hx3
    · unfold Store.removeOrder at h1
      unfold Store.addOrder at h2
      obtain ⟨o1, _, h1⟩ := bind_eq_ok.1 h1
      obtain ⟨o2, _, h2⟩ := bind_eq_ok.1 h2
      cases h1
      cases h2
      have := congrArg (fun t : Store => { t with orders := s.orders }) h4
      exact this

/-- What the observers show, once the history is known. -/
theorem rearranged_of {h' : List Event} {l : List Entity} (hx : LooseExec U dbg cap h s) (hx' : LooseExec U dbg cap h' s')
    (ha : alive h' = alive h) (hl : sequence g h' = l) (ho : ∀ g', g' ≠ g → sequence g' h' = sequence g' h)
    (hr : { s' with orders := s.orders } = s) : Rearranged U dbg cap h s g l s' := by
  obtain ⟨-, -, h1, h2, h3, h4⟩ := C41_group_is_sequence hx' g
  rw [hl] at h1 h2 h3 h4
  rw [ha] at h3 h4
  refine ⟨h1, h2, h3, h4, fun g' hg => ?_, hr, h', hx', ha, hl⟩
  obtain ⟨-, -, i1, i2, i3, i4⟩ := C41_group_is_sequence hx' g'
  obtain ⟨-, -, k1, k2, k3, k4⟩ := C41_group_is_sequence hx g'
  rw [ho g' hg] at i1 i2 i3 i4
  rw [ha] at i3 i4
  exact ⟨i1.trans k1.symm, i2.trans k2.symm, fun e he => ⟨(i3 e he).trans (k3 e he).symm, (i4 e he).trans (k4 e he).symm⟩⟩

/-- The first member from `o` on with a larger key. -/
theorem findLarger_run {L : List Entity} (hn : ∀ e ∈ L, s.getNextOrdered g e = .ok (follower L e)) (hd : L.Nodup) (key : Entity → Nat) (k : Nat) :
    ∀ (l p : List Entity) (fuel : Nat), L = p ++ l → l.length < fuel →
      findLarger s g key k fuel l.head? = .ok (l.dropWhile fun x => decide (key x ≤ k)).head?
  | [], p, fuel + 1, _, _ => by simp [findLarger]
  | x :: l, p, fuel + 1, hL, hf => by
    simp only [List.head?_cons, findLarger]
    by_cases hk : k < key x
    · rw [if_pos hk, List.dropWhile_cons_of_neg (by simpa using hk)]
      rfl
    · have hfol : follower L x = l.head? := by
        have hp : x ∉ p := by
          rw [hL, List.nodup_append] at hd
          exact fun hm => hd.2.2 x hm x List.mem_cons_self rfl
        rw [hL]
        clear hL hn hd
        induction p with
        | nil => simp [follower]
        | cons a p ih =>
          simp only [List.cons_append, follower]
          rw [if_neg fun h : x = a => hp (h ▸ List.mem_cons_self), ih fun hm => hp (List.mem_cons_of_mem _ hm)]
      rw [if_neg hk, hn x (by rw [hL]; simp), hfol, ok_bind,
        findLarger_run hn hd key k l (p ++ [x]) fuel (by rw [hL]; simp) (by simpa using hf), List.dropWhile_cons_of_pos (by simpa using hk)]

theorem insertBefore_at {L p l : List Entity} {x e : Entity} (hL : L = p ++ x :: l) (hp : x ∉ p) :
    insertBefore x e L = p ++ e :: x :: l := by
  subst hL
  induction p with
  | nil => simp [insertBefore]
  | cons a p ih =>
    simp only [List.cons_append, insertBefore]
    rw [if_neg fun h : a = x => hp (h ▸ List.mem_cons_self), ih fun hm => hp (List.mem_cons_of_mem _ hm)]

theorem sorted_insert {key : Entity → Nat} {e : Entity} {L : List Entity} (hs : SortedBy key L) :
    SortedBy key (L.takeWhile (fun x => decide (key x ≤ key e)) ++ e :: L.dropWhile fun x => decide (key x ≤ key e)) := by
  unfold SortedBy at *
  induction L with
  | nil => simp
  | cons a L ih =>
    rw [List.pairwise_cons] at hs
    by_cases ha : key a ≤ key e
    · rw [List.takeWhile_cons_of_pos (by simpa using ha), List.dropWhile_cons_of_pos (by simpa using ha), List.cons_append, List.pairwise_cons]
      refine ⟨fun b hb => ?_, ih hs.2⟩
      rcases List.mem_append.1 hb with hb | hb
      · exact hs.1 b (List.takeWhile_sublist _ |>.subset hb)
      · rcases List.mem_cons.1 hb with rfl | hb
        · exact ha
        · exact hs.1 b (List.dropWhile_sublist _ |>.subset hb)
    · rw [List.takeWhile_cons_of_neg (by simpa using ha), List.dropWhile_cons_of_neg (by simpa using ha), List.nil_append, List.pairwise_cons]
      refine ⟨fun b hb => ?_, List.pairwise_cons.2 hs⟩
      rcases List.mem_cons.1 hb with rfl | hb
      · omega
      · have := hs.1 b hb
        omega

end Ecs
