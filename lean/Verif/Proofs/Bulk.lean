import Verif.Spec.Bulk
import Verif.Spec.Drain
import Verif.Proofs.Exchange
import Verif.Props.Components
import Verif.Props.Tags
import Verif.Props.Queries
import Verif.Props.Orders
import Verif.Props.StoreHandles

/-! Programs that do something to every entity of a list. -/

namespace Ecs
open Spec Props

variable {U : Universe} {dbg : Bool} {cap : Nat}

/-- The calls, newest first. -/
def callsFor (ev : Entity → Event) : List Entity → List Event → List Event
  | [], h => h
  | e :: l, h => callsFor ev l (ev e :: h)

theorem destroyed_alive : ∀ (l : List Entity) (h : List Event), (alive h).Nodup →
    ∀ e, e ∈ alive (callsFor .destroyed l h) ↔ e ∈ alive h ∧ e ∉ l
  | [], h, _, e => by simp [callsFor]
  | a :: l, h, hn, e => by
    have h1 : alive (.destroyed a :: h) = (alive h).erase a := rfl
    rw [callsFor, destroyed_alive l _ (by rw [h1]; exact hn.erase a), h1, List.Nodup.mem_erase_iff hn, List.mem_cons]
    tauto

theorem destroyed_sequence (g : Nat) : ∀ (l : List Entity) (h : List Event), (sequence g h).Nodup →
    sequence g (callsFor .destroyed l h) = (sequence g h).filter (· ∉ l)
  | [], h, _ => by simp [callsFor]
  | a :: l, h, hn => by
    have h1 : sequence g (.destroyed a :: h) = (sequence g h).erase a := rfl
    rw [callsFor, destroyed_sequence g l _ (by rw [h1]; exact hn.erase a), h1, hn.erase_eq_filter, List.filter_filter]
    refine List.filter_congr fun e _ => ?_
    by_cases h3 : e = a <;> by_cases h4 : e ∈ l <;> simp [h3, h4]

theorem destroyed_own {e : Entity} : ∀ (l : List Entity) (h : List Event), e ∉ l → own (world (callsFor .destroyed l h)) e = own (world h) e
  | [], _, _ => rfl
  | a :: l, h, he => by
    rw [callsFor, destroyed_own l _ fun hm => he (List.mem_cons_of_mem _ hm)]
    exact own_other fun h' => he (by rw [h']; exact List.mem_cons_self)

theorem destroyed_handles : ∀ (l : List Entity) (h : List Event), handles (callsFor .destroyed l h) = handles h
  | [], _ => rfl
  | a :: l, h => destroyed_handles l (.destroyed a :: h)

theorem destroyed_run : ∀ (l : List Entity) (h : List Event) (s : Store), l.Nodup → (∀ e ∈ l, e ∈ alive h) → Exec U dbg cap h s →
    ∃ s', eachOf (fun s e => s.destroyEntity dbg e) l s = .ok s' ∧ Exec U dbg cap (callsFor .destroyed l h) s'
  | [], h, s, _, _, hx => ⟨s, rfl, hx⟩
  | e :: l, h, s, hn, hl, hx => by
    have he := hl e List.mem_cons_self
    rw [List.nodup_cons] at hn
    obtain ⟨s1, h1, hx1⟩ := (C46_calls_return_partial hx).1 (.destroyed e) rfl (by rw [alive_eq] at he; exact he) (fun T hT => by cases hT)
    obtain ⟨s', h2, h3⟩ := destroyed_run l (.destroyed e :: h) s1 hn.2 (fun a ha => (List.Nodup.mem_erase_iff (alive_nodup' hx)).2
      ⟨fun h0 : a = e => hn.1 (h0 ▸ ha), hl a (List.mem_cons_of_mem _ ha)⟩) hx1
    refine ⟨s', ?_, h3⟩
    simp only [eachOf, show s.destroyEntity dbg e = .ok s1 from h1.1, ok_bind, h2]

theorem loose_alive_nodup {h : List Event} {s : Store} (hx : LooseExec U dbg cap h s) : (alive h).Nodup := by
  have := (List.nodup_append.1 (loose_core hx).ents.nodup).1
  rw [alive_eq]
  exact List.Nodup.of_map _ this

theorem destroyed_last {e : Entity} (tag : Nat) : ∀ (l : List Entity) (h : List Event), lastTag tag e (callsFor .destroyed l h) = lastTag tag e h
  | [], _ => rfl
  | a :: l, h => destroyed_last tag l (.destroyed a :: h)

/-- What the observers of handles, tags and groups show after the entities of a list were destroyed. -/
theorem gone_of {h : List Event} {s s' : Store} {L : List Entity} (hx : LooseExec U dbg cap h s)
    (hx' : LooseExec U dbg cap (callsFor .destroyed L h) s') : Gone dbg h s L s' := by
  have hal := destroyed_alive L h (loose_alive_nodup hx)
  have hseq : ∀ g, sequence g (callsFor .destroyed L h) = (sequence g h).filter (· ∉ L) := fun g =>
    destroyed_sequence g L h (C41_group_is_sequence hx g).1
  refine ⟨fun e he => ?_, fun e he hne tag => ?_, fun g => ?_, fun g => ?_, fun e he hne g => ?_, fun e he hne g => ?_⟩
  · rw [← destroyed_handles L h] at he
    rw [(C02_store_is_alive_exact hx' he).1]
    exact congrArg _ (decide_eq_decide.2 (hal e))
  · rw [C39_has_tag_is_last_change hx tag he, C39_has_tag_is_last_change hx' tag ((hal e).2 ⟨he, hne⟩), destroyed_last]
  · have := (C41_group_is_sequence hx' g).2.2.1
    rw [hseq g] at this
    exact this
  · have := (C41_group_is_sequence hx' g).2.2.2.1
    rw [hseq g] at this
    exact this
  · have := (C41_group_is_sequence hx' g).2.2.2.2.1 e ((hal e).2 ⟨he, hne⟩)
    rw [hseq g] at this
    exact this
  · have := (C41_group_is_sequence hx' g).2.2.2.2.2 e ((hal e).2 ⟨he, hne⟩)
    rw [hseq g] at this
    exact this

/-- What all observers show. -/
theorem without_of {h : List Event} {s s' : Store} {L : List Entity} (hx : Exec U dbg cap h s)
    (hx' : Exec U dbg cap (callsFor .destroyed L h) s') : Without U dbg h s L s' := by
  have hal := destroyed_alive L h (alive_nodup' hx)
  have hr := exec_rel hx
  have hr' := exec_rel hx'
  have ha := hr.agrees
  have ha' := hr'.agrees
  refine ⟨gone_of hx.loose hx'.loose, fun e he hne ts ht => ?_, fun e he hne => ?_⟩
  · have he' := (hal e).2 ⟨he, hne⟩
    rw [alive_eq] at he he'
    rw [ha.read e (hr.ents.sub e he) ts ht, ha'.read e (hr'.ents.sub e he') ts ht]
    congr 2
    funext t
    have ho := destroyed_own L h hne
    unfold World.get
    rw [show (world (callsFor .destroyed L h)).types e = (world h).types e from congrArg (·.1) ho,
      show (world (callsFor .destroyed L h)).value e = (world h).value e from congrArg (·.2.1) ho]
    simp only [he, he', true_and]
  · have he' := (hal e).2 ⟨he, hne⟩
    rw [alive_eq] at he he'
    exact saved_arch hx hx' he he' fun t => by
      rw [show (world (callsFor .destroyed L h)).types e = (world h).types e from congrArg (·.1) (destroyed_own L h hne)]

theorem destroyed_loose : ∀ (l : List Entity) (h : List Event) (s s' : Store), l.Nodup → (∀ e ∈ l, e ∈ alive h) → LooseExec U dbg cap h s →
    eachOf (fun s e => s.destroyEntity dbg e) l s = .ok s' → LooseExec U dbg cap (callsFor .destroyed l h) s'
  | [], h, s, s', _, _, hx, hr => by
    cases hr
    exact hx
  | e :: l, h, s, s', hn, hl, hx, hr => by
    have he := hl e List.mem_cons_self
    rw [List.nodup_cons] at hn
    simp only [eachOf] at hr
    obtain ⟨s1, h1, hr⟩ := bind_eq_ok.1 hr
    exact destroyed_loose l (.destroyed e :: h) s1 s' hn.2 (fun a ha => (List.Nodup.mem_erase_iff (loose_alive_nodup hx)).2
      ⟨fun h0 : a = e => hn.1 (h0 ▸ ha), hl a (List.mem_cons_of_mem _ ha)⟩) (.step _ hx (by rw [alive_eq] at he; exact he) h1) hr

theorem tagged_alive (tag : Nat) : ∀ (l : List Entity) (h : List Event), alive (callsFor (.tagged tag) l h) = alive h
  | [], _ => rfl
  | e :: l, h => tagged_alive tag l (.tagged tag e :: h)

theorem tagged_last (tag tag' : Nat) (x : Entity) : ∀ (l : List Entity) (h : List Event),
    lastTag tag' x (callsFor (.tagged tag) l h) = (decide (tag' = tag ∧ x ∈ l) || lastTag tag' x h)
  | [], h => by simp [callsFor]
  | e :: l, h => by
    rw [callsFor, tagged_last tag tag' x l]
    have h0 : lastTag tag' x (.tagged tag e :: h) = (decide (tag' = tag ∧ x = e) || lastTag tag' x h) := by
      rw [show lastTag tag' x (.tagged tag e :: h) = if tag = tag' ∧ e = x then true else lastTag tag' x h from rfl]
      by_cases h1 : tag = tag' ∧ e = x
      · obtain ⟨rfl, rfl⟩ := h1
        simp
      · rw [if_neg h1, decide_eq_false (fun h' => h1 ⟨h'.1.symm, h'.2.symm⟩), Bool.false_or]
    rw [h0]
    by_cases h1 : tag' = tag <;> by_cases h2 : x = e <;> by_cases h3 : x ∈ l <;> simp [h1, h2, h3]

theorem tagged_run (tag : Nat) : ∀ (l : List Entity) (h : List Event) (s : Store), (∀ e ∈ l, e ∈ alive h) → LooseExec U dbg cap h s →
    ∃ s', eachOf (fun s e => s.addTag tag e) l s = .ok s' ∧ LooseExec U dbg cap (callsFor (.tagged tag) l h) s' ∧
      { s' with tags := s.tags } = s
  | [], h, s, _, hx => ⟨s, rfl, hx, rfl⟩
  | e :: l, h, s, hl, hx => by
    have he := hl e List.mem_cons_self
    obtain ⟨s1, h1, -⟩ := (C39_tag_calls hx tag he).1
    have hx1 : LooseExec U dbg cap (.tagged tag e :: h) s1 := .step _ hx (by rw [alive_eq] at he; exact he) h1
    obtain ⟨s', h2, h3, h4⟩ := tagged_run tag l (.tagged tag e :: h) s1 (fun a ha => hl a (List.mem_cons_of_mem _ ha)) hx1
    refine ⟨s', ?_, h3, ?_⟩
    · simp only [eachOf, h1, ok_bind, h2]
    · unfold Store.addTag at h1
      obtain ⟨o, _, h1⟩ := bind_eq_ok.1 h1
      cases h1
      exact congrArg (fun t : Store => { t with tags := s.tags }) h4

end Ecs
