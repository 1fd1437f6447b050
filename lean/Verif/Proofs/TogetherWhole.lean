import Verif.Proofs.TogetherRefs

/-! A loop that runs to its end alone does what the loops of `Model/Update.lean` do. -/

namespace Ecs

variable {U : Universe} {dbg : Bool} {fuel : Nat} {ι τ : Type} [DecidableEq ι] {query : ι → Query} {body : ι → Body τ}

theorem together_ended {i : ι} {s : Store} {l : ι → Loop τ} (hi : (l i).phase = .ended) (n : Nat) :
    together U dbg fuel query body (List.replicate n i) s l = .ok (s, l) := by
  induction n with
  | zero => rfl
  | succ n ih =>
    rw [List.replicate_succ]
    unfold together
    have : turn U dbg fuel (query i) (body i) s (l i) = .ok (s, l i) := by
      unfold turn
      rw [hi]
    rw [this]
    simp only [ok_bind]
    have hl : (fun j => if j = i then l i else l j) = l := by
      funext j
      by_cases h : j = i
      · rw [if_pos h, h]
      · rw [if_neg h]
    rw [hl]
    exact ih

theorem together_loop {σ α : Type} {next : Store → σ → Res (Option α × σ)} {refs : α → List Ref} {i : ι}
    {f : α → List (List Cell) → List (List UInt8)} (w : σ → Iter) (g : α → Item) (hg : ∀ a, (g a).refs = refs a)
    (hw : ∀ s it, Iter.next dbg s (w it) = next s it >>= fun x => .ok (x.1.map g, w x.2))
    (hb : ∀ a vs v, body i (g a).entity vs v = (f a vs, v)) {s' : Store} (n : Nat) {it : σ} {s : Store} {l : ι → Loop τ} {v : τ}
    (hl : l i = ⟨.running (w it), v⟩) (h : updateLoop next refs (query i).access.reads.length f n it s = .ok s') :
    together U dbg fuel query body (List.replicate n i) s l = .ok (s', fun j => if j = i then ⟨.ended, v⟩ else l j) := by
  induction n generalizing it s l with
  | zero => cases h
  | succ n ih =>
    unfold updateLoop at h
    obtain ⟨⟨o, it'⟩, h1, h⟩ := bind_eq_ok.1 h
    have hn : Iter.next dbg s (w it) = .ok (o.map g, w it') := by rw [hw, h1]; rfl
    rw [List.replicate_succ]
    unfold together
    cases o with
    | none =>
      have he : s = s' := by injection h
      rw [← he]
      have : turn U dbg fuel (query i) (body i) s (l i) = .ok (s, ⟨.ended, v⟩) := by
        rw [hl]
        unfold turn
        simp only [hn]
        rfl
      rw [this]
      simp only [ok_bind]
      exact together_ended (by simp) n
    | some a =>
      obtain ⟨s1, h2, h3⟩ := bind_eq_ok.1 h
      unfold updateItem at h2
      obtain ⟨vs, h4, h2⟩ := bind_eq_ok.1 h2
      obtain ⟨p, h5, h2⟩ := bind_eq_ok.1 h2
      have : turn U dbg fuel (query i) (body i) s (l i) = .ok (s1, ⟨.running (w it'), v⟩) := by
        rw [hl]
        unfold turn
        simp only [hn, Option.map_some, ok_bind, hg, h4, hb, h5]
        exact (by cases h2; rfl)
      rw [this]
      simp only [ok_bind]
      rw [ih (by simp) h3]
      congr 2
      funext j
      by_cases h : j = i
      · simp [h]
      · simp [h]

/-- A loop that only collects what it finds. -/
theorem together_collect {body : ι → Body (List (Option Entity × List (List Cell)))} {i : ι}
    (hb : body i = fun e vs x => ([], x ++ [(e, vs)])) {s : Store} (n : Nat) {it : Iter} {items : List Item}
    {rows : List (List (List Cell))} {l : ι → Loop (List (Option Entity × List (List Cell)))} {v : List (Option Entity × List (List Cell))}
    (hl : l i = ⟨.running it, v⟩) (h : drain (Iter.next dbg s) n it = .ok items)
    (hv : items.mapM (fun x => x.refs.mapM (readRef s.archs.pages)) = .ok rows) :
    together U dbg fuel query body (List.replicate n i) s l =
      .ok (s, fun j => if j = i then ⟨.ended, v ++ (items.map (·.entity)).zip rows⟩ else l j) := by
  induction n generalizing it items rows l v with
  | zero => cases h
  | succ n ih =>
    unfold drain at h
    obtain ⟨⟨o, it'⟩, h1, h⟩ := bind_eq_ok.1 h
    rw [List.replicate_succ]
    unfold together
    cases o with
    | none =>
      cases h
      have : turn U dbg fuel (query i) (body i) s (l i) = .ok (s, ⟨.ended, v⟩) := by
        rw [hl]
        unfold turn
        simp only [h1]
        rfl
      rw [this]
      simp only [ok_bind, List.map_nil, List.zip_nil_left, List.append_nil]
      exact together_ended (by simp) n
    | some a =>
      obtain ⟨rest, h2, h3⟩ := bind_eq_ok.1 h
      cases h3
      rw [List.mapM_cons] at hv
      obtain ⟨r, h4, hv⟩ := bind_eq_ok.1 hv
      obtain ⟨rs, h5, hv⟩ := bind_eq_ok.1 hv
      cases hv
      have : turn U dbg fuel (query i) (body i) s (l i) = .ok (s, ⟨.running it', v ++ [(a.entity, r)]⟩) := by
        rw [hl]
        unfold turn
        simp only [h1, ok_bind, h4, hb]
        have ha : ∀ ts : List Ref, assignToRefs ts [] s.archs.pages = .ok s.archs.pages := by
          intro ts
          cases ts <;> rfl
        rw [ha]
        rfl
      rw [this]
      simp only [ok_bind]
      rw [ih (v := v ++ [(a.entity, r)]) (by simp) h2 h5]
      congr 2
      funext j
      by_cases hj : j = i
      · simp [hj]
      · simp [hj]

/-- The first turn. -/
theorem together_start {i : ι} {s s' : Store} {l l' : ι → Loop τ} {v : τ} {it : Iter} (hl : l i = ⟨.waiting, v⟩)
    (hs : (query i).start U dbg s fuel = .ok it) {n : Nat}
    (h : together U dbg fuel query body (List.replicate n i) s (fun j => if j = i then ⟨.running it, v⟩ else l j) = .ok (s', l')) :
    together U dbg fuel query body (List.replicate (n + 1) i) s l = .ok (s', l') := by
  rw [List.replicate_succ]
  unfold together
  have : turn U dbg fuel (query i) (body i) s (l i) = .ok (s, ⟨.running it, v⟩) := by
    rw [hl]
    unfold turn
    simp only [hs]
    rfl
  rw [this]
  exact h

end Ecs
