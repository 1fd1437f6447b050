import Verif.Spec.ResOpaque
import Verif.Proofs.Opaque
import Verif.Proofs.Resource
import Verif.Proofs.EntsOf

/-! Resource stores with other values (C116). -/

namespace Ecs
open Spec
variable {α β : Type} {R : α → β → Prop} {dbg : Bool}

/-- The same cells written, with related values. -/
def CellsLike (R : α → β → Prop) : Raw α → Raw β → Prop := List.Forall₂ (Option.Rel R)

/-- The same store with related values. -/
structure ResLike (R : α → β → Prop) (r : ResStore α) (r' : ResStore β) : Prop where
  ents : r'.ents = r.ents
  elements : CellsLike R r.elements r'.elements

namespace CellsLike
variable {a : Raw α} {b : Raw β}

theorem read (h : CellsLike R a b) (i : Nat) : Both R (Raw.read a i) (Raw.read b i) := by
  unfold Raw.read
  unfold CellsLike at h
  induction h generalizing i with
  | nil => exact rfl
  | cons h1 _ ih =>
    cases i with
    | zero =>
      cases h1 with
      | none => exact rfl
      | some h1 => exact h1
    | succ i => exact ih i

theorem set (h : CellsLike R a b) (i : Nat) {v : α} {w : β} (hv : R v w) : CellsLike R (a.set i (some v)) (b.set i (some w)) := by
  unfold CellsLike at h ⊢
  induction h generalizing i with
  | nil => exact .nil
  | cons h1 h2 ih =>
    cases i with
    | zero => exact .cons (.some hv) h2
    | succ i => exact .cons h1 (ih i)

theorem write (h : CellsLike R a b) (i : Nat) {v : α} {w : β} (hv : R v w) :
    Both (CellsLike R) (Raw.write a i v) (Raw.write b i w) := by
  unfold Raw.write
  rw [List.Forall₂.length_eq h]
  split
  · exact h.set i hv
  · exact rfl

theorem realloc (h : CellsLike R a b) (m n : Nat) : Both (CellsLike R) (Raw.realloc a m n) (Raw.realloc b m n) := by
  have hl := List.Forall₂.length_eq h
  unfold Raw.realloc
  split
  · exact h
  · rw [hl]
    split
    · exact rfl
    · unfold Raw.dealloc
      rw [hl]
      split
      · refine List.rel_append (List.forall₂_take m h) ?_
        exact List.forall₂_iff_get.2 ⟨by simp, fun i h1 h2 => by simp⟩
      · exact rfl

end CellsLike

namespace ResLike
variable {r : ResStore α} {r' : ResStore β}

/-- The same check in both stores. -/
theorem guard {γ δ : Type} {S : γ → δ → Prop} {x : Res Bool} {k : Unit → Res γ} {k' : Unit → Res δ} (h : Both S (k ()) (k' ())) :
    Both S (if dbg = true then x >>= fun a => dassert dbg a >>= k else k ()) (if dbg = true then x >>= fun a => dassert dbg a >>= k' else k' ()) := by
  split
  · exact Both.same fun a => Both.same fun _ => h
  · exact h

theorem create (h : ResLike R r r') {v : α} {w : β} (hv : R v w) :
    Both (fun x y => ResLike R x.1 y.1 ∧ x.2 = y.2) (r.create dbg v) (r'.create dbg w) := by
  unfold ResStore.create
  rw [h.ents]
  refine Both.same fun x => ?_
  obtain ⟨ents, cr⟩ := x
  dsimp only
  have key : ∀ {a : Raw α} {b : Raw β}, CellsLike R a b → Both (fun x y => ResLike R x.1 y.1 ∧ x.2 = y.2)
      (do let elements ← Raw.write a cr.entity.id v; return (({ elements := elements, ents := ents } : ResStore α), cr.entity))
      (do let elements ← Raw.write b cr.entity.id w; return (({ elements := elements, ents := ents } : ResStore β), cr.entity)) :=
    fun hab => (hab.write _ hv).bind fun _ _ hab => ⟨⟨rfl, hab⟩, rfl⟩
  split
  · exact (h.elements.realloc _ _).bind fun _ _ hab => key hab
  · exact key h.elements

theorem release (h : ResLike R r r') (e : Entity) :
    Both (fun x y => ResLike R x.1 y.1 ∧ R x.2 y.2) (r.release dbg e) (r'.release dbg e) := by
  unfold ResStore.release
  rw [h.ents]
  refine guard (Both.same fun ents => ?_)
  exact (h.elements.read e.id).bind fun v w hv => ⟨⟨rfl, h.elements⟩, hv⟩

theorem index (h : ResLike R r r') (e : Entity) : Both R (r.index dbg e) (r'.index dbg e) := by
  unfold ResStore.index
  rw [h.ents]
  exact guard (h.elements.read e.id)

theorem assign (h : ResLike R r r') (e : Entity) {v : α} {w : β} (hv : R v w) :
    Both (fun x y => ResLike R x.1 y.1 ∧ R x.2 y.2) (r.assign dbg e v) (r'.assign dbg e w) := by
  unfold ResStore.assign
  rw [h.ents]
  refine guard ?_
  exact (h.elements.read e.id).bind fun _ _ ho => (h.elements.write e.id hv).bind fun _ _ hab => ⟨⟨rfl, hab⟩, ho⟩

theorem dropLoop (h : ResLike R r r') (is : List Nat) : Both (List.Forall₂ R) (r.dropLoop is) (r'.dropLoop is) := by
  induction is with
  | nil => exact List.Forall₂.nil
  | cons i is ih =>
    unfold ResStore.dropLoop
    rw [h.ents]
    refine Both.same fun a => ?_
    split
    · exact ih
    · exact (h.elements.read i).bind fun _ _ hv => ih.bind fun _ _ hs => List.Forall₂.cons hv hs

theorem drop (h : ResLike R r r') : Both (List.Forall₂ R) r.drop r'.drop := by
  unfold ResStore.drop
  rw [h.ents]
  exact (h.dropLoop _).bind fun _ _ hd => Both.same fun _ => hd

theorem call (h : ResLike R r r') {c : ResCall α} {c' : ResCall β} (hc : ResCallLike R c c') :
    Both (fun x y => ResLike R x.1 y.1 ∧ ResResultLike R x.2 y.2) (resCall dbg r c) (resCall dbg r' c') := by
  cases hc with
  | create hv => exact (h.create hv).bind fun _ _ hx => ⟨hx.1, hx.2 ▸ .handle _⟩
  | release e => exact (h.release e).bind fun _ _ hx => ⟨hx.1, .value hx.2⟩
  | read e => exact (h.index e).bind fun _ _ hx => ⟨h, .value hx⟩
  | assign e hv => exact (h.assign e hv).bind fun _ _ hx => ⟨hx.1, .value hx.2⟩

theorem rest (h : ResLike R r r') {cs : List (ResCall α)} {cs' : List (ResCall β)} (hc : List.Forall₂ (ResCallLike R) cs cs') :
    Both (fun x y => List.Forall₂ (ResResultLike R) x.1 y.1 ∧ List.Forall₂ R x.2 y.2) (resRest dbg r cs) (resRest dbg r' cs') := by
  induction hc generalizing r r' with
  | nil => exact h.drop.bind fun _ _ hd => ⟨.nil, hd⟩
  | cons h1 _ ih =>
    exact (h.call h1).bind fun x y hx => (ih hx.1).bind fun _ _ hy => ⟨.cons hx.2 hy.1, hy.2⟩

theorem init (cap : Nat) : ResLike R (ResStore.withCapacity cap) (ResStore.withCapacity cap) :=
  ⟨rfl, List.forall₂_iff_get.2 ⟨by simp [ResStore.withCapacity, Raw.alloc],
    fun i h1 h2 => by simp [ResStore.withCapacity, Raw.alloc]⟩⟩

end ResLike

/-! ### Handles -/

theorem issued_resEntHistory (h : List (ResEvent α)) : issued (resEntHistory h) = resIssued h := by
  induction h with
  | nil => rfl
  | cons ev h ih => cases ev <;> simp [resEntHistory, resIssued, issued, ih]

theorem resIssued_le {ev : ResEvent α} {h : List (ResEvent α)} : (resIssued h).length ≤ (resIssued (ev :: h)).length := by
  cases ev <;> simp [resIssued]

theorem res_create_ents {r r' : ResStore α} {v : α} {e : Entity} (hr : r.create dbg v = .ok (r', e)) :
    ∃ cr, r.ents.create dbg = .ok (r'.ents, cr) ∧ cr.entity = e := by
  unfold ResStore.create at hr
  obtain ⟨⟨en, cr⟩, h1, hr⟩ := bind_eq_ok.1 hr
  dsimp only at hr
  split at hr
  · obtain ⟨_, _, hr⟩ := bind_eq_ok.1 hr
    obtain ⟨_, _, hr⟩ := bind_eq_ok.1 hr
    cases hr
    exact ⟨cr, h1, rfl⟩
  · obtain ⟨_, _, hr⟩ := bind_eq_ok.1 hr
    obtain ⟨_, _, hr⟩ := bind_eq_ok.1 hr
    cases hr
    exact ⟨cr, h1, rfl⟩

/-- The container of the store goes through the creations and releases. -/
theorem res_ents {cap : Nat} {h : List (ResEvent α)} {r : ResStore α} (hx : ResExec dbg cap h r)
    (hb : dbg = true ∨ (resIssued h).length < u32Size) :
    EntsExec dbg cap (resEntHistory h) r.ents ∧ (live (resEntHistory h)).Perm ((resContents h).map (·.1)) := by
  have keep : ∀ {h : List (ResEvent α)} {r : ResStore α} {e : Entity}, ResExec dbg cap h r →
      (dbg = true ∨ (resIssued h).length < u32Size) → (dbg = true ∨ (resMap h e).isSome) →
      dbg = true ∨ e ∈ (resContents h).map (·.1) := by
    intro h r e hx hb he
    refine he.imp id (fun hs => ?_)
    obtain ⟨w, hw⟩ := Option.isSome_iff_exists.1 hs
    exact List.mem_map.2 ⟨_, ((res_exec_inv hx hb).2.1 _ _).1 hw, rfl⟩
  induction hx with
  | init => exact ⟨.init, .refl _⟩
  | @create h r r' e v hx hr ih =>
    obtain ⟨i1, i2⟩ := ih (hb.imp id (fun h => by simp only [resIssued, List.length_cons] at h; omega))
    obtain ⟨cr, h1, rfl⟩ := res_create_ents hr
    exact ⟨.create i1 h1, i2.cons _⟩
  | @release h r r' v e hx hr he ih =>
    obtain ⟨i1, i2⟩ := ih hb
    have hm := keep hx hb he
    refine ⟨.destroy e i1 ?_ (hm.imp id i2.mem_iff.2), ?_⟩
    · unfold ResStore.release at hr
      have hd : ∀ {x : Res (ResStore α × α)}, x = (do
          let ents ← r.ents.destroy dbg e
          let value ← Raw.read r.elements e.id
          return ({ r with ents := ents }, value)) → x = .ok (r', v) → r.ents.destroy dbg e = .ok r'.ents := by
        intro x h1 h2
        rw [h1] at h2
        obtain ⟨en, h3, h2⟩ := bind_eq_ok.1 h2
        obtain ⟨_, _, h2⟩ := bind_eq_ok.1 h2
        cases h2
        exact h3
      split at hr
      · obtain ⟨_, _, hr⟩ := bind_eq_ok.1 hr
        obtain ⟨_, _, hr⟩ := bind_eq_ok.1 hr
        exact hd rfl hr
      · exact hd rfl hr
    · show ((live (resEntHistory h)).erase e).Perm (((resContents h).eraseP _).map _)
      rw [map_fst_eraseP]
      exact i2.erase e
  | @assign h r r' old e new hx hr he ih =>
    obtain ⟨i1, i2⟩ := ih hb
    obtain ⟨hm, _⟩ := (res_exec_inv hx hb).1.assign hr (keep hx hb he)
    refine ⟨?_, i2.trans ?_⟩
    · have hd : ∀ {x : Res (ResStore α × α)}, x = (do
          let old ← Raw.read r.elements e.id
          let elements ← Raw.write r.elements e.id new
          return ({ r with elements := elements }, old)) → x = .ok (r', old) → r'.ents = r.ents := by
        intro x h1 h2
        rw [h1] at h2
        obtain ⟨_, _, h2⟩ := bind_eq_ok.1 h2
        obtain ⟨_, _, h2⟩ := bind_eq_ok.1 h2
        cases h2
        rfl
      have : r'.ents = r.ents := by
        unfold ResStore.assign at hr
        split at hr
        · obtain ⟨_, _, hr⟩ := bind_eq_ok.1 hr
          obtain ⟨_, _, hr⟩ := bind_eq_ok.1 hr
          exact hd rfl hr
        · exact hd rfl hr
      rw [this]
      exact i1
    · show ((resContents h).map _).Perm (e :: ((resContents h).eraseP _).map _)
      rw [map_fst_eraseP]
      exact List.perm_cons_erase (List.mem_map.2 ⟨_, hm, rfl⟩)

theorem res_create_next {cap : Nat} {h : List (ResEvent α)} {r r' : ResStore α} {v : α} {e : Entity} (hx : ResExec dbg cap h r)
    (hr : r.create dbg v = .ok (r', e)) (hb : dbg = true ∨ (resIssued h).length + 1 < u32Size) :
    e = nextHandle (resEntHistory h) := by
  have h1 := (res_ents hx (hb.imp id (fun h => by omega))).1
  obtain ⟨cr, h2, rfl⟩ := res_create_ents hr
  exact create_next h1 h2 (by rw [issued_resEntHistory]; exact hb)

/-! ### The order in which the values are dropped -/

theorem ResInv.dropLoop_sorted {r : ResStore α} {I : List Entity} {m : List (Entity × α)} (h : ResInv r I m)
    (is : List Nat) (his : ∀ i ∈ is, i < r.ents.capacity) :
    ∃ l : List (Entity × α), r.dropLoop is = .ok (l.map (·.2)) ∧
      l.map (·.1.id) = is.filter (fun i => r.ents.aliveBits.bit i) ∧ ∀ p ∈ l, p ∈ m := by
  induction is with
  | nil => exact ⟨[], rfl, rfl, by simp⟩
  | cons i is ih =>
    obtain ⟨l, h1, h2, h3⟩ := ih (fun j hj => his j (List.mem_cons_of_mem _ hj))
    have hi := his i (List.mem_cons_self)
    have hb : i / 32 < r.ents.aliveBits.length := by rw [h.ents.blen]; exact Words.div_lt_getLen hi
    unfold ResStore.dropLoop Ents.isAliveAtIndex
    rw [Words.isOn_of_lt hb]
    simp only [ok_bind]
    cases hbit : r.ents.aliveBits.bit i
    · exact ⟨l, by simp [h1], by simp [hbit, h2], h3⟩
    · obtain ⟨e, he, hid⟩ := List.mem_map.1 ((h.ents.bits i).1 hbit)
      obtain ⟨p, hp, hpe⟩ := List.mem_map.1 he
      have hv := h.vals p hp
      rw [hpe, hid] at hv
      refine ⟨p :: l, by simp [h1, Raw.read_of_some hv], ?_, ?_⟩
      · simp [hbit, h2, hpe, hid]
      · intro q hq
        rcases List.mem_cons.1 hq with rfl | hq
        · exact hp
        · exact h3 q hq

theorem ResInv.drop_sorted {r : ResStore α} {I : List Entity} {m : List (Entity × α)} (h : ResInv r I m) :
    ∃ l : List (Entity × α), r.drop = .ok (l.map (·.2)) ∧ l.Pairwise (fun p q => p.1.id < q.1.id) ∧ ∀ p, p ∈ l ↔ p ∈ m := by
  obtain ⟨l, h1, h2, h3⟩ := h.dropLoop_sorted (List.range r.ents.capacity) (by simp)
  refine ⟨l, ?_, ?_, fun p => ⟨h3 p, fun hp => ?_⟩⟩
  · unfold ResStore.drop Ents.drop Words.dealloc Raw.dealloc
    rw [h1]; simp [h.ents.blen, h.ents.vlen]
  · have := (List.pairwise_lt_range (n := r.ents.capacity)).filter (fun i => r.ents.aliveBits.bit i)
    rw [← h2, List.pairwise_map] at this
    exact this
  · have hm : p.1 ∈ m.map (·.1) := List.mem_map.2 ⟨p, hp, rfl⟩
    have : p.1.id ∈ l.map (·.1.id) := by
      rw [h2, List.mem_filter, List.mem_range]
      exact ⟨h.ents.id_lt hm, (h.ents.bits _).2 (List.mem_map.2 ⟨_, hm, rfl⟩)⟩
    obtain ⟨q, hq, hid⟩ := List.mem_map.1 this
    have hqm := h3 q hq
    have he := h.ents.eq_of_id (List.mem_map.2 ⟨q, hqm, rfl⟩) hm hid
    have v1 := h.vals q hqm
    rw [he, h.vals p hp] at v1
    have : q = p := Prod.ext he (by simpa using v1.symm)
    exact this ▸ hq

/-- Only one list is in the order of the ids and has the given members. -/
theorem sorted_unique {l l' : List (Entity × α)} (h1 : l.Pairwise (fun p q => p.1.id < q.1.id))
    (h2 : l'.Pairwise (fun p q => p.1.id < q.1.id)) (hm : ∀ p, p ∈ l ↔ p ∈ l') : l = l' := by
  have n1 : l.Nodup := h1.imp (fun h he => by rw [he] at h; exact Nat.lt_irrefl _ h)
  have n2 : l'.Nodup := h2.imp (fun h he => by rw [he] at h; exact Nat.lt_irrefl _ h)
  exact ((List.perm_ext_iff_of_nodup n1 n2).2 hm).eq_of_pairwise (le := fun p q => p.1.id < q.1.id)
    (fun a b _ _ h h' => absurd h (Nat.lt_asymm h')) h1 h2

end Ecs
