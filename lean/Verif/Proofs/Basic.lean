import Verif.Model.Mem

/-! Elementary lemmas about the result monad and buffers. -/

namespace Ecs

variable {α β : Type}

@[simp] theorem ok_bind (a : α) (f : α → Res β) : ((Except.ok a : Res α) >>= f) = f a := rfl
@[simp] theorem error_bind (e : Fault) (f : α → Res β) :
    ((Except.error e : Res α) >>= f) = .error e := rfl
@[simp] theorem pure_ok (a : α) : (pure a : Res α) = .ok a := rfl
@[simp] theorem throw_err (e : Fault) : (throw e : Res α) = .error e := rfl

theorem bind_eq_ok {x : Res α} {f : α → Res β} {b : β} :
    (x >>= f) = .ok b ↔ ∃ a, x = .ok a ∧ f a = .ok b := by
  cases x with
  | error e => simp
  | ok a => simp

theorem dassert_ok {dbg c : Bool} : dassert dbg c = .ok () ↔ (dbg = true → c = true) := by
  cases dbg <;> cases c <;> simp [dassert]

@[simp] theorem dassert_true (dbg : Bool) : dassert dbg true = .ok () := by
  cases dbg <;> rfl
@[simp] theorem dassert_false_mode (c : Bool) : dassert false c = .ok () := rfl
@[simp] theorem rassert_true : rassert true = .ok () := rfl
@[simp] theorem rassert_false : rassert false = .error (.panic .assertFailed) := rfl

theorem rassert_ok {c : Bool} : rassert c = .ok () ↔ c = true := by
  cases c <;> simp

theorem idx_ok {l : List α} {i : Nat} {a : α} : idx l i = .ok a ↔ l[i]? = some a := by
  unfold idx; split <;> simp_all

theorem idxUnchecked_ok {l : List α} {i : Nat} {a : α} :
    idxUnchecked l i = .ok a ↔ l[i]? = some a := by
  unfold idxUnchecked; split <;> simp_all

theorem idx_of_some {l : List α} {i : Nat} {a : α} (h : l[i]? = some a) : idx l i = .ok a :=
  idx_ok.2 h
theorem idxUnchecked_of_some {l : List α} {i : Nat} {a : α} (h : l[i]? = some a) :
    idxUnchecked l i = .ok a := idxUnchecked_ok.2 h

namespace Raw

theorem read_ok {a : Raw α} {i : Nat} {x : α} : Raw.read a i = .ok x ↔ a[i]? = some (some x) := by
  unfold Raw.read; split <;> simp_all

theorem write_ok {a a' : Raw α} {i : Nat} {x : α} :
    Raw.write a i x = .ok a' ↔ i < a.length ∧ a' = a.set i (some x) := by
  unfold Raw.write; split <;> simp_all [eq_comm]; intro h; omega

theorem write_of_lt {a : Raw α} {i : Nat} (x : α) (h : i < a.length) :
    Raw.write a i x = .ok (a.set i (some x)) := by simp [Raw.write, h]

theorem read_of_some {a : Raw α} {i : Nat} {x : α} (h : a[i]? = some (some x)) :
    Raw.read a i = .ok x := read_ok.2 h

theorem realloc_of {a : Raw α} {o n : Nat} (hl : a.length = o) (h : o ≤ n) :
    Raw.realloc a o n = .ok (a ++ List.replicate (n - o) none) := by
  unfold Raw.realloc
  by_cases hn : o = n
  · subst hn; simp
  · have h1 : ¬ n < o := by omega
    subst hl
    simp [hn, h1, Raw.dealloc]

theorem reallocZeroing_of {a : Raw α} (z : α) {o n : Nat} (hl : a.length = o) (h : o ≤ n) :
    Raw.reallocZeroing z a o n = .ok (a ++ List.replicate (n - o) (some z)) := by
  unfold Raw.reallocZeroing
  have h1 : ¬ n < o := by omega
  subst hl
  simp [h1, Raw.dealloc]

end Raw

theorem mapM_ok_cons {f : α → Res β} {a : α} {l : List α} :
    (a :: l).mapM f = (do let b ← f a; let bs ← l.mapM f; .ok (b :: bs)) := by
  rw [List.mapM_cons]; rfl

/-- `mapM` over a list when every element succeeds. -/
theorem mapM_of_forall {f : α → Res β} {g : α → β} {l : List α} (h : ∀ a ∈ l, f a = .ok (g a)) :
    l.mapM f = .ok (l.map g) := by
  induction l with
  | nil => rfl
  | cons a l ih =>
    rw [mapM_ok_cons, h a (by simp), ih (fun b hb => h b (by simp [hb]))]
    rfl

theorem mapM_eq_ok_length {f : α → Res β} {l : List α} {r : List β} (h : l.mapM f = .ok r) :
    r.length = l.length := by
  induction l generalizing r with
  | nil => cases h; rfl
  | cons a l ih =>
    rw [mapM_ok_cons] at h
    obtain ⟨b, _, h⟩ := bind_eq_ok.1 h
    obtain ⟨bs, hb, h⟩ := bind_eq_ok.1 h
    cases h
    simp [ih hb]

theorem mapM_eq_ok_getElem? {f : α → Res β} {l : List α} {r : List β} (h : l.mapM f = .ok r)
    {i : Nat} {a : α} (hi : l[i]? = some a) : ∃ b, r[i]? = some b ∧ f a = .ok b := by
  induction l generalizing r i with
  | nil => simp at hi
  | cons x l ih =>
    rw [mapM_ok_cons] at h
    obtain ⟨b, hb, h⟩ := bind_eq_ok.1 h
    obtain ⟨bs, hbs, h⟩ := bind_eq_ok.1 h
    cases h
    cases i with
    | zero => simp at hi; subst hi; exact ⟨b, by simp, hb⟩
    | succ i => simpa using ih hbs (by simpa using hi)

end Ecs
