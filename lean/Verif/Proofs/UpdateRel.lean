import Verif.Proofs.Update
import Verif.Proofs.RelCalls
import Verif.Spec.InOrder
import Verif.Spec.Update

/-! Loops that write through query references, on a store that represents a world: a sequence of assignments. -/

namespace Ecs
open Spec

section
variable {U : Universe} {dbg : Bool}

theorem worldFrom_append (w : World) (k : List Event) (ev : Event) : worldFrom w (k ++ [ev]) = worldFrom (w.apply ev) k := by
  induction k with
  | nil => rfl
  | cons x k ih => simp only [List.cons_append, worldFrom, ih]

theorem worldFrom_world (h k : List Event) : worldFrom (world h) k = world (k ++ h) := by
  induction k with
  | nil => rfl
  | cons x k ih => simp only [List.cons_append, worldFrom, world, ih]

/-- One call before an execution. -/
theorem Spec.ExecFrom.head {s s1 s' : Store} {w : World} {ev : Event} {k : List Event}
    (hx : ExecFrom U dbg s1 (w.apply ev) k s') (ha : Allowed U w ev)
    (hn : ∀ T, needs w ev = some T → s.archs.CanHold U dbg T) (hd : Does U dbg s ev s1) :
    ExecFrom U dbg s w (k ++ [ev]) s' := by
  induction hx with
  | init => exact .step ev .init ha hn hd
  | step x _ h1 h2 h3 ih =>
    rw [← worldFrom_append] at h1 h2
    exact .step x ih h1 h2 h3

/-- An execution continued. -/
theorem Spec.ExecFrom.exec {cap : Nat} {h k : List Event} {s s' : Store} (hx : Exec U dbg cap h s)
    (hk : ExecFrom U dbg s (world h) k s') : Exec U dbg cap (k ++ h) s' := by
  induction hk with
  | init => exact hx
  | step x _ h1 h2 h3 ih =>
    rw [worldFrom_world] at h1 h2
    exact .step x ih h1 h2 h3

theorem Spec.Gives.unzip {ts : List TypeId} {vs : List (List UInt8)} (h : Gives U ts vs) :
    (ts.zip vs).map (·.1) = ts ∧ (ts.zip vs).map (·.2) = vs ∧ ∀ p ∈ ts.zip vs, p.2.length = U.size p.1 := by
  induction h with
  | nil => simp
  | cons h1 h2 ih =>
    obtain ⟨h3, h4, h5⟩ := ih
    refine ⟨by simp [h3], by simp [h4], ?_⟩
    intro p hp
    rw [List.zip_cons_cons, List.mem_cons] at hp
    obtain rfl | hp := hp
    · exact h1
    · exact h5 p hp

theorem access_types_eq (acc : Access) : acc.types = acc.reads ++ acc.writes := by
  cases acc <;> simp [Access.types, Access.reads, Access.writes]

theorem update_fold {acc : Access} (hd : acc.types.Nodup) (hne : acc.types ≠ [])
    {f : Entity → List (List Cell) → List (List UInt8)} (hf : ∀ e vs, Gives U acc.writes (f e vs))
    (items : List (Entity × List Ref)) {w : World} {s : Store} (hr : Rel U dbg s w)
    (hn : (items.map (·.1)).Nodup)
    (hi : ∀ x ∈ items, x.1 ∈ w.issued ∧ s.getComponentsRefs U dbg x.1 acc.types = .ok (some x.2)) :
    ∃ s' k, items.foldlM (fun s a => updateItem acc.reads.length (f a.1) s a.2) s = .ok s' ∧
      ExecFrom U dbg s w k s' ∧ (∀ ev ∈ k, ∃ e vals, ev = .assigned e vals) ∧
      Updated U dbg s s' w.issued acc f (items.map (·.1)) ∧ SameGroups s s' w.live := by
  induction items generalizing w s with
  | nil =>
    refine ⟨s, [], rfl, .init, by simp, ⟨by simp, fun x _ _ => ⟨rfl, rfl, fun _ _ => rfl⟩⟩, ?_⟩
    exact ⟨fun _ _ => ⟨fun _ => rfl, fun _ => ⟨rfl, rfl⟩⟩, fun _ => ⟨rfl, rfl⟩⟩
  | cons x items ih =>
    obtain ⟨e, refs⟩ := x
    rw [List.map_cons, List.nodup_cons] at hn
    obtain ⟨he, hrefs⟩ := hi (e, refs) (by simp)
    dsimp only at he hrefs
    have hread := hr.agrees.read e he acc.types hne
    obtain ⟨vs, hvs⟩ : ∃ vs, refs.mapM (readRef s.archs.pages) = .ok vs := by
      unfold Store.getComponents at hread
      simp only [hrefs, ok_bind] at hread
      obtain ⟨vs, h1, _⟩ := bind_eq_ok.1 hread
      exact ⟨vs, h1⟩
    have hget : s.getComponents U dbg e acc.types = .ok (some vs) := by
      unfold Store.getComponents
      simp only [hrefs, ok_bind, hvs]
      rfl
    obtain ⟨z1, z2, z3⟩ := (hf e vs).unzip
    have hok : TupleOk U (acc.writes.zip (f e vs)) :=
      ⟨by rw [z1]; rw [access_types_eq] at hd; exact (List.nodup_append.1 hd).2.1, z3⟩
    obtain ⟨s1, b, k1, k2, k3, k4, k5, k6, k7, k8, k9⟩ := hr.writes_local he hok
    rw [z1] at k2 k3 k6
    rw [show (acc.writes.zip (f e vs)).map (fun x => x.2.map some) = ((acc.writes.zip (f e vs)).map (·.2)).map (·.map some) by
      rw [List.map_map]; rfl, z2] at k3
    have hw : s.getComponentsRefs U dbg e acc.writes = .ok (some (refs.drop acc.reads.length)) := by
      rw [access_types_eq] at hrefs
      exact Store.getComponentsRefs_drop hrefs
    have hb : b = true := k2.2 ⟨_, hw⟩
    subst hb
    have hupd : updateItem acc.reads.length (f e) s refs = .ok s1 := by
      unfold Store.setComponents at k1
      rw [z1, hw] at k1
      simp only [ok_bind] at k1
      obtain ⟨pages, g1, g2⟩ := bind_eq_ok.1 k1
      rw [z2] at g1
      unfold updateItem
      simp only [hvs, ok_bind, g1]
      cases g2
      rfl
    have hal : Allowed U w (.assigned e (acc.writes.zip (f e vs))) := ⟨he, hok⟩
    have hno : ∀ T, needs w (.assigned e (acc.writes.zip (f e vs))) = some T → s.archs.CanHold U dbg T := fun T hT => by cases hT
    have hdo : Does U dbg s (.assigned e (acc.writes.zip (f e vs))) s1 := ⟨⟨_, k1⟩, trivial⟩
    have hr1 := hr.step hal hno hdo
    have hiss : (w.apply (.assigned e (acc.writes.zip (f e vs)))).issued = w.issued := by
      simp only [World.apply]; split <;> rfl
    have hliv : (w.apply (.assigned e (acc.writes.zip (f e vs)))).live = w.live := by
      simp only [World.apply]; split <;> rfl
    obtain ⟨pages, hs1, hpl⟩ := updateItem_pages hupd
    obtain ⟨s', k, f1, f2, f3, ⟨f4, f5⟩, f6⟩ := ih hr1 hn.2 (fun x hxm => by
      obtain ⟨g1, g2⟩ := hi x (by simp [hxm])
      exact ⟨by rw [hiss]; exact g1, by rw [hs1]; exact Store.getComponentsRefs_setPages hpl _ _ g2⟩)
    rw [hiss] at f5
    rw [hliv] at f6
    have se : SameData U dbg s1 s' e := f5 e he hn.1
    refine ⟨s', k ++ [.assigned e (acc.writes.zip (f e vs))], ?_, f2.head hal hno hdo, ?_, ⟨?_, ?_⟩, ?_⟩
    · rw [List.foldlM_cons]
      dsimp only
      rw [hupd]
      exact f1
    · intro ev hev
      rw [List.mem_append, List.mem_singleton] at hev
      obtain hev | rfl := hev
      · exact f3 ev hev
      · exact ⟨_, _, rfl⟩
    · intro x hxm
      rw [List.map_cons, List.mem_cons] at hxm
      obtain rfl | hxm := hxm
      · refine ⟨vs, hget, fun hwn => ?_, fun t ht => ?_, ?_, ?_⟩
        · rw [se.2.2 _ hwn]; exact k3 rfl
        · rw [se.2.2 _ (by simp)]; exact k6 t ht
        · rw [se.1, k8]
        · rw [se.2.1, k7]
      · obtain ⟨vs', g1, g2, g3, g4, g5⟩ := f4 x hxm
        have hxe : x ≠ e := fun h0 => hn.1 (h0 ▸ hxm)
        obtain ⟨y, hy, rfl⟩ := List.mem_map.1 hxm
        have sx := k5 y.1 (hi y (by simp [hy])).1 hxe
        exact ⟨vs', by rw [← sx.2.2 _ hne]; exact g1, g2, fun t ht => by rw [g3 t ht]; exact sx.2.2 _ (by simp),
          by rw [g4, sx.1], by rw [g5, sx.2.1]⟩
    · intro x hxk hxm
      rw [List.map_cons, List.mem_cons, not_or] at hxm
      have a1 := k5 x hxk hxm.1
      have a2 := f5 x hxk hxm.2
      exact ⟨by rw [a2.1, a1.1], by rw [a2.2.1, a1.2.1], fun ts ht => by rw [a2.2.2 ts ht, a1.2.2 ts ht]⟩
    · exact ⟨fun x hxa => ⟨fun tag => by rw [(f6.1 x hxa).1, (k9.1 x hxa).1],
        fun g => ⟨by rw [((f6.1 x hxa).2 g).1, ((k9.1 x hxa).2 g).1], by rw [((f6.1 x hxa).2 g).2, ((k9.1 x hxa).2 g).2]⟩⟩,
        fun g => ⟨by rw [(f6.2 g).1, (k9.2 g).1], by rw [(f6.2 g).2, (k9.2 g).2]⟩⟩

end
end Ecs
