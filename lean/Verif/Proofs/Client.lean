import Verif.Props.Update
import Verif.Props.Components
import Verif.Props.Alloc
import Verif.Props.QueryCompAny
import Verif.Spec.Client

/-! Proofs for C89: each call of a program is answered as by the reference implementation. -/

namespace Ecs
open Spec Props

section
variable {U : Universe} {dbg : Bool} {cap : Nat} {h : List Event} {s : Store}

/-- Calls that need no room keep a safe execution safe. -/
theorem Spec.ExecFrom.safe {k : List Event} {s' : Store} (hx : SafeExec U dbg cap h s)
    (hk : ExecFrom U dbg s (world h) k s') (hn : ∀ ev ∈ k, ∃ e vals, ev = .assigned e vals) :
    SafeExec U dbg cap (k ++ h) s' := by
  induction hk with
  | init => exact hx
  | step x _ h1 h2 h3 ih =>
    rw [worldFrom_world] at h1 h2
    refine .step x (ih fun ev hev => hn ev (List.mem_cons_of_mem _ hev)) h1 ?_ h3
    obtain ⟨e, vals, rfl⟩ := hn x List.mem_cons_self
    intro T hT
    cases hT

theorem eligible_mapM {acc : Access} {e : Entity} (he : Eligible h acc e) (ts : List TypeId) (hts : ∀ t ∈ ts, t ∈ acc.types) :
    ts.mapM ((world h).get e) = some (valuesOf h ts e) := by
  have hal := he.1
  rw [alive_eq] at hal
  induction ts with
  | nil => rfl
  | cons t ts ih =>
    rw [List.mapM_cons, ih fun t ht => hts t (List.mem_cons_of_mem _ ht)]
    have : (world h).get e t = some ((world h).value e t) := if_pos ⟨hal, he.2.2 t (hts t List.mem_cons_self)⟩
    rw [this]
    rfl

/-- Reading the references of an entity that a query visits. -/
theorem read_item (hx : Exec U dbg cap h s) {acc : Access} (hne : acc.types ≠ []) {e : Entity} {refs : List Ref}
    (he : Eligible h acc e) (hrefs : s.getComponentsRefs U dbg e acc.types = .ok (some refs)) :
    refs.mapM (readRef s.archs.pages) = .ok (valuesOf h acc.types e) := by
  have hr := exec_rel hx
  have hal := he.1
  rw [alive_eq] at hal
  have hread := hr.agrees.read e (hr.ents.sub _ hal) acc.types hne
  rw [eligible_mapM he _ fun _ ht => ht] at hread
  unfold Store.getComponents at hread
  simp only [hrefs, ok_bind] at hread
  obtain ⟨vs, h1, h2⟩ := bind_eq_ok.1 hread
  cases h2
  exact h1

theorem read_rows (hx : Exec U dbg cap h s) {acc : Access} (hne : acc.types ≠ []) {items : List (Entity × List Ref)}
    (he : ∀ x ∈ items, Eligible h acc x.1) (hrefs : ∀ x ∈ items, s.getComponentsRefs U dbg x.1 acc.types = .ok (some x.2)) :
    readRows s.archs.pages items = .ok ((items.map (·.1)).map fun e => (e, valuesOf h acc.types e)) := by
  unfold readRows
  induction items with
  | nil => rfl
  | cons x items ih =>
    rw [List.mapM_cons, ih (fun y hy => he y (List.mem_cons_of_mem _ hy)) (fun y hy => hrefs y (List.mem_cons_of_mem _ hy)),
      read_item hx hne (he x List.mem_cons_self) (hrefs x List.mem_cons_self)]
    rfl

theorem read_items (hx : Exec U dbg cap h s) {acc : Access} (hne : acc.types ≠ []) {L : List Entity} {items : List (List Ref)}
    (he : ∀ e ∈ L, Eligible h acc e)
    (hrefs : List.Forall₂ (fun e refs => s.getComponentsRefs U dbg e acc.types = .ok (some refs)) L items) :
    (items.mapM fun refs => refs.mapM (readRef s.archs.pages)) = .ok (L.map (valuesOf h acc.types)) := by
  induction hrefs with
  | nil => rfl
  | @cons e refs L items h1 h2 ih =>
    rw [List.mapM_cons, ih (fun y hy => he y (List.mem_cons_of_mem _ hy)), read_item hx hne (he e List.mem_cons_self) h1]
    rfl

/-- The loop of an update is the list of assignments of `assignments`. -/
theorem update_events {acc : Access} (hd : acc.types.Nodup) (hne : acc.types ≠ [])
    {f : Entity → List (List Cell) → List (List UInt8)} (hf : ∀ e vs, Gives U acc.writes (f e vs))
    (items : List (Entity × List Ref)) {w : World} {s : Store} (hr : Rel U dbg s w)
    (hn : (items.map (·.1)).Nodup)
    (hl : ∀ x ∈ items, x.1 ∈ w.live ∧ ∀ t ∈ acc.types, t ∈ w.types x.1)
    (hi : ∀ x ∈ items, s.getComponentsRefs U dbg x.1 acc.types = .ok (some x.2)) :
    ∃ s', items.foldlM (fun s a => updateItem acc.reads.length (f a.1) s a.2) s = .ok s' ∧
      ExecFrom U dbg s w
        ((items.map (·.1)).map fun e => Event.assigned e (acc.writes.zip (f e (acc.types.map (w.value e))))).reverse s' := by
  induction items generalizing w s with
  | nil => exact ⟨s, rfl, .init⟩
  | cons x items ih =>
    obtain ⟨e, refs⟩ := x
    rw [List.map_cons, List.nodup_cons] at hn
    have hrefs := hi (e, refs) List.mem_cons_self
    have hel := hl (e, refs) List.mem_cons_self
    dsimp only at hel hrefs
    have he := hr.ents.sub _ hel.1
    have hread := hr.agrees.read e he acc.types hne
    have hm : ∀ ts : List TypeId, (∀ t ∈ ts, t ∈ acc.types) → ts.mapM (w.get e) = some (ts.map (w.value e)) := by
      intro ts hts
      induction ts with
      | nil => rfl
      | cons t ts ih =>
        rw [List.mapM_cons, ih fun t ht => hts t (List.mem_cons_of_mem _ ht)]
        have : w.get e t = some (w.value e t) := if_pos ⟨hel.1, hel.2 t (hts t List.mem_cons_self)⟩
        rw [this]
        rfl
    rw [hm _ fun _ ht => ht] at hread
    generalize hvs' : acc.types.map (w.value e) = vs at hread
    have hvs : refs.mapM (readRef s.archs.pages) = .ok vs := by
      unfold Store.getComponents at hread
      simp only [hrefs, ok_bind] at hread
      obtain ⟨vs, h1, h2⟩ := bind_eq_ok.1 hread
      cases h2
      exact h1
    obtain ⟨z1, z2, z3⟩ := (hf e vs).unzip
    have hok : TupleOk U (acc.writes.zip (f e vs)) :=
      ⟨by rw [z1]; rw [access_types_eq] at hd; exact (List.nodup_append.1 hd).2.1, z3⟩
    obtain ⟨s1, b, k1, k2, _⟩ := hr.writes_local he hok
    rw [z1] at k2
    have hw : s.getComponentsRefs U dbg e acc.writes = .ok (some (refs.drop acc.reads.length)) := by
      rw [access_types_eq] at hrefs
      exact Store.getComponentsRefs_drop hrefs
    have hb : b = true := k2.2 ⟨_, hw⟩
    subst hb
    have hupd : updateItem acc.reads.length (f e) s refs = .ok s1 := by
      unfold Store.setComponents at k1
      rw [z1, hw] at k1
      simp only [ok_bind] at k1
      obtain ⟨pages, g1, g2⟩ := bind_eq_ok.1 k1
      rw [z2] at g1
      unfold updateItem
      simp only [hvs, ok_bind, g1]
      cases g2
      rfl
    have hal : Allowed U w (.assigned e (acc.writes.zip (f e vs))) := ⟨he, hok⟩
    have hno : ∀ T, needs w (.assigned e (acc.writes.zip (f e vs))) = some T → s.archs.CanHold U dbg T := fun T hT => by cases hT
    have hdo : Does U dbg s (.assigned e (acc.writes.zip (f e vs))) s1 := ⟨⟨_, k1⟩, trivial⟩
    have hr1 := hr.step hal hno hdo
    obtain ⟨w1, w2, w3⟩ : (w.apply (.assigned e (acc.writes.zip (f e vs)))).live = w.live ∧
        (w.apply (.assigned e (acc.writes.zip (f e vs)))).types = w.types ∧
        ∀ x, x ≠ e → (w.apply (.assigned e (acc.writes.zip (f e vs)))).value x = w.value x := by
      simp only [World.apply]
      split
      · exact ⟨rfl, rfl, fun x hx => by simp [at', hx]⟩
      · exact ⟨rfl, rfl, fun _ _ => rfl⟩
    obtain ⟨pages, hs1, hpl⟩ := updateItem_pages hupd
    obtain ⟨s', f1, f2⟩ := ih hr1 hn.2
      (fun x hxm => by rw [w1, w2]; exact hl x (List.mem_cons_of_mem _ hxm))
      (fun x hxm => by rw [hs1]; exact Store.getComponentsRefs_setPages hpl _ _ (hi x (List.mem_cons_of_mem _ hxm)))
    refine ⟨s', ?_, ?_⟩
    · rw [List.foldlM_cons]
      dsimp only
      rw [hupd]
      exact f1
    · rw [List.map_cons, List.map_cons, List.reverse_cons, hvs']
      have heq : ((items.map (·.1)).map fun x => Event.assigned x (acc.writes.zip (f x (acc.types.map (w.value x))))) =
          (items.map (·.1)).map fun x => Event.assigned x (acc.writes.zip (f x (acc.types.map
            ((w.apply (.assigned e (acc.writes.zip (f e vs)))).value x)))) := by
        refine List.map_congr_left fun x hxm => ?_
        rw [w3 x (by rintro rfl; exact hn.1 hxm)]
      rw [heq]
      exact f2.head hal hno hdo

/-- The calls that do not create. -/
theorem safe_call (hx : SafeExec U dbg cap h s) {ev : Event} (hc : isCreation ev = false) (hp : Permits U dbg h ev) :
    ∃ s', Does U dbg s ev s' ∧ SafeExec U dbg cap (ev :: h) s' :=
  (C46_safe_calls_return_partial hx).1 ev hc hp.1 hp.2

theorem matching_mem {acc : Access} {L : List Entity} {e : Entity} (he : e ∈ matching h acc L) : e ∈ L ∧ Eligible h acc e :=
  ⟨(List.mem_filter.1 he).1, of_decide_eq_true (List.mem_filter.1 he).2⟩

/-- The items of a component query. -/
theorem query_items (hx : Exec U dbg cap h s) {acc : Access} (hd : DistinctTypes acc) {fuel : Nat}
    (hf : (alive h).length < fuel) :
    ∃ items, runComponentQueryWithEntities U dbg s acc [] fuel = .ok items ∧
      (items.map (·.1)).Perm (matching h acc (alive h)) ∧ (items.map (·.1)).Nodup ∧
      (∀ x ∈ items, Eligible h acc x.1) ∧ ∀ x ∈ items, s.getComponentsRefs U dbg x.1 acc.types = .ok (some x.2) := by
  have hr := exec_rel hx
  obtain ⟨items, h1, _, h3, h4, h5⟩ := C31_visits_once_partial hx.loose hd [] hf
  have key : ∀ e, e ∈ items.map (·.1) ↔ e ∈ matching h acc (alive h) := by
    intro e
    rw [h4 e, matching, List.mem_filter, decide_eq_true_eq]
    constructor
    · rintro ⟨hal, a, ha, hall⟩
      refine ⟨hal, hal, ?_⟩
      have hl := hal
      rw [alive_eq] at hl
      have hag := hr.agrees.arch e (hr.ents.sub _ hl)
      split at hag
      · rename_i hc
        obtain ⟨a', ha', hids⟩ := hag
        rw [ha] at ha'
        cases ha'
        exact ⟨hc.2, fun t ht => (hids t).1 (hall t ht)⟩
      · rw [ha] at hag
        cases hag
    · rintro ⟨hal, _, hty, hall⟩
      refine ⟨hal, ?_⟩
      have hl := hal
      rw [alive_eq] at hl
      have hag := hr.agrees.arch e (hr.ents.sub _ hl)
      rw [if_pos ⟨hl, hty⟩] at hag
      obtain ⟨a, ha, hids⟩ := hag
      exact ⟨a, ha, fun t ht => (hids t).2 (hall t ht)⟩
  refine ⟨items, h1, ?_, h3, fun x hxm => ?_, h5⟩
  · refine (List.perm_ext_iff_of_nodup h3 ?_).2 key
    refine List.Nodup.filter _ ?_
    rw [alive_eq]
    exact List.Nodup.of_map _ (List.nodup_append.1 hr.ents.nodup).1
  · exact (matching_mem ((key x.1).1 (List.mem_map_of_mem hxm))).2

/-- An update loop over `items`. -/
theorem update_safe (hx : SafeExec U dbg cap h s) {acc : Access} (hd : acc.types.Nodup) (hne : acc.types ≠ [])
    {f : Entity → List (List Cell) → List (List UInt8)} (hf : ∀ e vs, Gives U acc.writes (f e vs))
    {items : List (Entity × List Ref)} (hn : (items.map (·.1)).Nodup) (he : ∀ x ∈ items, Eligible h acc x.1)
    (hi : ∀ x ∈ items, s.getComponentsRefs U dbg x.1 acc.types = .ok (some x.2)) :
    ∃ s', items.foldlM (fun s a => updateItem acc.reads.length (f a.1) s a.2) s = .ok s' ∧
      SafeExec U dbg cap (assignments h acc f (items.map (·.1)) ++ h) s' := by
  obtain ⟨s', h1, h2⟩ := update_events hd hne hf items (exec_rel hx.exec) hn
    (fun x hxm => ⟨by rw [← alive_eq]; exact (he x hxm).1, (he x hxm).2.2⟩) hi
  refine ⟨s', h1, h2.safe hx fun ev hev => ?_⟩
  rw [assignments, List.mem_reverse] at hev
  obtain ⟨e, _, rfl⟩ := List.mem_map.1 hev
  exact ⟨_, _, rfl⟩

/-- Every fine call is answered as by the reference implementation. -/
theorem serve_serves (hx : SafeExec U dbg cap h s) {fuel : Nat} (ha : (alive h).length < fuel)
    (hs : ∀ g, (sequence g h).length < fuel) {ask : Ask} (hf : Fine U dbg cap h ask) :
    ∃ s' a h', serve U dbg fuel s ask = .ok (s', a) ∧ Serves h ask a h' ∧ SafeExec U dbg cap h' s' := by
  have hr := exec_rel hx.exec
  have hag := hr.agrees
  have hal : (world h).live = alive h := (alive_eq h).symm
  have hha : (world h).issued = handles h := (handles_eq h).symm
  have hsq : ∀ g, (world h).order g = sequence g h := fun g => (sequence_eq g h).symm
  have hsub : ∀ e ∈ alive h, e ∈ handles h := fun e he => by
    rw [← hha]; rw [← hal] at he; exact hr.ents.sub _ he
  cases ask with
  | create =>
    obtain ⟨s', e, _, ⟨h2, _⟩, h3⟩ := ((C46_safe_calls_return_partial hx).2 hf).1
    have he : e = newHandle h := (C57_handle_is_determined hx.exec.loose hf).1 s' e h2
    subst he
    exact ⟨s', _, _, by simp only [serve, show s.createEntity dbg = .ok (s', newHandle h) from h2, ok_bind]; rfl, .create, h3⟩
  | createWith a =>
    obtain ⟨hb, hbu, hta⟩ := hf
    have hfit : s.archs.CanHold U dbg a.ids := target_canHold hr.places hr.regs hta
    obtain ⟨s', e, v, h1, h2, h3⟩ := hr.createdWith (by rw [hha]; exact hb) hbu.wf (hfit.fits hbu.wf (fun _ => Iff.rfl))
    have he : e = newHandle h := (C57_handle_is_determined hx.exec.loose hb).2 a s' e h1
    subst he
    refine ⟨s', _, _, by simp only [serve, h1, ok_bind]; rfl, .createWith a v,
      .step _ hx (by simp only [Allowed, hha]; exact hb) (fun T hT => by cases hT; exact hta) ⟨⟨a, hbu, rfl, h1⟩, ?_⟩⟩
    intro t ht
    have hl : newHandle h ∈ ((world h).apply (.createdWith (newHandle h) a.ids v)).live := by
      simp [World.apply, World.setTypes, World.birth]
    have hT : ((world h).apply (.createdWith (newHandle h) a.ids v)).types (newHandle h) = a.ids := by
      simp [World.apply, World.setTypes, at']
    rw [h3.getComponents (h3.ents.id_lt hl), hT, if_pos]
    · simp [World.apply, at']
    · exact ⟨hl, hbu.wf.ne, fun t' ht' => by rw [List.mem_singleton.1 ht']; exact ht⟩
  | destroy e =>
    obtain ⟨s', h1, h2⟩ := safe_call hx (ev := .destroyed e) rfl ⟨by simp only [Allowed, hal]; exact hf, fun T hT => by cases hT⟩
    exact ⟨s', _, _, by simp only [serve, show s.destroyEntity dbg e = .ok s' from h1.1, ok_bind]; rfl, .destroy e, h2⟩
  | add e vals =>
    obtain ⟨s', h1, h2⟩ := safe_call hx (ev := .added e vals) rfl hf
    exact ⟨s', _, _, by simp only [serve, show s.addComponents U dbg e vals = .ok s' from h1.1, ok_bind]; rfl, .add e vals, h2⟩
  | remove e ts =>
    obtain ⟨s', h1, h2⟩ := safe_call hx (ev := .removed e ts) rfl hf
    exact ⟨s', _, _, by simp only [serve, show s.removeComponents U dbg e ts = .ok s' from h1.1, ok_bind]; rfl, .remove e ts, h2⟩
  | assign e vals =>
    have hai : Allowed U (world h) (.assigned e vals) := ⟨by rw [hha]; exact hf.1, hf.2⟩
    obtain ⟨s', h1, _⟩ := hr.assigned hai.1 hai.2
    rw [hal] at h1
    exact ⟨s', _, _, by simp only [serve, h1, ok_bind]; rfl, .assign e vals,
      .step _ hx hai (fun T hT => by cases hT) ⟨⟨_, h1⟩, trivial⟩⟩
  | tag tag e =>
    obtain ⟨s', h1, h2⟩ := safe_call hx (ev := .tagged tag e) rfl ⟨by simp only [Allowed, hal]; exact hf, fun T hT => by cases hT⟩
    exact ⟨s', _, _, by simp only [serve, show s.addTag tag e = .ok s' from h1.1, ok_bind]; rfl, .tag tag e, h2⟩
  | untag tag e =>
    obtain ⟨s', h1, h2⟩ := safe_call hx (ev := .untagged tag e) rfl ⟨by simp only [Allowed, hal]; exact hf, fun T hT => by cases hT⟩
    exact ⟨s', _, _, by simp only [serve, show s.removeTag tag e = .ok s' from h1.1, ok_bind]; rfl, .untag tag e, h2⟩
  | orderLast g e =>
    obtain ⟨s', h1, h2⟩ := safe_call hx (ev := .orderedLast g e) rfl
      ⟨by simp only [Allowed, hal, hsq]; exact hf, fun T hT => by cases hT⟩
    exact ⟨s', _, _, by simp only [serve, show s.addOrder dbg g e = .ok s' from h1.1, ok_bind]; rfl, .orderLast g e, h2⟩
  | orderAfter g e x =>
    obtain ⟨s', h1, h2⟩ := safe_call hx (ev := .orderedAfter g e x) rfl
      ⟨by simp only [Allowed, hal, hsq]; exact hf, fun T hT => by cases hT⟩
    exact ⟨s', _, _, by simp only [serve, show s.addOrderNextTo dbg g e x = .ok s' from h1.1, ok_bind]; rfl, .orderAfter g e x, h2⟩
  | orderBefore g e x =>
    obtain ⟨s', h1, h2⟩ := safe_call hx (ev := .orderedBefore g e x) rfl
      ⟨by simp only [Allowed, hal, hsq]; exact hf, fun T hT => by cases hT⟩
    exact ⟨s', _, _, by simp only [serve, show s.addOrderPreviousTo dbg g e x = .ok s' from h1.1, ok_bind]; rfl,
      .orderBefore g e x, h2⟩
  | unorder g e =>
    obtain ⟨s', h1, h2⟩ := safe_call hx (ev := .unordered g e) rfl ⟨by simp only [Allowed, hal]; exact hf, fun T hT => by cases hT⟩
    exact ⟨s', _, _, by simp only [serve, show s.removeOrder g e = .ok s' from h1.1, ok_bind]; rfl, .unorder g e, h2⟩
  | isAlive e =>
    have := hag.alive e (by rw [hha]; exact hf)
    rw [hal] at this
    exact ⟨s, _, h, by simp only [serve, this, ok_bind]; rfl, .isAlive e, hx⟩
  | read e ts =>
    exact ⟨s, _, h, by simp only [serve, hag.read e (by rw [hha]; exact hf.1) ts hf.2, ok_bind]; rfl, .read e ts, hx⟩
  | hasType e t =>
    have := hag.arch e (by rw [hha]; exact hf)
    rw [hal] at this
    split at this
    · rename_i hc
      obtain ⟨a, ha, hids⟩ := this
      have hiff : decide (t ∈ a.ids) = decide (e ∈ alive h ∧ t ∈ (world h).types e) :=
        decide_eq_decide.2 ⟨fun ht => ⟨hc.1, (hids t).1 ht⟩, fun ht => (hids t).2 ht.2⟩
      exact ⟨s, _, h, by simp only [serve, ha, ok_bind, hiff]; rfl, .hasType e t, hx⟩
    · rename_i hc
      have hiff : decide (e ∈ alive h ∧ t ∈ (world h).types e) = false :=
        decide_eq_false fun ht => hc ⟨ht.1, List.ne_nil_of_mem ht.2⟩
      refine ⟨s, _, h, ?_, .hasType e t, hx⟩
      simp only [serve, this, ok_bind, hiff]
      rfl
  | hasTag tag e =>
    exact ⟨s, _, h, by simp only [serve, hag.tag e (by rw [hal]; exact hf) tag, ok_bind]; rfl, .hasTag tag e, hx⟩
  | first g => exact ⟨s, _, h, by simp only [serve, hag.first g, ok_bind, hsq]; rfl, .first g, hx⟩
  | last g => exact ⟨s, _, h, by simp only [serve, hag.last g, ok_bind, hsq]; rfl, .last g, hx⟩
  | next g e =>
    exact ⟨s, _, h, by simp only [serve, hag.next e (by rw [hal]; exact hf) g, ok_bind, hsq]; rfl, .next g e, hx⟩
  | previous g e =>
    exact ⟨s, _, h, by simp only [serve, hag.previous e (by rw [hal]; exact hf) g, ok_bind, hsq]; rfl, .previous g e, hx⟩
  | query acc =>
    obtain ⟨items, i1, i2, _, i4, i5⟩ := query_items hx.exec hf.1 ha
    exact ⟨s, _, h, by simp only [serve, i1, ok_bind, read_rows hx.exec hf.2 i4 i5]; rfl, .query acc _ i2, hx⟩
  | queryTagged acc tag =>
    obtain ⟨hd, hne, ht⟩ := hf
    obtain ⟨items, i1, i2, _, i4, i5⟩ := query_items hx.exec hd ha
    obtain ⟨items', j1, j2⟩ := C33_filter_tag_partial hx.exec.loose acc [] ha ht
    rw [i1] at j1
    cases j1
    have hflt : items.filter (fun x => decide (s.hasTag tag x.1 = .ok true)) = items.filter fun x => (world h).tags tag x.1 := by
      refine List.filter_congr fun x hxm => ?_
      rw [hag.tag x.1 (by rw [hal]; exact (i4 x hxm).1) tag]
      cases (world h).tags tag x.1 <;> rfl
    rw [hflt] at j2
    have hsubl : ∀ x ∈ items.filter (fun x => (world h).tags tag x.1), x ∈ items := fun x hxm => (List.mem_filter.1 hxm).1
    refine ⟨s, _, h, by
      simp only [serve, j2, ok_bind, read_rows hx.exec hne (fun x hxm => i4 x (hsubl x hxm)) (fun x hxm => i5 x (hsubl x hxm))]
      rfl, .queryTagged acc tag _ ?_, hx⟩
    have := i2.filter ((world h).tags tag)
    rw [List.filter_map] at this
    exact this
  | queryList L acc =>
    obtain ⟨hd, hne, hL⟩ := hf
    obtain ⟨items, i1, _, i2, i3⟩ := C35_entity_query_partial hx.exec hd hL [] (Nat.lt_succ_self _)
    have i4 : ∀ x ∈ items, Eligible h acc x.1 := fun x hxm => by
      have := List.mem_map_of_mem (f := (·.1)) hxm
      rw [i2] at this
      exact (matching_mem this).2
    refine ⟨s, _, h, ?_, .queryList L acc, hx⟩
    simp only [serve, i1, ok_bind, read_rows hx.exec hne i4 i3, i2]
    rfl
  | queryGroup g acc =>
    obtain ⟨hd, hne, hL⟩ := hf
    obtain ⟨items, i1, i2⟩ := C36_ordered_query_partial hx.exec hd hL [] (hs g)
    refine ⟨s, _, h, ?_, .queryGroup g acc, hx⟩
    simp only [serve, i1, ok_bind, read_items hx.exec hne (fun e he => (matching_mem he).2) i2]
    rfl
  | update acc f =>
    obtain ⟨hd, hne, hg⟩ := hf
    obtain ⟨items, i1, i2, i3, i4, i5⟩ := query_items hx.exec (distinct_of_nodup hd) ha
    obtain ⟨s', f1, f2⟩ := update_safe hx hd hne hg i3 i4 i5
    refine ⟨s', _, _, ?_, .update acc f _ i2, f2⟩
    unfold runComponentQueryWithEntities at i1
    obtain ⟨it, g1, g2⟩ := bind_eq_ok.1 i1
    simp only [serve, updateComponents, g1, ok_bind]
    rw [updateLoop_of (CompIter.nextWithEntity_setPages dbg) g2, f1]
    rfl
  | updateList L acc f =>
    obtain ⟨hd, hne, hg, hL, hn⟩ := hf
    obtain ⟨items, i1, _, i2, i3⟩ := C35_entity_query_partial hx.exec (distinct_of_nodup hd) hL [] (Nat.lt_succ_self _)
    have i4 : ∀ x ∈ items, Eligible h acc x.1 := fun x hxm => by
      have := List.mem_map_of_mem (f := (·.1)) hxm
      rw [i2] at this
      exact (matching_mem this).2
    obtain ⟨s', f1, f2⟩ := update_safe hx hd hne hg (by rw [i2]; exact hn.filter _) i4 i3
    rw [i2] at f2
    refine ⟨s', _, _, ?_, .updateList L acc f, f2⟩
    unfold runEntityQueryWithEntities at i1
    obtain ⟨it, g1, g2⟩ := bind_eq_ok.1 i1
    simp only [serve, updateEntities, g1, ok_bind]
    rw [updateLoop_of (EntIter.nextWithEntity_setPages dbg) g2, f1]
    rfl
  | updateGroup g acc f =>
    obtain ⟨hd, hne, hg, hL⟩ := hf
    obtain ⟨refs, i1, i2⟩ := C36_ordered_query_partial hx.exec (distinct_of_nodup hd) hL [] (hs g)
    generalize hM : (sequence g h).filter (fun e => decide (Eligible h acc e)) = M at i2
    have hl := i2.length_eq
    have hm : (M.zip refs).map (·.1) = M := List.map_fst_zip (Nat.le_of_eq hl)
    have hm2 : (M.zip refs).map (·.2) = refs := List.map_snd_zip (Nat.le_of_eq hl.symm)
    have i4 : ∀ x ∈ M.zip refs, Eligible h acc x.1 := fun x hxm => by
      have := List.mem_map_of_mem (f := (·.1)) hxm
      rw [hm, ← hM] at this
      exact (matching_mem this).2
    have hn : M.Nodup := by
      rw [← hM, sequence_eq]
      exact (hr.core.order_nodup g).filter _
    obtain ⟨s', f1, f2⟩ := update_safe (f := fun _ => f) hx hd hne (fun _ => hg) (by rw [hm]; exact hn) i4
      (fun x hxm => (List.forall₂_iff_zip.1 i2).2 hxm)
    rw [hm, ← hM] at f2
    refine ⟨s', _, _, ?_, .updateGroup g acc f, f2⟩
    unfold runOrderedQuery at i1
    obtain ⟨it, g1, g2⟩ := bind_eq_ok.1 i1
    simp only [serve, updateOrdered, g1, ok_bind]
    rw [updateLoop_of (fun _ _ _ => rfl) g2]
    have : refs.foldlM (fun s a => updateItem acc.reads.length f s (id a)) s = .ok s' := by
      rw [← f1]
      conv_lhs => rw [← hm2, List.foldlM_map]
      rfl
    rw [this]
    rfl

theorem alive_step {ask : Ask} {a : Answer} {h' : List Event} (hs : Serves h ask a h') :
    (alive h').length ≤ (alive h).length + 1 ∧ ∀ g, (sequence g h').length ≤ (sequence g h).length + 1 := by
  have hass : ∀ (acc : Access) (f : Entity → List (List Cell) → List (List UInt8)) (L : List Entity),
      alive (assignments h acc f L ++ h) = alive h ∧ ∀ g, sequence g (assignments h acc f L ++ h) = sequence g h := by
    intro acc f L
    unfold assignments
    rw [← List.map_reverse]
    generalize L.reverse = M
    induction M with
    | nil => exact ⟨rfl, fun _ => rfl⟩
    | cons e M ih => exact ⟨ih.1, fun g => ih.2 g⟩
  have hins : ∀ (x e : Entity) (l : List Entity), (insertAfter x e l).length ≤ l.length + 1 ∧ (insertBefore x e l).length ≤ l.length + 1 := by
    intro x e l
    induction l with
    | nil => exact ⟨Nat.le_succ _, Nat.le_succ _⟩
    | cons y l ih => constructor <;> (simp only [insertAfter, insertBefore]; split <;> simp only [List.length_cons] <;> omega)
  have hle : ∀ g, (sequence g h).length ≤ (sequence g h).length + 1 := fun _ => Nat.le_succ _
  have her : ∀ (l : List Entity) (e : Entity), (l.erase e).length ≤ l.length + 1 := fun l e =>
    Nat.le_succ_of_le (List.length_erase_le)
  cases hs <;> first
    | exact ⟨Nat.le_succ _, hle⟩
    | exact ⟨Nat.le_refl _, hle⟩
    | exact ⟨her _ _, fun g => her _ _⟩
    | (rw [(hass _ _ _).1]; exact ⟨Nat.le_succ _, fun g => by rw [(hass _ _ _).2 g]; exact hle g⟩)
    | (refine ⟨Nat.le_succ _, fun g => ?_⟩
       simp only [sequence]
       split
       · first
          | exact (hins _ _ _).1
          | exact (hins _ _ _).2
          | exact her _ _
          | (rw [List.length_append]; exact Nat.le_refl _)
       · exact hle g)

theorem play_plays {client : Client} (n : Nat) (hx : SafeExec U dbg cap h s) {as : List Answer}
    (ha : (alive h).length ≤ as.length) (hs : ∀ g, (sequence g h).length ≤ as.length)
    (hp : Polite U dbg cap client n h as) :
    ∃ out, play U dbg client n s as = .ok out ∧ Plays client n h as out := by
  induction n generalizing h s as with
  | zero => exact ⟨as, rfl, rfl⟩
  | succ n ih =>
    unfold play Plays
    unfold Polite at hp
    cases hc : client as with
    | none => exact ⟨as, rfl, rfl⟩
    | some ask =>
      obtain ⟨p1, p2⟩ := hp ask hc
      obtain ⟨s', a, h', k1, k2, k3⟩ := serve_serves hx (Nat.lt_succ_of_le ha) (fun g => Nat.lt_succ_of_le (hs g)) p1
      obtain ⟨g1, g2⟩ := alive_step k2
      obtain ⟨out, o1, o2⟩ := ih k3 (as := a :: as) (by rw [List.length_cons]; omega)
        (fun g => by rw [List.length_cons]; have := g2 g; have := hs g; omega) (p2 a h' k2)
      exact ⟨out, by simp only [k1, ok_bind]; exact o1, a, h', k2, o2⟩

end

end Ecs
