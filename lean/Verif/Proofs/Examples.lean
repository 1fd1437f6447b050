import Verif.Model.Examples
import Verif.Props.BuildUp
import Verif.Props.Alloc
import Verif.Props.QueryAny

/-! The example programs: filling the store. -/

namespace Ecs
open Spec Props

variable {U : Universe} {dbg : Bool} {T ts : List TypeId} {h : List Event} {s : Store}

/-- The world has the bytes `d` for the types `ts` of entity `e`. -/
structure HasData (w : World) (ts : List TypeId) (e : Entity) (d : List (List UInt8)) : Prop where
  live : e ∈ w.live
  types : ∀ t, t ∈ w.types e ↔ t ∈ ts
  value : ts.map (w.value e) = d.map (·.map some)

theorem store_zip {f : TypeId → List Cell} : ∀ {ts : List TypeId} {d : List (List UInt8)}, ts.Nodup → d.length = ts.length →
    ts.map (store (ts.zip d) f) = d.map (·.map some)
  | [], [], _, _ => rfl
  | t :: ts, [], _, h => by simp at h
  | [], b :: d, _, h => by simp at h
  | t :: ts, b :: d, hn, h => by
    have ih := store_zip (f := f) (List.nodup_cons.1 hn).2 (d := d) (by simpa using h)
    rw [List.map_cons, List.map_cons, ← ih]
    refine List.cons_eq_cons.2 ⟨by simp [store, TupleVal.find], List.map_congr_left fun x hx => ?_⟩
    have hne : t ≠ x := fun h0 => (List.nodup_cons.1 hn).1 (h0 ▸ hx)
    simp [store, TupleVal.find, hne]

/-- The events of the example programs do not change other entities. -/
theorem HasData.other {w : World} {e x : Entity} {d : List (List UInt8)} (hx : HasData w ts x d) (hne : x ≠ e) :
    HasData (w.apply (.created e)) ts x d ∧
    (∀ S init, HasData (w.apply (.createdWith e S init)) ts x d) ∧
    (∀ vals, HasData (w.apply (.added e vals)) ts x d) ∧
    (∀ vals, HasData (w.apply (.assigned e vals)) ts x d) := by
  obtain ⟨h1, h2, h3⟩ := hx
  refine ⟨⟨?_, ?_, ?_⟩, fun S init => ⟨?_, ?_, ?_⟩, fun vals => ?_, fun vals => ?_⟩
  · exact List.mem_cons_of_mem _ h1
  · simpa only [World.apply, World.birth, at', if_neg hne] using h2
  · exact h3
  · exact List.mem_cons_of_mem _ h1
  · simpa only [World.apply, World.birth, World.setTypes, at', if_neg hne] using h2
  · simp only [World.apply, World.birth, World.setTypes, at', if_neg hne]; exact h3
  · simp only [World.apply]
    split
    · refine ⟨?_, ?_, ?_⟩
      · dsimp only; split <;> exact h1
      · dsimp only
        split
        · exact h2
        · simpa only [World.setTypes, at', if_neg hne] using h2
      · simp only [at', if_neg hne]; exact h3
    · exact ⟨h1, h2, h3⟩
  · simp only [World.apply]
    split
    · refine ⟨h1, h2, ?_⟩
      simp only [at', if_neg hne]; exact h3
    · exact ⟨h1, h2, h3⟩

/-- The store after some iterations of one of the loops: the entities created so far with their data. -/
structure Filled (U : Universe) (dbg : Bool) (T ts : List TypeId) (h : List Event) (s : Store)
    (rows : List (Entity × List (List UInt8))) : Prop where
  safe : SafeExec U dbg 10 h s
  up : BuildsUp h
  groups : rows = [] ∧ groups h = [] ∨ groups h = [(T, rows.map (·.1))]
  alive : (alive h).Perm (rows.map (·.1))
  handles : (handles h).length = rows.length
  free : freeIds (entHistory h) = ⟨rows.length, []⟩
  ids : rows.map (·.1.id) = List.range rows.length
  data : ∀ x ∈ rows, HasData (world h) ts x.1 x.2

theorem Filled.init (hs : Store.new dbg = .ok s) : Filled U dbg T ts [] s [] :=
  ⟨.init hs, trivial, .inl ⟨rfl, rfl⟩, .nil, rfl, rfl, rfl, by simp⟩

namespace Filled

variable {rows : List (Entity × List (List UInt8))}

theorem join_groups (hf : Filled U dbg T ts h s rows) {S : List TypeId} (hS : rows = [] → S = T) (hST : sameSet T S) (e : Entity) :
    join S e (Spec.groups h) = [(T, rows.map (·.1) ++ [e])] := by
  rcases hf.groups with ⟨h1, h2⟩ | h1
  · rw [h2, h1, hS h1]; rfl
  · rw [h1, join, if_pos hST]

/-- The next handle. -/
theorem next (hf : Filled U dbg T ts h s rows) {e : Entity} (he : e = nextHandle (entHistory h)) : e.id = rows.length := by
  rw [he]
  simp [nextHandle, hf.free]

theorem free_step (hf : Filled U dbg T ts h s rows) (e : Entity) {n : Nat} (hn : n = rows.length + 1) :
    freeIds (.created e :: entHistory h) = ⟨n, []⟩ := by
  rw [freeIds, hf.free, hn]

/-- What can be read. -/
theorem read (hf : Filled U dbg T ts h s rows) (hne : ts ≠ []) {x : Entity × List (List UInt8)} (hx : x ∈ rows) {refs : List Ref}
    (hr : s.getComponentsRefs U dbg x.1 ts = .ok (some refs)) :
    refs.mapM (readRef s.archs.pages) = .ok (x.2.map (·.map some)) := by
  obtain ⟨h1, h2, h3⟩ := hf.data x hx
  have hexec := hf.safe.exec
  have hrd := (C49_store_refines_world_partial hexec).read x.1 ((loose_core hexec.loose).ents.sub _ h1) ts hne
  have hty : (world h).types x.1 ≠ [] := by
    intro h0
    cases ts with
    | nil => exact hne rfl
    | cons t ts =>
      have := (h2 t).2 (by simp)
      rw [h0] at this
      cases this
  rw [Rel.mapM_get _ _ hne, if_pos ⟨h1, hty, fun t ht => (h2 t).2 ht⟩, h3] at hrd
  unfold Store.getComponents at hrd
  rw [hr] at hrd
  simp only [ok_bind] at hrd
  obtain ⟨vs, k1, k2⟩ := bind_eq_ok.1 hrd
  cases k2
  exact k1

theorem readAll (hf : Filled U dbg T ts h s rows) (hne : ts ≠ []) {items : List (List Ref)} {xs : List (Entity × List (List UInt8))}
    (hx : ∀ x ∈ xs, x ∈ rows)
    (hr : List.Forall₂ (fun (x : Entity × List (List UInt8)) refs => s.getComponentsRefs U dbg x.1 ts = .ok (some refs)) xs items) :
    readItems s items = .ok (xs.map fun x => x.2.map (·.map some)) := by
  unfold readItems
  induction hr with
  | nil => rfl
  | @cons x refs xs items h1 _ ih =>
    rw [List.mapM_cons, hf.read hne (hx x List.mem_cons_self) h1, ok_bind, ih fun y hy => hx y (List.mem_cons_of_mem _ hy)]
    rfl

/-- One iteration of `populate_ecs`. -/
theorem populate (hf : Filled U dbg T ts h s rows) {a : Archetype} (ha : Built U a) (hT : T = a.ids) (hts : ∀ t, t ∈ a.ids ↔ t ∈ ts)
    (hn : ts.Nodup) (hne : ts ≠ []) (hw : Wide U dbg a.ids) {d : List (List UInt8)} (hd : TupleOk U (ts.zip d)) (hl : d.length = ts.length)
    (hb : rows.length + 1 < u32Size) :
    ∃ s1 e s2 h', s.createEntityWithArchetype dbg a = .ok (s1, e) ∧ s1.setComponents U dbg e (ts.zip d) = .ok (s2, true) ∧
      Filled U dbg T ts h' s2 (rows ++ [(e, d)]) := by
  subst hT
  have hlen : (Spec.handles h).length + 1 < u32Size := by rw [hf.handles]; exact hb
  obtain ⟨s1, e, init, h1, h2, h3⟩ := ((C74_calls_return hf.safe hf.up).2 hlen).2 a ha hw
  obtain ⟨⟨a', ha', hids, hr⟩, _⟩ := h2
  have haa : a' = a := ha'.wf.ext ha.wf hids
  subst haa
  have hid := hf.next ((C57_handle_is_determined hf.safe.exec.loose hlen).2 _ _ _ hr)
  have hlive : e ∈ (world (.createdWith e a'.ids init :: h)).live := List.mem_cons_self
  have htypes : (world (.createdWith e a'.ids init :: h)).types e = a'.ids := by
    simp [world, World.apply, World.birth, World.setTypes, at']
  have hzip : (ts.zip d).map (·.1) = ts := List.map_fst_zip (by omega)
  have hup : BuildsUp (.createdWith e a'.ids init :: h) := hf.up
  obtain ⟨s2, h4, h5⟩ := (C74_calls_return h3 hup).1 (.assigned e (ts.zip d)) rfl
    ⟨List.mem_cons_self, hd⟩ hf.up (fun S hS => by cases hS)
  obtain ⟨⟨b, hs⟩, _⟩ := h4
  have hb : b = true := by
    have hexec := h3.exec
    have hrd := (C49_store_refines_world_partial hexec).read e List.mem_cons_self ts hne
    rw [Rel.mapM_get _ _ hne, if_pos ⟨hlive, by rw [htypes]; exact ha.wf.ne, fun t ht => by rw [htypes]; exact (hts t).2 ht⟩] at hrd
    unfold Store.setComponents at hs
    unfold Store.getComponents at hrd
    rw [hzip] at hs
    obtain ⟨o, k1, k2⟩ := bind_eq_ok.1 hrd
    rw [k1] at hs
    simp only [ok_bind] at hs
    cases o with
    | none => cases k2
    | some refs =>
      simp only at hs
      obtain ⟨pg, k3, k4⟩ := bind_eq_ok.1 hs
      cases k4
      rfl
  subst hb
  refine ⟨s1, e, s2, _, hr, hs, h5, hf.up, .inr ?_, ?_, ?_, ?_, ?_, ?_⟩
  · show join a'.ids e (Spec.groups h) = _
    rw [hf.join_groups (fun _ => rfl) ⟨fun _ h => h, fun _ h => h⟩]
    simp
  · show (e :: Spec.alive h).Perm _
    rw [List.map_append]
    exact (hf.alive.cons e).trans (List.perm_append_singleton e _).symm
  · simp [Spec.handles, hf.handles]
  · exact hf.free_step e (by simp)
  · rw [List.map_append, hf.ids, List.length_append, List.length_singleton, List.range_succ]
    simp [hid]
  · intro x hx
    rcases List.mem_append.1 hx with hx | hx
    · have hxe : x.1 ≠ e := by
        intro h0
        have := (hf.data x hx).live
        rw [h0] at this
        exact h1 (by rw [handles_eq]; exact (loose_core hf.safe.exec.loose).ents.sub _ this)
      exact ((((hf.data x hx).other hxe).2.1 a'.ids init).other hxe).2.2.2 _
    · rw [List.mem_singleton.1 hx]
      have hcond : e ∈ (world (.createdWith e a'.ids init :: h)).live ∧
          ∀ p ∈ ts.zip d, p.1 ∈ (world (.createdWith e a'.ids init :: h)).types e :=
        ⟨hlive, fun p hp => by rw [htypes]; exact (hts _).2 (List.of_mem_zip hp).1⟩
      rw [world, World.apply, if_pos hcond]
      refine ⟨hlive, fun t => ?_, ?_⟩
      · dsimp only; rw [htypes]; exact hts t
      · simp only [at', if_true]
        exact store_zip hn hl

/-- Creating an entity and adding its components. -/
theorem add (hf : Filled U dbg T ts h s rows) (hT : T = ts) (hn : ts.Nodup) (hne : ts ≠ []) (hw : Wide U dbg ts)
    {d : List (List UInt8)} (hd : TupleOk U (ts.zip d)) (hl : d.length = ts.length) (hb : rows.length + 1 < u32Size) :
    ∃ s1 e s2, s.createEntity dbg = .ok (s1, e) ∧ s1.addComponents U dbg e (ts.zip d) = .ok s2 ∧ e ∉ Spec.handles h ∧
      Filled U dbg T ts (.added e (ts.zip d) :: .created e :: h) s2 (rows ++ [(e, d)]) := by
  subst hT
  have hlen : (Spec.handles h).length + 1 < u32Size := by rw [hf.handles]; exact hb
  obtain ⟨s1, e, h1, h2, h3⟩ := ((C74_calls_return hf.safe hf.up).2 hlen).1
  have hr := h2.1
  have hid := hf.next ((C57_handle_is_determined hf.safe.exec.loose hlen).1 _ _ hr)
  have hlive : e ∈ (world (.created e :: h)).live := List.mem_cons_self
  have htypes : (world (.created e :: h)).types e = [] := by
    simp [world, World.apply, World.birth, at']
  have hzip : (T.zip d).map (·.1) = T := List.map_fst_zip (by omega)
  have hzne : T.zip d ≠ [] := fun h0 => hne (by rw [← hzip, h0]; rfl)
  have hup : BuildsUp (.created e :: h) := hf.up
  have hnot : ¬ ∀ p ∈ T.zip d, p.1 ∈ ([] : List TypeId) := fun hv =>
    hzne (List.eq_nil_iff_forall_not_mem.2 fun t ht => nomatch hv t ht)
  have hfil : (T.filter fun t => decide (t ∉ ([] : List TypeId))) = T := List.filter_eq_self.2 fun _ _ => by simp
  obtain ⟨s2, h4, h5⟩ := (C74_calls_return h3 hup).1 (.added e (T.zip d)) rfl
    ⟨List.mem_cons_self, hzne, hd⟩ ⟨.inl htypes, hf.up⟩ (fun S hS => by
      simp only [needs, htypes, List.nil_append, hzip] at hS
      rw [if_pos ⟨hlive, hnot⟩, hfil] at hS
      cases hS
      exact hw)
  have hgr : Spec.groups (.added e (T.zip d) :: .created e :: h) = join T e (Spec.groups h) := by
    rw [Spec.groups, if_pos ⟨List.mem_cons_self, htypes⟩, hzip]
    rfl
  refine ⟨s1, e, s2, hr, h4.1, h1, h5, ⟨.inl htypes, hf.up⟩, .inr ?_, ?_, ?_, ?_, ?_, ?_⟩
  · rw [hgr, hf.join_groups (fun _ => rfl) ⟨fun _ h => h, fun _ h => h⟩]
    simp
  · show (e :: Spec.alive h).Perm _
    rw [List.map_append]
    exact (hf.alive.cons e).trans (List.perm_append_singleton e _).symm
  · simp [Spec.handles, hf.handles]
  · exact hf.free_step e (by simp)
  · rw [List.map_append, hf.ids, List.length_append, List.length_singleton, List.range_succ]
    simp [hid]
  · intro x hx
    rcases List.mem_append.1 hx with hx | hx
    · have hxe : x.1 ≠ e := by
        intro h0
        have := (hf.data x hx).live
        rw [h0] at this
        exact h1 (by rw [handles_eq]; exact (loose_core hf.safe.exec.loose).ents.sub _ this)
      exact ((((hf.data x hx).other hxe).1).other hxe).2.2.1 _
    · rw [List.mem_singleton.1 hx]
      rw [world, World.apply, if_pos hlive, htypes, if_neg hnot]
      refine ⟨hlive, fun t => ?_, ?_⟩
      · simp only [World.setTypes, at', if_true, List.nil_append, hzip, hfil]
      · simp only [World.setTypes, at', if_true]
        exact store_zip hn hl

/-- Calls that are not about components. -/
theorem extra (hf : Filled U dbg T ts h s rows) {ev : Event} (hev : (∃ g e, ev = .orderedLast g e) ∨ ∃ g e, ev = .tagged g e)
    (ha : Allowed U (world h) ev) :
    ∃ s', Returns U dbg s ev s' ∧ Filled U dbg T ts (ev :: h) s' rows := by
  obtain ⟨s', h1, h2⟩ := (C74_calls_return hf.safe hf.up).1 ev (by rcases hev with ⟨g, e, rfl⟩ | ⟨g, e, rfl⟩ <;> rfl) ha
    (by rcases hev with ⟨g, e, rfl⟩ | ⟨g, e, rfl⟩ <;> exact hf.up)
    (fun S hS => by rcases hev with ⟨g, e, rfl⟩ | ⟨g, e, rfl⟩ <;> cases hS)
  refine ⟨s', h1.1, h2, ?_, ?_, ?_, ?_, ?_, hf.ids, fun x hx => ?_⟩
  · rcases hev with ⟨g, e, rfl⟩ | ⟨g, e, rfl⟩ <;> exact hf.up
  · rcases hev with ⟨g, e, rfl⟩ | ⟨g, e, rfl⟩ <;> exact hf.groups
  · rcases hev with ⟨g, e, rfl⟩ | ⟨g, e, rfl⟩ <;> exact hf.alive
  · rcases hev with ⟨g, e, rfl⟩ | ⟨g, e, rfl⟩ <;> exact hf.handles
  · rcases hev with ⟨g, e, rfl⟩ | ⟨g, e, rfl⟩ <;> exact hf.free
  · obtain ⟨k1, k2, k3⟩ := hf.data x hx
    rcases hev with ⟨g, e, rfl⟩ | ⟨g, e, rfl⟩ <;> exact ⟨k1, k2, k3⟩

end Filled

theorem apply_added (w : World) (e : Entity) (vals : TupleVal) :
    (w.apply (.added e vals)).order = w.order ∧ (w.apply (.added e vals)).tags = w.tags := by
  simp only [World.apply]
  split
  · dsimp only
    split <;> exact ⟨rfl, rfl⟩
  · exact ⟨rfl, rfl⟩

/-- The second loop, with the tag and the order group. -/
structure Benched (U : Universe) (dbg : Bool) (ts : List TypeId) (tag : Nat) (h : List Event) (s : Store)
    (rows : List (Entity × List (List UInt8))) : Prop extends Filled U dbg ts ts h s rows where
  order : (world h).order tag = (rows.filter fun x => decide (x.1.id % 10 ≠ 0)).map (·.1)
  tags : ∀ x ∈ rows, (world h).tags tag x.1 = decide (x.1.id % 10 ≠ 0)
  reg : (∃ e, .tagged tag e ∈ h) ↔ 1 < rows.length

/-- One iteration of the loop in `query_bench`. -/
theorem Benched.step {tag : Nat} {rows : List (Entity × List (List UInt8))} (hf : Benched U dbg ts tag h s rows) (hn : ts.Nodup)
    (hne : ts ≠ []) (hw : Wide U dbg ts) {d : List (List UInt8)} (hd : TupleOk U (ts.zip d)) (hl : d.length = ts.length)
    (hb : rows.length + 1 < u32Size) :
    ∃ s1 e s2, s.createEntity dbg = .ok (s1, e) ∧ s1.addComponents U dbg e (ts.zip d) = .ok s2 ∧
      if rows.length % 10 ≠ 0 then
        ∃ s3 s4 h', s2.addOrder dbg tag e = .ok s3 ∧ s3.addTag tag e = .ok s4 ∧ Benched U dbg ts tag h' s4 (rows ++ [(e, d)])
      else ∃ h', Benched U dbg ts tag h' s2 (rows ++ [(e, d)]) := by
  obtain ⟨s1, e, s2, h1, h2, h3, h4⟩ := hf.toFilled.add rfl hn hne hw hd hl hb
  have hid : e.id = rows.length := by
    have h5 := h4.ids
    rw [List.map_append, hf.ids, List.length_append, List.length_singleton, List.range_succ] at h5
    simpa using h5
  have hold : ∀ x ∈ rows, x.1 ≠ e := by
    intro x hx h0
    have := (hf.data x hx).live
    rw [h0] at this
    exact h3 (by rw [handles_eq]; exact (loose_core hf.safe.exec.loose).ents.sub _ this)
  have hord : (world (.added e (ts.zip d) :: .created e :: h)).order = (world h).order := by
    rw [world, (apply_added _ _ _).1]; rfl
  have htag : ∀ g x, (world (.added e (ts.zip d) :: .created e :: h)).tags g x = if x = e then false else (world h).tags g x := by
    intro g x
    rw [world, (apply_added _ _ _).2]; rfl
  have hlive : e ∈ (world (.added e (ts.zip d) :: .created e :: h)).live := (h4.data (e, d) (by simp)).live
  have hnin : e ∉ (world h).order tag := by
    rw [hf.order]
    intro h0
    obtain ⟨x, hx, h0⟩ := List.mem_map.1 h0
    exact hold x (List.mem_filter.1 hx).1 h0
  refine ⟨s1, e, s2, h1, h2, ?_⟩
  split
  · next hi =>
    obtain ⟨s3, h5, h6⟩ := h4.extra (.inl ⟨tag, e, rfl⟩) ⟨hlive, by rw [hord]; exact hnin⟩
    obtain ⟨s4, h7, h8⟩ := h6.extra (.inr ⟨tag, e, rfl⟩) hlive
    refine ⟨s3, s4, _, h5, h7, h8, ?_, ?_, ?_⟩
    · rw [world, World.apply]
      dsimp only
      rw [world, World.apply]
      simp only [at', if_true, hord, hf.order]
      rw [List.filter_append, List.map_append, List.filter_cons_of_pos (by simpa [hid] using hi)]
      rfl
    · intro x hx
      rw [world, World.apply]
      simp only [at', if_true]
      rw [world, World.apply]
      dsimp only
      rw [htag]
      rcases List.mem_append.1 hx with hx | hx
      · rw [if_neg (hold x hx), if_neg (hold x hx)]
        exact hf.tags x hx
      · rw [List.mem_singleton.1 hx]
        simpa [hid] using hi
    · have : 1 < (rows ++ [(e, d)]).length := by
        rw [List.length_append, List.length_singleton]
        rcases Nat.eq_zero_or_pos rows.length with h0 | h0
        · rw [h0] at hi; exact absurd rfl hi
        · omega
      exact ⟨fun _ => this, fun _ => ⟨e, List.mem_cons_self⟩⟩
  · next hi =>
    refine ⟨_, h4, ?_, ?_, ?_⟩
    · rw [hord, hf.order, List.filter_append, List.filter_cons_of_neg (by simpa [hid] using hi)]
      simp
    · intro x hx
      rw [htag]
      rcases List.mem_append.1 hx with hx | hx
      · rw [if_neg (hold x hx)]
        exact hf.tags x hx
      · rw [List.mem_singleton.1 hx]
        simpa [hid] using hi
    · rw [List.length_append, List.length_singleton]
      have : (∃ x, Event.tagged tag x ∈ .added e (ts.zip d) :: .created e :: h) ↔ ∃ x, Event.tagged tag x ∈ h := by simp
      rw [this, hf.reg]
      omega


namespace Filled

variable {rows : List (Entity × List (List UInt8))}

theorem types_ne (hf : Filled U dbg T ts h s rows) (hne : ts ≠ []) {x : Entity × List (List UInt8)} (hx : x ∈ rows) :
    (world h).types x.1 ≠ [] := by
  intro h0
  cases ts with
  | nil => exact hne rfl
  | cons t ts =>
    have := ((hf.data x hx).types t).2 (by simp)
    rw [h0] at this
    cases this

theorem covers {S ts : List TypeId} (hn : ts.Nodup) (h : ∀ t ∈ ts, t ∈ S) : Covers S (.readonly ts) :=
  ⟨h, (List.subperm_of_subset hn h).length_le⟩

/-- All entities are selected by a query for `ts`. -/
theorem selected (hf : Filled U dbg T ts h s rows) (hn : ts.Nodup) (hne : ts ≠ []) {x : Entity × List (List UInt8)} (hx : x ∈ rows) :
    Spec.selected dbg s (.readonly ts) x.1 = true := by
  have hd := hf.data x hx
  have hexec := hf.safe.exec
  have ha := (C49_store_refines_world_partial hexec).arch x.1 ((loose_core hexec.loose).ents.sub _ hd.live)
  rw [if_pos ⟨hd.live, hf.types_ne hne hx⟩] at ha
  obtain ⟨a, h1, h2⟩ := ha
  unfold Spec.selected
  rw [h1]
  exact decide_eq_true (covers hn fun t ht => (h2 t).2 ((hd.types t).2 ht))

/-- Rows of a page that is not the last one: as many as the layout allows. -/
theorem page_before (hf : Filled U dbg T ts h s rows) (hne : ts ≠ []) (hw : Wide U dbg T) {x z : Entity × List (List UInt8)} (hx : x ∈ rows) (hz : z ∈ rows)
    (hlt : z.1.id < x.1.id) {q : Loc} {q' : Nat} (hq : Pos s.toPage s.toIndex x.1.id q) (hq' : s.toPage[z.1.id]? = some (some q')) :
    ∃ pg, s.archs.pages[q']? = some pg ∧ q.index < pg.ids.items.length := by
  have hexec := hf.safe.exec
  have hloose := hexec.loose
  have hrel := exec_rel hexec
  have hrows := loose_rows hloose
  have hst := builds_stack hf.safe.well hf.up
  have hsh := loose_shape hloose
  have hold : ∀ y ∈ rows, Holder h y.1.id := fun y hy =>
    ⟨y.1, by rw [alive_eq]; exact (hf.data y hy).live, given_of_types _ (hf.types_ne hne hy), rfl⟩
  obtain ⟨qx, k1, k2, _⟩ := hrows.on _ (hold x hx)
  have := k1.unique hq
  subst this
  obtain ⟨qz, j1, j2, _⟩ := hrows.on _ (hold z hz)
  have hqz : qz.page = q' := by
    have := j1.page.symm.trans hq'
    simpa using this
  subst hqz
  have hgr : Spec.groups h = [(T, rows.map (·.1))] := by
    rcases hf.groups with ⟨h1, _⟩ | h1
    · rw [h1] at hx; cases hx
    · exact h1
  have hlen : s.archs.archetypes.length = 1 := by rw [← hst.len, hgr]; rfl
  obtain ⟨ai, ps, a, l, m1, m2, m3, m4, m5⟩ := hrows.use.at_row hsh.archs k2
  obtain ⟨ai', ps', a', l', n1, n2, n3, n4, n5⟩ := hrows.use.at_row hsh.archs j2
  have h0 : ai = 0 := by have := (List.getElem?_eq_some_iff.1 m4).1; omega
  have h0' : ai' = 0 := by have := (List.getElem?_eq_some_iff.1 n4).1; omega
  subst h0
  subst h0'
  rw [m1] at n1; cases n1
  rw [m4] at n4; cases n4
  rw [m5] at n5; cases n5
  obtain ⟨z1, z2, z3⟩ := hst.at_ 0 a ps _ m4 m1 (by rw [hgr]; rfl)
  have hrowmem : ∀ {q : Loc} {i : Nat}, s.archs.row q = some i → ∃ pg, s.archs.pages[q.page]? = some pg ∧
      pg.ids.items[q.index]? = some i ∧ i ∈ s.archs.idsAt q.page := by
    intro q i hr
    unfold Archs.row at hr
    unfold Archs.idsAt
    cases hpg : s.archs.pages[q.page]? with
    | none => rw [hpg] at hr; simp at hr
    | some pg =>
      rw [hpg] at hr
      exact ⟨pg, rfl, hr, List.mem_of_getElem? (by simpa using hr)⟩
  obtain ⟨pgx, p1, p2, p3⟩ := hrowmem k2
  obtain ⟨pgz, r1, r2, r3⟩ := hrowmem j2
  by_cases hpp : qz.page = qx.page
  · rw [hpp]
    exact ⟨pgx, p1, (List.getElem?_eq_some_iff.1 p2).1⟩
  · refine ⟨pgz, r1, ?_⟩
    have hdrop : qz.page ∈ ps.dropLast := by
      by_contra hnd
      have hpsne : ps ≠ [] := List.ne_nil_of_mem m2
      have hsplit := List.dropLast_append_getLast hpsne
      have hlast : qz.page = ps.getLast hpsne := by
        rw [← hsplit] at n2
        rcases List.mem_append.1 n2 with n2 | n2
        · exact absurd n2 hnd
        · exact List.mem_singleton.1 n2
      have hxin : qx.page ∈ ps.dropLast := by
        rw [← hsplit] at m2
        rcases List.mem_append.1 m2 with m2 | m2
        · exact m2
        · exact absurd ((List.mem_singleton.1 m2).trans hlast.symm).symm hpp
      have hsorted : (s.archs.idsIn ps).Pairwise (· < ·) := by
        rw [z3, List.map_map]
        show (rows.map (·.1.id)).Pairwise _
        rw [hf.ids]
        exact List.pairwise_lt_range
      rw [← hsplit, Archs.idsIn_append] at hsorted
      have := (List.pairwise_append.1 hsorted).2.2 x.1.id (List.mem_flatMap.2 ⟨_, hxin, p3⟩) z.1.id
        (List.mem_flatMap.2 ⟨_, List.mem_singleton.2 rfl, by rw [← hlast]; exact r3⟩)
      omega
    have hfull := hst.packed.full ps (List.mem_of_getElem? m1) _ hdrop pgz r1
    obtain ⟨c, hc, h4⟩ := hw
    have hwf := (loose_known hloose (well_distinct hf.safe.well)).wf a (List.mem_of_getElem? m4)
    obtain ⟨l0, l1, l2⟩ := rowsPerPage_some hc hwf z1
    have := hrel.regs.lay 0 a l m4 m5
    rw [l1] at this
    cases this
    have hcap := (hrel.regs.caps c h4 (by rw [(builds_world hf.safe.well hf.up).1]; simp)).2 0 l ps _ pgz m5 m1 n2 r1 l2
    have hfit := hrel.places.inv.fits 0 ps _ pgx l m1 m2 p1 m5
    have hcnt := (List.getElem?_eq_some_iff.1 p2).1
    unfold Page.hasFreeSpace at hfull
    have hfull := of_decide_eq_false hfull
    simp only [Page.entityCount, Page.entityCapacity] at hfull
    omega

end Filled

/-- The ordered query of the second loop. -/
theorem Benched.ordered {tag : Nat} {rows : List (Entity × List (List UInt8))} (hf : Benched U dbg ts tag h s rows) (hn : ts.Nodup)
    (hne : ts ≠ []) (hw : Wide U dbg ts) {fuel : Nat} (hfuel : rows.length < fuel) :
    ∃ items, runOrderedQueryWithEntities U dbg s tag (.readonly ts) [] fuel = .ok items ∧
      List.Forall₂ (fun (x : Entity × List (List UInt8)) refs => s.getComponentsRefs U dbg x.1 ts = .ok (some refs))
        (rows.filter fun x => decide (x.1.id % 10 ≠ 0)) (items.map (·.2)) := by
  have hexec := hf.safe.exec
  have hloose := hexec.loose
  have hrd := loose_readable hloose
  have hrows := loose_rows hloose
  have hmem : ∀ e ∈ (world h).order tag, ∃ x ∈ rows, x.1 = e := by
    intro e he
    rw [hf.order] at he
    obtain ⟨x, hx, rfl⟩ := List.mem_map.1 he
    exact ⟨x, (List.mem_filter.1 hx).1, rfl⟩
  have hal : ∀ x ∈ rows, x.1 ∈ alive h ∧ x.1 ∈ given h := fun x hx =>
    ⟨by rw [alive_eq]; exact (hf.data x hx).live, given_of_types _ (hf.types_ne hne hx)⟩
  obtain ⟨l, h1, h2, h3, _⟩ := hrd.ordered_withEntities (U := U) (dbg := dbg) (acc := .readonly ts) (g := tag) (fuel := fuel)
    (f := Spec.selected dbg s (.readonly ts))
    (fun e he => by
      obtain ⟨x, hx, rfl⟩ := hmem e he
      exact hrd.of_bit (((given_bit hloose).2 _ (hal x hx).1).2 (hal x hx).2))
    (fun e he => by
      obtain ⟨x, hx, rfl⟩ := hmem e he
      exact selected_shown hloose (hal x hx).1 (hal x hx).2) []
    (by rw [hf.order, List.length_map]; exact Nat.lt_of_le_of_lt (List.length_filter_le _ _) hfuel)
  have hall : ((world h).order tag).filter (Spec.selected dbg s (.readonly ts)) = (world h).order tag :=
    List.filter_eq_self.2 fun e he => by
      obtain ⟨x, hx, rfl⟩ := hmem e he
      exact hf.selected hn hne hx
  rw [hall] at h1
  have hsorted : (((world h).order tag).map (·.id)).Pairwise (· < ·) := by
    have : ((rows.filter fun x => decide (x.1.id % 10 ≠ 0)).map (·.1.id)).Sublist (rows.map (·.1.id)) :=
      List.Sublist.map _ List.filter_sublist
    rw [hf.order, List.map_map]
    refine List.Pairwise.sublist this ?_
    rw [hf.ids]
    exact List.pairwise_lt_range
  have hread : ∀ a ∈ l, ∃ e, Readable.readItem U s (.readonly ts) a = .ok (e, recordRefs U s (.readonly ts) a.2.2) := by
    intro a ha
    obtain ⟨A, B, rfl⟩ := List.append_of_mem ha
    obtain ⟨q, q', z, ⟨pg, g1, g2⟩, k2, k3, k4⟩ := h3 A a B rfl
    have hao : a.2.2 ∈ (world h).order tag := by rw [← h1]; simp
    obtain ⟨x, hx, hxa⟩ := hmem _ hao
    have hin : a.2.1 < pg.ids.items.length := by
      rcases k3 with rfl | k3
      · obtain ⟨q0, m1, m2, _⟩ := hrows.on a.2.2.id ⟨a.2.2, hxa ▸ (hal x hx).1, hxa ▸ (hal x hx).2, rfl⟩
        have := m1.unique k2
        subst this
        have hqq : q = q' := by
          have := k2.page.symm.trans k4
          simpa using this
        subst hqq
        unfold Archs.row at m2
        rw [g1] at m2
        exact (List.getElem?_eq_some_iff.1 m2).1
      · simp only [List.nil_append] at k3
        have hzo : z ∈ (world h).order tag := by rw [← h1, List.map_append]; exact List.mem_append_left _ k3
        obtain ⟨y, hy, hyz⟩ := hmem z hzo
        have hlt : z.id < a.2.2.id := by
          rw [← h1, List.map_append, List.map_append, List.map_cons, List.map_cons] at hsorted
          exact (List.pairwise_append.1 hsorted).2.2 _ (List.mem_map_of_mem k3) _ List.mem_cons_self
        rw [← hxa] at k2 hlt
        rw [← hyz] at k4 hlt
        obtain ⟨pg', r1, r2⟩ := hf.page_before hne hw hx hy hlt k2 k4
        rw [g1] at r1
        cases r1
        exact r2
    have hget : a.1.entityIds[a.2.1]? = some (pg.ids.items[a.2.1]) := by rw [g2]; exact List.getElem?_eq_getElem hin
    have hrow : s.archs.row ⟨q', a.2.1⟩ = some (pg.ids.items[a.2.1]) := by
      unfold Archs.row
      rw [g1]
      exact List.getElem?_eq_getElem hin
    rcases hrows.rows _ _ hrow with h0 | ⟨⟨e, he, _, hid⟩, _⟩
    · cases h0
    · rw [alive_eq] at he
      refine ⟨⟨pg.ids.items[a.2.1], e.version⟩, ?_⟩
      unfold Readable.readItem
      have hv := hrd.core.ents.lver e he
      rw [hid] at hv
      simp only [idxUnchecked_of_some hget, Raw.read_of_some hv, ok_bind, pure_ok]
  have hitems : ∀ {l : List (IterView × Nat × Entity)},
      (∀ a ∈ l, ∃ e, Readable.readItem U s (.readonly ts) a = .ok (e, recordRefs U s (.readonly ts) a.2.2)) →
      ∃ items, Res.mapL (Readable.readItem U s (.readonly ts)) l = .ok items ∧
        items.map (·.2) = (l.map (·.2.2)).map (recordRefs U s (.readonly ts)) := by
    intro l
    induction l with
    | nil => exact fun _ => ⟨[], rfl, rfl⟩
    | cons a l ih =>
      intro hl
      obtain ⟨e, he⟩ := hl a List.mem_cons_self
      obtain ⟨items, i1, i2⟩ := ih fun b hb => hl b (List.mem_cons_of_mem _ hb)
      refine ⟨(e, recordRefs U s (.readonly ts) a.2.2) :: items, ?_, ?_⟩
      · simp only [Res.mapL, he, i1, ok_bind, pure_ok]
      · rw [List.map_cons, i2]; rfl
  obtain ⟨items, i1, i2⟩ := hitems hread
  refine ⟨items, by rw [h2]; exact i1, ?_⟩
  rw [i2, h1, hf.order, List.map_map, List.forall₂_map_right_iff, List.forall₂_same]
  intro x hx
  obtain ⟨hx, _⟩ := List.mem_filter.1 hx
  exact hrd.recordRefs_selected (acc := .readonly ts) (hrd.core.ents.issued_id_lt (hrd.core.ents.sub _ (hf.data x hx).live)) (hf.selected hn hne hx)

end Ecs
