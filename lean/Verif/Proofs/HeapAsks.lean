import Verif.Spec.HeapAsks
import Verif.Proofs.Heap
import Verif.Proofs.PanicExact
import Verif.Proofs.Slots

/-! Which calls make requests to the allocator. -/

namespace Ecs
open Spec HeapM

/-! ### Counting requests -/

/-- The heap after running `m`. -/
def HeapM.after {α : Type} (m : HeapM α) (H : Heap) : Heap :=
  match m H with
  | .ok _ H' => H'
  | .error _ H' => H'

/-- `m` does not forget requests. -/
def Remembers {α : Type} (m : HeapM α) : Prop := ∀ H, H.asked.length ≤ (HeapM.after m H).asked.length

/-- If `m` returns or panics, it has made a request. -/
def Asking {α : Type} (m : HeapM α) : Prop :=
  ∀ H, match m H with
    | .ok _ H' => H.asked.length < H'.asked.length
    | .error (.panic _) H' => H.asked.length < H'.asked.length
    | .error _ _ => True

namespace Remembers
variable {α β : Type}

theorem pure (a : α) : Remembers (Pure.pure a) := fun H => Nat.le_refl _

theorem throw (f : Fault) : Remembers (MonadExcept.throw f : HeapM α) := fun H => Nat.le_refl _

theorem seq {m : HeapM α} {k : α → HeapM β} (h1 : Remembers m) (h2 : ∀ a, Remembers (k a)) : Remembers (m >>= k) := by
  intro H
  have h1 := h1 H
  unfold HeapM.after at *
  show _ ≤ (match EStateM.bind m k H with | .ok _ H' => H' | .error _ H' => H').asked.length
  unfold EStateM.bind
  cases hm : m H with
  | ok a H1 =>
    rw [hm] at h1
    exact Nat.le_trans h1 (h2 a H1)
  | error f H1 => rw [hm] at h1; exact h1

theorem caught {m : HeapM α} {k : Fault → HeapM α} (h : Remembers m) (hk : ∀ f, Remembers (k f)) : Remembers (MonadExcept.tryCatch m k) := by
  intro H
  have h := h H
  unfold HeapM.after at *
  show _ ≤ (match EStateM.tryCatch m k H with | .ok _ H' => H' | .error _ H' => H').asked.length
  unfold EStateM.tryCatch
  cases hm : m H with
  | ok a H1 => rw [hm] at h; exact h
  | error f H1 =>
    rw [hm] at h
    exact Nat.le_trans h (hk f H1)

theorem ite {c : Prop} [Decidable c] {m n : HeapM α} (h1 : Remembers m) (h2 : Remembers n) : Remembers (if c then m else n) := by
  split
  · exact h1
  · exact h2

theorem mapM {f : α → HeapM β} (h : ∀ a, Remembers (f a)) (l : List α) : Remembers (l.mapM f) := by
  induction l with
  | nil => exact .pure _
  | cons a l ih =>
    rw [List.mapM_cons]
    exact .seq (h a) fun _ => .seq ih fun _ => .pure _

theorem alloc (size cap : Nat) : Remembers (alloc size cap) := by
  intro H
  unfold HeapM.after HeapM.alloc
  by_cases h0 : size * cap = 0
  · rw [if_pos h0]
  · rw [if_neg h0]; exact Nat.le_succ _

theorem dealloc (size p cap : Nat) : Remembers (dealloc size p cap) := by
  intro H
  unfold HeapM.after HeapM.dealloc freeBytes
  split
  · next h =>
    split at h
    · cases h; exact Nat.le_refl _
    · cases h
  · next h =>
    split at h
    · cases h
    · cases h; exact Nat.le_refl _

theorem realloc (size p a b : Nat) : Remembers (realloc size p a b) :=
  .ite (.pure _) (.seq (.alloc _ _) fun _ => .seq (.dealloc _ _ _) fun _ => .pure _)

theorem bitsRealloc (p a b : Nat) : Remembers (bitsRealloc p a b) :=
  .ite (.pure _) (.seq (.alloc _ _) fun _ => .seq (.dealloc _ _ _) fun _ => .pure _)

theorem archNew (n : Nat) : Remembers (ArchPtrs.new n) :=
  .seq (.alloc _ _) fun _ => .seq (.alloc _ _) fun _ => .seq (.alloc _ _) fun _ => .seq (.alloc _ _) fun _ => .pure _

theorem archDrop (a : ArchPtrs) : Remembers a.drop :=
  .seq (.dealloc _ _ _) fun _ => .seq (.dealloc _ _ _) fun _ => .seq (.dealloc _ _ _) fun _ => .dealloc _ _ _

theorem layoutNew (n : Nat) (fits : Bool) : Remembers (LayoutPtr.new n fits) :=
  .seq (.alloc _ _) fun _ => by cases fits; exacts [.throw _, .pure _]

theorem newPage (c : ArchsPtrs) : Remembers c.newPage := .seq (.alloc _ _) fun _ => .pure _

theorem reserveArchetype (c : ArchsPtrs) (n slot : Nat) (fits : Bool) : Remembers (c.reserveArchetype n slot fits) := by
  unfold ArchsPtrs.reserveArchetype
  refine .seq (.layoutNew _ _) fun _ => ?_
  split
  · exact .seq (.archNew _) fun _ => .seq (.archDrop _) fun _ => .seq (.dealloc _ _ _) fun _ => .pure _
  · exact .seq (.archNew _) fun _ => .pure _

theorem place (s : StorePtrs) (a : Option (Nat × Nat × Bool)) (page : Bool) : Remembers (s.place a page) := by
  unfold StorePtrs.place
  rcases a with _ | ⟨n, slot, fits⟩ <;> cases page
  · exact .seq (.pure _) fun _ => .seq (.pure _) fun _ => .pure _
  · exact .seq (.pure _) fun _ => .seq (.newPage _) fun _ => .pure _
  · exact .seq (.reserveArchetype _ _ _ _) fun _ => .seq (.pure _) fun _ => .pure _
  · exact .seq (.reserveArchetype _ _ _ _) fun _ => .seq (.newPage _) fun _ => .pure _

end Remembers

namespace Asking
variable {α β : Type}

theorem seq {m : HeapM α} {k : α → HeapM β} (h1 : Asking m) (h2 : ∀ a, Remembers (k a)) : Asking (m >>= k) := by
  intro H
  have h1 := h1 H
  show match EStateM.bind m k H with | .ok _ H' => _ | .error (.panic _) H' => _ | .error _ _ => True
  unfold EStateM.bind
  cases hm : m H with
  | ok a H1 =>
    rw [hm] at h1
    have := h2 a H1
    unfold HeapM.after at this
    dsimp only at h1 ⊢
    cases hk : k a H1 with
    | ok b H2 => rw [hk] at this; exact Nat.lt_of_lt_of_le h1 this
    | error f H2 =>
      rw [hk] at this
      cases f <;> first | trivial | exact Nat.lt_of_lt_of_le h1 this
  | error f H1 => rw [hm] at h1; cases f <;> first | exact h1 | trivial

theorem alloc (size cap : Nat) : Asking (alloc size cap) := by
  intro H
  unfold HeapM.alloc
  by_cases h0 : size * cap = 0
  · rw [if_pos h0]; trivial
  · rw [if_neg h0]; exact Nat.lt_succ_self _

end Asking

namespace StorePtrs

/-- The operation makes a request. -/
def loud : HeapOp → Bool
  | .create grows => grows
  | .place none none page => page
  | _ => true

theorem step_keeps (p : StorePtrs) (op : HeapOp) : Remembers (p.step op) := by
  rcases op with g | ⟨_ | n, a, page⟩ | i | i
  · show Remembers (p.create g)
    unfold create EntsPtrs.create
    refine .seq ?_ fun ents => .ite (.pure _) (.seq (.realloc _ _ _ _) fun _ => .seq (.realloc _ _ _ _) fun _ =>
      .seq (.bitsRealloc _ _ _) fun _ => .seq (.seq (.mapM (fun _ => .bitsRealloc _ _ _) _) fun _ => .pure _) fun _ =>
      .seq (.seq (.mapM (fun _ => .seq (.realloc _ _ _ _) fun _ => .seq (.realloc _ _ _ _) fun _ => .pure _) _) fun _ => .pure _)
        fun _ => .pure _)
    refine .ite ?_ (.pure _)
    exact .ite (.pure _) (.seq (.seq (.alloc _ _) fun _ => .seq (.dealloc _ _ _) fun _ => .pure _) fun _ =>
      .seq (.bitsRealloc _ _ _) fun _ => .pure _)
  · exact .place _ _ _
  · exact .seq (.archNew _) fun a => .seq (.caught (.place _ _ _) fun f => .seq (.archDrop _) fun _ => .throw _) fun _ =>
      .seq (.archDrop _) fun _ => .pure _
  · exact .seq (.seq (.alloc _ _) fun _ => .pure _) fun _ => .pure _
  · exact .seq (.seq (.alloc _ _) fun _ => .seq (.alloc _ _) fun _ => .pure _) fun _ => .pure _

theorem step_asking {op : HeapOp} (p : StorePtrs) (h : loud op = true) : Asking (p.step op) := by
  have hrest : ∀ ents : EntsPtrs, Remembers (do
      if ents.capacity = p.ents.capacity then return { p with ents := ents }
      let toPage ← HeapM.realloc 4 p.toPage p.ents.capacity ents.capacity
      let toIndex ← HeapM.realloc 4 p.toIndex p.ents.capacity ents.capacity
      let hasArch ← HeapM.bitsRealloc p.hasArch p.ents.capacity ents.capacity
      let tags ← p.tags.grow ents.capacity
      let orders ← p.orders.grow ents.capacity
      return { p with ents := ents, toPage := toPage, toIndex := toIndex, hasArch := hasArch, tags := tags,
                      orders := orders } : HeapM StorePtrs) := fun ents =>
    .ite (.pure _) (.seq (.realloc _ _ _ _) fun _ => .seq (.realloc _ _ _ _) fun _ =>
      .seq (.bitsRealloc _ _ _) fun _ => .seq (.seq (.mapM (fun _ => .bitsRealloc _ _ _) _) fun _ => .pure _) fun _ =>
      .seq (.seq (.mapM (fun _ => .seq (.realloc _ _ _ _) fun _ => .seq (.realloc _ _ _ _) fun _ => .pure _) _) fun _ => .pure _)
        fun _ => .pure _)
  rcases op with g | ⟨_ | n, a, page⟩ | i | i
  · change g = true at h
    subst h
    refine Asking.seq (m := p.ents.create true) ?_ hrest
    unfold EntsPtrs.create EntsPtrs.grow
    rw [if_pos rfl, if_neg (by omega)]
    exact .seq (.seq (.alloc _ _) fun _ => .seq (.dealloc _ _ _) fun _ => .pure _) fun _ => .seq (.bitsRealloc _ _ _) fun _ => .pure _
  · rcases a with _ | ⟨n, slot, fits⟩
    · change page = true at h
      subst h
      show Asking (p.place none true)
      show Asking (p.archs.newPage >>= fun archs => pure { p with archs := archs })
      exact .seq (.seq (.alloc _ _) fun _ => .pure _) fun _ => .pure _
    · show Asking (p.place (some (n, slot, fits)) page)
      have h1 : Asking (p.archs.reserveArchetype n slot fits) := by
        unfold ArchsPtrs.reserveArchetype
        refine .seq (.seq (.alloc _ _) fun _ => by cases fits; exacts [.throw _, .pure _]) fun _ => ?_
        split
        · exact .seq (.archNew _) fun _ => .seq (.archDrop _) fun _ => .seq (.dealloc _ _ _) fun _ => .pure _
        · exact .seq (.archNew _) fun _ => .pure _
      cases page
      · exact h1.seq fun _ => .seq (.pure _) fun _ => .pure _
      · exact h1.seq fun _ => .seq (.newPage _) fun _ => .pure _
  · refine Asking.seq (m := ArchPtrs.new n) ?_ fun a => .seq (.caught (.place _ _ _) fun f => .seq (.archDrop _) fun _ => .throw _)
      fun _ => .seq (.archDrop _) fun _ => .pure _
    exact .seq (.alloc _ _) fun _ => .seq (.alloc _ _) fun _ => .seq (.alloc _ _) fun _ => .seq (.alloc _ _) fun _ => .pure _
  · exact .seq (.seq (.alloc _ _) fun _ => .pure _) fun _ => .pure _
  · exact .seq (.seq (.alloc _ _) fun _ => .seq (.alloc _ _) fun _ => .pure _) fun _ => .pure _

theorem caught_keeps (p : StorePtrs) (op : HeapOp) : Remembers (p.caught op) :=
  .caught (p.step_keeps op) fun f => by cases f <;> first | exact .pure _ | exact .throw _

theorem caught_loud {op : HeapOp} {p p' : StorePtrs} {H H' : Heap} (h : loud op = true) (hr : p.caught op H = .ok p' H') :
    H.asked.length < H'.asked.length := by
  have h1 := p.step_asking h H
  unfold caught at hr
  change EStateM.tryCatch (p.step op) _ H = _ at hr
  unfold EStateM.tryCatch at hr
  cases hm : p.step op H with
  | ok a H1 => rw [hm] at h1 hr; cases hr; exact h1
  | error f H1 =>
    rw [hm] at h1 hr
    cases f <;> first | cases hr; exact h1 | cases hr

theorem caught_quiet {op : HeapOp} (p : StorePtrs) (H : Heap) (h : loud op = false) : p.caught op H = .ok p H := by
  rcases op with g | ⟨_ | n, _ | a, page⟩ | i | i
  · change g = false at h
    subst h
    unfold caught
    show EStateM.tryCatch (p.create false) _ H = _
    have : p.create false = fun H => .ok p H := by
      unfold create EntsPtrs.create
      funext H
      show EStateM.bind (Pure.pure p.ents) _ H = _
      unfold EStateM.bind
      show (if p.ents.capacity = p.ents.capacity then _ else _ : HeapM StorePtrs) H = _
      rw [if_pos rfl]
      rfl
    rw [this]
    rfl
  · change page = false at h
    subst h
    rfl
  all_goals cases h

end StorePtrs

theorem foldl_keeps (ops : List HeapOp) : ∀ p, Remembers (ops.foldlM StorePtrs.caught p) := by
  induction ops with
  | nil => exact fun p => .pure p
  | cons op ops ih => exact fun p => .seq (p.caught_keeps op) ih

theorem asks_of_loud {ops : List HeapOp} (h : ∃ op ∈ ops, StorePtrs.loud op = true) : AskSomething ops := by
  induction ops with
  | nil => obtain ⟨_, h, _⟩ := h; cases h
  | cons op ops ih =>
    intro p H p' H' hr
    change EStateM.bind (p.caught op) (fun p => ops.foldlM StorePtrs.caught p) H = _ at hr
    unfold EStateM.bind at hr
    cases hm : p.caught op H with
    | error f H1 => rw [hm] at hr; cases hr
    | ok p1 H1 =>
      rw [hm] at hr
      dsimp only at hr
      obtain ⟨o, ho, hl⟩ := h
      rcases List.mem_cons.1 ho with rfl | ho
      · have h1 := StorePtrs.caught_loud hl hm
        have h2 := foldl_keeps ops p1 H1
        unfold HeapM.after at h2
        rw [hr] at h2
        exact Nat.lt_of_lt_of_le h1 h2
      · have h1 := p.caught_keeps op H
        unfold HeapM.after at h1
        rw [hm] at h1
        exact Nat.lt_of_le_of_lt h1 (ih ⟨o, ho, hl⟩ p1 H1 p' H' hr)

theorem nothing_of_quiet {ops : List HeapOp} (h : ∀ op ∈ ops, StorePtrs.loud op = false) : AskNothing ops := by
  induction ops with
  | nil => exact fun p H => rfl
  | cons op ops ih =>
    intro p H
    show EStateM.bind (p.caught op) (fun p => ops.foldlM StorePtrs.caught p) H = _
    unfold EStateM.bind
    rw [StorePtrs.caught_quiet p H (h op List.mem_cons_self)]
    exact ih (fun o ho => h o (List.mem_cons_of_mem _ ho)) p H

/-! ### Registered groups -/

namespace Orders

theorem groupIds_reserve {c : Orders} (hi : Incr c.groupIds) (g t : Nat) :
    t ∈ (c.reserveGroup g).1.groupIds ↔ t = g ∨ t ∈ c.groupIds := by
  unfold reserveGroup
  cases hb : binarySearch c.groupIds g with
  | found i =>
    dsimp only
    have : g ∈ c.groupIds := List.mem_of_getElem? (binarySearch_found hb)
    exact ⟨.inr, fun h => h.elim (fun h => h ▸ this) id⟩
  | notFound i =>
    dsimp only
    rw [List.mem_insertIdx (binarySearch_notFound hi.le hb).1]

theorem groupIds_onGroup {c c' : Orders} {i : Nat} {f : Group → Res Group} (h : c.onGroup i f = .ok c') :
    c'.groupIds = c.groupIds := by
  unfold onGroup at h
  obtain ⟨_, _, h⟩ := bind_eq_ok.1 h
  obtain ⟨_, _, h⟩ := bind_eq_ok.1 h
  cases h; rfl

theorem groupIds_removeAll {c c' : Orders} {id : Nat} (h : c.removeAll id = .ok c') : c'.groupIds = c.groupIds := by
  unfold removeAll at h
  obtain ⟨_, _, h⟩ := bind_eq_ok.1 h
  cases h; rfl

theorem groupIds_remove {c c' : Orders} {g id : Nat} (h : c.remove g id = .ok c') : c'.groupIds = c.groupIds := by
  unfold remove at h
  split at h
  · cases h; rfl
  · exact groupIds_onGroup h

theorem groupIds_grow {dbg : Bool} {c c' : Orders} {n : Nat} (h : c.grow dbg n = .ok c') : c'.groupIds = c.groupIds := by
  unfold grow at h
  obtain ⟨_, _, h⟩ := bind_eq_ok.1 h
  obtain ⟨_, _, h⟩ := bind_eq_ok.1 h
  cases h; rfl

theorem groupIds_add {c c' : Orders} (hi : Incr c.groupIds) {g t : Nat} {f : Group → Res Group}
    (h : (c.reserveGroup g).1.onGroup (c.reserveGroup g).2 f = .ok c') : t ∈ c'.groupIds ↔ t = g ∨ t ∈ c.groupIds := by
  rw [groupIds_onGroup h, groupIds_reserve hi]

end Orders

theorem groupIds_register {dbg : Bool} {s s' : Store} {e : Entity} (h : s.registerNewEntity dbg = .ok (s', e)) :
    s'.orders.groupIds = s.orders.groupIds := by
  unfold Store.registerNewEntity at h
  obtain ⟨⟨ents, cr⟩, _, h⟩ := bind_eq_ok.1 h
  dsimp only at h
  split at h
  · obtain ⟨s1, h1, h⟩ := bind_eq_ok.1 h
    cases h
    unfold Store.growEntitiesInternal at h1
    obtain ⟨_, _, h1⟩ := bind_eq_ok.1 h1
    obtain ⟨_, _, h1⟩ := bind_eq_ok.1 h1
    obtain ⟨_, _, h1⟩ := bind_eq_ok.1 h1
    obtain ⟨_, _, h1⟩ := bind_eq_ok.1 h1
    obtain ⟨og, ho, h1⟩ := bind_eq_ok.1 h1
    cases h1
    exact Orders.groupIds_grow ho
  · cases h; rfl

/-- The event names the group in a call that adds to it. -/
def Spec.Event.names (g : Nat) : Event → Prop
  | .orderedLast g' _ | .orderedAfter g' _ _ | .orderedBefore g' _ _ => g' = g
  | _ => False

theorem groupIds_step {U : Universe} {dbg : Bool} {s s' : Store} {ev : Event} (hi : Incr s.orders.groupIds)
    (hr : Returns U dbg s ev s') (t : Nat) : t ∈ s'.orders.groupIds ↔ t ∈ s.orders.groupIds ∨ ev.names t := by
  have same : s'.orders.groupIds = s.orders.groupIds → ¬ ev.names t →
      (t ∈ s'.orders.groupIds ↔ t ∈ s.orders.groupIds ∨ ev.names t) := by
    intro h1 h2
    rw [h1]
    exact ⟨Or.inl, fun h => h.elim id fun h => absurd h h2⟩
  cases ev with
  | created e =>
    refine same ?_ (fun h => h)
    simp only [Returns, Store.createEntity] at hr
    obtain ⟨⟨s1, e1⟩, h1, hr⟩ := bind_eq_ok.1 hr
    obtain ⟨_, _, hr⟩ := bind_eq_ok.1 hr
    cases hr
    have := groupIds_register h1
    exact this
  | createdWith e ts init =>
    refine same ?_ (fun h => h)
    obtain ⟨a, _, _, hr⟩ := hr
    unfold Store.createEntityWithArchetype at hr
    obtain ⟨⟨s1, e1⟩, h1, hr⟩ := bind_eq_ok.1 hr
    obtain ⟨⟨c, q⟩, _, hr⟩ := bind_eq_ok.1 hr
    dsimp only at hr
    obtain ⟨s2, h2, hr⟩ := bind_eq_ok.1 hr
    cases hr
    rw [(SameCore.recordRow h2).orders]
    have := groupIds_register h1
    exact this
  | destroyed e =>
    refine same ?_ (fun h => h)
    simp only [Returns, Store.destroyEntity] at hr
    obtain ⟨s1, h1, hr⟩ := bind_eq_ok.1 hr
    obtain ⟨_, _, hr⟩ := bind_eq_ok.1 hr
    obtain ⟨tg, _, hr⟩ := bind_eq_ok.1 hr
    obtain ⟨og, h2, hr⟩ := bind_eq_ok.1 hr
    cases hr
    rw [← (SameCore.destroyRow h1).orders]
    exact Orders.groupIds_removeAll h2
  | added e vals => exact same (by rw [(SameCore.added hr).orders]) (fun h => h)
  | removed e ts => exact same (by rw [(SameCore.removed hr).orders]) (fun h => h)
  | assigned e vals =>
    obtain ⟨b, hr⟩ := hr
    exact same (by rw [(SameCore.assigned hr).orders]) (fun h => h)
  | tagged tag e =>
    simp only [Returns, Store.addTag] at hr
    obtain ⟨tg, h1, hr⟩ := bind_eq_ok.1 hr
    cases hr
    exact same rfl (fun h => h)
  | untagged tag e =>
    simp only [Returns, Store.removeTag] at hr
    obtain ⟨tg, h1, hr⟩ := bind_eq_ok.1 hr
    cases hr
    exact same rfl (fun h => h)
  | orderedLast g e =>
    simp only [Returns, Store.addOrder] at hr
    obtain ⟨o, h1, hr⟩ := bind_eq_ok.1 hr
    cases hr
    exact (Orders.groupIds_add hi h1).trans ⟨fun h => h.elim (fun h => .inr h.symm) .inl, fun h => h.elim .inr fun h => .inl h.symm⟩
  | orderedAfter g e x =>
    simp only [Returns, Store.addOrderNextTo] at hr
    obtain ⟨o, h1, hr⟩ := bind_eq_ok.1 hr
    cases hr
    exact (Orders.groupIds_add hi h1).trans ⟨fun h => h.elim (fun h => .inr h.symm) .inl, fun h => h.elim .inr fun h => .inl h.symm⟩
  | orderedBefore g e x =>
    simp only [Returns, Store.addOrderPreviousTo] at hr
    obtain ⟨o, h1, hr⟩ := bind_eq_ok.1 hr
    cases hr
    exact (Orders.groupIds_add hi h1).trans ⟨fun h => h.elim (fun h => .inr h.symm) .inl, fun h => h.elim .inr fun h => .inl h.symm⟩
  | unordered g e =>
    simp only [Returns, Store.removeOrder] at hr
    obtain ⟨o, h1, hr⟩ := bind_eq_ok.1 hr
    cases hr
    exact same (Orders.groupIds_remove h1) (fun h => h)

section
variable {U : Universe} {dbg : Bool} {cap : Nat} {h : List Event} {s : Store}

theorem group_registered (hx : LooseExec U dbg cap h s) (g : Nat) : g ∈ s.orders.groupIds ↔ groupNamed h g := by
  have key : g ∈ s.orders.groupIds ↔ ∃ ev ∈ h, ev.names g := by
    induction hx with
    | init hs =>
      unfold Store.withCapacity at hs
      obtain ⟨_, _, hs⟩ := bind_eq_ok.1 hs
      cases hs
      simp [Orders.new]
    | step ev hx hl hr ih =>
      rw [groupIds_step (loose_core hx).orders.incr hr g, ih]
      simp only [List.mem_cons, exists_eq_or_imp]
      exact or_comm
  rw [key]
  unfold groupNamed
  constructor
  · rintro ⟨ev, hm, hn⟩
    cases ev <;> cases hn
    · exact ⟨_, .inl hm⟩
    · exact ⟨_, .inr ⟨_, .inl hm⟩⟩
    · exact ⟨_, .inr ⟨_, .inr hm⟩⟩
  · rintro ⟨e, hm | ⟨x, hm | hm⟩⟩ <;> exact ⟨_, hm, rfl⟩

/-! ### Creating entities -/

theorem heapCreate_exact (hx : LooseExec U dbg cap h s) (hb : (handles h).length + 1 < u32Size) (hc : s.entitiesCapacity < u32Size) :
    s.ents.heapCreate dbg = some (decide ((alive h).length = s.entitiesCapacity)) := by
  have hi := (loose_core hx).ents
  rw [handles_eq] at hb
  rw [alive_eq]
  have hlen := hi.live_length
  have hle := hi.next_le
  change s.ents.capacity < u32Size at hc
  show _ = some (decide (_ = s.ents.capacity))
  unfold Ents.heapCreate
  obtain ⟨⟨id, c'⟩, ht⟩ := hi.takeId_ok (dbg := dbg) hb
  rw [ht]
  dsimp only
  congr 1
  rw [decide_eq_decide]
  unfold Ents.takeId at ht
  split at ht
  · next id' hg =>
    cases ht
    have : s.ents.gapIds ≠ [] := by intro h0; rw [h0] at hg; cases hg
    have := List.length_pos_iff.2 this
    simp only [ne_eq, not_true_eq_false, false_iff]
    omega
  · next hg =>
    have hg' : s.ents.gapIds = [] := by simpa using hg
    rw [hg', List.length_nil, Nat.add_zero] at hlen
    obtain ⟨nx, _, ht⟩ := bind_eq_ok.1 ht
    dsimp only at ht
    unfold Ents.willGrowWithId at ht
    dsimp only at ht
    rw [Nat.mod_eq_of_lt hc] at ht
    split at ht
    · next hw =>
      obtain ⟨c2, h2, ht⟩ := bind_eq_ok.1 ht
      cases ht
      have hw := of_decide_eq_true hw
      unfold Ents.grow at h2
      rw [if_neg (by dsimp only; omega)] at h2
      obtain ⟨_, _, h2⟩ := bind_eq_ok.1 h2
      obtain ⟨_, _, h2⟩ := bind_eq_ok.1 h2
      cases h2
      dsimp only
      omega
    · next hw =>
      cases ht
      dsimp only
      simp only [ge_iff_le, decide_eq_true_eq, Nat.not_le] at hw
      simp only [ne_eq, not_true_eq_false, false_iff]
      omega

/-! ### Components -/

theorem placeOps_loud {s : Store} (a : Archetype) : ∃ op ∈ s.placeOps dbg (.ok (some a)), StorePtrs.loud op = true :=
  ⟨_, List.mem_singleton_self _, rfl⟩

theorem add_exact (hx : LooseExec U dbg cap h s) (hd : DistinctAdds h) {e : Entity} (he : e ∈ handles h) {vals : TupleVal}
    (hn : (vals.map (·.1)).Nodup) :
    AsksIff U dbg s (.add e vals) (e ∈ alive h ∧ ∃ t ∈ vals.map (·.1), t ∉ heldTypes dbg s e) := by
  have hk := loose_known hx hd
  unfold AsksIff
  rw [show heapOps U dbg s (.add e vals) = s.placeOps dbg (s.addArchetype U dbg e (vals.map (·.1))) from rfl]
  generalize vals.map (·.1) = ts at hn ⊢
  have nothing : s.placeOps dbg (s.addArchetype U dbg e ts) = [] → AskNothing (s.placeOps dbg (s.addArchetype U dbg e ts)) := by
    intro h0
    rw [h0]
    exact nothing_of_quiet fun _ h => by cases h
  unfold Store.addArchetype at nothing ⊢
  by_cases hlive : e ∈ alive h
  · simp only [hlive, true_and]
    obtain ⟨h0, ⟨h1, h2⟩ | ⟨h1, hold, q, ai, a, h2, h3, h4, h5, h6, h7⟩⟩ := loose_found hx hlive
    · simp only [h0, h1, ok_bind, Bool.not_true, Bool.false_eq_true, if_false] at nothing ⊢
      by_cases hts : ts = []
      · subst hts
        refine ⟨fun ⟨t, ht, _⟩ => (by cases ht), fun _ => nothing ?_⟩
        rw [Archetype.withComponents_nil]
        rfl
      · obtain ⟨a, k1, _, _⟩ := Archetype.withComponents_spec (U := U) hn hts
        rw [k1]
        refine ⟨fun _ => asks_of_loud (placeOps_loud a), fun hno => absurd ?_ hno⟩
        rw [h2]
        obtain ⟨t, ht⟩ := List.exists_mem_of_ne_nil _ hts
        exact ⟨t, ht, by simp⟩
    · simp only [h0, h1, h2, idx_of_some h3, idxUnchecked_of_some h4, ok_bind, Bool.not_true, Bool.false_eq_true, if_false, if_true]
        at nothing ⊢
      have hw := hk.wf a (List.mem_of_getElem? h4)
      rw [h7]
      split
      · next hi =>
        rw [if_pos hi] at nothing
        refine ⟨fun ⟨t, ht, hne⟩ => absurd ((Archetype.isIncludeIds_iff hw.incr hn).1 hi t ht) hne, fun _ => nothing rfl⟩
      · next hi =>
        obtain ⟨b, bb, k1, _, _⟩ := built_union hw ts
        rw [k1]
        refine ⟨fun _ => asks_of_loud (placeOps_loud b), fun hno => absurd ((Archetype.isIncludeIds_iff hw.incr hn).2 fun t ht => ?_) hi⟩
        exact Decidable.byContradiction fun hne => hno ⟨t, ht, hne⟩
  · refine ⟨fun h => absurd h.1 hlive, fun _ => nothing ?_⟩
    have hc := loose_core hx
    rw [handles_eq] at he
    rw [alive_eq] at hlive
    rw [hc.isAlive (dbg := dbg) (hc.ents.issued_id_lt he)]
    simp only [hlive, decide_false, ok_bind, Bool.not_false, if_true]
    rfl

theorem remove_exact (hx : LooseExec U dbg cap h s) (hd : DistinctAdds h) {e : Entity} (he : e ∈ handles h) (ts : List TypeId) :
    AsksIff U dbg s (.remove e ts) (∃ t ∈ heldTypes dbg s e, t ∉ ts) := by
  have hk := loose_known hx hd
  unfold AsksIff
  rw [show heapOps U dbg s (.remove e ts) = s.placeOps dbg (s.removeArchetype U dbg e ts) from rfl]
  have nothing : s.placeOps dbg (s.removeArchetype U dbg e ts) = [] → AskNothing (s.placeOps dbg (s.removeArchetype U dbg e ts)) := by
    intro h0
    rw [h0]
    exact nothing_of_quiet fun _ h => by cases h
  unfold Store.removeArchetype Store.isValidEntityWithArchetype at nothing ⊢
  by_cases hlive : e ∈ alive h
  · obtain ⟨h0, ⟨h1, h2⟩ | ⟨h1, hold, q, ai, a, h2, h3, h4, h5, h6, h7⟩⟩ := loose_found hx hlive
    · rw [h2]
      refine ⟨fun ⟨t, ht, _⟩ => (by cases ht), fun _ => nothing ?_⟩
      simp only [h0, h1, ok_bind, if_true]
      rfl
    · simp only [h0, h1, ok_bind, if_true, Bool.not_true, Bool.false_eq_true, if_false, h2, idx_of_some h3, idxUnchecked_of_some h4]
        at nothing ⊢
      have hw := hk.wf a (List.mem_of_getElem? h4)
      rw [h7]
      have hb := built_diff hw ts
      split at hb
      · next hnil =>
        rw [hb] at nothing ⊢
        refine ⟨fun ⟨t, ht, hne⟩ => ?_, fun _ => nothing rfl⟩
        have : t ∈ a.ids.filter (· ∉ ts) := List.mem_filter.2 ⟨ht, by simpa using hne⟩
        rw [hnil] at this
        cases this
      · next hnil =>
        obtain ⟨b, bb, k1, _, _⟩ := hb
        rw [k1]
        refine ⟨fun _ => asks_of_loud (placeOps_loud b), fun hno => absurd ?_ hno⟩
        obtain ⟨t, ht⟩ := List.exists_mem_of_ne_nil _ hnil
        exact ⟨t, (List.mem_filter.1 ht).1, by simpa using (List.mem_filter.1 ht).2⟩
  · have hc := loose_core hx
    rw [handles_eq] at he
    rw [alive_eq] at hlive
    have hal := hc.isAlive (dbg := dbg) (hc.ents.issued_id_lt he)
    have h1 : heldTypes dbg s e = [] := by
      unfold heldTypes Store.getEntityArchetype Store.isValidEntityWithArchetype
      simp [hal, hlive]
    rw [h1]
    refine ⟨fun ⟨t, ht, _⟩ => (by cases ht), fun _ => nothing ?_⟩
    simp only [hal, hlive, decide_false, ok_bind, if_false, Bool.false_eq_true]
    rfl

theorem needsPage_exact {c : Archs} (hs : c.Shape) {i : Nat} (hi : i < c.archetypes.length) :
    c.needsPage i = true ↔ ¬ (c.freePages ≠ [] ∨ ∃ ps, c.archPages[i]? = some ps ∧ ∃ p ∈ ps, ∃ pg, c.pages[p]? = some pg ∧
      pg.hasFreeSpace = true) := by
  obtain ⟨ps, hps⟩ : ∃ ps, c.archPages[i]? = some ps := ⟨_, List.getElem?_eq_getElem (by rw [hs.plen]; exact hi)⟩
  unfold Archs.needsPage
  rw [idx_of_some hps]
  dsimp only
  have hlt : ∀ p ∈ ps.reverse, p < c.pages.length := fun p hp => hs.listed ps (List.mem_of_getElem? hps) p (List.mem_reverse.1 hp)
  have hnone : Archs.findFreePage c.pages ps.reverse = .ok none ↔ ¬ ∃ p ∈ ps.reverse, ∃ pg, c.pages[p]? = some pg ∧ pg.hasFreeSpace = true := by
    generalize ps.reverse = l at hlt
    induction l with
    | nil => simp [Archs.findFreePage]
    | cons p l ih =>
      have hp := List.getElem?_eq_getElem (hlt p List.mem_cons_self)
      have ih := ih fun x hx => hlt x (List.mem_cons_of_mem _ hx)
      unfold Archs.findFreePage
      rw [idx_of_some hp, ok_bind]
      split
      · next hf =>
        constructor
        · intro h; cases h
        · exact fun h => absurd ⟨p, List.mem_cons_self, _, hp, hf⟩ h
      · next hf =>
        rw [ih]
        refine not_congr ⟨fun ⟨x, hx, h⟩ => ⟨x, List.mem_cons_of_mem _ hx, h⟩, ?_⟩
        rintro ⟨x, hx, pg, h1, h2⟩
        rcases List.mem_cons.1 hx with rfl | hx
        · rw [hp] at h1; cases h1; exact absurd h2 hf
        · exact ⟨x, hx, pg, h1, h2⟩
  have hps' : (∃ ps, c.archPages[i]? = some ps ∧ ∃ p ∈ ps, ∃ pg, c.pages[p]? = some pg ∧ pg.hasFreeSpace = true) ↔
      ∃ p ∈ ps.reverse, ∃ pg, c.pages[p]? = some pg ∧ pg.hasFreeSpace = true := by
    simp only [hps, Option.some.injEq, exists_eq_left', List.mem_reverse]
  rw [hps']
  rcases Archs.findFreePage_spec c.pages ps.reverse hlt with hf | ⟨p, pg, hf, hm, hpg, hfree⟩
  · have := hnone.1 hf
    rw [hf]
    dsimp only
    rw [List.isEmpty_iff, not_or, not_not]
    exact ⟨fun h0 => ⟨h0, this⟩, fun h0 => h0.1⟩
  · rw [hf]
    dsimp only
    simp only [Bool.false_eq_true, false_iff, not_not]
    exact .inr ⟨p, hm, pg, hpg, hfree⟩

theorem createWith_exact (hx : LooseExec U dbg cap h s) (hd : DistinctAdds h) (hb : (handles h).length + 1 < u32Size)
    (hc : s.entitiesCapacity < u32Size) {a : Archetype} (ha : Built U a) (hr : rowsPerPage U dbg a.ids ≠ none) :
    AsksIff U dbg s (.createWith a) ((alive h).length = s.entitiesCapacity ∨ ¬ Room s a.ids) := by
  have hk := loose_known hx hd
  have hs := (loose_shape hx).archs
  have hcr := heapCreate_exact hx hb hc
  unfold AsksIff
  rw [show heapOps U dbg s (.createWith a) = s.createWithOps dbg a from rfl]
  obtain ⟨s1, e1, k1, _⟩ := (loose_core hx).register (dbg := dbg) (by rwa [handles_eq] at hb)
  unfold Store.createWithOps
  rw [k1]
  dsimp only
  unfold Store.createOps
  rw [hcr]
  dsimp only
  have hroom : StorePtrs.loud (s.archs.heapPlace dbg none a) = true ↔ ¬ Room s a.ids := by
    unfold Archs.heapPlace Archs.heapReserve Archs.reserveArchetype
    cases hf : Archs.findSame a 0 s.archs.archetypes with
    | none =>
      have hno : ¬ Room s a.ids := by
        rintro ⟨i, b, hb, hset, _⟩
        refine Archs.findSame_none _ hf b (List.mem_of_getElem? hb) ?_
        exact Incr.ext (hk.wf b (List.mem_of_getElem? hb)).incr ha.wf.incr hset
      simp only [hno, not_false_eq_true, iff_true]
      obtain ⟨n, hn⟩ := Option.ne_none_iff_exists'.1 hr
      obtain ⟨l, hl, _⟩ := rowsPerPage_some hn ha.wf fun t => Iff.rfl
      unfold Layout.new at hl
      obtain ⟨c, h1, _⟩ := bind_eq_ok.1 hl
      rw [h1]
      rfl
    | some i =>
      obtain ⟨_, b, hbi, hids⟩ := Archs.findSame_some _ hf
      rw [Nat.sub_zero] at hbi
      have hR : Room s a.ids ↔ (s.archs.freePages ≠ [] ∨ ∃ ps, s.archs.archPages[i]? = some ps ∧ ∃ p ∈ ps, ∃ pg,
          s.archs.pages[p]? = some pg ∧ pg.hasFreeSpace = true) := by
        constructor
        · rintro ⟨j, b', hb', hset, hx'⟩
          have : b'.ids = b.ids := (Incr.ext (hk.wf b' (List.mem_of_getElem? hb')).incr ha.wf.incr hset).trans hids.symm
          have hj : j = i := by
            have h1 : (s.archs.archetypes.map (·.ids))[i]? = some b.ids := by rw [List.getElem?_map, hbi]; rfl
            have h2 : (s.archs.archetypes.map (·.ids))[j]? = some b.ids := by rw [List.getElem?_map, hb', ← this]; rfl
            exact (List.getElem?_inj (List.getElem?_eq_some_iff.1 h2).1 (loose_slots hx).uniq).1 (h2.trans h1.symm)
          exact hj ▸ hx'
        · exact fun h' => ⟨i, b, hbi, fun t => by rw [hids], h'⟩
      have hi := (List.getElem?_eq_some_iff.1 hbi).1
      rw [hR, ← needsPage_exact hs hi]
      dsimp only
      cases binarySearch s.archs.freeArchetypes i <;> rfl
  refine ⟨fun hC => asks_of_loud ?_, fun hC => nothing_of_quiet ?_⟩
  · rcases hC with hC | hC
    · exact ⟨_, List.mem_append_left _ (List.mem_singleton_self _), by simp [StorePtrs.loud, hC]⟩
    · exact ⟨_, List.mem_append_right _ (List.mem_singleton_self _), hroom.2 hC⟩
  · intro op hop
    rcases List.mem_append.1 hop with hop | hop
    · rw [List.mem_singleton.1 hop]
      simpa [StorePtrs.loud] using fun h' => hC (.inl h')
    · rw [List.mem_singleton.1 hop]
      exact Bool.eq_false_iff.2 fun h' => hC (.inr (hroom.1 h'))

end
end Ecs
