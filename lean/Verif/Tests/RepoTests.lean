import Verif.Model.Update
import Verif.Model.ResourceStore

/-! The tests of the repository (`/repo/src/tests/*.rs`), run on the model. They are tests of the fidelity of the model,
not proofs: each `#guard` is evaluated when this file is compiled. Tests without `should_panic` are run in both build
modes, and every test with two orders of the `TypeId`s. -/

namespace Ecs.Tests

/-! ### The types of the tests -/

/-- `f32`, `u64`, `u128`, `u32`, `usize`; `TestComponent1`, `TestComponent2` of `components_tests.rs`; `Position`, `Rotation` of
`component_query_test.rs`; `TestComponent1`, `TestComponent2` of `entity_component_query_test.rs`; `TestType1` – `TestType3` of
`archetype_tests.rs`; `TestComponent1`, `TestComponent2` of `ordered_component_query_tests.rs`. -/
inductive Ty | f32 | u64 | u128 | u32 | usize | comp1 | comp2 | position | rotation | ecomp1 | ecomp2
  | test1 | test2 | test3 | ocomp1 | ocomp2
deriving DecidableEq

def Ty.all : List Ty :=
  [.f32, .u64, .u128, .u32, .usize, .comp1, .comp2, .position, .rotation, .ecomp1, .ecomp2, .test1, .test2, .test3, .ocomp1,
   .ocomp2]

def Ty.size : Ty → Nat
  | .f32 | .u32 | .comp1 | .test1 | .test2 | .test3 | .ocomp1 => 4
  | .u64 | .usize | .comp2 | .position | .rotation | .ecomp2 | .ocomp2 => 8
  | .u128 => 16
  | .ecomp1 => 32

def Ty.align : Ty → Nat
  | .f32 | .u32 | .comp1 | .test1 | .test2 | .test3 | .ocomp1 | .position => 4
  | .u64 | .usize | .comp2 | .rotation | .ecomp2 | .ocomp2 => 8
  | .u128 | .ecomp1 => 16

/-- The `TypeId`s, in the order of `Ty.all` or in the opposite order. -/
def Ty.id (rev : Bool) (t : Ty) : TypeId := if rev then 15 - Ty.all.idxOf t else Ty.all.idxOf t

def Ty.ofId (rev : Bool) (i : TypeId) : Ty := Ty.all.getD (if rev then 15 - i else i) .f32

theorem Ty.align_pos (t : Ty) : 0 < t.align := by cases t <;> decide
theorem Ty.align_dvd (t : Ty) : t.align ∣ t.size := by cases t <;> decide

def uni (rev : Bool) : Universe where
  size i := (Ty.ofId rev i).size
  align i := (Ty.ofId rev i).align
  align_pos _ := Ty.align_pos _
  align_dvd _ := Ty.align_dvd _

/-- A value of `t`, told apart by the number `n`. -/
def Ty.val (t : Ty) (n : Nat) : List UInt8 := (List.range t.size).map fun i => UInt8.ofNat (n / 256 ^ i)

/-! ### Programs -/

/-- The build mode, the order of the `TypeId`s, and the store. -/
abbrev T := ReaderT (Bool × Bool) (StateT Store (Except Fault))

def lift {α : Type} (f : Bool → Store → Res α) : T α := do
  let (dbg, _) ← read
  let s ← get
  match f dbg s with
  | .ok a => return a
  | .error e => throw e

def act (f : Bool → Store → Res Store) : T Unit := do set (← lift f)

def actE (f : Bool → Store → Res (Store × Entity)) : T Entity := do
  let (s, e) ← lift f
  set s
  return e

def U : T Universe := return uni (← read).2
def ids (ts : List Ty) : T (List TypeId) := return ts.map (Ty.id (← read).2)
def tuple (vs : List (Ty × Nat)) : T TupleVal := do
  let rev := (← read).2
  return vs.map fun p => (p.1.id rev, p.1.val p.2)

def useNew : T Unit := act fun dbg _ => Store.new dbg
def useCapacity (n : Nat) : T Unit := act fun dbg _ => Store.withCapacity dbg n

/-- `assert!`. -/
def check (b : Bool) : T Unit := if b then pure () else throw (.panic .assertFailed)
def checkEq {α : Type} [DecidableEq α] (a b : α) : T Unit := check (decide (a = b))

def archetype (ts : List Ty) : T Archetype := do
  let u ← U
  let ts ← ids ts
  lift fun _ _ => Archetype.withComponents u ts

def createEntity : T Entity := actE fun dbg s => s.createEntity dbg
def createWith (a : Archetype) : T Entity := actE fun dbg s => s.createEntityWithArchetype dbg a
def destroy (e : Entity) : T Unit := act fun dbg s => s.destroyEntity dbg e
def isAlive (e : Entity) : T Bool := lift fun dbg s => s.isAlive dbg e
def add (e : Entity) (vs : List (Ty × Nat)) : T Unit := do
  let u ← U
  let t ← tuple vs
  act fun dbg s => s.addComponents u dbg e t
def remove (e : Entity) (ts : List Ty) : T Unit := do
  let u ← U
  let ts ← ids ts
  act fun dbg s => s.removeComponents u dbg e ts
/-- Assign through `get_components_refs_mut(e).unwrap()`. -/
def assign (e : Entity) (vs : List (Ty × Nat)) : T Unit := do
  let u ← U
  let t ← tuple vs
  let (s, ok) ← lift fun dbg s => s.setComponents u dbg e t
  set s
  check ok
/-- The components are there and have these values. -/
def checkValues (e : Entity) (vs : List (Ty × Nat)) : T Unit := do
  let u ← U
  let ts ← ids (vs.map (·.1))
  let r ← lift fun dbg s => s.getComponents u dbg e ts
  checkEq r (some (vs.map fun p => (p.1.val p.2).map some))
def checkNone (e : Entity) (ts : List Ty) : T Unit := do
  let u ← U
  let ts ← ids ts
  let r ← lift fun dbg s => s.getComponentsRefs u dbg e ts
  checkEq r none
def archetypeOf (e : Entity) : T Archetype := do
  match ← lift fun dbg s => s.getEntityArchetype dbg e with
  | some a => return a
  | none => throw (.panic .unwrapNone)
def readRefs (refs : List Ref) : T (List (List Cell)) := lift fun _ s => refs.mapM (readRef s.archs.pages)

def start : Store where
  ents := Ents.new 0
  archs := Archs.new
  tags := Tags.new 0
  orders := Orders.new 0
  hasArch := Words.alloc 0
  toIndex := []
  toPage := []

instance : Inhabited Entity := ⟨⟨NULL_ID, 0⟩⟩

/-- The test passes in both build modes, for both orders of the `TypeId`s. -/
def passes (t : T Unit) : Bool :=
  [(true, true), (true, false), (false, true), (false, false)].all fun m =>
    match ((t.run m).run start) with
    | .ok _ => true
    | .error _ => false

/-- `#[should_panic] #[cfg(debug_assertions)]`. -/
def panics (t : T Unit) : Bool :=
  [(true, true), (true, false)].all fun m =>
    match ((t.run m).run start) with
    | .error (.panic _) => true
    | _ => false

/-! ### `archetype_tests.rs` -/

def build (f : Universe → Bool → ArchetypeBuilder) : T Archetype := do
  let u ← U
  let rev := (← read).2
  let (a, _) ← lift fun _ _ => (f u rev).build
  return a

#guard passes do
  let a ← archetype [.test1, .test3]
  let rev := (← read).2
  checkEq a.componentCount 2
  check (a.hasComponent (Ty.test1.id rev))
  check (!a.hasComponent (Ty.test2.id rev))
  check (a.hasComponent (Ty.test3.id rev))

#guard passes do
  let a1 ← archetype [.test1, .test2]
  let a2 ← lift fun _ _ => a1.clone
  check (a1.isSameAs a2)
  let a3 ← archetype [.test1, .test3]
  check (!a1.isSameAs a3)

#guard passes do
  let ext ← archetype [.test3, .u64]
  let a ← build fun u rev =>
    (ArchetypeBuilder.new.includeComponents u [Ty.test1.id rev, Ty.test2.id rev]).includeArchetype ext
  check (a.isInclude ext)
  check (!a.isInclude (← archetype [.f32]))

#guard passes do
  let a ← archetype [.test1, .u64]
  let b ← archetype [.test2, .test3]
  check (← lift fun _ _ => a.isExclude b)
  let c ← build fun u rev => (ArchetypeBuilder.new.includeArchetype b).includeComponents u [Ty.u64.id rev]
  check (!(← lift fun _ _ => a.isExclude c))
  let c ← build fun u rev => (ArchetypeBuilder.new.includeArchetype b).includeComponents u [Ty.test1.id rev]
  check (!(← lift fun _ _ => a.isExclude c))
  let c ← build fun _ _ => ArchetypeBuilder.new.includeArchetype a
  check (!(← lift fun _ _ => a.isExclude c))

def checkUnion (ts us shared : List Ty) : T Unit := do
  let a ← archetype ts
  let b ← archetype us
  let u := ArchetypesUnion.calculate a b
  checkEq u.lhsIndices.length shared.length
  checkEq u.rhsIndices.length shared.length
  for t in ← ids shared do
    check (u.lhsIndices.any fun i => a.findComponentIndex t == some i)
    check (u.rhsIndices.any fun i => b.findComponentIndex t == some i)

#guard passes do
  checkUnion [.test2] [.test1, .test2] [.test2]
  checkUnion [.test1, .test2] [.test2] [.test2]
  checkUnion [.test1, .test2] [.test3] []
  checkUnion [.test1, .test2, .test3] [.test1, .test3] [.test1, .test3]

/-! ### `components_tests.rs` -/

#guard passes do
  useCapacity 255
  let a ← archetype [.u64, .u128]
  let mut es := #[]
  for i in List.range 255 do
    let e ← createWith a
    es := es.push e
    assign e [(.u64, i), (.u128, 255 + i)]
  for i in List.range 255 do
    checkValues es[i]! [(.u64, i), (.u128, 255 + i)]

#guard passes do
  useNew
  let e ← createWith (← archetype [.u64, .u128])
  checkNone e [.f32]

#guard passes do
  useNew
  let e ← createWith (← archetype [.u64])
  destroy e
  checkNone e [.u64]

#guard passes do
  useNew
  let a ← archetype [.comp1, .comp2]
  let mut es := #[]
  for i in List.range 4 do
    let e ← createWith a
    assign e [(.comp1, i), (.comp2, 2 * i)]
    es := es.push e
  destroy es[1]!
  checkValues es[3]! [(.comp1, 3), (.comp2, 6)]

#guard passes do
  useNew
  let e ← createEntity
  add e [(.comp1, 0), (.comp2, 0)]
  check ((← archetypeOf e).isIncludeOnlyIds (← ids [.comp1, .comp2]))

#guard passes do
  useNew
  let e ← createEntity
  add e [(.comp1, 364)]
  add e [(.comp2, 31)]
  checkValues e [(.comp1, 364), (.comp2, 31)]

#guard passes do
  useNew
  let e0 ← createEntity
  let e1 ← createEntity
  add e0 [(.comp1, 1), (.u64, 15)]
  add e1 [(.comp2, 30), (.comp1, 2)]
  checkValues e0 [(.comp1, 1), (.u64, 15)]
  checkValues e1 [(.comp2, 30), (.comp1, 2)]

#guard passes do
  useNew
  let e1 ← createEntity
  add e1 [(.comp1, 364)]
  let e2 ← createEntity
  add e2 [(.comp2, 31)]
  check ((← archetypeOf e1).isIncludeOnlyIds (← ids [.comp1]))
  check ((← archetypeOf e2).isIncludeOnlyIds (← ids [.comp2]))
  checkValues e1 [(.comp1, 364)]
  checkValues e2 [(.comp2, 31)]

#guard passes do
  useNew
  let e ← createEntity
  add e [(.comp1, 0), (.comp2, 0)]
  remove e [.comp2]
  let a ← archetypeOf e
  let t1 ← ids [.comp1]
  let t2 ← ids [.comp2]
  check (← lift fun _ _ => a.isExcludeIds t2)
  check (a.isIncludeIds t1)

#guard passes do
  useNew
  let e ← createEntity
  add e [(.comp1, 0), (.comp2, 66)]
  remove e [.comp1]
  checkValues e [(.comp2, 66)]

/-! ### `entities_tests.rs` -/

def stub : T Archetype := archetype [.u32]

#guard passes useNew

#guard passes do
  useNew
  let e1 ← createWith (← stub)
  let e2 ← createWith (← stub)
  checkEq e1 ⟨0, 1⟩
  checkEq e2 ⟨1, 1⟩

#guard passes do
  useCapacity 1
  let _ ← createWith (← stub)
  checkEq (← get).entitiesCapacity 1
  let _ ← createWith (← stub)
  check (decide ((← get).entitiesCapacity ≠ 1))

#guard passes do
  useNew
  let e ← createEntity
  check (← isAlive e)
  checkNone e [.u32]
  checkEq (← lift fun dbg s => s.getEntityArchetype dbg e) none

#guard panics do
  useNew
  let e1 ← createWith (← stub)
  destroy e1
  let _ ← createWith (← stub)
  destroy e1

#guard panics do
  useCapacity 2
  let e ← createWith (← stub)
  useCapacity 1
  destroy e

#guard passes do
  useNew
  let e1 ← createWith (← stub)
  destroy e1
  let e2 ← createWith (← stub)
  checkEq e1.id e2.id
  checkEq e2.version 2
  check (decide (e1.version ≠ e2.version))

#guard passes do
  useNew
  let e ← createWith (← stub)
  check (← isAlive e)
  destroy e
  check (!(← isAlive e))

#guard passes do
  useNew
  let e ← createWith (← stub)
  check (← isAlive e)
  let e' ← createWith (← stub)
  check (← isAlive e)
  check (← isAlive e')
  destroy e
  check (!(← isAlive e))
  check (← isAlive e')

#guard passes do
  useNew
  let mut es := #[]
  for _ in List.range 33 do
    let e ← createWith (← stub)
    check (← isAlive e)
    es := es.push e
  for e in es do
    check (← isAlive e)

#guard passes do
  useNew
  let a ← archetype [.u64, .u32]
  let e0 ← createWith a
  let e1 ← createWith a
  check ((← archetypeOf e0).isSameAs (← archetypeOf e1))

#guard passes do
  useNew
  let e0 ← createWith (← archetype [.u64, .u32])
  let e1 ← createWith (← archetype [.u64])
  check (!(← archetypeOf e0).isSameAs (← archetypeOf e1))

/-! ### `component_query_test.rs` -/

#guard passes do
  useNew
  let u ← U
  let ts ← ids [.position, .rotation]
  let _ ← createWith (← archetype [.position, .rotation])
  let _ ← createWith (← archetype [.position, .rotation, .u64])
  let expected := [(Ty.position.val 10, Ty.rotation.val 90), (Ty.position.val 20, Ty.rotation.val 180)]
  let items ← lift fun dbg s => runComponentQueryWithEntities u dbg s (.write ts) [] 10
  checkEq items.length 2
  let entities := items.map (·.1)
  act fun dbg s => updateComponents u dbg s (.write ts) []
    (fun e _ => let p := expected.getD (entities.idxOf e) ([], []); [p.1, p.2]) 10
  let other ← archetype [.f32, .u64]
  let _ ← createWith other
  let _ ← createWith other
  let it ← lift fun _ s => componentQueryIter u s (.readonly ts) []
  checkEq it.len 2
  let items ← lift fun dbg s => runComponentQueryWithEntities u dbg s (.readonly ts) [] 10
  checkEq items.length 2
  for (e, refs) in items do
    let p := expected.getD (entities.idxOf e) ([], [])
    checkEq (← readRefs refs) [p.1.map some, p.2.map some]

#guard passes do
  useNew
  let u ← U
  let ts ← ids [.usize]
  let a ← archetype [.usize]
  let mut kept := #[]
  for i in List.range 10 do
    let e ← createWith a
    assign e [(.usize, i)]
    if [0, 5, 9].contains i then destroy e else kept := kept.push e
  let it ← lift fun _ s => componentQueryIter u s (.readonly ts) []
  checkEq it.len kept.size
  let items ← lift fun dbg s => runComponentQueryWithEntities u dbg s (.readonly ts) [] 20
  for (_, refs) in items do
    let v ← readRefs refs
    check ([0, 5, 9].all fun i => v != [(Ty.usize.val i).map some])
  check (kept.all fun e => (items.map (·.1)).contains e)

/-! ### `entity_component_query_test.rs` -/

#guard passes do
  useNew
  let u ← U
  let ts ← ids [.ecomp1, .ecomp2]
  let good ← archetype [.ecomp1, .ecomp2]
  let bad ← archetype [.usize]
  let mut valid := #[]
  let mut invalid := #[]
  for i in List.range 21 do
    if 7 ≤ i ∧ i < 15 then
      invalid := invalid.push (← createWith bad)
    else
      let e ← createWith good
      assign e [(.ecomp1, i), (.ecomp2, 3 * i)]
      valid := valid.push (e, i)
  let all := valid.toList.map (·.1) ++ invalid.toList
  let items ← lift fun dbg s => runEntityQueryWithEntities u dbg s all (.readonly ts) [] 30
  checkEq (items.map (·.1)) (valid.toList.map (·.1))
  let vals ← items.mapM fun x => readRefs x.2
  checkEq vals (valid.toList.map fun x => [(Ty.ecomp1.val x.2).map some, (Ty.ecomp2.val (3 * x.2)).map some])

#guard passes do
  useNew
  let u ← U
  let ts ← ids [.ecomp2]
  let a1 ← archetype [.ecomp1, .ecomp2]
  let a2 ← archetype [.ecomp2]
  let mut es : Array Entity := #[]
  for i in List.range (51 + 48) do
    let e ← createWith (if i < 51 then a1 else a2)
    assign e [(.ecomp2, e.id)]
    es := es.push e
  for i in [0, 51 + 48 - 2, 32, 72] do
    destroy es[i]!
    es := (es.toList.eraseIdx i).toArray
  for i in List.range (es.size - 1) do
    if i % 3 = 0 then
      let j := i * 17 % es.size
      let x := es[i]!
      let y := es[j]!
      es := (es.set! i y).set! j x
  let items ← lift fun dbg s => runEntityQueryWithEntities u dbg s es.toList (.readonly ts) [] 200
  checkEq (items.map (·.1)) es.toList
  let vals ← items.mapM fun x => readRefs x.2
  checkEq vals (es.toList.map fun e => [(Ty.ecomp2.val e.id).map some])

/-! ### `ordered_component_query_tests.rs` -/

def group : Nat := 3

def order (e : Entity) : T Unit := act fun dbg s => s.addOrder dbg group e
def ordered (t : Ty) : T (List (List (List Cell))) := do
  let u ← U
  let ts ← ids [t]
  let items ← lift fun dbg s => runOrderedQuery u dbg s group (.readonly ts) [] 30
  items.mapM readRefs
def createOrdered (t : Ty) (n : Nat) : T Entity := do
  let e ← createEntity
  order e
  add e [(t, n)]
  return e

#guard passes do
  useNew
  checkEq (← ordered .ocomp1) []

#guard passes do
  useNew
  let u ← U
  let mut es := #[]
  for i in List.range 10 do
    es := es.push (← createOrdered .ocomp1 i, i)
  let mut expected := es.toList
  for i in [0, 2, 7] do
    match expected[i]? with
    | some (e, _) => destroy e
    | none => check false
    expected := expected.eraseIdx i
  let ts ← ids [.ocomp1]
  let it ← lift fun _ s => orderedQueryIter u s group (.readonly ts) [] 30
  checkEq it.len expected.length
  checkEq (← ordered .ocomp1) (expected.map fun x => [(Ty.ocomp1.val x.2).map some])

#guard passes do
  useNew
  let mut e1 := #[]
  let mut e2 := #[]
  for i in [0, 1] do let _ ← createOrdered .ocomp1 i; e1 := e1.push i
  for i in [0, 1, 2] do let _ ← createOrdered .ocomp2 i; e2 := e2.push i
  for i in [1, 2, 3] do let _ ← createOrdered .ocomp1 i; e1 := e1.push i
  for i in [2, 3, 4, 5, 6] do let _ ← createOrdered .ocomp2 i; e2 := e2.push i
  checkEq (← ordered .ocomp1) (e1.toList.map fun n => [(Ty.ocomp1.val n).map some])
  checkEq (← ordered .ocomp2) (e2.toList.map fun n => [(Ty.ocomp2.val n).map some])

#guard passes do
  useNew
  let u ← U
  let mut es := #[]
  for i in List.range 5 do
    es := es.push (← createOrdered .ocomp1 i, [(Ty.ocomp1.val i).map some])
  let ts ← ids [.ocomp1]
  let items ← lift fun dbg s => runOrderedQueryWithEntities u dbg s group (.readonly ts) [] 30
  let vals ← items.mapM fun x => return (x.1, ← readRefs x.2)
  checkEq vals es.toList

/-! ### `order_group_tests.rs` -/

def nextTo (e x : Entity) : T Unit := act fun dbg s => s.addOrderNextTo dbg group e x
def previousTo (e x : Entity) : T Unit := act fun dbg s => s.addOrderPreviousTo dbg group e x
def unorder (e : Entity) : T Unit := act fun _ s => s.removeOrder group e

def checkEnds (first last : Option Entity) : T Unit := do
  checkEq (← lift fun _ s => s.getFirstOrdered group) first
  checkEq (← lift fun _ s => s.getLastOrdered group) last
def checkAround (e : Entity) (prev next : Option Entity) : T Unit := do
  checkEq (← lift fun _ s => s.getPreviousOrdered group e) prev
  checkEq (← lift fun _ s => s.getNextOrdered group e) next

def three (f : Entity → Entity → Entity → T Unit) : T Unit := do
  useNew
  let e0 ← createEntity
  let e1 ← createEntity
  let e2 ← createEntity
  f e0 e1 e2

def checkSequence (a b c : Entity) : T Unit := do
  checkEnds (some a) (some c)
  checkAround a none (some b)
  checkAround b (some a) (some c)
  checkAround c (some b) none

#guard passes do
  useNew
  checkEnds none none

#guard passes do
  useNew
  let e ← createEntity
  order e
  checkEnds (some e) (some e)
  checkAround e none none

#guard [10, 1].all fun cap => passes do
  useCapacity cap
  let e0 ← createEntity
  let e1 ← createEntity
  order e0
  order e1
  checkEnds (some e0) (some e1)
  checkAround e0 none (some e1)
  checkAround e1 (some e0) none

#guard passes do
  useNew
  let e ← createEntity
  unorder e
  check (← isAlive e)

#guard passes do
  useNew
  let e ← createEntity
  order e
  unorder e
  checkEnds none none
  checkAround e none none

#guard passes do
  useCapacity 3
  let e0 ← createEntity
  let e1 ← createEntity
  let e2 ← createEntity
  order e0
  order e1
  order e2
  unorder e1
  checkAround e1 none none
  checkAround e0 none (some e2)
  checkAround e2 (some e0) none
  checkEnds (some e0) (some e2)
  unorder e0
  for e in [e0, e1, e2] do checkAround e none none
  checkEnds (some e2) (some e2)
  unorder e2
  for e in [e0, e1, e2] do checkAround e none none
  checkEnds none none

#guard passes <| three fun e0 e1 e2 => do
  order e0
  order e1
  order e2
  destroy e1
  checkEq (← lift fun _ s => s.getNextOrdered group e0) (some e2)
  checkEq (← lift fun _ s => s.getPreviousOrdered group e2) (some e0)

#guard panics <| three fun e0 e1 e2 => do
  order e0
  order e1
  order e2
  order e1

#guard passes <| three fun e0 e1 _ => do
  order e0
  nextTo e1 e0
  checkEnds (some e0) (some e1)
  checkAround e0 none (some e1)
  checkAround e1 (some e0) none

#guard passes <| three fun e0 e1 e2 => do
  order e0
  nextTo e1 e0
  nextTo e2 e1
  checkSequence e0 e1 e2

#guard passes <| three fun e0 e1 e2 => do
  order e0
  nextTo e1 e0
  nextTo e2 e0
  checkSequence e0 e2 e1

#guard panics <| three fun e0 e1 e2 => do
  order e0
  nextTo e1 e0
  nextTo e2 e1
  nextTo e2 e0

#guard passes <| three fun e0 e1 _ => do
  order e1
  previousTo e0 e1
  checkEnds (some e0) (some e1)
  checkAround e0 none (some e1)
  checkAround e1 (some e0) none

#guard passes <| three fun e0 e1 e2 => do
  order e2
  previousTo e1 e2
  previousTo e0 e1
  checkSequence e0 e1 e2

#guard passes <| three fun e0 e1 e2 => do
  order e1
  previousTo e2 e1
  previousTo e0 e2
  checkSequence e0 e2 e1

/-! ### `resources_store.rs` -/

def bothModes (f : Bool → Res Bool) : Bool := [true, false].all fun dbg =>
  match f dbg with
  | .ok b => b
  | .error _ => false

#guard bothModes fun dbg => do
  let (r, e) ← (ResStore.new : ResStore String).create dbg "String to check"
  return (← r.index dbg e) = "String to check"

#guard bothModes fun dbg => do
  let (r, e) ← (ResStore.new : ResStore String).create dbg "String to check"
  let (r, old) ← r.assign dbg e "NewString"
  return old = "String to check" ∧ (← r.index dbg e) = "NewString"

#guard bothModes fun dbg => do
  let (r, e) ← (ResStore.new : ResStore Unit).create dbg ()
  let (_, v) ← r.release dbg e
  return [v].length = 1

#guard bothModes fun dbg => do
  let (r, _) ← (ResStore.new : ResStore Unit).create dbg ()
  return (← r.drop).length = 1

#guard bothModes fun dbg => do
  let mut r : ResStore Unit := ResStore.withCapacity 100
  for _ in List.range 100 do
    let (r', _) ← r.create dbg ()
    r := r'
  return (← r.drop).length = 100

/-! ### `tag_tests.rs` -/

def tag (t : Nat) (e : Entity) : T Unit := act fun _ s => s.addTag t e
def untag (t : Nat) (e : Entity) : T Unit := act fun _ s => s.removeTag t e
def hasTag (t : Nat) (e : Entity) : T Bool := lift fun _ s => s.hasTag t e

#guard passes do
  useNew
  let e ← createEntity
  tag 5 e
  check (← hasTag 5 e)
  untag 5 e
  check (!(← hasTag 5 e))

#guard [(5, 6), (6, 5)].all fun (a, b) => passes do
  useNew
  let e ← createEntity
  tag a e
  tag b e
  check (← hasTag a e)
  check (← hasTag b e)
  untag b e
  check (← hasTag a e)
  check (!(← hasTag b e))
  untag a e
  check (!(← hasTag a e))
  check (!(← hasTag b e))

end Ecs.Tests
