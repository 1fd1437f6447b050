import Verif.Model.Address
import Verif.Model.LayoutWords
import Verif.Model.Query

/-! The functions that the macro `components_tuple_impl!` (`src/component_tuple.rs:75-310`) generates, at the level of identifiers
and machine pointers. `Model/Store.lean` and `Model/Query.lean` have the same functions on lists of types and `Ref`s.

The macro is used with the identifiers `T0, …, T(n-1)` for `n` from 1 to 12. An identifier is a list of characters. -/

namespace Ecs.Ptrs

/-- What can go wrong in these functions. -/
inductive PtrFault where
  /-- `+` or `*` on `usize` overflows in a debug build -/
  | overflow
  /-- `ptr.add(n)` where the result is outside the block of the pointer (undefined behaviour) -/
  | leavesBlock
  /-- `&*ptr` where the pointer is null, or not aligned, or the value is not inside the block (undefined behaviour) -/
  | invalidRef
  /-- the generated code names a variable or type that is not there (it would not compile) -/
  | unresolved
deriving DecidableEq, Repr

/-- Undefined behaviour, as opposed to a panic or a rejected program. -/
def PtrFault.isUb : PtrFault → Bool
  | leavesBlock | invalidRef => true
  | overflow | unresolved => false

/-- A raw pointer: an address, and the page whose memory it was derived from (`none` for `null`). -/
structure RawPtr where
  addr : Nat
  block : Option Nat
deriving DecidableEq, Repr

/-- `std::ptr::null` -/
def RawPtr.null : RawPtr := ⟨0, none⟩

/-- The bytes from `addr` to `addr + size` are inside the block; `base` gives the addresses of the pages' memory. -/
def RawPtr.within (base : Nat → Nat) (p : RawPtr) (size : Nat) : Bool :=
  match p.block with
  | none => decide (size = 0)
  | some b => decide (base b ≤ p.addr) && decide (p.addr + size ≤ base b + pageMemory.size)

/-- `p.add(count)` for a pointer to values of the given size: the documented condition is that the offset is 0 or that the pointer and the
result are in (or at the end of) one block. -/
def RawPtr.add (base : Nat → Nat) (p : RawPtr) (count size : Nat) : Except PtrFault RawPtr :=
  if p.within base (count * size) then .ok { p with addr := p.addr + count * size } else .error .leavesBlock

/-- `&*p` and `&mut *p` for a pointer to a `t`: the reference as its address. -/
def RawPtr.toRef (U : Universe) (base : Nat → Nat) (t : TypeId) (p : RawPtr) : Except PtrFault Nat :=
  if p.addr ≠ 0 && decide (p.addr % U.align t = 0) && p.within base (U.size t) then .ok p.addr else .error .invalidRef

/-- Lift of `usize` arithmetic (`Model/LayoutWords.lean`). -/
def word (r : Res Nat) : Except PtrFault Nat :=
  match r with
  | .ok n => .ok n
  | .error _ => .error .overflow

/-- `src/archetype_data_page.rs:131-155` `get_component_data_ptr_mut` and `get_component_data_ptr`: an `add` on `*mut u8`. -/
def pageDataPtr (dbg : Bool) (base : Nat → Nat) (page entityIndex componentOffset typeSize : Nat) : Except PtrFault RawPtr := do
  let m ← word (Layout.mulUsize dbg entityIndex typeSize)
  let n ← word (Layout.addUsize dbg componentOffset m)
  RawPtr.add base ⟨base page, some page⟩ n 1

/-! ### The macro -/

abbrev Ident := List Char

/-- `T0, …, T(n-1)`: the arguments of the macro (`src/component_tuple.rs:298-309`). -/
def tupleIdents (n : Nat) : List Ident := (List.range n).map fun i => 'T' :: Nat.toDigits 10 i

/-- `paste!([<$T:lower>])` -/
def lower (x : Ident) : Ident := x.map Char.toLower

/-- `paste!([<v_$T:lower>])` -/
def vLower (x : Ident) : Ident := 'v' :: '_' :: lower x

/-- Names bound by a pattern, or type parameters. -/
abbrev Env (α : Type) := List (Ident × α)

/-- The value of a name. -/
def Env.get {α : Type} (env : Env α) (x : Ident) : Except PtrFault α :=
  match env.lookup x with
  | some v => .ok v
  | none => .error .unresolved

/-- The pattern `($( paste!([<$T:lower>]) ),*)` matched against a tuple. -/
def bindLower {α : Type} (Ts : List Ident) (vals : List α) : Env α := (Ts.map lower).zip vals

/-- The pattern `($( paste!([<v_$T:lower>]) ),*)` matched against a tuple. -/
def bindVLower {α : Type} (Ts : List Ident) (vals : List α) : Env α := (Ts.map vLower).zip vals

/-- The type parameters of the instance of the macro for the tuple of the given types. -/
def typesOf (ts : List TypeId) : Env TypeId := (tupleIdents ts.length).zip ts

section
variable (U : Universe) (dbg : Bool) (base : Nat → Nat) (Ts : List Ident) (types : Env TypeId)

/-- `src/component_tuple.rs:116-150` `get_refs` and `get_refs_mut`. -/
def getRefsP (page entityIndex : Nat) (offsets : List Nat) : Except PtrFault (List Nat) :=
  let env := bindLower Ts offsets
  Ts.mapM fun T => do
    let t ← types.get T
    let o ← env.get (lower T)
    let p ← pageDataPtr dbg base page entityIndex o (U.size t)
    p.toRef U base t

/-- `src/component_tuple.rs:152-180` `get_ptrs` and `get_ptrs_mut`. -/
def getPtrsP (page : Nat) (offsets : List Nat) : Except PtrFault (List RawPtr) :=
  let env := bindLower Ts offsets
  Ts.mapM fun T => do
    let t ← types.get T
    let o ← env.get (lower T)
    pageDataPtr dbg base page 0 o (U.size t)

/-- `src/component_tuple.rs:182-206` `add_to_ptrs` and `add_to_ptrs_mut`. -/
def addToPtrsP (ptrs : List RawPtr) (entityIndex : Nat) : Except PtrFault (List RawPtr) :=
  let env := bindLower Ts ptrs
  Ts.mapM fun T => do
    let t ← types.get T
    let p ← env.get (lower T)
    p.add base entityIndex (U.size t)

/-- `src/component_tuple.rs:208-216` `null_ptrs` and `null_ptrs_mut`. -/
def nullPtrsP : List RawPtr := Ts.map fun _ => RawPtr.null

/-- `src/component_tuple.rs:218-238` `ptrs_to_refs` and `ptrs_to_refs_mut`. -/
def ptrsToRefsP (ptrs : List RawPtr) : Except PtrFault (List Nat) :=
  let env := bindLower Ts ptrs
  Ts.mapM fun T => do
    let t ← types.get T
    let p ← env.get (lower T)
    p.toRef U base t

end

/-- `src/component_tuple.rs:240-250` `assign_to_refs`: the assignments, in order. All names of both patterns are in scope. -/
def assignToRefsP {α β : Type} (Ts : List Ident) (refs : List α) (values : List β) : Except PtrFault (List (α × β)) :=
  let env : Env (α ⊕ β) := (bindLower Ts refs).map (fun x => (x.1, .inl x.2)) ++ (bindVLower Ts values).map (fun x => (x.1, .inr x.2))
  Ts.mapM fun T => do
    match ← env.get (lower T), ← env.get (vLower T) with
    | .inl r, .inr v => .ok (r, v)
    | _, _ => .error .unresolved

/-- What an item of a query is made of: `get_ptrs` when the view is made, `add_to_ptrs` and `ptrs_to_refs` in `next`
(`src/query/component_page_iter_view.rs:14-19`, `src/query/component_page_iter.rs:43-48`), for one tuple. -/
def queryRefsP (U : Universe) (dbg : Bool) (base : Nat → Nat) (Ts : List Ident) (types : Env TypeId) (page entityIndex : Nat)
    (offsets : List Nat) : Except PtrFault (List Nat) := do
  let ptrs ← getPtrsP U dbg base Ts types page offsets
  let ptrs ← addToPtrsP U base Ts types ptrs entityIndex
  ptrsToRefsP U base Ts types ptrs

/-- The same for the three kinds of access (`src/query/access.rs:86-118, 143-161, 188-206`). The pair of tuples of a read-write
access is kept as one list, as in `Access.getOffsets`. -/
def accessRefsP (U : Universe) (dbg : Bool) (base : Nat → Nat) (acc : Access) (page entityIndex : Nat) (offsets : List Nat) :
    Except PtrFault (List Nat) :=
  match acc with
  | .readonly ts | .write ts => queryRefsP U dbg base (tupleIdents ts.length) (typesOf ts) page entityIndex offsets
  | .readWrite rs ws => do
    let Rs := tupleIdents rs.length
    let Ws := tupleIdents ws.length
    let r ← getPtrsP U dbg base Rs (typesOf rs) page (offsets.take rs.length)
    let w ← getPtrsP U dbg base Ws (typesOf ws) page (offsets.drop rs.length)
    let r ← addToPtrsP U base Rs (typesOf rs) r entityIndex
    let w ← addToPtrsP U base Ws (typesOf ws) w entityIndex
    let r ← ptrsToRefsP U base Rs (typesOf rs) r
    let w ← ptrsToRefsP U base Ws (typesOf ws) w
    return r ++ w

/-- `src/store.rs:234-258` `get_components_refs` and `get_components_refs_mut` with machine pointers (compare
`Store.getComponentsRefs`). -/
def getComponentsRefsP (U : Universe) (dbg : Bool) (base : Nat → Nat) (s : Store) (e : Entity) (ts : List TypeId) :
    Res (Option (Except PtrFault (List Nat))) := do
  if ← s.isValidEntityWithArchetype dbg e then
    let page ← Raw.read s.toPage e.id
    let view ← s.getPageViewUnchecked page
    let index ← Raw.read s.toIndex e.id
    match ← getOffsets view.archetype view.layout ts with
    | none => return none
    | some offsets => return some (getRefsP U dbg base (tupleIdents ts.length) (typesOf ts) page index offsets)
  else
    return none

end Ecs.Ptrs
