import Verif.Model.Mem

/-! Model of `division_ecs_attributes/src/lib.rs`: the derive macros, which run when a program is compiled. -/

namespace Ecs.Derive

/-- What a macro sees of a type: its name, whether it is a struct (`syn::Data`), and the fields of a struct. Of a field only the size
matters below; the macros do not look at it. -/
inductive Shape where
  | struct (fieldSizes : List Nat)
  | enum (variants : Nat)
  | union (fields : Nat)
deriving DecidableEq, Repr

structure Item where
  name : String
  shape : Shape
deriving DecidableEq, Repr

/-- `division_ecs_attributes/src/lib.rs:5-21` `derive_component`: the code emitted; a panic is an error of the compiler. -/
def component (i : Item) : Res String :=
  let isSupported := match i.shape with
    | .struct fields => decide (fields.length > 0)
    | _ => false
  if !isSupported then .error (.panic .assertFailed) else .ok ("impl Component for " ++ i.name ++ " {}")

/-- `division_ecs_attributes/src/lib.rs:23-40` `derive_tag`. -/
def tag (i : Item) : Res String :=
  let isSupported := match i.shape with
    | .struct fields => decide (fields.length = 0)
    | _ => false
  if !isSupported then .error (.panic .assertFailed) else .ok ("impl Tag for " ++ i.name ++ " {}")

end Ecs.Derive
