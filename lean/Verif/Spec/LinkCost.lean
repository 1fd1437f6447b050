import Verif.Model.LinkRefs

/-! Vocabulary for C117: how many accesses to links a function made, and to which links. -/

namespace Ecs.Spec

/-- The number of reads and assignments of links, directly or by a reference. -/
def linkAccesses : List Use → Nat
  | [] => 0
  | .borrow _ _ :: us => linkAccesses us
  | .via _ :: us => linkAccesses us + 1
  | .raw _ :: us => linkAccesses us + 1

/-- The links that were accessed, directly or by taking a reference. -/
def linksTouched : List Use → List Link
  | [] => []
  | .borrow _ l :: us => l :: linksTouched us
  | .via _ :: us => linksTouched us
  | .raw l :: us => l :: linksTouched us

end Ecs.Spec
