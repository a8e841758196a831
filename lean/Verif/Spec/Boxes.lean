import Verif.Model.Boxes

/-!
# What torchvision does with boxes
-/

namespace Verif.Spec.Boxes
open Verif.Boxes

/-- The result has one row for each of these pairs of an image and a box, in this order. -/
def wanted {B : Type} : Arg B → List (Nat × B)
  | .list l => l.zipIdx.flatMap fun p => p.1.map fun b => (p.2, b)
  | .tensor rows => rows

end Verif.Spec.Boxes
