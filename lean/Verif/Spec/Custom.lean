import Verif.Model.Custom

/-!
# Files that have nothing to do with C++ extensions
-/

namespace Verif.Spec
open Verif Verif.Custom

/-- The item has nothing to do with the C++ extensions `exts` and the classes `wrappers` (identity and name). -/
def Unrelated (exts : List Str) (wrappers : List (Nat × Str)) : Item → Prop
  | .declare _ | .load _ => False
  | .imp names => names ≠ [] ∧ ∀ n ∈ names, n.1 ∉ exts
  | .cls id _ _ _ => ∀ w ∈ wrappers, w.1 ≠ id
  | .from_ _ names => names ≠ [] ∧ ∀ n ∈ names, ∀ w ∈ wrappers, w.2 ≠ n.1
  | .apply _ | .code _ | .other _ => True

/-- The item neither declares nor loads a C++ extension (and is an import statement that Python accepts). -/
def NoExtension : Item → Prop
  | .declare _ | .load _ => False
  | .imp names | .from_ _ names => names ≠ []
  | _ => True

end Verif.Spec
