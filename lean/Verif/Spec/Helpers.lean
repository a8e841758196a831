import Verif.Py.Str
import Verif.Py.Dict

/-!
# What PyTorch does with axes and with the arguments of `randint`
-/

namespace Verif.Spec
open Verif

/-- Axis `i` of a tensor with `n` axes, counted from the front: `0 ≤ a < n`, and `i` is `a` or `a - n`. -/
def IsAxis (n : Nat) (i : Int) (a : Nat) : Prop := a < n ∧ (i = a ∨ i = (a : Int) - n)

/-- Python's rule for a call: the parameters `names` take, in order, the positional arguments `ps` and then the keywords
`ks` (`ks` gives the value of each keyword); no parameter is given twice and none is missing. -/
def Bound : List Str → List Str → (Str → Option Str) → List Str → Prop
  | [], [], _, [] => True
  | n :: ns, p :: ps, ks, v :: vs => v = p ∧ ks n = none ∧ Bound ns ps ks vs
  | n :: ns, [], ks, v :: vs => ks n = some v ∧ Bound ns [] ks vs
  | _, _, _, _ => False

/-- The two overloads `torch.randint(low, high, size, ..)` and `torch.randint(high, size, ..)`; in the second the lower
bound is 0. `RandintMeans ps ks l h s`: the call draws from `l ≤ . < h` with shape `s`. -/
inductive RandintMeans (ps : List Str) (ks : Str → Option Str) : Str → Str → Str → Prop
  | three {l h s : Str} : Bound [py"low", py"high", py"size"] ps ks [l, h, s] → RandintMeans ps ks l h s
  | two {h s : Str} : ks py"low" = none → Bound [py"high", py"size"] ps ks [h, s] →
      RandintMeans ps ks py"0" h s

end Verif.Spec
