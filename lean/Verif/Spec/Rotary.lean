import Mathlib.Algebra.Ring.Defs
import Mathlib.Data.List.Basic

/-!
# Rotary embeddings of `flash_attn`, not interleaved
-/

namespace Verif.Spec.Rotary

variable {R : Type} [CommRing R]

/-- The pair of the numbers `j` and `j + h` is rotated by the angle whose cosine and sine are `c j` and `s j`; what is behind
the `2 h` numbers stays. -/
structure Rotated (c s x y : List R) : Prop where
  length : y.length = x.length
  first : ∀ j a b u v, c[j]? = some a → s[j]? = some b → x[j]? = some u → x[j + c.length]? = some v →
    y[j]? = some (u * a - v * b)
  second : ∀ j a b u v, c[j]? = some a → s[j]? = some b → x[j]? = some u → x[j + c.length]? = some v →
    y[j + c.length]? = some (u * b + v * a)
  rest : ∀ j, 2 * c.length ≤ j → y[j]? = x[j]?

/-- The result for a tensor: at position `i` of the second axis the rows `i` of `cos` and `sin` are used. -/
def Embedded (x : List (List (List (List R)))) (cs : List (List R × List R)) (y : List (List (List (List R)))) : Prop :=
  List.Forall₂ (fun b b' => b'.length = b.length ∧ ∀ (i : Nat) (heads : List (List R)) (c : List R × List R), b[i]? = some heads → cs[i]? = some c →
    ∃ heads', b'[i]? = some heads' ∧ List.Forall₂ (Rotated c.1 c.2) heads heads') x y

end Verif.Spec.Rotary
