import Mathlib.Data.List.Basic
import Mathlib.Algebra.Ring.Defs

/-!
# Rotary embeddings

Models the run-time behaviour of `apply_rotary_position_embeddings`, the helper of `FAApplyRotaryEmbFuncMatcher`,
`/repo/paconvert/api_matcher.py` lines 3832-3856. A tensor of shape `[batch, seq, heads, dim]` is a list of lists of lists of
lists; the numbers are those of a ring. Not modelled: `cos` and `sin` that are no tensors, types of the elements.
-/

namespace Verif.Rotary

variable {R : Type} [CommRing R]

/-- `_rotate_half`; api_matcher.py:3838-3843. -/
def rotateHalf (x : List R) : List R := (x.drop (x.length / 2)).map (-·) ++ x.take (x.length / 2)

/-- One row of the last axis, with the rows `c` and `s` of `cos` and `sin`; api_matcher.py:3845, 3849, 3852-3855. -/
def row (c s x : List R) : List R :=
  let rot := x.take (c ++ c).length
  List.zipWith (· + ·) (List.zipWith (· * ·) rot (c ++ c)) (List.zipWith (· * ·) (rotateHalf rot) (s ++ s)) ++
    x.drop (c ++ c).length

/-- The rows of two tensors that meet along an axis, by the rules of broadcasting. -/
def meet {α β : Type} (xs : List α) (cs : List β) : Option (List (α × β)) :=
  if xs.length = cs.length then some (xs.zip cs)
  else match xs, cs with
    | _, [c] => some (xs.map (·, c))
    | [x], _ => some (cs.map (x, ·))
    | _, _ => none

/-- The helper. `cs` has the pairs of rows of `cos` and `sin`; their axis is the second axis of `x`;
api_matcher.py:3846-3847, 3850-3851, 3853. -/
def apply (x : List (List (List (List R)))) (cs : List (List R × List R)) : Option (List (List (List (List R)))) :=
  x.mapM fun b => (meet b cs).map fun l => l.map fun p => p.1.map (row p.2.1 p.2.2)

end Verif.Rotary
