import Mathlib.Data.List.Basic

/-!
# Boxes for `roi_align`, `roi_pool` and `psroi_pool`

Models the run-time behaviour of the helper of `BoxesConvertMatcher`, `/repo/paconvert/api_matcher.py` lines 5418-5441, up to
the call of Paddle. A box is a value of its own; the first column of a tensor of boxes holds the number of the image.
-/

namespace Verif.Boxes

/-- The argument `boxes`. -/
inductive Arg (B : Type)
  /-- a list with one tensor for each image -/
  | list (l : List (List B))
  /-- a tensor with five columns -/
  | tensor (rows : List (Nat × B))

/-- `boxes` and `boxes_num` for Paddle, where `n` is `input.shape[0]`; api_matcher.py:5428-5435. `[0] * k` is empty for a
negative `k`. `concat` of an empty list and `zeros([0, 4])` are both empty. -/
def convert {B : Type} (n : Nat) : Arg B → List B × List Nat
  | .list l => (l.flatten, l.map List.length ++ List.replicate (n - l.length) 0)
  | .tensor rows => (rows.map Prod.snd, (List.range n).map fun i => rows.countP fun r => r.1 == i)

/-- What Paddle does with `boxes` and `boxes_num`: the first boxes belong to the first image, and so on. The result has one
row for each pair, in this order; it is computed from the image and the box. -/
def rows {B : Type} (boxes : List B) (nums : List Nat) : List (Nat × B) :=
  ((nums.zipIdx.flatMap fun p => List.replicate p.1 p.2).zip boxes)

end Verif.Boxes
