import Verif.Py.Str
import Verif.Py.Dict

/-!
# Code that the tool writes for single operators

Models the run-time behaviour of helper functions and code templates of `/repo/paconvert/api_matcher.py`. Tensors are
lists of slices along the axis in question. The functions of Paddle that are called are modelled after their
documentation; `none` stands for an exception.
-/

namespace Verif.Ops
open Verif

/-! ## `torch.Tensor.split` -/

/-- `paddle.split(x, num, axis)` for a number of sections: equal parts, an error unless their number divides the
size. -/
def paddleSplit {α : Type} (xs : List α) (num : Nat) : Option (List (List α)) :=
  if num ≠ 0 ∧ xs.length % num = 0 then
    let m := xs.length / num
    some ((List.range num).map fun i => (xs.drop (i * m)).take m)
  else none

/-- The helper `_Tensor_split` for a number; api_matcher.py:3752-3754. -/
def tensorSplit {α : Type} (xs : List α) (size : Nat) : Option (List (List α)) :=
  if size = 0 then none else paddleSplit xs (xs.length / size)

/-! ## `torch.can_cast` -/

/-- `can_cast_dict`; api_matcher.py:4427-4596. The keys of all inner dictionaries are the same, in the same order. -/
def castKeys : List Str :=
  [py"bfloat16", py"float16", py"float32", py"float64", py"complex64", py"complex128", py"uint8", py"int8", py"int16",
   py"int32", py"int64", py"bool"]

def castRow (l : List Bool) : Dict Str Bool := castKeys.zip l

def castDict : Dict Str (Dict Str Bool) :=
  [(py"bfloat16", castRow [true, true, true, true, true, true, false, false, false, false, false, false]),
   (py"float16", castRow [true, true, true, true, true, true, false, false, false, false, false, false]),
   (py"float32", castRow [true, true, true, true, true, true, false, false, false, false, false, false]),
   (py"float64", castRow [true, true, true, true, true, true, false, false, false, false, false, false]),
   (py"complex64", castRow [false, false, false, false, true, true, false, false, false, false, false, false]),
   (py"complex128", castRow [false, false, false, false, true, true, false, false, false, false, false, false]),
   (py"uint8", castRow [true, true, true, true, true, true, true, true, true, true, true, false]),
   (py"int8", castRow [true, true, true, true, true, true, true, true, true, true, true, false]),
   (py"int16", castRow [true, true, true, true, true, true, true, true, true, true, true, false]),
   (py"int32", castRow [true, true, true, true, true, true, true, true, true, true, true, false]),
   (py"int64", castRow [true, true, true, true, true, true, true, true, true, true, true, false]),
   (py"bool", castRow [true, true, true, true, true, true, true, true, true, true, true, true])]

/-- The helper `can_cast` for names of types; api_matcher.py:4426-4601. `none`: a `KeyError`. (A Paddle type is first
replaced by its name in lower case.) -/
def canCast (from_ to : Str) : Option Bool := (castDict.get? from_).bind fun r => r.get? to

/-! ## The axis of softmax -/

/-- The helpers `_get_softmin_dim` and `_get_softmax_dim`; api_matcher.py:3018-3022, 4035-4040, 4087-4092. -/
def softmaxDim (axis : Int) : Int := if axis = 0 ∨ axis = 1 ∨ axis = 3 then 0 else 1

/-- The axis used by the code for `torch.nn.functional.softmin(x)` without `dim`: the argument text has become `-x`, so
that the code says `_get_softmin_dim(-x.ndim)`, where the sign belongs to `x.ndim`; api_matcher.py:3028-3032. -/
def softminAxis (ndim : Nat) : Int := softmaxDim (-(ndim : Int))

/-- `forward` of the layers, `_axis` being the argument of the constructor; api_matcher.py:4042-4045, 4095-4098. -/
def layerAxis (axis : Option Int) (ndim : Nat) : Int := axis.getD (softmaxDim ndim)

/-- The constructor argument `axis` for a given `dim` (`none`: not given; `some none`: the literal `None`). The entry of
`torch.nn.LogSoftmax` has the default `axis = 0`, that of `torch.nn.Softmin` the default `axis = None`;
api_mapping.json, base.py:497-508. -/
def logSoftmaxArg (dim : Option (Option Int)) : Option Int := dim.getD (some 0)
def softminArg (dim : Option (Option Int)) : Option Int := dim.getD none

/-! ## `torch.index_copy` -/

/-- `paddle.scatter(x, index, updates)`: the rows of `x` at `index` are overwritten, in order; an error for an index
out of range or a different number of rows. -/
def scatter {α : Type} (x : List α) (index : List Nat) (updates : List α) : Option (List α) :=
  if index.length = updates.length ∧ ∀ i ∈ index, i < x.length then
    some ((index.zip updates).foldl (fun x p => x.set p.1 p.2) x)
  else none

/-- `temp_index` after the loop; api_matcher.py:2481-2484. (`len(index)` and `index` are read from the variable
`index`, which is taken to hold the argument here.) -/
def tempIndex (times : Nat) (index : List Nat) : List Nat :=
  index ++ (List.range' 1 (times - 1)).flatMap fun i => index.map (· + index.length * i)

/-- The code for an axis other than the first; api_matcher.py:2479-2486. `x` and `source` are the rows after the two
calls of `reshape`: the axes up to the given one are merged. `times` is the product of the axes before it. -/
def indexCopy {α : Type} (times : Nat) (x : List α) (index : List Nat) (source : List α) : Option (List α) :=
  scatter x (tempIndex times index) source

/-- The code for the literal axis 0; api_matcher.py:2443-2452. -/
def indexCopyFirst {α : Type} (x : List α) (index : List Nat) (source : List α) : Option (List α) := scatter x index source

/-- The third line of the code, the same for all arguments; api_matcher.py:2459-2460, 2483-2484. -/
def indexCopyLoop : Str := py"for i in range(1, times):\n    temp_index= paddle.concat([temp_index, index+len(index)*i])"

/-- The code as text, without `out`; api_matcher.py:2479-2500. -/
def indexCopyCode (input dim index source : Str) : Str :=
  py"\ntimes, temp_shape, temp_index = paddle.prod(paddle.to_tensor(" ++ input ++ py".shape[:" ++ dim ++ py"])), "
    ++ input ++ py".shape, " ++ index ++ py"\n" ++ input ++ py", new_t = " ++ input ++ py".reshape([-1] + temp_shape["
    ++ dim ++ py"+1:]), " ++ source ++ py".reshape([-1] + temp_shape[" ++ dim ++ py"+1:])\n" ++ indexCopyLoop
    ++ py"\npaddle.scatter(" ++ input ++ py", temp_index, new_t).reshape(temp_shape)\n"

/-! ## `torch.narrow_copy` -/

/-- An end of `paddle.slice` on an axis of size `n`: negative numbers count from the end, and the result is clipped to
the axis. -/
def sliceEnd (n : Nat) (e : Int) : Nat := if e < 0 then (e + n).toNat else min e.toNat n

/-- `paddle.slice(x, [axis], [s], [e])`. -/
def paddleSlice {α : Type} (xs : List α) (s e : Int) : List α :=
  (xs.take (sliceEnd xs.length e)).drop (sliceEnd xs.length s)

/-- `shape[:dim]` and `shape[dim+1:]` in the code for `torch.index_copy`; api_matcher.py:2481-2482. -/
def axesBefore (shape : List Nat) (dim : Int) : List Nat := shape.take (sliceEnd shape.length dim)
def axesBehind (shape : List Nat) (dim : Int) : List Nat := shape.drop (sliceEnd shape.length (dim + 1))

/-- Number of elements of a tensor of this shape. -/
def numel (shape : List Nat) : Nat := shape.foldr (· * ·) 1

/-- The code for `torch.narrow_copy`; api_matcher.py:2268-2269. -/
def narrowCopy {α : Type} (xs : List α) (start length : Int) : List α :=
  let s := if start < 0 then (xs.length : Int) + start else start
  paddleSlice xs s (s + length)

end Verif.Ops
