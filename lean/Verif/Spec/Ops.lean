import Verif.Py.Str

/-!
# What the operators of PyTorch do

Transcribed from the documentation of PyTorch, along one axis. Tensors are lists of slices.
-/

namespace Verif.Spec
open Verif

/-- `torch.split(x, size)`: parts of the given size, the last one possibly smaller; an empty tensor is one part. -/
def chunks {α : Type} (size : Nat) (xs : List α) : List (List α) :=
  if size = 0 ∨ xs.length ≤ size then [xs]
  else xs.take size :: chunks size (xs.drop size)
termination_by xs.length
decreasing_by simp only [List.length_drop]; omega

inductive DType
  | bfloat16 | float16 | float32 | float64 | complex64 | complex128 | uint8 | int8 | int16 | int32 | int64 | bool
  deriving DecidableEq, Repr

def DType.all : List DType :=
  [.bfloat16, .float16, .float32, .float64, .complex64, .complex128, .uint8, .int8, .int16, .int32, .int64, .bool]

def DType.name : DType → Str
  | .bfloat16 => py"bfloat16"
  | .float16 => py"float16"
  | .float32 => py"float32"
  | .float64 => py"float64"
  | .complex64 => py"complex64"
  | .complex128 => py"complex128"
  | .uint8 => py"uint8"
  | .int8 => py"int8"
  | .int16 => py"int16"
  | .int32 => py"int32"
  | .int64 => py"int64"
  | .bool => py"bool"

/-- The categories of types: bool, integers, floating point, complex. -/
inductive Category | bool | int | float | complex
  deriving DecidableEq, Repr

def DType.category : DType → Category
  | .bool => .bool
  | .uint8 | .int8 | .int16 | .int32 | .int64 => .int
  | .bfloat16 | .float16 | .float32 | .float64 => .float
  | .complex64 | .complex128 => .complex

def Category.rank : Category → Nat
  | .bool => 0
  | .int => 1
  | .float => 2
  | .complex => 3

/-- `torch.can_cast(a, b)`: a cast is allowed unless it goes to a lower category. -/
def CanCast (a b : DType) : Prop := a.category.rank ≤ b.category.rank

/-- The axis that PyTorch's softmax functions take without `dim`, for a tensor with `ndim` axes. -/
def ImplicitAxis (ndim : Nat) (axis : Int) : Prop := axis = if ndim ∈ [0, 1, 3] then 0 else 1

/-- `torch.index_copy` with the axes before the given one merged: `outer` blocks of `size` rows, `index` pairwise
different. Block by block, row `index[k]` is row `k` of the block of `source`; the other rows stay. -/
structure IsIndexCopy {α : Type} (outer size : Nat) (x : List α) (index : List Nat) (source out : List α) : Prop where
  length : out.length = x.length
  copied : ∀ o < outer, ∀ k i, index[k]? = some i → out[o * size + i]? = source[o * index.length + k]?
  kept : ∀ o < outer, ∀ j < size, j ∉ index → out[o * size + j]? = x[o * size + j]?

/-- `torch.narrow_copy(x, axis, start, length)`: the `length` slices from `start`, a negative `start` counting from the
end. -/
def IsNarrow {α : Type} (xs : List α) (start length : Int) (out : List α) : Prop :=
  ∃ s : Nat, (s : Int) = (if start < 0 then xs.length + start else start) ∧ (out.length : Int) = length ∧
    ∀ i < out.length, out[i]? = xs[s + i]?

/-- The arguments that PyTorch accepts. -/
def NarrowOk (n : Nat) (start length : Int) : Prop :=
  -n ≤ start ∧ 0 ≤ length ∧ (if start < 0 then n + start else start) + length ≤ n

end Verif.Spec
