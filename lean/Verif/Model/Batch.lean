import Mathlib.LinearAlgebra.Matrix.NonsingularInverse
import Mathlib.LinearAlgebra.Matrix.ConjTranspose
import Mathlib.Data.Matrix.Diagonal
import Mathlib.Analysis.SpecialFunctions.Log.Basic

/-!
# Code for functions of matrices

Models the run-time behaviour of `linalg_lu_solve` (`/repo/paconvert/api_matcher.py` 5906-5921), of the code for
`torch.svd` (4366-4389) and of `PositiveDefiniteTransform.__call__` (900-905), on matrices and on batches of matrices with
one batch axis. The functions of Paddle are modelled after their documentation.

`x.T` reverses all axes. `x.t()` transposes a matrix and raises an exception for more than two axes. `lu_solve` gets a
factorization; the model has the factorized matrix in its place.
-/

namespace Verif.Batch
open Matrix

variable {K : Type} [Field K] [StarRing K]

/-- `trans` of `paddle.linalg.lu_solve`. -/
inductive Trans
  | N | H

def Trans.app {n : Type} (A : Matrix n n K) : Trans → Matrix n n K
  | .N => A
  | .H => A.conjTranspose

/-- `paddle.linalg.lu_solve(lu, pivots, b, trans)` for the factorization of `A`. -/
noncomputable def luSolve {n k : Type} [Fintype n] [DecidableEq n] (A : Matrix n n K) (B : Matrix n k K) (t : Trans) : Matrix n k K :=
  (t.app A)⁻¹ * B

/-- `x.conj().T` of a matrix. -/
def conjT {m n : Type} (x : Matrix m n K) : Matrix n m K := fun j i => star (x i j)

/-- The helper for matrices with `left=True`; api_matcher.py:5907-5909. -/
noncomputable def luSolveLeft {n k : Type} [Fintype n] [DecidableEq n] (A : Matrix n n K) (B : Matrix n k K) (adjoint : Bool) :
    Matrix n k K :=
  luSolve A B (if adjoint then .H else .N)

/-- The helper for matrices with `left=False`; api_matcher.py:5910-5914. -/
noncomputable def luSolveRight {n k : Type} [Fintype n] [DecidableEq n] (A : Matrix n n K) (B : Matrix k n K) (adjoint : Bool) :
    Matrix k n K :=
  conjT (luSolve A (conjT B) (if adjoint then .N else .H))

/-! ## One batch axis -/

/-- `x.conj().T` of a tensor with three axes. -/
def conjT3 {b m n : Type} (x : b → Matrix m n K) : n → Matrix m b K := fun k j i => star (x i j k)

/-- `x.T` of a tensor with three axes. -/
def rev3 {b m n : Type} (x : b → Matrix m n K) : n → Matrix m b K := fun k j i => x i j k

/-- The helper for a batch with `left=True`. -/
noncomputable def luSolveLeft3 {b n k : Type} [Fintype n] [DecidableEq n] (A : b → Matrix n n K) (B : b → Matrix n k K)
    (adjoint : Bool) : b → Matrix n k K :=
  fun i => luSolve (A i) (B i) (if adjoint then .H else .N)

/-- The helper for a batch with `left=False`, where all axes have the same size. (For other sizes see `solveShape`.) -/
noncomputable def luSolveRight3 {n : Type} [Fintype n] [DecidableEq n] (A B : n → Matrix n n K) (adjoint : Bool) : n → Matrix n n K :=
  conjT3 fun i => luSolve (A i) (conjT3 B i) (if adjoint then .N else .H)

/-- The shape of `paddle.linalg.lu_solve` for a factorization of shape `[b, n, n]` and a tensor of shape `[c, r, k]`: the
numbers of rows have to agree, and the batches have to be the same or 1. -/
def solveShape (b n : Nat) : List Nat → Option (List Nat)
  | [c, r, k] => if r = n ∧ (c = b ∨ c = 1 ∨ b = 1) then some [max b c, r, k] else none
  | _ => none

/-- The shape of the result of the helper with `left=False`, for `B` of shape `[b, m, n]`; api_matcher.py:5912-5914. -/
def rightShape (b n : Nat) (B : List Nat) : Option (List Nat) := (solveShape b n B.reverse).map List.reverse

/-! ## `torch.svd` and `PositiveDefiniteTransform` -/

/-- `v.conj().t()` for a tensor with `ndim` axes, as far as it is a matrix; api_matcher.py:4369, 4383. -/
def svdV {m n : Type} (ndim : Nat) (v : Matrix m n K) : Option (Matrix n m K) :=
  if ndim ≤ 2 then some (conjT v) else none

/-- `x.tril(-1) + d.diag_embed()` where `d` is `f` of the diagonal; api_matcher.py:904, 909. -/
def onDiagonal {n : Type} [LinearOrder n] (f : ℝ → ℝ) (x : Matrix n n ℝ) : Matrix n n ℝ :=
  fun i j => (if j < i then x i j else 0) + if i = j then f (x i i) else 0

/-- `x.T` of a matrix. -/
def rev {m n : Type} (x : Matrix m n K) : Matrix n m K := fun j i => x i j

/-- `PositiveDefiniteTransform.__call__` for a matrix; api_matcher.py:903-905. -/
noncomputable def toPositive {n : Type} [LinearOrder n] [Fintype n] (x : Matrix n n ℝ) : Matrix n n ℝ :=
  onDiagonal Real.exp x * rev (onDiagonal Real.exp x)

/-- `PositiveDefiniteTransform.inv` for a matrix, where `cholesky` is `paddle.linalg.cholesky`; api_matcher.py:907-909. -/
noncomputable def fromPositive {n : Type} [LinearOrder n] (cholesky : Matrix n n ℝ → Matrix n n ℝ) (y : Matrix n n ℝ) : Matrix n n ℝ :=
  onDiagonal Real.log (cholesky y)

/-- `PositiveDefiniteTransform.__call__` for a batch, where all axes have the same size. -/
noncomputable def toPositive3 {n : Type} [LinearOrder n] [Fintype n] (x : n → Matrix n n ℝ) : n → Matrix n n ℝ :=
  fun i => onDiagonal Real.exp (x i) * rev3 (fun i => onDiagonal Real.exp (x i)) i

end Verif.Batch
