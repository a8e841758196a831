import Mathlib.LinearAlgebra.Matrix.ConjTranspose
import Mathlib.Data.Matrix.Mul
import Mathlib.Data.Real.Basic

/-!
# Specification of functions of matrices
-/

namespace Verif.Spec.Batch
open Matrix

variable {K : Type} [Field K] [StarRing K]

/-- `X` is what `torch.linalg.lu_solve` returns with `left=True`: the solution of `A X = B`, or of `Aᴴ X = B`. -/
def SolvesLeft {n k : Type} [Fintype n] (A : Matrix n n K) (B : Matrix n k K) (adjoint : Bool) (X : Matrix n k K) : Prop :=
  (if adjoint then A.conjTranspose else A) * X = B

/-- With `left=False`: the solution of `X A = B`, or of `X Aᴴ = B`. -/
def SolvesRight {n k : Type} [Fintype n] (A : Matrix n n K) (B : Matrix k n K) (adjoint : Bool) (X : Matrix k n K) : Prop :=
  X * (if adjoint then A.conjTranspose else A) = B

/-- `U diag(S) Vᴴ = A`, as `torch.svd` returns `V`. -/
def IsSvd {m n k : Type} [Fintype k] [DecidableEq k] (A : Matrix m n K) (U : Matrix m k K) (S : k → K) (V : Matrix n k K) : Prop :=
  A = U * diagonal S * V.conjTranspose

/-- `L` is a Cholesky factor of `y`: lower triangular, with a positive diagonal, and `L Lᵀ = y`. -/
structure IsCholesky {n : Type} [LinearOrder n] [Fintype n] (y L : Matrix n n ℝ) : Prop where
  lower : ∀ i j, i < j → L i j = 0
  pos : ∀ i, 0 < L i i
  prod : L * L.transpose = y

/-- A function that finds a Cholesky factor if there is one. -/
def Cholesky {n : Type} [LinearOrder n] [Fintype n] (f : Matrix n n ℝ → Matrix n n ℝ) : Prop :=
  ∀ y, (∃ L, IsCholesky y L) → IsCholesky y (f y)

end Verif.Spec.Batch
