import Verif.Model.Batch
import Verif.Spec.Batch
import Verif.Lemmas.Formula
import Mathlib.LinearAlgebra.Matrix.Notation
import Mathlib.LinearAlgebra.Matrix.Block
import Mathlib.LinearAlgebra.Matrix.PosDef
import Mathlib.Algebra.Order.Star.Real

namespace Verif.Batch
open Matrix
open Verif.Spec.Batch

variable {K : Type} [Field K] [StarRing K]

/-! ## C93: functions of matrices -/

theorem conjT_eq {m n : Type} (x : Matrix m n K) : conjT x = x.conjTranspose := rfl

theorem unit_app {n : Type} [Fintype n] [DecidableEq n] {A : Matrix n n K} (h : IsUnit A) (t : Trans) : IsUnit (t.app A) := by
  cases t
  · exact h
  · rw [isUnit_iff_isUnit_det] at h ⊢
    rw [Trans.app, det_conjTranspose]
    exact h.star

theorem luSolve_spec {n k : Type} [Fintype n] [DecidableEq n] {A : Matrix n n K} (h : IsUnit A) (B : Matrix n k K) (t : Trans) :
    t.app A * luSolve A B t = B := by
  have := (isUnit_iff_isUnit_det _).1 (unit_app h t)
  rw [luSolve, mul_nonsing_inv_cancel_left _ _ this]

/-- **C93, `lu_solve` from the left.** -/
theorem C93_lu_solve_left {n k : Type} [Fintype n] [DecidableEq n] {A : Matrix n n K} (h : IsUnit A) (B : Matrix n k K)
    (adjoint : Bool) : SolvesLeft A B adjoint (luSolveLeft A B adjoint) := by
  have := luSolve_spec h B (if adjoint then .H else .N)
  cases adjoint <;> exact this

/-- **C93, `lu_solve` from the right**, for matrices. -/
theorem C93_lu_solve_right_partial {n k : Type} [Fintype n] [DecidableEq n] {A : Matrix n n K} (h : IsUnit A)
    (B : Matrix k n K) (adjoint : Bool) : SolvesRight A B adjoint (luSolveRight A B adjoint) := by
  have := congrArg conjTranspose (luSolve_spec h (conjT B) (if adjoint then .N else .H))
  rw [conjTranspose_mul, conjT_eq, conjTranspose_conjTranspose] at this
  cases adjoint
  · rw [SolvesRight, luSolveRight, conjT_eq, conjT_eq]
    simpa [Trans.app] using this
  · rw [SolvesRight, luSolveRight, conjT_eq, conjT_eq]
    simpa [Trans.app] using this

/-- **C93, `lu_solve` from the left**, for batches. -/
theorem C93_lu_solve_left_batch {b n k : Type} [Fintype n] [DecidableEq n] {A : b → Matrix n n K} (h : ∀ i, IsUnit (A i))
    (B : b → Matrix n k K) (adjoint : Bool) (i : b) : SolvesLeft (A i) (B i) adjoint (luSolveLeft3 A B adjoint i) :=
  C93_lu_solve_left (h i) (B i) adjoint

/-- **C93 fails for `lu_solve` from the right with batches**: for multiples of the unit matrix, column `k` of the solution for
matrix `i` is divided by the factor of matrix `k`. So the result is wrong as soon as two factors differ. -/
theorem C93_lu_solve_batch_negative {n : Type} [Fintype n] [DecidableEq n] {a : n → K} (ha : ∀ i, a i ≠ 0) {i k : n}
    (hik : a i ≠ a k) {B : n → Matrix n n K} {j : n} (hB : B i j k ≠ 0) :
    ¬ SolvesRight (a i • 1) (B i) false (luSolveRight3 (fun i => a i • 1) B false i) := by
  intro h
  have h1 : luSolveRight3 (fun i => a i • (1 : Matrix n n K)) B false i j k = B i j k / a k := by
    have hs : luSolve (a k • (1 : Matrix n n K)) (conjT3 B k) .H j i = star (B i j k) / star (a k) := by
      have hi : (star (a k) • (1 : Matrix n n K))⁻¹ = (star (a k))⁻¹ • 1 := by
        refine inv_eq_right_inv ?_
        rw [smul_mul_smul_comm, one_mul, mul_inv_cancel₀ (by simpa using ha k), one_smul]
      simp only [luSolve, Trans.app, conjTranspose_smul, conjTranspose_one]
      rw [hi, smul_mul, Matrix.one_mul]
      simp [conjT3, div_eq_inv_mul]
    show star (luSolve (a k • (1 : Matrix n n K)) (conjT3 B k) .H j i) = _
    rw [hs, star_div₀, star_star, star_star]
  have h2 := congrFun (congrFun h j) k
  simp only [Bool.false_eq_true, if_false, Matrix.mul_smul, Matrix.mul_one, Matrix.smul_apply, smul_eq_mul] at h2
  rw [h1] at h2
  field_simp [ha k] at h2
  exact hik h2

/-- **C93 fails for `lu_solve` from the right with batches**: there is no result unless `B` has square matrices, and then the
size of the batch has to be 1 or the size of the matrices. -/
theorem C93_lu_solve_shape_negative {b m n : Nat} {s : List Nat} (h : rightShape b n [b, m, n] = some s) :
    m = n ∧ (n = b ∨ n = 1 ∨ b = 1) := by
  simp only [rightShape, List.reverse_cons, List.reverse_nil, List.nil_append, List.cons_append, solveShape] at h
  split at h
  · next hc => exact hc
  · simp at h

/-- **C93, `svd`**, for matrices: the third result of Paddle is `Vᴴ`, the code returns `V`. -/
theorem C93_svd_partial {m n k : Type} [Fintype k] [DecidableEq k] {A : Matrix m n K} {U : Matrix m k K} {S : k → K}
    {W : Matrix k n K} (h : A = U * diagonal S * W) {ndim : Nat} (hd : ndim = 2) :
    ∃ V, svdV ndim W = some V ∧ IsSvd A U S V := by
  subst hd
  exact ⟨_, rfl, by rw [IsSvd, conjT_eq, conjTranspose_conjTranspose]; exact h⟩

/-- **C93 fails for `svd` of batches**: the code raises an exception. -/
theorem C93_svd_negative {m n : Type} {ndim : Nat} (hd : 2 < ndim) (W : Matrix m n K) : svdV ndim W = none :=
  if_neg (not_le.2 hd)

section Positive
variable {n : Type} [LinearOrder n] [Fintype n]

omit [Fintype n] in
theorem onDiagonal_diag (f : ℝ → ℝ) (x : Matrix n n ℝ) (i : n) : onDiagonal f x i i = f (x i i) := by simp [onDiagonal]

omit [Fintype n] in
theorem onDiagonal_lt (f : ℝ → ℝ) (x : Matrix n n ℝ) {i j : n} (h : i < j) : onDiagonal f x i j = 0 := by
  simp [onDiagonal, h.not_gt, h.ne]

omit [Fintype n] in
theorem onDiagonal_gt (f : ℝ → ℝ) (x : Matrix n n ℝ) {i j : n} (h : j < i) : onDiagonal f x i j = x i j := by
  simp [onDiagonal, h, h.ne']

theorem toPositive_cholesky (x : Matrix n n ℝ) : IsCholesky (toPositive x) (onDiagonal Real.exp x) where
  lower _ _ h := onDiagonal_lt _ _ h
  pos i := by rw [onDiagonal_diag]; exact Real.exp_pos _
  prod := rfl

theorem lower_det {y L : Matrix n n ℝ} (h : IsCholesky y L) : L.det ≠ 0 := by
  have : L.BlockTriangular OrderDual.toDual := fun i j hij => h.lower i j hij
  rw [det_of_isLowerTriangular L this]
  exact Finset.prod_ne_zero_iff.2 fun i _ => (h.pos i).ne'

/-- **C93, `PositiveDefiniteTransform`**: the result for a matrix is positive definite, and it is the product `L Lᵀ` where `L`
is the lower triangle with the exponentials of the diagonal. -/
theorem C93_positive_definite_partial (x : Matrix n n ℝ) : (toPositive x).PosDef ∧
    ∃ L, IsCholesky (toPositive x) L ∧ (∀ i j, j < i → L i j = x i j) ∧ ∀ i, L i i = Real.exp (x i i) := by
  refine ⟨?_, _, toPositive_cholesky x, fun i j h => onDiagonal_gt _ _ h, fun i => onDiagonal_diag _ _ i⟩
  have h := toPositive_cholesky x
  have hd := lower_det h
  have : IsUnit (onDiagonal Real.exp x) := (isUnit_iff_isUnit_det _).2 (isUnit_iff_ne_zero.2 hd)
  have h2 := (PosDef.one (n := n) (R := ℝ)).mul_mul_conjTranspose_same (B := onDiagonal Real.exp x)
    (Matrix.vecMul_injective_of_isUnit this)
  rw [Matrix.mul_one, conjTranspose_eq_transpose_of_trivial] at h2
  exact h2

/-- A Cholesky factor is unique. -/
theorem cholesky_unique {y L M : Matrix n n ℝ} (hL : IsCholesky y L) (hM : IsCholesky y M) : L = M := by
  have hdM : IsUnit M.det := isUnit_iff_ne_zero.2 (lower_det hM)
  have hdL : IsUnit L.det := isUnit_iff_ne_zero.2 (lower_det hL)
  have bL : L.BlockTriangular OrderDual.toDual := fun i j hij => hL.lower i j hij
  have bM : M.BlockTriangular OrderDual.toDual := fun i j hij => hM.lower i j hij
  have : Invertible M := M.invertibleOfIsUnitDet hdM
  have bD : (M⁻¹ * L).BlockTriangular OrderDual.toDual := (blockTriangular_inv_of_blockTriangular bM).mul bL
  set D := M⁻¹ * L with hD
  have hMD : M * D = L := by rw [hD, mul_nonsing_inv_cancel_left _ _ hdM]
  have hone : D * D.transpose = 1 := by
    have h1 : M * (D * D.transpose) * M.transpose = M * 1 * M.transpose := by
      have : M * D * (M * D).transpose = M * M.transpose := by rw [hMD, hL.prod, hM.prod]
      rw [transpose_mul] at this
      simpa only [Matrix.mul_assoc, Matrix.mul_one] using this
    have h2 := congrArg (fun X => M⁻¹ * X * (M.transpose)⁻¹) h1
    have hdT : IsUnit M.transpose.det := by rwa [det_transpose]
    simpa only [Matrix.mul_assoc, nonsing_inv_mul_cancel_left _ _ hdM, mul_nonsing_inv _ hdT, Matrix.mul_one,
      Matrix.one_mul] using h2
  have hiD : D⁻¹ = D.transpose := inv_eq_right_inv hone
  have : Invertible D := invertibleOfRightInverse D _ hone
  have bT : D.transpose.BlockTriangular OrderDual.toDual := hiD ▸ blockTriangular_inv_of_blockTriangular bD
  have off : ∀ i j, i ≠ j → D i j = 0 := fun i j hij => by
    rcases lt_or_gt_of_ne hij with h | h
    · exact bD h
    · exact bT h
  have hD1 : D = 1 := by
    ext i j
    by_cases hij : i = j
    · subst hij
      rw [one_apply_eq]
      have h1 := congrFun (congrFun hone i) i
      rw [mul_apply, Finset.sum_eq_single i (fun j _ hj => by rw [off i j hj.symm, zero_mul]) (by simp), one_apply_eq,
        transpose_apply] at h1
      have h2 := congrFun (congrFun hMD i) i
      rw [mul_apply, Finset.sum_eq_single i (fun j _ hj => by rw [off j i hj, mul_zero]) (by simp)] at h2
      have h3 : 0 < D i i := by
        have := hL.pos i
        rw [← h2] at this
        exact (mul_pos_iff_of_pos_left (hM.pos i)).1 this
      nlinarith [h3]
    · rw [one_apply_ne hij, off i j hij]
  rw [← hMD, hD1, Matrix.mul_one]

/-- **C93, `PositiveDefiniteTransform`**: `inv` gives back the lower triangle of the matrix, on which alone the result depends. -/
theorem C93_positive_definite_inv_partial {cholesky : Matrix n n ℝ → Matrix n n ℝ} (hc : Cholesky cholesky) (x : Matrix n n ℝ)
    {i j : n} (hij : j ≤ i) : fromPositive cholesky (toPositive x) i j = x i j := by
  have h := cholesky_unique (hc _ ⟨_, toPositive_cholesky x⟩) (toPositive_cholesky x)
  rw [fromPositive, h]
  rcases hij.lt_or_eq with hlt | rfl
  · rw [onDiagonal_gt _ _ hlt, onDiagonal_gt _ _ hlt]
  · rw [onDiagonal_diag, onDiagonal_diag, Real.log_exp]

end Positive

/-- **C93 fails for `PositiveDefiniteTransform` of batches**: the batch of two diagonal matrices with the entries 0, 0 and 0, 1. -/
theorem C93_positive_definite_negative : ∃ x : Fin 2 → Matrix (Fin 2) (Fin 2) ℝ, toPositive3 x 1 ≠ toPositive (x 1) := by
  refine ⟨![!![0, 0; 0, 0], !![0, 0; 0, 1]], ?_⟩
  intro h
  have := congrFun (congrFun h 0) 0
  simp [toPositive3, toPositive, rev, rev3, onDiagonal, Matrix.mul_apply] at this

/-- The hypotheses of the theorems are met: the unit matrix and its double. -/
example : ∃ (a : Fin 2 → ℚ) (B : Fin 2 → Matrix (Fin 2) (Fin 2) ℚ), (∀ i, a i ≠ 0) ∧ a 0 ≠ a 1 ∧ B 0 0 1 ≠ 0 :=
  ⟨![1, 2], fun _ _ _ => 1, by decide +kernel, by decide +kernel, by decide +kernel⟩

/-- There is a function as the theorem about `inv` asks for. -/
example {n : Type} [LinearOrder n] [Fintype n] : ∃ f : Matrix n n ℝ → Matrix n n ℝ, Cholesky f := by
  classical
  exact ⟨fun y => if h : ∃ L, IsCholesky y L then h.choose else 0, fun y h => by
    simp only [dif_pos h]; exact h.choose_spec⟩

/-- A matrix and its singular values. -/
example : (!![0, 2; 3, 0] : Matrix (Fin 2) (Fin 2) ℝ) = !![0, 1; 1, 0] * diagonal ![3, 2] * !![1, 0; 0, 1] := by
  ext i j
  fin_cases i <;> fin_cases j <;> simp [Matrix.mul_apply, Matrix.vecMul_diagonal]

example : IsUnit (!![1, 2; 0, 1] : Matrix (Fin 2) (Fin 2) ℚ) := by
  rw [isUnit_iff_isUnit_det]; simp [Matrix.det_fin_two]

end Verif.Batch

namespace Verif.Template
open Verif
open Verif.Spec

/-- The call of the helper for `torch.linalg.lu_solve`: its parameters are `LU`, `pivots`, `B`, `left`, `adjoint` and `out`. -/
def luSolveCode (h : Str → Bool) : List Piece :=
  [.code py"\nlinalg_lu_solve(", .user py"LU", .code py",", .user py"pivots", .code py",", .user py"B", .code py",",
   if h py"left" then .user py"left" else .code py"True", .code py",",
   if h py"adjoint" then .user py"adjoint" else .code py"False", .code py",",
   if h py"out" then .user py"out" else .code py"None", .code py")\n"]

set_option maxRecDepth 100000 in
theorem lu_table : onClass py"LinalgLuSolveMatcher"
    (piecesOk [py"left", py"adjoint", py"out"] fun _ h ps => ps == luSolveCode h) = true := by decide +kernel

/-- **C93, the call of the helper**: every argument is in the place of its parameter, with the default of PyTorch if it is not
given. -/
theorem C93_lu_solve_call {r : Data.Raw} (hr : r ∈ Data.apiTable) (hn : r.class = py"LinalgLuSolveMatcher") {c : Call}
    (v : Valid r c) {ps : List Piece} (hc : Converts r c (.code ps)) : ps = luSolveCode c.args.has := by
  have := pieces_sound lu_table (fun n p q h => by
    simp only [List.mem_cons, List.not_mem_nil, or_false, forall_eq_or_imp, forall_eq] at h
    simp [luSolveCode, h]) hr hn v hc
  simpa using this

set_option maxRecDepth 100000 in
example : ∃ r ∈ Data.apiTable, r.name = py"torch.linalg.lu_solve" ∧ r.class = py"LinalgLuSolveMatcher" ∧ ∃ c ps,
    c.args = [(py"LU", py"lu"), (py"pivots", py"p"), (py"B", py"b"), (py"left", py"(False)")] ∧ Valid r c ∧
    Converts r c (.code ps) ∧ Spec.print c.args c.recv c.fresh ps =
      py"\nlinalg_lu_solve(lu,p,b,(False),False,None)\n" := becomesBy_sound (by decide +kernel)

set_option maxRecDepth 100000 in
/-- The code for `torch.svd`. -/
example : ∃ r ∈ Data.apiTable, r.name = py"torch.svd" ∧ r.class = py"SvdMatcher" ∧ ∃ c ps,
    c.args = [(py"input", py"a")] ∧ Valid r c ∧ Converts r c (.code ps) ∧ Spec.print c.args c.recv c.fresh ps =
      py"\ntmp_u, tmp_s, tmp_v = paddle.linalg.svd(x=a)\ntmp_u, tmp_s, tmp_v.conj().t()\n" :=
  becomesBy_sound (by decide +kernel)

end Verif.Template
