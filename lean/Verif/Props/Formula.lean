import Verif.Lemmas.Formula
import Verif.Lemmas.Floats

namespace Verif.Template
open Verif
open Verif.Spec
open Verif.Spec.Formula
open Verif.Spec.Floats
open Verif.Matcher (Cfg)

/-! ## C92: formulas -/

theorem forms_local : ∀ f ∈ forms, ∀ (n : Str) (p q : Str → Bool), (∀ k ∈ f.2.1, p k = q k) → f.2.2 n p = f.2.2 n q := by
  intro f hf n p q
  simp only [forms, List.mem_cons, List.not_mem_nil, or_false] at hf
  rcases hf with rfl | rfl | rfl | rfl | rfl | rfl | rfl | rfl | rfl | rfl | rfl | rfl | rfl | rfl | rfl | rfl | rfl <;>
    intro h <;> simp at h <;> simp [inputE, orOne, h]

theorem computes {f : Str × List Str × (Str → (Str → Bool) → E)} (hf : f ∈ forms) {r : Data.Raw} (hr : r ∈ Data.apiTable)
    (hn : r.class = f.1) {c : Call} (v : Valid r c) {ps : List Piece} (hc : Converts r c (.code ps)) (rd : Rd) (ρ : Env) {x : Num} :
    Computes rd ρ ps x ↔ value rd ρ (f.2.2 r.name c.args.has) = some x :=
  form_computes (List.all_eq_true.1 forms_table f hf) (forms_local f hf) hr hn v hc rd ρ

/-- The value of the first argument: of `input`, or of the receiver. -/
noncomputable def input (c : Call) (ρ : Env) : Num := ρ.val (if c.args.has py"input" then .user py"input" else .recv)

/-- The value of an argument with the default 1. -/
noncomputable def factor (c : Call) (ρ : Env) (k : Str) : Num := if c.args.has k then ρ.val (.user k) else .fin 1

theorem value_input {c : Call} {rd : Rd} {ρ : Env} : value rd ρ (inputE c.args.has) = some (input c ρ) := rfl

theorem value_arg {rd : Rd} {ρ : Env} {k : Str} : value rd ρ (argE k) = some (ρ.val (.user k)) := rfl

theorem value_factor {c : Call} {rd : Rd} {ρ : Env} {k : Str} : value rd ρ (orOne k c.args.has) = some (factor c ρ k) := by
  unfold orOne factor
  split
  · rfl
  · simp [value]

theorem mul_comm' (rd : Rd) (a b : Num) : mul rd a b = mul rd b a := by
  cases a <;> cases b <;> simp [mul, Bool.xor_comm, mul_comm]

section
variable {r : Data.Raw} (hr : r ∈ Data.apiTable) {c : Call} (v : Valid r c) {ps : List Piece} (hc : Converts r c (.code ps))
  {M : ℝ} (ρ : Env)
include hr v hc

/-- **C92 for `erfc`.** In arithmetic that is exact up to the largest number `M`, the code computes the function for all
numbers, infinities and NaN. -/
theorem C92_erfc (hn : r.class ∈ [py"ErfCMatcher", py"ErfC_Matcher"]) (hM : 2 ≤ M) :
    Computes (cut M) ρ ps (Floats.erfc (cut M) (input c ρ)) := by
  simp only [List.mem_cons, List.not_mem_nil, or_false] at hn
  rcases hn with hn | hn
  · rw [computes (f := forms[0]) (by simp [forms]) hr hn v hc, ← erfc_code hM]
    simp [forms, value, value_input, both, apply]
  · rw [computes (f := forms[1]) (by simp [forms]) hr hn v hc, ← erfc_code' hM]
    simp [forms, value, value_input, apply, applyMethod]

/-- **C92 for `exp2`**, with any rounding. -/
theorem C92_exp2 (hn : r.class = py"Exp2Matcher") (rd : Rd) :
    Computes rd ρ ps (Floats.exp2 rd (ρ.val (.user py"input"))) := by
  rw [computes (f := forms[6]) (by simp [forms]) hr hn v hc]
  simp [forms, value, argE]

/-- **C92 for `ndtr`.** -/
theorem C92_ndtr (hn : r.class = py"SpecialNdtrMatcher") (hM : 2 ≤ M)
    (hv : ∀ x, ρ.val (.user py"input") = .fin x → |x| ≤ M) :
    Computes (cut M) ρ ps (Floats.ndtr (cut M) (ρ.val (.user py"input"))) := by
  rw [computes (f := forms[9]) (by simp [forms]) hr hn v hc, ← ndtr_code hM hv]
  simp [forms, value, value_arg, both, apply]

/-- **C92 for `ndtri`.** The number `2 * p + 1` must not overflow. -/
theorem C92_ndtri (hn : r.class = py"SpecialNdtriMatcher") (hM : 3 ≤ M)
    (hv : ∀ x, ρ.val (.user py"input") = .fin x → 2 * |x| + 1 ≤ M) :
    Computes (cut M) ρ ps (Floats.ndtri (cut M) (ρ.val (.user py"input"))) := by
  rw [computes (f := forms[10]) (by simp [forms]) hr hn v hc, ← ndtri_code hM hv]
  simp [forms, value, value_arg, both, apply]

/-! ### Formulas that fail for some numbers -/

/-- **C92 for `expit`, as far as it holds**: exactly as long as `1 + exp(x)` does not overflow. -/
theorem C92_expit_partial (hn : r.class = py"ExpitMatcher") (hM : 2 ≤ M) :
    Computes (cut M) ρ ps (Floats.expit (cut M) (ρ.val (.user py"input"))) ↔
      ρ.val (.user py"input") ≠ .inf false ∧ ∀ x, ρ.val (.user py"input") = .fin x → 1 + Real.exp x ≤ M := by
  rw [computes (f := forms[7]) (by simp [forms]) hr hn v hc, ← expit_code hM]
  simp [forms, value, value_arg, both, apply]

/-- **C92 for `erfcx`, as far as it holds**: for all negative numbers, and exactly as long as `exp(x * x)` does not overflow
for the others. -/
theorem C92_erfcx_partial (hn : r.class = py"SpecialErfcxMatcher") (hM : 2 ≤ M) :
    Computes (cut M) ρ ps (Floats.erfcx (cut M) (ρ.val (.user py"input"))) ↔
      ρ.val (.user py"input") ≠ .inf false ∧
        ∀ x, ρ.val (.user py"input") = .fin x → 0 ≤ x → Real.exp (x ^ 2) ≤ M := by
  rw [computes (f := forms[2]) (by simp [forms]) hr hn v hc, ← erfcx_code hM]
  simp [forms, value, value_arg, both, apply]

/-- **C92 for `xlogy`, as far as it holds**: if the first argument is 0, the second one has to be a positive number or
NaN. `M` is larger than all logarithms of finite numbers. -/
theorem C92_xlogy_partial (hn : r.class ∈ [py"XLogYMatcher", py"XLogY_Matcher"]) (hM : 0 ≤ M)
    (hl : ∀ y, ρ.val (.user py"other") = .fin y → 0 < y → |Real.log y| ≤ M) :
    Computes (cut M) ρ ps (Floats.xlogy (cut M) (input c ρ) (ρ.val (.user py"other"))) ↔
      (input c ρ = .fin 0 → ρ.val (.user py"other") = .nan ∨ ∃ y, ρ.val (.user py"other") = .fin y ∧ 0 < y) := by
  have h := timesLog_code hM (g := Floats.log) (input c ρ) (log_cut _ hl) rfl
  rw [log_fin] at h
  rw [← h]
  simp only [List.mem_cons, List.not_mem_nil, or_false] at hn
  rcases hn with hn | hn
  · rw [computes (f := forms[3]) (by simp [forms]) hr hn v hc]
    simp [forms, value, value_input, value_arg, both, apply, Floats.xlogy]
  · rw [computes (f := forms[4]) (by simp [forms]) hr hn v hc]
    simp [forms, value, value_input, value_arg, apply, applyMethod, Floats.xlogy]

/-- **C92 for `xlog1py`, as far as it holds.** -/
theorem C92_xlog1py_partial (hn : r.class = py"SpecialXLog1pYMatcher") (hM : 0 ≤ M)
    (hl : ∀ y, ρ.val (.user py"other") = .fin y → -1 < y → |Real.log (1 + y)| ≤ M) :
    Computes (cut M) ρ ps (Floats.xlog1py (cut M) (ρ.val (.user py"input")) (ρ.val (.user py"other"))) ↔
      (ρ.val (.user py"input") = .fin 0 →
        ρ.val (.user py"other") = .nan ∨ ∃ y, ρ.val (.user py"other") = .fin y ∧ -1 < y) := by
  have h := timesLog_code hM (g := Floats.log1p) (ρ.val (.user py"input")) (log1p_cut _ hl) rfl
  rw [log1p_fin] at h
  rw [← h, computes (f := forms[5]) (by simp [forms]) hr hn v hc]
  simp [forms, value, value_arg, both, apply, Floats.xlog1py]

/-- **C92 for `logaddexp2`, as far as it holds**: if the sum of the powers of 2 does not overflow. -/
theorem C92_logaddexp2_partial (hn : r.class = py"LogAddExp2Matcher") (hM : 1 ≤ M)
    (hv : ∀ x, input c ρ = .fin x → |x| ≤ M) (hw : ∀ y, ρ.val (.user py"other") = .fin y → |y| ≤ M)
    (hb : pow2 (input c ρ) + pow2 (ρ.val (.user py"other")) ≤ M) :
    Computes (cut M) ρ ps (Floats.logaddexp2 (cut M) (input c ρ) (ρ.val (.user py"other"))) := by
  rw [computes (f := forms[8]) (by simp [forms]) hr hn v hc, ← logaddexp2_code hM hb hv hw]
  simp [forms, value, inputE, argE, input, both, apply]

/-- **C92 fails for `logaddexp2`** if the sum overflows: the code computes infinity, and the right result is a number. -/
theorem C92_logaddexp2_negative (hn : r.class = py"LogAddExp2Matcher") {x y : ℝ} (hv : input c ρ = .fin x)
    (hw : ρ.val (.user py"other") = .fin y) (hx : -M ≤ x ∧ x + 1 ≤ M) (hy : y + 1 ≤ M) (hb : M < (2 : ℝ) ^ x + (2 : ℝ) ^ y) :
    Computes (cut M) ρ ps (.inf false) ∧ ∃ z, Floats.logaddexp2 (cut M) (.fin x) (.fin y) = .fin z := by
  obtain ⟨h1, h2⟩ := logaddexp2_big hx.2 hy hx.1 hb
  refine ⟨?_, h2⟩
  rw [computes (f := forms[8]) (by simp [forms]) hr hn v hc, ← h1, ← hv, ← hw]
  simp [forms, value, inputE, argE, input, both, apply]

/-- **C92 fails for `logaddexp2`** if both powers of 2 are rounded to 0: the code computes the negative infinity. -/
theorem C92_underflow_negative (hn : r.class = py"LogAddExp2Matcher") {x y : ℝ} (hv : input c ρ = .fin x)
    (hw : ρ.val (.user py"other") = .fin y) {rd : Rd} (h0 : rd 0 = .fin 0) (hx : rd ((2 : ℝ) ^ x) = .fin 0)
    (hy : rd ((2 : ℝ) ^ y) = .fin 0) : Computes rd ρ ps (.inf true) := by
  rw [computes (f := forms[8]) (by simp [forms]) hr hn v hc]
  have : Floats.log2 rd (add rd (Floats.exp2 rd (input c ρ)) (Floats.exp2 rd (ρ.val (.user py"other")))) = .inf true := by
    rw [hv, hw]
    show Floats.log2 rd (add rd (rd _) (rd _)) = _
    rw [hx, hy]
    show Floats.log2 rd (rd (0 + 0)) = _
    rw [add_zero, h0]
    simp [Floats.log2, logBy]
  rw [← this]
  simp [forms, value, inputE, argE, input, both, apply]

/-- **C92 fails for `erfc` with rounding.** If all numbers shortly below 1 are rounded to 1, the code computes 0 for all
large arguments, where the right result is positive. -/
theorem C92_erfc_negative (hn : r.class = py"ErfCMatcher") {rd : Rd} {ε : ℝ} (hε : 0 < ε) (h0 : rd 0 = .fin 0)
    (h1 : ∀ y, 1 - ε < y → y < 1 → rd y = .fin 1) :
    ∃ B, ∀ x, B ≤ x → input c ρ = .fin x → Computes rd ρ ps (.fin 0) ∧ 0 < 1 - erfR x := by
  obtain ⟨B, hB⟩ := Filter.eventually_atTop.1 (erfR_tendsto.eventually (lt_mem_nhds (show 1 - ε < 1 by linarith)))
  refine ⟨B, fun x hx hi => ⟨?_, by linarith [erfR_lt_one x]⟩⟩
  rw [computes (f := forms[0]) (by simp [forms]) hr hn v hc]
  have : add rd (.fin 1) (neg (Floats.erf rd (input c ρ))) = .fin 0 := by
    rw [hi]
    show add rd (.fin 1) (neg (rd (erfR x))) = _
    rw [h1 _ (hB x hx) (erfR_lt_one x)]
    show rd (1 + -1) = _
    rw [add_neg_cancel, h0]
  rw [← this]
  simp [forms, value, value_input, both, apply]

/-- **C92 fails for `expit`** at infinity and wherever `exp(x)` overflows: the code computes NaN. -/
theorem C92_expit_negative (hn : r.class = py"ExpitMatcher")
    (hx : ρ.val (.user py"input") = .inf false ∨ ∃ x, ρ.val (.user py"input") = .fin x ∧ M < Real.exp x) :
    Computes (cut M) ρ ps .nan := by
  rw [computes (f := forms[7]) (by simp [forms]) hr hn v hc]
  have h : Floats.exp (cut M) (ρ.val (.user py"input")) = .inf false := by
    rcases hx with h | ⟨x, h, hb⟩
    · rw [h]; rfl
    · rw [h]; exact cut_big hb
  have h2 : div (cut M) (.inf false) (add (cut M) (.fin 1) (.inf false)) = .nan := rfl
  rw [← h2, ← h]
  simp [forms, value, value_arg, both, apply]

/-- **C92 fails for `xlogy`**: for `x = 0` and `y` 0, negative or infinite the code computes NaN; the right result is 0. -/
theorem C92_xlogy_negative (hn : r.class ∈ [py"XLogYMatcher", py"XLogY_Matcher"]) (hx : input c ρ = .fin 0)
    (hy : (∃ y, ρ.val (.user py"other") = .fin y ∧ y ≤ 0) ∨ ∃ s, ρ.val (.user py"other") = .inf s) (rd : Rd) :
    Computes rd ρ ps .nan ∧ Floats.xlogy rd (input c ρ) (ρ.val (.user py"other")) = .fin 0 := by
  have h0 : ∀ s, signed s 0 = .nan := fun s => by rw [signed, if_pos rfl]
  have hm : mul rd (input c ρ) (Floats.log rd (ρ.val (.user py"other"))) = .nan := by
    rw [hx]
    rcases hy with ⟨y, h, hle⟩ | ⟨s, h⟩
    · rw [h]
      have : Floats.log rd (.fin y) = if y = 0 then .inf true else .nan := by
        show (if 0 < y then _ else _) = _
        rw [if_neg (not_lt.2 hle)]
      rw [this]
      split
      · exact h0 _
      · rfl
    · rw [h]
      cases s
      · exact h0 _
      · rfl
  refine ⟨?_, ?_⟩
  · rw [← hm]
    simp only [List.mem_cons, List.not_mem_nil, or_false] at hn
    rcases hn with hn | hn
    · rw [computes (f := forms[3]) (by simp [forms]) hr hn v hc]
      simp [forms, value, value_input, value_arg, both, apply]
    · rw [computes (f := forms[4]) (by simp [forms]) hr hn v hc]
      simp [forms, value, value_input, value_arg, apply, applyMethod]
  · rw [hx]
    rcases hy with ⟨y, h, -⟩ | ⟨s, h⟩ <;> rw [h] <;> simp [Floats.xlogy, timesLog]

/-! ### Sums with products -/

/-- **C92 for `addcmul`**, for finite numbers whose products do not overflow. -/
theorem C92_addcmul (hn : r.class ∈ [py"AddCMulMatcher", py"AddCMul_Matcher"]) {i w a b : ℝ}
    (hi : (if r.class = py"AddCMulMatcher" then input c ρ else ρ.val .recv) = .fin i) (hw : factor c ρ py"value" = .fin w)
    (ha : ρ.val (.user py"tensor1") = .fin a) (hb : ρ.val (.user py"tensor2") = .fin b) (h1 : |w * a| ≤ M)
    (h2 : |w * a * b| ≤ M) : Computes (cut M) ρ ps (cut M (i + w * a * b)) := by
  have hm : mul (cut M) (mul (cut M) (.fin w) (.fin a)) (.fin b) = .fin (w * a * b) := by
    show mul (cut M) (cut M (w * a)) (.fin b) = _
    rw [cut_fin h1]
    exact cut_fin h2
  have hs : cut M (i + w * a * b) = add (cut M) (.fin i) (mul (cut M) (mul (cut M) (.fin w) (.fin a)) (.fin b)) := by
    rw [hm]; rfl
  rw [hs, ← hi, ← hw, ← ha, ← hb]
  simp only [List.mem_cons, List.not_mem_nil, or_false] at hn
  rcases hn with hn | hn
  · rw [computes (f := forms[11]) (by simp [forms]) hr hn v hc, if_pos hn]
    simp [forms, value, value_input, value_arg, value_factor, both]
  · rw [computes (f := forms[12]) (by simp [forms]) hr hn v hc, if_neg (by rw [hn]; decide)]
    simp [forms, value, value_arg, value_factor, both, applyMethod]

/-- **C92 for `addcdiv`**, for finite numbers whose product does not overflow. -/
theorem C92_addcdiv (hn : r.class = py"AddCDivMatcher") {i w a b : ℝ} (hi : input c ρ = .fin i)
    (hw : factor c ρ py"value" = .fin w) (ha : ρ.val (.user py"tensor1") = .fin a) (hb : ρ.val (.user py"tensor2") = .fin b)
    (h0 : b ≠ 0) (h1 : |w * a| ≤ M) (h2 : |w * (a / b)| ≤ M) : Computes (cut M) ρ ps (cut M (i + w * (a / b))) := by
  have hm : div (cut M) (mul (cut M) (.fin w) (.fin a)) (.fin b) = .fin (w * (a / b)) := by
    show div (cut M) (cut M (w * a)) (.fin b) = _
    rw [cut_fin h1]
    show (if b = 0 then _ else cut M (w * a / b)) = _
    rw [if_neg h0, mul_div_assoc, cut_fin h2]
  have hs : cut M (i + w * (a / b)) = add (cut M) (.fin i) (div (cut M) (mul (cut M) (.fin w) (.fin a)) (.fin b)) := by
    rw [hm]; rfl
  rw [hs, ← hi, ← hw, ← ha, ← hb, computes (f := forms[13]) (by simp [forms]) hr hn v hc]
  simp [forms, value, value_input, value_arg, value_factor, both]

/-- The tensor that is added to the product, and the product, in the code of a matcher. -/
noncomputable def summand (r : Data.Raw) (c : Call) (ρ : Env) : Num := if r.class = py"AddMRMatcher" then ρ.val .recv else input c ρ

/-- `mat @ vec`, the outer product of `vec1` and `vec2`, or the sum of the products of `batch1` and `batch2`. -/
noncomputable def productOf (r : Data.Raw) (ρ : Env) : Num :=
  if r.class = py"AddMRMatcher" then
    if r.name = py"torch.Tensor.addmv" then ρ.prod py"paddle.mm" (.user py"mat") (.user py"vec")
    else ρ.prod py"paddle.outer" (.user py"vec1") (.user py"vec2")
  else ρ.prod py"paddle.sum∘paddle.bmm" (.user py"batch1") (.user py"batch2")

/-- **C92 for `addmv`, `addr` and `addbmm`, as far as it holds**: exactly if `beta` is not 0, or the tensor is finite (or the
product is NaN). -/
theorem C92_add_product_partial (hn : r.class ∈ [py"AddMRMatcher", py"AddBmmMatcher", py"AddBmm_Matcher"]) (hM : 0 ≤ M) :
    Computes (cut M) ρ ps
      (addProduct (cut M) (factor c ρ py"beta") (summand r c ρ) (factor c ρ py"alpha") (productOf r ρ)) ↔
      (factor c ρ py"beta" = .fin 0 →
        (∃ x, summand r c ρ = .fin x) ∨ mul (cut M) (factor c ρ py"alpha") (productOf r ρ) = .nan) := by
  rw [← addProduct_code hM]
  have key : ∀ x, Computes (cut M) ρ ps x ↔
      add (cut M) (mul (cut M) (factor c ρ py"beta") (summand r c ρ)) (mul (cut M) (factor c ρ py"alpha") (productOf r ρ)) = x := by
    intro x
    simp only [List.mem_cons, List.not_mem_nil, or_false] at hn
    rcases hn with hn | hn | hn
    · rw [computes (f := forms[14]) (by simp [forms]) hr hn v hc, summand, if_pos hn, productOf, if_pos hn]
      by_cases hm : r.name = py"torch.Tensor.addmv"
      · simp [forms, value, value_factor, both, hm, product, argE]
      · simp [forms, value, value_factor, both, hm, product, argE]
    · have h1 : r.class ≠ py"AddMRMatcher" := by rw [hn]; decide
      rw [computes (f := forms[15]) (by simp [forms]) hr hn v hc, summand, if_neg h1, productOf, if_neg h1]
      simp [forms, value, value_factor, value_input, both, product, argE]
    · have h1 : r.class ≠ py"AddMRMatcher" := by rw [hn]; decide
      rw [computes (f := forms[16]) (by simp [forms]) hr hn v hc, summand, if_neg h1, productOf, if_neg h1,
        mul_comm' _ (factor c ρ py"beta")]
      simp [forms, value, value_factor, value_input, both, product, argE, applyMethod]
  rw [key]

/-- **C92 fails for `addmv`, `addr` and `addbmm`** with `beta=0`: one NaN or infinity in the tensor that should not count, and the
code computes NaN, whatever the product is. -/
theorem C92_add_product_negative (hn : r.class ∈ [py"AddMRMatcher", py"AddBmmMatcher", py"AddBmm_Matcher"]) (hM : 0 ≤ M)
    (hb : factor c ρ py"beta" = .fin 0) (hx : ∀ x, summand r c ρ ≠ .fin x)
    (hp : mul (cut M) (factor c ρ py"alpha") (productOf r ρ) ≠ .nan) :
    ¬ Computes (cut M) ρ ps
      (addProduct (cut M) (factor c ρ py"beta") (summand r c ρ) (factor c ρ py"alpha") (productOf r ρ)) := by
  rw [C92_add_product_partial hr v hc ρ hn hM]
  intro h
  rcases h hb with ⟨x, h⟩ | h
  · exact hx x h
  · exact hp h

end

/-! ### The hypotheses are met -/

set_option maxRecDepth 100000 in
example : ∃ r ∈ Data.apiTable, r.name = py"torch.special.expit" ∧ r.class = py"ExpitMatcher" ∧ ∃ c ps,
    c.args = [(py"input", py"(a + b)")] ∧ Valid r c ∧ Converts r c (.code ps) ∧ Spec.print c.args c.recv c.fresh ps =
      py"\nexp_v_0 = paddle.exp((a + b))\nexp_v_0 / (1 + exp_v_0)\n" := becomesBy_sound (by decide +kernel)

set_option maxRecDepth 100000 in
example : ∃ r ∈ Data.apiTable, r.name = py"torch.Tensor.xlogy" ∧ r.class = py"XLogYMatcher" ∧ ∃ c ps,
    c.args = [(py"other", py"y")] ∧ Valid r c ∧ Converts r c (.code ps) ∧ Spec.print c.args c.recv c.fresh ps =
      py"\nr * paddle.log(paddle.to_tensor(y))\n" := becomesBy_sound (by decide +kernel)

set_option maxRecDepth 100000 in
example : ∃ r ∈ Data.apiTable, r.name = py"torch.Tensor.addmv" ∧ r.class = py"AddMRMatcher" ∧ ∃ c ps,
    c.args = [(py"mat", py"m"), (py"vec", py"v"), (py"beta", py"(0)")] ∧ Valid r c ∧ Converts r c (.code ps) ∧
    Spec.print c.args c.recv c.fresh ps = py"\npaddle.add((0)*r, 1*paddle.mm(m, v))\n" :=
  becomesBy_sound (by decide +kernel)

/-- Numbers for which `1 + exp(x)` does not overflow, and numbers for which it does. -/
example : ∃ M x y : ℝ, 2 ≤ M ∧ 1 + Real.exp x ≤ M ∧ M < Real.exp y :=
  ⟨2, 0, 2, le_refl _, by norm_num, by linarith [Real.add_one_le_exp (2 : ℝ)]⟩

/-- Numbers for which the sum of the powers overflows. -/
example : ∃ M x y : ℝ, (-M ≤ x ∧ x + 1 ≤ M) ∧ y + 1 ≤ M ∧ M < (2 : ℝ) ^ x + (2 : ℝ) ^ y :=
  ⟨5, 4, 4, by norm_num, by norm_num, by
    have : (2 : ℝ) ^ (4 : ℝ) = 16 := by
      rw [show (4 : ℝ) = ((4 : ℕ) : ℝ) by norm_num, Real.rpow_natCast]; norm_num
    rw [this]; norm_num⟩

open Classical in
/-- A rounding to 1, and one of small numbers to 0. -/
example : ∃ rd : Rd, ∃ ε x : ℝ, 0 < ε ∧ rd 0 = .fin 0 ∧ (∀ y, 1 - ε < y → y < 1 → rd y = .fin 1) ∧ rd ((2 : ℝ) ^ x) = .fin 0 := by
  refine ⟨fun y => if 3 / 4 < y ∧ y < 1 then .fin 1 else if |y| ≤ 1 / 2 then .fin 0 else .fin y, 1 / 4, -1, by norm_num, ?_, ?_, ?_⟩
  · norm_num
  · intro y h1 h2
    exact if_pos ⟨by linarith, h2⟩
  · have : (2 : ℝ) ^ (-1 : ℝ) = 1 / 2 := by rw [Real.rpow_neg_one]; norm_num
    simp only [this]
    norm_num

end Verif.Template
