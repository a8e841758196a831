import Verif.Lemmas.Erf

/-! Arithmetic with overflow. -/

namespace Verif.Spec.Floats

theorem cut_fin {M x : ℝ} (h : |x| ≤ M) : cut M x = .fin x := by
  obtain ⟨h1, h2⟩ := abs_le.1 h
  rw [cut, if_neg (by linarith), if_neg (by linarith)]

theorem cut_big {M x : ℝ} (h : M < x) : cut M x = .inf false := by rw [cut, if_pos h]

theorem cut_small {M x : ℝ} (hM : 0 ≤ M) (h : x < -M) : cut M x = .inf true := by
  rw [cut, if_neg (by linarith), if_pos h]

theorem cut_ne_nan {M x : ℝ} : cut M x ≠ .nan := by
  unfold cut
  split
  · simp
  · split <;> simp

theorem cut_zero {M : ℝ} (hM : 0 ≤ M) : cut M 0 = .fin 0 := cut_fin (by simpa using hM)

theorem erf_cut {M : ℝ} (hM : 1 ≤ M) (x : ℝ) : erf (cut M) (.fin x) = .fin (erfR x) :=
  cut_fin (abs_le.2 ⟨by linarith [neg_one_lt_erfR x], by linarith [erfR_lt_one x]⟩)

/-! ## `erfc` -/

theorem erfc_code {M : ℝ} (hM : 2 ≤ M) (v : Num) :
    add (cut M) (.fin 1) (neg (erf (cut M) v)) = erfc (cut M) v := by
  cases v with
  | nan => rfl
  | inf s =>
    cases s
    · show cut M (1 + -1) = .fin 0
      rw [cut_fin (by norm_num; linarith)]; norm_num
    · show cut M (1 + -(-1)) = .fin 2
      rw [cut_fin (by norm_num; linarith)]; norm_num
  | fin x =>
    rw [erf_cut (by linarith)]
    show cut M (1 + -erfR x) = cut M (1 - erfR x)
    rw [sub_eq_add_neg]

theorem erfc_code' {M : ℝ} (hM : 2 ≤ M) (v : Num) :
    add (cut M) (mul (cut M) (erf (cut M) v) (neg (.fin 1))) (.fin 1) = erfc (cut M) v := by
  rw [← erfc_code hM]
  have key : ∀ y : ℝ, |y| ≤ 1 → add (cut M) (mul (cut M) (.fin y) (neg (.fin 1))) (.fin 1) = add (cut M) (.fin 1) (neg (.fin y)) := by
    intro y hy
    have : mul (cut M) (.fin y) (neg (.fin 1)) = .fin (-y) := by
      show cut M (y * -1) = _
      rw [mul_neg_one, cut_fin (by rw [abs_neg]; linarith)]
    rw [this]
    show cut M (-y + 1) = cut M (1 + -y)
    rw [add_comm]
  cases v with
  | nan => rfl
  | inf s => cases s <;> exact key _ (by norm_num)
  | fin x =>
    rw [erf_cut (by linarith)]
    exact key _ (abs_le.2 ⟨(neg_one_lt_erfR x).le, (erfR_lt_one x).le⟩)

/-! ## `ndtr` and `ndtri` -/

theorem sqrt_two_pos : 0 < √(2 : ℝ) := Real.sqrt_pos.2 two_pos

theorem sqrt_two_le : √(2 : ℝ) ≤ 2 := by
  rw [Real.sqrt_le_left (by norm_num)]; norm_num

theorem one_lt_sqrt_two : 1 < √(2 : ℝ) := by
  rw [Real.lt_sqrt (by norm_num)]; norm_num

theorem ndtr_code {M : ℝ} (hM : 2 ≤ M) {v : Num} (hv : ∀ x, v = .fin x → |x| ≤ M) :
    div (cut M) (add (cut M) (erf (cut M) (div (cut M) v (sqrt (cut M) (.fin 2)))) (neg (erf (cut M) (neg (.inf false)))))
      (.fin 2) = ndtr (cut M) v := by
  have hs : sqrt (cut M) (.fin 2) = .fin √2 := by
    show (if (0 : ℝ) ≤ 2 then cut M √2 else .nan) = _
    rw [if_pos (by norm_num), cut_fin]
    rw [abs_of_pos sqrt_two_pos]; linarith [sqrt_two_le]
  have h1 : neg (erf (cut M) (neg (.inf false))) = .fin 1 := by
    show Num.fin (-(-1)) = _
    norm_num
  rw [hs, h1]
  have key : ∀ y : ℝ, |y| ≤ 1 → div (cut M) (add (cut M) (.fin y) (.fin 1)) (.fin 2) = cut M ((1 + y) / 2) := by
    intro y hy
    obtain ⟨h2, h3⟩ := abs_le.1 hy
    have : add (cut M) (.fin y) (.fin 1) = .fin (y + 1) := cut_fin (abs_le.2 ⟨by linarith, by linarith⟩)
    rw [this]
    show (if (2 : ℝ) = 0 then _ else cut M ((y + 1) / 2)) = _
    rw [if_neg (by norm_num), add_comm]
  have hd : ∀ s, div (cut M) (.inf s) (.fin √2) = .inf s := by
    intro s
    show Num.inf (xor s (decide (√2 < 0))) = _
    rw [decide_eq_false (by linarith [sqrt_two_pos]), Bool.xor_false]
  cases v with
  | nan => rfl
  | inf s =>
    rw [hd]
    cases s
    · show div (cut M) (add (cut M) (.fin 1) (.fin 1)) (.fin 2) = .fin 1
      rw [key 1 (by norm_num), cut_fin] <;> norm_num
      linarith
    · show div (cut M) (add (cut M) (.fin (-1)) (.fin 1)) (.fin 2) = .fin 0
      rw [key (-1) (by norm_num), cut_fin] <;> norm_num
      linarith
  | fin x =>
    have hq : div (cut M) (.fin x) (.fin √2) = .fin (x / √2) := by
      show (if √2 = 0 then _ else cut M (x / √2)) = _
      rw [if_neg (by linarith [sqrt_two_pos]), cut_fin]
      rw [abs_div, abs_of_pos sqrt_two_pos, div_le_iff₀ sqrt_two_pos]
      nlinarith [hv x rfl, one_lt_sqrt_two]
    rw [hq, erf_cut (by linarith), key _ (abs_le.2 ⟨(neg_one_lt_erfR _).le, (erfR_lt_one _).le⟩)]
    rfl

open Classical in
theorem ndtri_code {M : ℝ} (hM : 3 ≤ M) {v : Num} (hv : ∀ x, v = .fin x → 2 * |x| + 1 ≤ M) :
    mul (cut M) (cut M √2) (erfinv (cut M) (add (cut M) (mul (cut M) (.fin 2) v) (neg (.fin 1)))) = ndtri (cut M) v := by
  have hs : cut M √2 = .fin √2 := cut_fin (by rw [abs_of_pos sqrt_two_pos]; linarith [sqrt_two_le])
  rw [hs]
  cases v with
  | nan => rfl
  | inf s =>
    have : mul (cut M) (.fin 2) (.inf s) = .inf s := by
      show signed s 2 = _
      rw [signed, if_neg (by norm_num), decide_eq_false (by norm_num), Bool.xor_false]
    rw [this]
    rfl
  | fin p =>
    have hp := hv p rfl
    have h1 : mul (cut M) (.fin 2) (.fin p) = .fin (2 * p) := cut_fin (by rw [abs_mul]; norm_num; linarith)
    have h2 : add (cut M) (.fin (2 * p)) (neg (.fin 1)) = .fin (2 * p - 1) := by
      show cut M (2 * p + -1) = _
      rw [cut_fin, sub_eq_add_neg]
      calc |2 * p + -1| ≤ |2 * p| + |(-1 : ℝ)| := abs_add_le _ _
        _ = 2 * |p| + 1 := by rw [abs_mul]; norm_num
        _ ≤ M := hp
    rw [h1, h2]
    by_cases hy : |2 * p - 1| < 1
    · have hz : ∀ z, (1 + erfR (z / √2)) / 2 = p ↔ z = √2 * erfinvR (2 * p - 1) := by
        intro z
        have hi := erfinvR_spec hy
        constructor
        · intro h
          have : erfR (z / √2) = erfR (erfinvR (2 * p - 1)) := by rw [hi]; linarith
          have := erfR_strictMono.injective this
          rw [div_eq_iff (by linarith [sqrt_two_pos])] at this
          rw [this, mul_comm]
        · rintro rfl
          rw [mul_div_cancel_left₀ _ (by linarith [sqrt_two_pos] : √(2 : ℝ) ≠ 0), hi]
          ring
      have hex : ∃ z, (1 + erfR (z / √2)) / 2 = p := ⟨_, (hz _).2 rfl⟩
      have he : erfinv (cut M) (.fin (2 * p - 1)) = cut M (erfinvR (2 * p - 1)) := if_pos hy
      have hn : ndtri (cut M) (.fin p) = cut M (√2 * erfinvR (2 * p - 1)) := by
        show (if h : ∃ z, (1 + erfR (z / √2)) / 2 = p then cut M h.choose else _) = _
        rw [dif_pos hex, (hz _).1 hex.choose_spec]
      rw [he, hn]
      generalize erfinvR (2 * p - 1) = z
      have h3 := one_lt_sqrt_two
      by_cases hb : |z| ≤ M
      · rw [cut_fin hb]; rfl
      · rcases lt_abs.1 (not_le.1 hb) with h | h
        · rw [cut_big h, cut_big (by nlinarith)]
          show signed false √2 = _
          rw [signed, if_neg (by linarith), decide_eq_false (by linarith)]; rfl
        · rw [cut_small (by linarith) (by linarith : z < -M), cut_small (by linarith) (by nlinarith)]
          show signed true √2 = _
          rw [signed, if_neg (by linarith), decide_eq_false (by linarith)]; rfl
    · have hno : ¬ ∃ z, (1 + erfR (z / √2)) / 2 = p := by
        rintro ⟨z, rfl⟩
        refine hy ?_
        rw [abs_lt]
        exact ⟨by linarith [neg_one_lt_erfR (z / √2)], by linarith [erfR_lt_one (z / √2)]⟩
      have hsq : ∀ s, signed s √2 = .inf s := by
        intro s
        rw [signed, if_neg (by linarith [sqrt_two_pos]), decide_eq_false (by linarith [sqrt_two_pos]), Bool.xor_false]
      show mul (cut M) (.fin √2) (if |2 * p - 1| < 1 then _ else if 2 * p - 1 = 1 then .inf false else
        if 2 * p - 1 = -1 then .inf true else .nan) =
        (if h : ∃ z, (1 + erfR (z / √2)) / 2 = p then cut M h.choose else if p = 0 then .inf true else
          if p = 1 then .inf false else .nan)
      rw [if_neg hy, dif_neg hno]
      by_cases h0 : p = 0
      · subst h0
        norm_num
        exact hsq true
      · by_cases h1 : p = 1
        · subst h1
          norm_num
          exact hsq false
        · rw [if_neg (by intro h; exact h1 (by linarith)), if_neg (by intro h; exact h0 (by linarith)), if_neg h0, if_neg h1]
          rfl

/-! ## `expit` -/

/-- `exp(x)` and `1 + exp(x)` do not overflow. -/
theorem expit_code {M : ℝ} (hM : 2 ≤ M) (v : Num) :
    div (cut M) (exp (cut M) v) (add (cut M) (.fin 1) (exp (cut M) v)) = expit (cut M) v ↔
      v ≠ .inf false ∧ ∀ x, v = .fin x → 1 + Real.exp x ≤ M := by
  cases v with
  | nan => simp [exp, div, expit]
  | inf s =>
    cases s
    · simp [exp, add, div, expit]
    · have h : exp (cut M) (.inf true) = .fin 0 := rfl
      have h1 : add (cut M) (.fin 1) (.fin 0) = .fin 1 := by
        show cut M (1 + 0) = _
        rw [add_zero, cut_fin (by norm_num; linarith)]
      rw [h, h1]
      have h2 : div (cut M) (.fin 0) (.fin 1) = .fin 0 := by
        show (if (1 : ℝ) = 0 then _ else cut M (0 / 1)) = _
        rw [if_neg (by norm_num), zero_div, cut_zero (by linarith)]
      rw [h2]
      simp [expit]
  | fin x =>
    have hx := Real.exp_pos x
    have hσ : 1 / (1 + Real.exp (-x)) = Real.exp x / (1 + Real.exp x) := by
      rw [Real.exp_neg]; field_simp; ring
    have hval : expit (cut M) (.fin x) = .fin (Real.exp x / (1 + Real.exp x)) := by
      show cut M (1 / (1 + Real.exp (-x))) = _
      rw [hσ, cut_fin]
      rw [abs_of_pos (by positivity), div_le_iff₀ (by positivity)]
      nlinarith
    simp only [ne_eq, reduceCtorEq, not_false_eq_true, Num.fin.injEq, forall_eq', true_and]
    rw [hval]
    show div (cut M) (cut M (Real.exp x)) (add (cut M) (.fin 1) (cut M (Real.exp x))) = _ ↔ _
    by_cases h1 : Real.exp x ≤ M
    · rw [cut_fin (by rwa [abs_of_pos hx])]
      show div (cut M) (.fin (Real.exp x)) (cut M (1 + Real.exp x)) = _ ↔ _
      by_cases h2 : 1 + Real.exp x ≤ M
      · rw [cut_fin (by rwa [abs_of_pos (by positivity)])]
        refine iff_of_true ?_ h2
        show (if 1 + Real.exp x = 0 then _ else cut M (Real.exp x / (1 + Real.exp x))) = _
        rw [if_neg (by positivity), cut_fin]
        rw [abs_of_pos (by positivity), div_le_iff₀ (by positivity)]
        nlinarith
      · rw [cut_big (not_le.1 h2)]
        refine iff_of_false ?_ h2
        show Num.fin 0 ≠ _
        simp only [ne_eq, Num.fin.injEq]
        have : 0 < Real.exp x / (1 + Real.exp x) := by positivity
        linarith
    · rw [cut_big (not_le.1 h1)]
      refine iff_of_false ?_ (by linarith)
      simp [add, div]

/-! ## `erfcx` -/

theorem erfcx_code {M : ℝ} (hM : 2 ≤ M) (v : Num) :
    mul (cut M) (exp (cut M) (mul (cut M) v v)) (add (cut M) (.fin 1) (neg (erf (cut M) v))) = erfcx (cut M) v ↔
      v ≠ .inf false ∧ ∀ x, v = .fin x → 0 ≤ x → Real.exp (x ^ 2) ≤ M := by
  rw [erfc_code hM]
  cases v with
  | nan => simp [mul, exp, erfc, erfcx]
  | inf s =>
    cases s
    · have h : mul (cut M) (.inf false) (.inf false) = .inf false := rfl
      have h1 : mul (cut M) (.inf false) (.fin 0) = .nan := by
        show signed false 0 = _
        rw [signed, if_pos rfl]
      simp [exp, erfc, erfcx, h, h1]
    · have h : mul (cut M) (.inf true) (.inf true) = .inf false := rfl
      have h1 : mul (cut M) (.inf false) (.fin 2) = .inf false := by
        show signed false 2 = _
        rw [signed, if_neg (by norm_num), decide_eq_false (by norm_num)]; rfl
      simp [exp, erfc, erfcx, h, h1]
  | fin x =>
    simp only [ne_eq, reduceCtorEq, not_false_eq_true, Num.fin.injEq, forall_eq', true_and]
    have hc : 0 < 1 - erfR x := by linarith [erfR_lt_one x]
    have hc2 : 1 - erfR x ≤ 2 := by linarith [neg_one_lt_erfR x]
    have he : erfc (cut M) (.fin x) = .fin (1 - erfR x) := cut_fin (by rw [abs_of_pos hc]; linarith)
    rw [he]
    have hsq : x ^ 2 < Real.exp (x ^ 2) := by linarith [Real.add_one_le_exp (x ^ 2)]
    by_cases hb : Real.exp (x ^ 2) ≤ M
    · refine iff_of_true ?_ fun _ => hb
      have h1 : mul (cut M) (.fin x) (.fin x) = .fin (x ^ 2) := by
        show cut M (x * x) = _
        rw [← pow_two, cut_fin]
        rw [abs_of_nonneg (sq_nonneg x)]; linarith
      have h2 : exp (cut M) (.fin (x ^ 2)) = .fin (Real.exp (x ^ 2)) := cut_fin (by rwa [abs_of_pos (Real.exp_pos _)])
      rw [h1, h2]
      rfl
    · have hM' := not_le.1 hb
      have h2 : exp (cut M) (mul (cut M) (.fin x) (.fin x)) = .inf false := by
        have : mul (cut M) (.fin x) (.fin x) = cut M (x ^ 2) := by rw [pow_two]; rfl
        rw [this]
        by_cases h : x ^ 2 ≤ M
        · rw [cut_fin (by rwa [abs_of_nonneg (sq_nonneg x)])]
          exact cut_big hM'
        · rw [cut_big (not_le.1 h)]; rfl
      have h3 : mul (cut M) (.inf false) (.fin (1 - erfR x)) = .inf false := by
        show signed false _ = _
        rw [signed, if_neg hc.ne', decide_eq_false (by linarith)]; rfl
      rw [h2, h3]
      show .inf false = cut M (Real.exp (x ^ 2) * (1 - erfR x)) ↔ _
      by_cases hx : 0 ≤ x
      · refine iff_of_false ?_ fun h => hb (h hx)
        have h4 := erfcx_le_one hx
        rw [cut_fin (by rw [abs_of_pos (mul_pos (Real.exp_pos _) hc)]; linarith)]
        simp
      · refine iff_of_true ?_ fun h => absurd h hx
        have : 1 < 1 - erfR x := by
          have h5 := erfR_strictMono (not_le.1 hx)
          have h6 : erfR 0 = 0 := by simp [erfR]
          linarith
        rw [cut_big]
        nlinarith

/-! ## `xlogy` -/

open Classical in
theorem timesLog_code {M : ℝ} (hM : 0 ≤ M) {g : Rd → Num → Num} (x : Num) {y : Num} (hg : g (cut M) y = g .fin y)
    (hn : g .fin .nan = .nan) :
    mul (cut M) x (g (cut M) y) = timesLog g (cut M) x y ↔ (x = .fin 0 → y = .nan ∨ ∃ l, g .fin y = .fin l) := by
  rw [hg]
  by_cases hy : y = .nan
  · subst hy
    refine iff_of_true ?_ fun _ => Or.inl rfl
    rw [hn]
    cases x <;> rfl
  · have ht : timesLog g (cut M) x y = if x = .fin 0 then .fin 0 else mul (cut M) x (g .fin y) := by
      cases y with
      | nan => exact absurd rfl hy
      | _ => rfl
    rw [ht]
    by_cases hx : x = .fin 0
    · subst hx
      rw [if_pos rfl]
      cases hl : g .fin y with
      | nan => exact iff_of_false (by simp [mul]) fun h => by simp [hy] at h
      | inf s => exact iff_of_false (by simp [mul, signed]) fun h => by simp [hy] at h
      | fin l =>
        refine iff_of_true ?_ fun _ => Or.inr ⟨l, rfl⟩
        show cut M (0 * l) = _
        rw [zero_mul, cut_zero hM]
    · rw [if_neg hx]
      exact iff_of_true rfl fun h => absurd h hx

/-- The logarithms of all the numbers are below `M`. -/
theorem log_cut {M : ℝ} (y : Num) (hy : ∀ x, y = .fin x → 0 < x → |Real.log x| ≤ M) : log (cut M) y = log .fin y := by
  cases y with
  | fin x =>
    show (if 0 < x then cut M (Real.log x) else _) = if 0 < x then .fin (Real.log x) else _
    by_cases h : 0 < x
    · rw [if_pos h, if_pos h, cut_fin (hy x rfl h)]
    · rw [if_neg h, if_neg h]
  | _ => rfl

theorem log1p_cut {M : ℝ} (y : Num) (hy : ∀ x, y = .fin x → -1 < x → |Real.log (1 + x)| ≤ M) :
    log1p (cut M) y = log1p .fin y := by
  cases y with
  | fin x =>
    refine log_cut (.fin (1 + x)) fun z hz h => ?_
    simp only [Num.fin.injEq] at hz
    subst hz
    exact hy x rfl (by linarith)
  | _ => rfl

theorem log_fin (y : Num) : (∃ l, log .fin y = .fin l) ↔ ∃ x, y = .fin x ∧ 0 < x := by
  cases y with
  | nan => simp [log, logBy]
  | inf s => cases s <;> simp [log, logBy]
  | fin x =>
    simp only [log, logBy]
    by_cases h : 0 < x
    · simp [h]
    · by_cases h0 : x = 0 <;> simp [h, h0]

theorem log1p_fin (y : Num) : (∃ l, log1p .fin y = .fin l) ↔ ∃ x, y = .fin x ∧ -1 < x := by
  cases y with
  | fin x =>
    show (∃ l, log .fin (.fin (1 + x)) = .fin l) ↔ _
    rw [log_fin]
    simp [neg_lt_iff_pos_add']
  | nan => simp [log1p, log, logBy]
  | inf s => cases s <;> simp [log1p, log, logBy]

/-! ## `logaddexp2` -/

theorem exp2_cut {M x : ℝ} (h : (2 : ℝ) ^ x ≤ M) : exp2 (cut M) (.fin x) = .fin ((2 : ℝ) ^ x) :=
  cut_fin (by rwa [abs_of_pos (by positivity)])

/-- The value of `2 ** v`, if it is a number. -/
noncomputable def pow2 : Num → ℝ
  | .fin x => (2 : ℝ) ^ x
  | _ => 0

theorem pow2_nonneg (v : Num) : 0 ≤ pow2 v := by
  cases v with
  | fin x => exact (Real.rpow_pos_of_pos two_pos x).le
  | _ => exact le_refl _

theorem logaddexp2_code {M : ℝ} (hM : 1 ≤ M) {v w : Num} (hb : pow2 v + pow2 w ≤ M)
    (hv : ∀ x, v = .fin x → |x| ≤ M) (hw : ∀ x, w = .fin x → |x| ≤ M) :
    log2 (cut M) (add (cut M) (exp2 (cut M) v) (exp2 (cut M) w)) = logaddexp2 (cut M) v w := by
  have hlog : ∀ x : ℝ, |x| ≤ M → log2 (cut M) (.fin ((2 : ℝ) ^ x)) = .fin x := by
    intro x hx
    show (if 0 < (2 : ℝ) ^ x then cut M (Real.logb 2 ((2 : ℝ) ^ x)) else _) = _
    rw [if_pos (by positivity), Real.logb_rpow (by norm_num) (by norm_num), cut_fin hx]
  have h0 : log2 (cut M) (cut M (0 + 0)) = .inf true := by
    rw [add_zero, cut_zero (by linarith)]
    show (if (0 : ℝ) < 0 then _ else if (0 : ℝ) = 0 then _ else _) = _
    rw [if_neg (lt_irrefl _), if_pos rfl]
  cases v with
  | nan => rfl
  | inf s =>
    cases w with
    | nan => cases s <;> rfl
    | inf t =>
      cases s <;> cases t <;> first | rfl | exact h0
    | fin y =>
      have hy : (2 : ℝ) ^ y ≤ M := by simpa [pow2] using hb
      rw [exp2_cut hy]
      cases s
      · rfl
      · show log2 (cut M) (cut M (0 + (2 : ℝ) ^ y)) = .fin y
        rw [zero_add, cut_fin (by rwa [abs_of_pos (by positivity)]), hlog y (hw y rfl)]
  | fin x =>
    have hx : (2 : ℝ) ^ x ≤ M := by
      have := pow2_nonneg w
      have hb' : (2 : ℝ) ^ x + pow2 w ≤ M := hb
      linarith
    rw [exp2_cut hx]
    cases w with
    | nan => rfl
    | inf t =>
      cases t
      · rfl
      · show log2 (cut M) (cut M ((2 : ℝ) ^ x + 0)) = .fin x
        rw [add_zero, cut_fin (by rwa [abs_of_pos (by positivity)]), hlog x (hv x rfl)]
    | fin y =>
      have hy : (2 : ℝ) ^ y ≤ M := by have := Real.rpow_pos_of_pos two_pos x; simp only [pow2] at hb; linarith
      rw [exp2_cut hy]
      have hp : 0 < (2 : ℝ) ^ x + (2 : ℝ) ^ y := by positivity
      show log2 (cut M) (cut M ((2 : ℝ) ^ x + (2 : ℝ) ^ y)) = cut M _
      rw [cut_fin (by rw [abs_of_pos hp]; exact hb)]
      exact if_pos hp

/-- Overflow. -/
theorem logaddexp2_big {M x y : ℝ} (hx : x + 1 ≤ M) (hy : y + 1 ≤ M) (hx' : -M ≤ x)
    (hb : M < (2 : ℝ) ^ x + (2 : ℝ) ^ y) :
    log2 (cut M) (add (cut M) (exp2 (cut M) (.fin x)) (exp2 (cut M) (.fin y))) = .inf false ∧
      ∃ z, logaddexp2 (cut M) (.fin x) (.fin y) = .fin z := by
  have h2x : 0 < (2 : ℝ) ^ x := by positivity
  have h2y : 0 < (2 : ℝ) ^ y := by positivity
  constructor
  · have hp : ∀ z : ℝ, exp2 (cut M) (.fin z) = .inf false ∨ exp2 (cut M) (.fin z) = .fin ((2 : ℝ) ^ z) := by
      intro z
      by_cases h : (2 : ℝ) ^ z ≤ M
      · exact Or.inr (exp2_cut h)
      · exact Or.inl (cut_big (not_le.1 h))
    rcases hp x with h | h <;> rcases hp y with h' | h' <;> rw [h, h']
    · rfl
    · rfl
    · rfl
    · show log2 (cut M) (cut M _) = _
      rw [cut_big hb]; rfl
  · refine ⟨_, cut_fin (abs_le.2 ⟨?_, ?_⟩)⟩
    · refine hx'.trans ?_
      rw [Real.le_logb_iff_rpow_le (by norm_num) (by positivity)]
      linarith
    · rw [Real.logb_le_iff_le_rpow (by norm_num) (by positivity)]
      have h1 : (2 : ℝ) ^ x ≤ (2 : ℝ) ^ (M - 1) := Real.rpow_le_rpow_of_exponent_le (by norm_num) (by linarith)
      have h2 : (2 : ℝ) ^ y ≤ (2 : ℝ) ^ (M - 1) := Real.rpow_le_rpow_of_exponent_le (by norm_num) (by linarith)
      have h3 : (2 : ℝ) ^ M = 2 * (2 : ℝ) ^ (M - 1) := by
        have h4 : (2 : ℝ) ^ (M - 1) = (2 : ℝ) ^ M / 2 := by rw [Real.rpow_sub two_pos, Real.rpow_one]
        rw [h4]; ring
      linarith

/-! ## Sums with products -/

theorem cut_bound {M x z : ℝ} (h : cut M x = .fin z) : |z| ≤ M := by
  unfold cut at h
  split at h
  · simp at h
  · next h1 =>
    split at h
    · simp at h
    · next h2 =>
      simp only [Num.fin.injEq] at h
      subst h
      exact abs_le.2 ⟨by linarith, by linarith⟩

theorem add_zero_mul {M : ℝ} (a p : Num) : add (cut M) (.fin 0) (mul (cut M) a p) = mul (cut M) a p := by
  cases h : mul (cut M) a p with
  | fin z =>
    show cut M (0 + z) = _
    rw [zero_add, cut_fin]
    cases a with
    | nan => cases p <;> simp [mul] at h
    | inf s =>
      cases p with
      | fin x =>
        have h' : signed s x = .fin z := h
        unfold signed at h'
        split at h' <;> simp at h'
      | _ => simp [mul] at h
    | fin x =>
      cases p with
      | fin y => exact cut_bound h
      | inf s =>
        have h' : signed s x = .fin z := h
        unfold signed at h'
        split at h' <;> simp at h'
      | nan => simp [mul] at h
  | _ => rfl

open Classical in
theorem addProduct_code {M : ℝ} (hM : 0 ≤ M) (b i a p : Num) :
    add (cut M) (mul (cut M) b i) (mul (cut M) a p) = addProduct (cut M) b i a p ↔
      (b = .fin 0 → (∃ x, i = .fin x) ∨ mul (cut M) a p = .nan) := by
  unfold addProduct
  by_cases hb : b = .fin 0
  · rw [if_pos hb]
    subst hb
    have hnan : ∀ w : Num, add (cut M) .nan w = .nan := fun w => by cases w <;> rfl
    cases i with
    | fin x =>
      refine iff_of_true ?_ fun _ => Or.inl ⟨x, rfl⟩
      have : mul (cut M) (.fin 0) (.fin x) = .fin 0 := by
        show cut M (0 * x) = _
        rw [zero_mul, cut_zero hM]
      rw [this, add_zero_mul]
    | nan =>
      have : mul (cut M) (.fin 0) .nan = .nan := rfl
      rw [this, hnan]
      simp [eq_comm]
    | inf s =>
      have : mul (cut M) (.fin 0) (.inf s) = .nan := by
        show signed s 0 = _
        rw [signed, if_pos rfl]
      rw [this, hnan]
      simp [eq_comm]
  · rw [if_neg hb]
    exact iff_of_true rfl fun h => absurd h hb

end Verif.Spec.Floats
