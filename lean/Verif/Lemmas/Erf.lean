import Verif.Spec.Floats

/-! The error function. -/

namespace Verif.Spec.Floats
open MeasureTheory Set Filter

local notation "g" => fun t : ℝ => Real.exp (-t ^ 2)

theorem g_continuous : Continuous g := by fun_prop

theorem g_integrable : Integrable g := by
  have := integrable_exp_neg_mul_sq (b := 1) one_pos
  simpa using this

theorem g_half : ∫ t in Ioi (0 : ℝ), Real.exp (-t ^ 2) = √Real.pi / 2 := by
  have := integral_gaussian_Ioi 1
  simpa using this

theorem sqrt_pi_pos : 0 < √Real.pi := Real.sqrt_pos.2 Real.pi_pos

/-- What is missing to 1. -/
theorem one_sub_erfR (x : ℝ) : 1 - erfR x = 2 / √Real.pi * ∫ t in Ioi x, Real.exp (-t ^ 2) := by
  have h := intervalIntegral.integral_interval_add_Ioi (f := g) (a := 0) (b := x) (μ := volume)
    g_integrable.integrableOn g_integrable.integrableOn
  rw [g_half] at h
  have hp := sqrt_pi_pos
  have : (∫ t in Ioi x, Real.exp (-t ^ 2)) = √Real.pi / 2 - ∫ t in (0 : ℝ)..x, Real.exp (-t ^ 2) := by linarith
  rw [this, erfR]
  field_simp

theorem tail_pos (x : ℝ) : 0 < ∫ t in Ioi x, Real.exp (-t ^ 2) := by
  rw [setIntegral_pos_iff_support_of_nonneg_ae (.of_forall fun t => (Real.exp_pos _).le) g_integrable.integrableOn]
  have : Function.support g = univ := by
    ext t; simp [Function.mem_support, Real.exp_ne_zero]
  rw [this, univ_inter]
  simp

theorem erfR_lt_one (x : ℝ) : erfR x < 1 := by
  have h := one_sub_erfR x
  have := mul_pos (div_pos two_pos sqrt_pi_pos) (tail_pos x)
  linarith

theorem erfR_neg (x : ℝ) : erfR (-x) = -erfR x := by
  have h := intervalIntegral.integral_comp_neg (f := g) (a := 0) (b := x)
  simp only [neg_sq, neg_zero] at h
  rw [erfR, erfR, h, intervalIntegral.integral_symm, mul_neg]

theorem neg_one_lt_erfR (x : ℝ) : -1 < erfR x := by
  have := erfR_lt_one (-x)
  rw [erfR_neg] at this
  linarith

/-- The tail is small. -/
theorem erfcx_le_one {x : ℝ} (hx : 0 ≤ x) : Real.exp (x ^ 2) * (1 - erfR x) ≤ 1 := by
  rw [one_sub_erfR]
  have h1 : (∫ t in Ioi x, Real.exp (-t ^ 2)) = ∫ t in Ioi (0 : ℝ), Real.exp (-(t + x) ^ 2) := by
    have := (measurePreserving_add_right volume x).setIntegral_preimage_emb (measurableEmbedding_addRight x)
      (fun t : ℝ => Real.exp (-t ^ 2)) (Ioi x)
    rw [← this]
    simp
  have h2 : (∫ t in Ioi (0 : ℝ), Real.exp (-(t + x) ^ 2)) ≤ ∫ t in Ioi (0 : ℝ), Real.exp (-x ^ 2) * Real.exp (-t ^ 2) := by
    refine setIntegral_mono_on ?_ ?_ measurableSet_Ioi fun t ht => ?_
    · exact (g_integrable.comp_add_right x).integrableOn
    · exact (g_integrable.const_mul _).integrableOn
    · rw [← Real.exp_add]
      refine Real.exp_le_exp.2 ?_
      have : 0 < t := ht
      nlinarith [mul_nonneg this.le hx]
  rw [integral_const_mul, g_half] at h2
  rw [h1]
  have hp := sqrt_pi_pos
  have he : Real.exp (x ^ 2) * Real.exp (-x ^ 2) = 1 := by rw [← Real.exp_add]; simp
  calc Real.exp (x ^ 2) * (2 / √Real.pi * ∫ t in Ioi (0 : ℝ), Real.exp (-(t + x) ^ 2))
      ≤ Real.exp (x ^ 2) * (2 / √Real.pi * (Real.exp (-x ^ 2) * (√Real.pi / 2))) := by gcongr
    _ = Real.exp (x ^ 2) * Real.exp (-x ^ 2) := by field_simp
    _ = 1 := he

theorem erfR_continuous : Continuous erfR := by
  unfold erfR
  refine continuous_const.mul ?_
  exact intervalIntegral.continuous_primitive (fun a b => g_continuous.intervalIntegrable a b) 0

theorem erfR_strictMono : StrictMono erfR := by
  intro x y h
  have h1 := one_sub_erfR x
  have h2 := one_sub_erfR y
  have h3 := intervalIntegral.integral_interval_add_Ioi (f := g) (a := x) (b := y) (μ := volume)
    g_integrable.integrableOn g_integrable.integrableOn
  have h4 : 0 < ∫ t in x..y, Real.exp (-t ^ 2) :=
    intervalIntegral.intervalIntegral_pos_of_pos (g_continuous.intervalIntegrable x y) (fun t => Real.exp_pos _) h
  have := mul_pos (div_pos two_pos sqrt_pi_pos) h4
  have h5 : 1 - erfR x = 2 / √Real.pi * (∫ t in x..y, Real.exp (-t ^ 2)) + (1 - erfR y) := by
    rw [h1, h2, ← h3, mul_add]
  linarith

theorem erfR_tendsto : Tendsto erfR atTop (nhds 1) := by
  have h := intervalIntegral_tendsto_integral_Ioi (f := g) 0 g_integrable.integrableOn tendsto_id
  rw [g_half] at h
  have h2 := h.const_mul (2 / √Real.pi)
  have hp := sqrt_pi_pos
  have : 2 / √Real.pi * (√Real.pi / 2) = 1 := by field_simp
  rw [this] at h2
  exact h2

/-- Every number between -1 and 1 is a value of the error function. -/
theorem erfR_surj {y : ℝ} (hy : |y| < 1) : ∃ x, erfR x = y := by
  obtain ⟨h1, h2⟩ := abs_lt.1 hy
  obtain ⟨b, hb⟩ := (erfR_tendsto.eventually (lt_mem_nhds h2)).exists
  obtain ⟨a, ha⟩ := (erfR_tendsto.eventually (lt_mem_nhds (show -y < 1 by linarith))).exists
  have ha' : erfR (-a) < y := by rw [erfR_neg]; linarith
  have hab : -a ≤ b := by
    by_contra h
    have := erfR_strictMono (not_le.1 h)
    linarith
  obtain ⟨x, _, hx⟩ := intermediate_value_Icc hab erfR_continuous.continuousOn ⟨ha'.le, hb.le⟩
  exact ⟨x, hx⟩

theorem erfinvR_spec {y : ℝ} (hy : |y| < 1) : erfR (erfinvR y) = y := Function.invFun_eq (erfR_surj hy)

end Verif.Spec.Floats
