import Verif.Model.Psd
import Mathlib.Analysis.SpecialFunctions.Gaussian.GaussianIntegral
import Mathlib.MeasureTheory.Integral.IntegralEqImproper
import Mathlib.MeasureTheory.Integral.IntervalIntegral.FundThmCalculus

/-! The error function. -/

open Real MeasureTheory Filter Topology

noncomputable section

namespace Verif.Psd

theorem gauss_continuous : Continuous fun t : ℝ => exp (-(t ^ 2)) := by fun_prop

theorem erf_hasDerivAt (x : ℝ) : HasDerivAt erf (2 / √π * exp (-(x ^ 2))) x := by
  have := (gauss_continuous.integral_hasStrictDerivAt 0 x).hasDerivAt
  exact this.const_mul (2 / √π)

theorem erf_zero : erf 0 = 0 := by simp [erf]

theorem erf_neg (x : ℝ) : erf (-x) = -erf x := by
  unfold erf
  rw [← mul_neg]
  congr 1
  have := intervalIntegral.integral_comp_neg (f := fun t : ℝ => exp (-(t ^ 2))) (a := 0) (b := x)
  simp only [neg_sq, neg_zero] at this
  rw [this, intervalIntegral.integral_symm]

theorem erf_strictMono : StrictMono erf := by
  refine strictMono_of_deriv_pos fun x => ?_
  rw [(erf_hasDerivAt x).deriv]
  have := sqrt_pos.mpr pi_pos
  positivity

theorem erf_tendsto : Tendsto erf atTop (𝓝 1) := by
  have hi : IntegrableOn (fun t : ℝ => exp (-(t ^ 2))) (Set.Ioi 0) := by
    have := (integrable_exp_neg_mul_sq (b := 1) one_pos).integrableOn (s := Set.Ioi 0)
    simpa using this
  have h := intervalIntegral_tendsto_integral_Ioi 0 hi tendsto_id
  have e : ∫ t in Set.Ioi (0 : ℝ), exp (-(t ^ 2)) = √π / 2 := by simpa using integral_gaussian_Ioi 1
  rw [e] at h
  have h2 := h.const_mul (2 / √π)
  have hp := sqrt_pos.mpr pi_pos
  rwa [show 2 / √π * (√π / 2) = 1 by field_simp] at h2

theorem erf_lt_one (x : ℝ) : erf x < 1 := by
  refine (erf_strictMono (lt_add_one x)).trans_le (ge_of_tendsto erf_tendsto ?_)
  filter_upwards [eventually_ge_atTop (x + 1)] with y hy
  exact erf_strictMono.monotone hy

theorem neg_one_lt_erf (x : ℝ) : -1 < erf x := by
  have := erf_lt_one (-x); rw [erf_neg] at this; linarith

theorem erf_tendsto_bot : Tendsto erf atBot (𝓝 (-1)) := by
  have := (erf_tendsto.comp tendsto_neg_atBot_atTop).neg
  refine this.congr fun x => ?_
  simp [erf_neg]

end Verif.Psd
