import Mathlib.MeasureTheory.Integral.IntervalIntegral.FundThmCalculus
import Mathlib.Analysis.SpecialFunctions.Trigonometric.InverseDeriv
import Mathlib.Analysis.SpecialFunctions.Sqrt
import Mathlib.Analysis.Calculus.Deriv.MeanValue

/-! Area of a circular segment as the integral of the chord length. -/

open Real

namespace Verif

/-- the chord of a circle of radius `R` at height `y` above its lowest point -/
noncomputable def chord (R y : ℝ) : ℝ := 2 * √(y * (2 * R - y))

/-- closed form of the segment area -/
noncomputable def segArea (R h : ℝ) : ℝ := R ^ 2 * arccos ((R - h) / R) - (R - h) * √(h * (2 * R - h))

theorem continuous_chord (R : ℝ) : Continuous (chord R) := by unfold chord; fun_prop

theorem continuous_segArea (R : ℝ) : Continuous (segArea R) := by
  unfold segArea
  have := continuous_arccos
  fun_prop

theorem hasDerivAt_segArea {R y : ℝ} (hR : 0 < R) (h0 : 0 < y) (h1 : y < 2 * R) :
    HasDerivAt (segArea R) (chord R y) y := by
  have hq : 0 < y * (2 * R - y) := mul_pos h0 (by linarith)
  have hs : 0 < √(y * (2 * R - y)) := sqrt_pos.mpr hq
  have hss : √(y * (2 * R - y)) ^ 2 = y * (2 * R - y) := sq_sqrt hq.le
  have e1 : √(1 - ((R - y) / R) ^ 2) = √(y * (2 * R - y)) / R := by
    rw [show 1 - ((R - y) / R) ^ 2 = y * (2 * R - y) / R ^ 2 by field_simp; ring, sqrt_div hq.le, sqrt_sq hR.le]
  have d1 : HasDerivAt (fun y => (R - y) / R) (-1 / R) y := by
    have := ((hasDerivAt_id y).const_sub R).div_const R
    simpa using this
  have d2 := (hasDerivAt_arccos (x := (R - y) / R) (by
      intro h; rw [div_eq_iff hR.ne'] at h; linarith) (by
      intro h; rw [div_eq_iff hR.ne'] at h; linarith)).comp y d1
  have d3 : HasDerivAt (fun y => y * (2 * R - y)) (1 * (2 * R - y) + y * (-1)) y := by
    exact (hasDerivAt_id' y).mul ((hasDerivAt_id' y).const_sub (2 * R))
  have d4 := d3.sqrt hq.ne'
  have d5 : HasDerivAt (fun y => R - y) (-1) y := by
    simpa using (hasDerivAt_id y).const_sub R
  have d6 := (d2.const_mul (R ^ 2)).sub (d5.mul d4)
  unfold segArea
  refine d6.congr_deriv ?_
  rw [e1]
  unfold chord
  generalize √(y * (2 * R - y)) = u at *
  field_simp
  rw [show u ^ 2 = _ from hss]; ring

/-- the area of a segment of height `h` is the integral of the chord -/
theorem integral_chord {R h : ℝ} (hR : 0 < R) (h0 : 0 ≤ h) (h1 : h ≤ 2 * R) :
    ∫ y in (0 : ℝ)..h, chord R y = segArea R h := by
  rw [intervalIntegral.integral_eq_sub_of_hasDerivAt_of_le h0 (continuous_segArea R).continuousOn
    (fun y hy => hasDerivAt_segArea hR hy.1 (by linarith [hy.2])) ((continuous_chord R).intervalIntegrable _ _)]
  have : segArea R 0 = 0 := by simp [segArea, div_self hR.ne']
  rw [this, sub_zero]

theorem segArea_zero {R : ℝ} (hR : 0 < R) : segArea R 0 = 0 := by simp [segArea, div_self hR.ne']

theorem segArea_full {R : ℝ} (hR : 0 < R) : segArea R (2 * R) = π * R ^ 2 := by
  unfold segArea
  rw [show (R - 2 * R) / R = -1 by field_simp; ring, arccos_neg_one]
  simp; ring

theorem segArea_strictMono {R : ℝ} (hR : 0 < R) : StrictMonoOn (segArea R) (Set.Icc 0 (2 * R)) := by
  refine strictMonoOn_of_deriv_pos (convex_Icc _ _) (continuous_segArea R).continuousOn ?_
  intro y hy
  rw [interior_Icc] at hy
  rw [(hasDerivAt_segArea hR hy.1 hy.2).deriv]
  have : 0 < y * (2 * R - y) := mul_pos hy.1 (by linarith [hy.2])
  unfold chord; positivity

/-- complementary segments -/
theorem segArea_compl {R h : ℝ} (hR : 0 < R) : segArea R (2 * R - h) = π * R ^ 2 - segArea R h := by
  unfold segArea
  rw [show (R - (2 * R - h)) / R = -((R - h) / R) by field_simp; ring, arccos_neg,
    show (2 * R - h) * (2 * R - (2 * R - h)) = h * (2 * R - h) by ring]
  ring

end Verif
