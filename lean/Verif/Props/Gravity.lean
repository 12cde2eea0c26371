import Verif.Model.Core

/-! # C83: local gravity -/

namespace Verif.Core
open Real

/-- C83: height lowers gravity by 3.086e-6 per metre, at every latitude. -/
theorem C83_height (lat H d : ℝ) : gravity lat (H + d) = gravity lat H - 3.086e-6 * d := by
  simp only [gravity]; ring

/-- C83: at the equator and at the pole. -/
theorem C83_ends (H : ℝ) : gravity 0 H = 9.780356 - 3.086e-6 * H ∧ gravity 90 H = 9.780356 * 1.0052885 - 3.086e-6 * H := by
  constructor
  · simp [gravity]
  · simp only [gravity, show 90 * π / 180 = π / 2 by ring, show 2 * (π / 2) = π by ring, sin_pi_div_two, sin_pi]; norm_num

/-- C83: the printed formula, with the latitude in degrees. -/
theorem C83_formula (lat H : ℝ) :
    gravity lat H = 9.780356 * (1 + 0.0052885 * sin (lat * π / 180) ^ 2 - 0.0000059 * sin (2 * (lat * π / 180)) ^ 2) - 3.086e-6 * H := rfl

/-- C83: north and south agree. -/
theorem C83_even (lat H : ℝ) : gravity (-lat) H = gravity lat H := by
  simp only [gravity, show -lat * π / 180 = -(lat * π / 180) by ring, mul_neg, sin_neg, neg_sq]

/-- C83: it lies between the equatorial and the polar values. -/
theorem C83_between (lat H : ℝ) : gravity 0 H ≤ gravity lat H ∧ gravity lat H ≤ gravity 90 H := by
  rw [(C83_ends H).1, (C83_ends H).2]
  simp only [gravity, sin_two_mul]
  have h := sin_sq_add_cos_sq (lat * π / 180)
  have hs := sq_nonneg (sin (lat * π / 180))
  have hc := sq_nonneg (cos (lat * π / 180))
  rw [show (2 * sin (lat * π / 180) * cos (lat * π / 180)) ^ 2 = 4 * (sin (lat * π / 180) ^ 2 * cos (lat * π / 180) ^ 2) by ring]
  generalize sin (lat * π / 180) ^ 2 = s at *
  generalize cos (lat * π / 180) ^ 2 = c at *
  have hsc : 0 ≤ s * c := mul_nonneg hs hc
  have hsc' : s * c ≤ s := by nlinarith
  constructor <;> nlinarith

end Verif.Core
