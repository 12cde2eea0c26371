import Verif.Model.Roots

namespace Verif.Roots
open Complex

theorem I_sq' : (I : ℂ) * I = -1 := I_mul_I

theorem cardano_y (U V s y : ℂ) (hs : s * s = 3) :
    (y - (U + V)) * (y + (U + V) / 2 - I * s * (U - V) / 2) * (y + (U + V) / 2 + I * s * (U - V) / 2)
      = y ^ 3 - 3 * (U * V) * y - (U ^ 3 + V ^ 3) := by
  have h1 : I * I * (s * s) = -3 := by rw [I_mul_I, hs]; ring
  linear_combination -(y - (U + V)) * (U - V) ^ 2 / 4 * h1

theorem cardano (a b c d U V s x : ℂ) (ha : a ≠ 0) (hs : s * s = 3) (hUV : U * V = 4 * (b ^ 2 - 3 * a * c))
    (hsum : U ^ 3 + V ^ 3 = 2 * (36 * a * b * c - 108 * a ^ 2 * d - 8 * b ^ 3)) :
    a * x ^ 3 + b * x ^ 2 + c * x + d = a * (x - ((U + V) / (6 * a) - b / (3 * a))) *
      (x - (-(U + V) / (12 * a) + I * s * (U - V) / (12 * a) - b / (3 * a))) *
      (x - (-(U + V) / (12 * a) - I * s * (U - V) / (12 * a) - b / (3 * a))) := by
  have h := cardano_y U V s (6 * a * x + 2 * b) hs
  rw [hUV, hsum] at h
  have e1 : x - ((U + V) / (6 * a) - b / (3 * a)) = ((6 * a * x + 2 * b) - (U + V)) / (6 * a) := by field_simp; ring
  have e2 : x - (-(U + V) / (12 * a) + I * s * (U - V) / (12 * a) - b / (3 * a))
    = ((6 * a * x + 2 * b) + (U + V) / 2 - I * s * (U - V) / 2) / (6 * a) := by field_simp; ring
  have e3 : x - (-(U + V) / (12 * a) - I * s * (U - V) / (12 * a) - b / (3 * a))
    = ((6 * a * x + 2 * b) + (U + V) / 2 + I * s * (U - V) / 2) / (6 * a) := by field_simp; ring
  rw [e1, e2, e3]
  have : a * (((6 * a * x + 2 * b) - (U + V)) / (6 * a)) *
      (((6 * a * x + 2 * b) + (U + V) / 2 - I * s * (U - V) / 2) / (6 * a)) *
      (((6 * a * x + 2 * b) + (U + V) / 2 + I * s * (U - V) / 2) / (6 * a))
    = (((6 * a * x + 2 * b) - (U + V)) * ((6 * a * x + 2 * b) + (U + V) / 2 - I * s * (U - V) / 2) *
      ((6 * a * x + 2 * b) + (U + V) / 2 + I * s * (U - V) / 2)) / (216 * a ^ 2) := by field_simp; ring
  rw [this, h]
  field_simp
  ring

theorem cthird_pow (z : ℂ) : cthird z ^ 3 = z := by
  unfold cthird
  rw [show (1 / 3 : ℂ) = ((3 : ℕ) : ℂ)⁻¹ by push_cast; ring, Complex.cpow_nat_inv_pow z (by norm_num)]

theorem csqrt_sq (z : ℂ) : csqrt z * csqrt z = z := by
  unfold csqrt
  rw [← sq, show (1 / 2 : ℂ) = ((2 : ℕ) : ℂ)⁻¹ by push_cast; ring, Complex.cpow_nat_inv_pow z (by norm_num)]

theorem csqrt_neg_re {x : ℝ} (hx : x ≤ 0) : csqrt (x : ℂ) = ((√(-x) : ℝ) : ℂ) * I := by
  unfold csqrt
  rcases hx.eq_or_lt with rfl | hx
  · simp
  have hn : (0 : ℝ) ≤ -x := by linarith
  rw [Complex.ofReal_cpow_of_nonpos hx.le, Real.sqrt_eq_rpow, Complex.ofReal_cpow hn]
  have : Complex.exp (↑Real.pi * I * (1 / 2)) = I := by
    rw [show (↑Real.pi * I * (1 / 2) : ℂ) = ↑Real.pi / 2 * I by ring]
    rw [Complex.exp_mul_I, ← Complex.ofReal_ofNat, ← Complex.ofReal_div, ← Complex.ofReal_cos, ← Complex.ofReal_sin]
    simp
  rw [this]; push_cast; rfl

theorem sqrt3_c : ((√3 : ℝ) : ℂ) * ((√3 : ℝ) : ℂ) = 3 := by
  rw [← ofReal_mul, Real.mul_self_sqrt (by norm_num)]; norm_num

theorem rpow_third_cube {x : ℝ} (hx : 0 ≤ x) : (x ^ (1 / 3 : ℝ)) ^ 3 = x := by
  rw [← Real.rpow_natCast, ← Real.rpow_mul hx]; norm_num

theorem signedThird_spec (R : ℝ) : ∃ S, signedThird R = .ok S ∧ S ^ 3 = R := by
  by_cases h : R ≥ 0
  · refine ⟨R ^ (1 / 3 : ℝ), ?_, rpow_third_cube h⟩
    rw [signedThird, if_pos h]; exact ppow_ok' h (by norm_num)
  · have h' : 0 < -R := by linarith
    refine ⟨-(-R) ^ (1 / 3 : ℝ), by simp only [signedThird, if_neg h, ppow_ok h', Py.ok_bind, Py.pure_eq], ?_⟩
    have := rpow_third_cube h'.le
    linear_combination -this

theorem cube_inj {x y : ℝ} (h : x ^ 3 = y ^ 3) : x = y :=
  (Odd.strictMono_pow (by decide : Odd 3)).injective h

end Verif.Roots
