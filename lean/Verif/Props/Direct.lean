import Verif.Model.Direct
import Mathlib.LinearAlgebra.Matrix.Determinant.Basic
import Mathlib.LinearAlgebra.Matrix.Notation
import Mathlib.Tactic.FieldSimp
import Mathlib.Tactic.LinearCombination

/-! # C29: closed-form linear solvers -/

namespace Verif.Direct
open Matrix

variable {K : Type _} [Field K] [DecidableEq K]

/-- C29: `solve_2_direct` solves every 2x2 system with nonzero determinant. -/
theorem C29_solve_2 (a b c d e f : K) (h : Matrix.det !![a, b; c, d] ≠ 0) :
    ∃ x y, solve_2_direct [[a, b], [c, d]] [e, f] = .ok [x, y] ∧ !![a, b; c, d] *ᵥ ![x, y] = ![e, f] := by
  rw [Matrix.det_fin_two_of] at h
  refine ⟨_, _, by simp only [solve_2_direct, pdiv_ok h, Py.ok_bind]; rfl, ?_⟩
  have hD := mul_inv_cancel₀ h
  ext i
  fin_cases i <;> simp [Matrix.mulVec, dotProduct]
  · linear_combination e * hD
  · linear_combination f * hD

/-- C29: and raises `ZeroDivisionError` exactly when the determinant is zero. -/
theorem C29_solve_2_singular (a b c d e f : K) :
    solve_2_direct [[a, b], [c, d]] [e, f] = .error .zeroDivisionError ↔ Matrix.det !![a, b; c, d] = 0 := by
  rw [Matrix.det_fin_two_of]
  by_cases h : a * d - b * c = 0
  · simp [solve_2_direct, pdiv, h]
  · simp [solve_2_direct, pdiv_ok h, h, Py.pure_eq]

/-- leading principal minors of a 3x3 matrix -/
def Minors3 (a b c d e f g h i : K) : Prop :=
  a ≠ 0 ∧ Matrix.det !![a, b; d, e] ≠ 0 ∧ Matrix.det !![a, b, c; d, e, f; g, h, i] ≠ 0

theorem back3 {a b c d e f g h i j k l x y z x1 x2 x3 x4 x5 : K} (ha : a ≠ 0) (h1 : x1 ≠ 0)
    (e1 : x1 = -b * d + a * e) (e2 : x2 = a * i - c * g) (e3 : x3 = a * f - c * d) (e4 : x4 = a * h - b * g)
    (e5 : x5 = x1 * x2 - x3 * x4)
    (hz : x5 * z = x1 * (a * l - g * j) - x4 * (a * k - d * j)) (hy : x1 * y + x3 * z = a * k - d * j)
    (hx : a * x + b * y + c * z = j) :
    d * x + e * y + f * z = k ∧ g * x + h * y + i * z = l := by
  subst e1 e2 e3 e4 e5
  refine ⟨mul_left_cancel₀ ha ?_, mul_left_cancel₀ ha (mul_left_cancel₀ h1 ?_)⟩
  · linear_combination d * hx + hy
  · linear_combination (-b * d + a * e) * g * hx + hz + (a * h - b * g) * hy

/-- C29: `solve_3_direct` solves every 3x3 system whose leading principal minors are nonzero. -/
theorem C29_solve_3 (a b c d e f g h i j k l : K) (hm : Minors3 a b c d e f g h i) :
    ∃ x y z, solve_3_direct [[a, b, c], [d, e, f], [g, h, i]] [j, k, l] = .ok [x, y, z] ∧
      !![a, b, c; d, e, f; g, h, i] *ᵥ ![x, y, z] = ![j, k, l] := by
  obtain ⟨ha, h2, h3⟩ := hm
  rw [Matrix.det_fin_two_of] at h2
  rw [Matrix.det_fin_three] at h3
  simp at h3
  have h1 : -b * d + a * e ≠ 0 := by convert h2 using 1; ring
  have h5 : (-b * d + a * e) * (a * i - c * g) - (a * f - c * d) * (a * h - b * g) ≠ 0 := by
    convert mul_ne_zero ha h3 using 1; ring
  refine ⟨_, _, _, by simp only [solve_3_direct, pdiv_ok h1, pdiv_ok h5, pdiv_ok ha, Py.ok_bind]; rfl, ?_⟩
  generalize e1 : -b * d + a * e = x1 at *
  generalize e2 : a * i - c * g = x2 at *
  generalize e3 : a * f - c * d = x3 at *
  generalize e4 : a * h - b * g = x4 at *
  generalize e5 : x1 * x2 - x3 * x4 = x5 at *
  have H : ∀ x y z : K, a * x + b * y + c * z = j → d * x + e * y + f * z = k → g * x + h * y + i * z = l →
      !![a, b, c; d, e, f; g, h, i] *ᵥ ![x, y, z] = ![j, k, l] := by
    intro x y z h1 h2 h3
    ext n
    fin_cases n <;> simp [Matrix.mulVec, dotProduct, Fin.sum_univ_three, h1, h2, h3]
  have P : ∀ x y z : K, x5 * z = x1 * (a * l - g * j) - x4 * (a * k - d * j) → x1 * y + x3 * z = a * k - d * j →
      a * x + b * y + c * z = j → !![a, b, c; d, e, f; g, h, i] *ᵥ ![x, y, z] = ![j, k, l] := by
    intro x y z hz hy hx
    obtain ⟨q1, q2⟩ := back3 ha h1 e1.symm e2.symm e3.symm e4.symm e5.symm hz hy hx
    exact H x y z hx q1 q2
  apply P
  · field_simp; ring
  · field_simp; rw [← e5]; ring
  · field_simp; rw [← e5, ← e1]; ring

/-- C29: and raises `ZeroDivisionError` exactly when some leading principal minor is zero. -/
theorem C29_solve_3_singular (a b c d e f g h i j k l : K) :
    solve_3_direct [[a, b, c], [d, e, f], [g, h, i]] [j, k, l] = .error .zeroDivisionError ↔ ¬ Minors3 a b c d e f g h i := by
  constructor
  · intro he hm
    obtain ⟨x, y, z, hx, -⟩ := C29_solve_3 a b c d e f g h i j k l hm
    rw [hx] at he; cases he
  · intro hm
    simp only [Minors3, Matrix.det_fin_two_of, Matrix.det_fin_three] at hm
    simp at hm
    have key : (-b * d + a * e) * (a * i - c * g) - (a * f - c * d) * (a * h - b * g) =
        a * (a * e * i - a * f * h - b * d * i + b * f * g + c * d * h - c * e * g) := by ring
    simp only [solve_3_direct, pdiv, key]
    by_cases ha : a = 0
    · simp [ha]
    by_cases h1 : a * e - b * d = 0
    · have : -b * d + a * e = 0 := by rw [← h1]; ring
      rw [this]
      split_ifs <;> first | rfl | simp_all
    · simp [hm ha h1]

/-- C29 (finding): a zero in the corner is enough to reject a perfectly regular system. -/
theorem C29_solve_3_rejects_regular :
    Matrix.det !![(0 : ℚ), 1, 0; 1, 0, 0; 0, 0, 1] ≠ 0 ∧
    solve_3_direct [[(0 : ℚ), 1, 0], [1, 0, 0], [0, 0, 1]] [1, 2, 3] = .error .zeroDivisionError := by
  refine ⟨?_, by decide +kernel⟩
  rw [Matrix.det_fin_three]; simp

example : Minors3 (2 : ℚ) 1 0 1 3 1 0 1 4 ∧
    solve_3_direct [[(2 : ℚ), 1, 0], [1, 3, 1], [0, 1, 4]] [1, 2, 3] = .ok [1/3, 1/3, 2/3] := by
  refine ⟨⟨by norm_num, by rw [Matrix.det_fin_two_of]; norm_num, by rw [Matrix.det_fin_three]; simp; norm_num⟩, by decide +kernel⟩

/-- leading principal minors of a 4x4 matrix -/
def Minors4 (a b c d e f g h i j k l m n o p : K) : Prop :=
  a ≠ 0 ∧ Matrix.det !![a, b; e, f] ≠ 0 ∧ Matrix.det !![a, b, c; e, f, g; i, j, k] ≠ 0 ∧
    Matrix.det !![a, b, c, d; e, f, g, h; i, j, k, l; m, n, o, p] ≠ 0

theorem det4 (a b c d e f g h i j k l m n o p : K) :
    a ^ 2 * (-b * e + a * f) * Matrix.det !![a, b, c, d; e, f, g, h; i, j, k, l; m, n, o, p] =
    -((-b * e + a * f) * (a * o - c * m) - (a * g - c * e) * (a * n - b * m)) *
      ((-b * e + a * f) * (a * l - d * i) - (a * j - b * i) * (a * h - d * e)) +
      ((-b * e + a * f) * (a * k - c * i) - (a * g - c * e) * (a * j - b * i)) *
      ((-b * e + a * f) * (a * p - d * m) - (a * h - d * e) * (a * n - b * m)) := by
  rw [Matrix.det_succ_row_zero]
  simp [Fin.sum_univ_succ, Matrix.det_fin_three, Fin.succAbove, Matrix.submatrix]
  ring

theorem back4 {a b c d e f g h i j k l m n o p q r s t x y z w x1 x3 x4 x5 x6 x7 x8 x9 x10 x11 : K} (ha : a ≠ 0) (h1 : x1 ≠ 0)
    (h5 : x5 ≠ 0)
    (e1 : x1 = -b * e + a * f) (e3 : x3 = a * g - c * e) (e4 : x4 = a * j - b * i)
    (e5 : x5 = x1 * (a * k - c * i) - x3 * x4) (e6 : x6 = a * h - d * e) (e7 : x7 = a * n - b * m)
    (e8 : x8 = x1 * (a * p - d * m) - x6 * x7) (e9 : x9 = x1 * (a * l - d * i) - x4 * x6)
    (e10 : x10 = x1 * (a * o - c * m) - x3 * x7) (e11 : x11 = -x10 * x9 + x5 * x8)
    (hw : x11 * w = x5 * (x1 * (a * t - m * q) - x7 * (a * r - e * q)) - x10 * (x1 * (a * s - i * q) - x4 * (a * r - e * q)))
    (hz : x5 * z + x9 * w = x1 * (a * s - i * q) - x4 * (a * r - e * q))
    (hy : x1 * y + x3 * z + x6 * w = a * r - e * q)
    (hx : a * x + b * y + c * z + d * w = q) :
    e * x + f * y + g * z + h * w = r ∧ i * x + j * y + k * z + l * w = s ∧ m * x + n * y + o * z + p * w = t := by
  subst e11
  have hlast : x10 * z + x8 * w = x1 * (a * t - m * q) - x7 * (a * r - e * q) := by
    apply mul_left_cancel₀ h5
    linear_combination hw + x10 * hz
  refine ⟨mul_left_cancel₀ ha ?_, mul_left_cancel₀ ha (mul_left_cancel₀ h1 ?_), mul_left_cancel₀ ha (mul_left_cancel₀ h1 ?_)⟩
  · subst e1 e3 e6
    linear_combination e * hx + hy
  · subst e5 e9
    linear_combination x1 * i * hx + hz + x4 * hy - x1 * y * e4
  · subst e10 e8
    linear_combination x1 * m * hx + hlast + x7 * hy - x1 * y * e7

/-- C29: `solve_4_direct` solves every 4x4 system whose leading principal minors are nonzero. -/
theorem C29_solve_4 (a b c d e f g h i j k l m n o p q r s t : K) (hm : Minors4 a b c d e f g h i j k l m n o p) :
    ∃ x y z w, solve_4_direct [[a, b, c, d], [e, f, g, h], [i, j, k, l], [m, n, o, p]] [q, r, s, t] = .ok [x, y, z, w] ∧
      !![a, b, c, d; e, f, g, h; i, j, k, l; m, n, o, p] *ᵥ ![x, y, z, w] = ![q, r, s, t] := by
  obtain ⟨ha, h2, h3, h4⟩ := hm
  rw [Matrix.det_fin_two_of] at h2
  rw [Matrix.det_fin_three] at h3
  simp at h3
  have h1 : -b * e + a * f ≠ 0 := by convert h2 using 1; ring
  have h5 : (-b * e + a * f) * (a * k - c * i) - (a * g - c * e) * (a * j - b * i) ≠ 0 := by
    convert mul_ne_zero ha h3 using 1; ring
  have h11 := mul_ne_zero (mul_ne_zero (pow_ne_zero 2 ha) h1) h4
  rw [det4] at h11
  refine ⟨_, _, _, _, by simp only [solve_4_direct, pdiv_ok h1, pdiv_ok h5, pdiv_ok h11, pdiv_ok ha, Py.ok_bind]; rfl, ?_⟩
  clear h2 h3 h4
  generalize e1 : -b * e + a * f = x1 at *
  generalize e3 : a * g - c * e = x3 at *
  generalize e4 : a * j - b * i = x4 at *
  generalize e6 : a * h - d * e = x6 at *
  generalize e7 : a * n - b * m = x7 at *
  generalize e2 : x1 * (a * k - c * i) = x2 at *
  generalize e5 : x2 - x3 * x4 = x5 at *
  generalize e8 : x1 * (a * p - d * m) - x6 * x7 = x8 at *
  generalize e9 : x1 * (a * l - d * i) - x4 * x6 = x9 at *
  generalize e10 : x1 * (a * o - c * m) - x3 * x7 = x10 at *
  generalize e11 : -x10 * x9 + x5 * x8 = x11 at *
  have P : ∀ x y z w : K,
      x11 * w = x5 * (x1 * (a * t - m * q) - x7 * (a * r - e * q)) - x10 * (x1 * (a * s - i * q) - x4 * (a * r - e * q)) →
      x5 * z + x9 * w = x1 * (a * s - i * q) - x4 * (a * r - e * q) →
      x1 * y + x3 * z + x6 * w = a * r - e * q → a * x + b * y + c * z + d * w = q →
      !![a, b, c, d; e, f, g, h; i, j, k, l; m, n, o, p] *ᵥ ![x, y, z, w] = ![q, r, s, t] := by
    intro x y z w hw hz hy hx
    rw [← e2] at e5
    obtain ⟨q1, q2, q3⟩ := back4 ha h1 h5 e1.symm e3.symm e4.symm e5.symm e6.symm e7.symm e8.symm e9.symm e10.symm e11.symm hw hz hy hx
    ext n
    fin_cases n <;> simp [Matrix.mulVec, dotProduct, Fin.sum_univ_four, hx, q1, q2, q3]
  have e0 : a * f = x1 + b * e := by rw [← e1]; ring
  rw [e0]
  have e22 : x2 = x5 + x3 * x4 := by rw [← e5]; ring
  rw [e22]
  have hx8 : x8 = (x11 + x10 * x9) / x5 := by rw [← e11]; field_simp; ring
  clear e1 e3 e4 e5 e6 e7 e8 e9 e10 e11 e2 e0 e22
  subst hx8
  apply P <;> clear P
  · field_simp; ring
  · field_simp; ring
  · field_simp; ring
  · field_simp; ring

/-- C29: and raises `ZeroDivisionError` exactly when some leading principal minor is zero. -/
theorem C29_solve_4_singular (a b c d e f g h i j k l m n o p q r s t : K) :
    solve_4_direct [[a, b, c, d], [e, f, g, h], [i, j, k, l], [m, n, o, p]] [q, r, s, t] = .error .zeroDivisionError ↔
      ¬ Minors4 a b c d e f g h i j k l m n o p := by
  constructor
  · intro he hm
    obtain ⟨x, y, z, w, hx, -⟩ := C29_solve_4 a b c d e f g h i j k l m n o p q r s t hm
    rw [hx] at he; cases he
  · intro hm
    simp only [Minors4, Matrix.det_fin_two_of, Matrix.det_fin_three] at hm
    simp at hm
    have key : (-b * e + a * f) * (a * k - c * i) - (a * g - c * e) * (a * j - b * i) =
        a * (a * f * k - a * g * j - b * e * k + b * g * i + c * e * j - c * f * i) := by ring
    simp only [solve_4_direct, pdiv, ← det4]
    by_cases ha : a = 0
    · simp [ha]
    by_cases h1 : a * f - b * e = 0
    · have : -b * e + a * f = 0 := by rw [← h1]; ring
      simp only [this, mul_zero, zero_mul, if_true]; rfl
    by_cases h3 : a * f * k - a * g * j - b * e * k + b * g * i + c * e * j - c * f * i = 0
    · rw [key, h3]
      split_ifs <;> simp_all
    · simp [hm ha h1 h3]

example : Minors4 (2 : ℚ) 1 0 0 1 3 1 0 0 1 4 1 0 0 1 5 ∧
    solve_4_direct [[(2 : ℚ), 1, 0, 0], [1, 3, 1, 0], [0, 1, 4, 1], [0, 0, 1, 5]] [3, 5, 6, 6] = .ok [1, 1, 1, 1] := by
  refine ⟨⟨by norm_num, by rw [Matrix.det_fin_two_of]; norm_num, by rw [Matrix.det_fin_three]; simp; norm_num, fun h => ?_⟩, by decide +kernel⟩
  have := det4 (2 : ℚ) 1 0 0 1 3 1 0 0 1 4 1 0 0 1 5
  rw [h] at this
  norm_num at this

example : solve_2_direct [[(2 : ℚ), 1], [1, 3]] [3, 4] = .ok [1, 1] := by decide +kernel

end Verif.Direct
