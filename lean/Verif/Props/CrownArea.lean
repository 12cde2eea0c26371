import Verif.Props.HeadAreas

/-! C134: the crown of a horizontal torispherical head, and the whole head up to its axis. -/

open Real MeasureTheory

noncomputable section

namespace Verif.Geometry

/-- the spherical crown: the axial height over the plane -/
def sphereCrown (r x y : ℝ) : ℝ := √(r ^ 2 - x ^ 2 - y ^ 2)

/-- the area of the part of the sphere of radius `r` beyond the plane at axial height `c` that lies at least `d` below the axis, both sides -/
def crownArea (r c d : ℝ) : ℝ :=
  2 * ∫ x in d..√(r ^ 2 - c ^ 2), ∫ y in (0 : ℝ)..√(r ^ 2 - c ^ 2 - x ^ 2), graphElement (sphereCrown r) x y

theorem crown_element {r x y : ℝ} (hr : 0 < r) (hin : x ^ 2 + y ^ 2 < r ^ 2) :
    graphElement (sphereCrown r) x y = r * (1 / √(r ^ 2 - x ^ 2 - y ^ 2)) := by
  have e : sphereCrown r = ellipsoidHead r r := by
    funext u v
    rw [sphereCrown, ellipsoidHead, div_self hr.ne', one_mul]
  rw [e, ellipsoid_element hr hin, sub_self, zero_mul, sub_zero, Real.sqrt_div (by positivity), show r ^ 4 = (r ^ 2) ^ 2 by ring, Real.sqrt_sq (by positivity),
    show r ^ 2 - (x ^ 2 + y ^ 2) = r ^ 2 - x ^ 2 - y ^ 2 by ring]
  field_simp

theorem crown_inner {r c x : ℝ} (hr : 0 < r) (hc : 0 < c) (hx : x ^ 2 < r ^ 2 - c ^ 2) :
    ∫ y in (0 : ℝ)..√(r ^ 2 - c ^ 2 - x ^ 2), graphElement (sphereCrown r) x y = r * arccos (c / √(r ^ 2 - x ^ 2)) := by
  set Y := √(r ^ 2 - c ^ 2 - x ^ 2) with hY
  have hp : 0 < r ^ 2 - c ^ 2 - x ^ 2 := by linarith
  have hY0 : 0 < Y := Real.sqrt_pos.2 hp
  have hY2 : Y ^ 2 = r ^ 2 - c ^ 2 - x ^ 2 := Real.sq_sqrt hp.le
  have hq : 0 < r ^ 2 - x ^ 2 := by nlinarith [sq_nonneg c]
  set ρ := √(r ^ 2 - x ^ 2) with hρ
  have hρ0 : 0 < ρ := Real.sqrt_pos.2 hq
  have hρ2 : ρ ^ 2 = r ^ 2 - x ^ 2 := Real.sq_sqrt hq.le
  have hYρ : Y < ρ := by
    refine lt_of_pow_lt_pow_left₀ 2 hρ0.le ?_
    rw [hY2, hρ2]; nlinarith [pow_pos hc 2]
  have e : ∀ y ∈ Set.uIcc 0 Y, graphElement (sphereCrown r) x y = r * (1 / √(ρ ^ 2 - y ^ 2)) := by
    intro y hy
    rw [Set.uIcc_of_le hY0.le] at hy
    rw [crown_element hr (by nlinarith [hy.1, hy.2]), hρ2]
  rw [intervalIntegral.integral_congr e, intervalIntegral.integral_const_mul]
  congr 1
  have hd : ∀ y ∈ Set.uIcc 0 Y, HasDerivAt (fun y => arcsin (y / ρ)) (1 / √(ρ ^ 2 - y ^ 2)) y := by
    intro y hy
    rw [Set.uIcc_of_le hY0.le] at hy
    have l : y / ρ < 1 := (div_lt_one hρ0).2 (by linarith [hy.2])
    have l0 : 0 ≤ y / ρ := div_nonneg hy.1 hρ0.le
    have := (hasDerivAt_arcsin (by linarith) l.ne).comp y ((hasDerivAt_id y).div_const ρ)
    refine this.congr_deriv ?_
    have hp : 0 < ρ ^ 2 - y ^ 2 := by nlinarith [hy.1, hy.2]
    rw [show 1 - (y / ρ) ^ 2 = (ρ ^ 2 - y ^ 2) / ρ ^ 2 by field_simp, Real.sqrt_div hp.le, Real.sqrt_sq hρ0.le]
    field_simp
  have hcn : ContinuousOn (fun y => 1 / √(ρ ^ 2 - y ^ 2)) (Set.uIcc 0 Y) := by
    refine ContinuousOn.div continuousOn_const (by fun_prop) fun y hy => ?_
    rw [Set.uIcc_of_le hY0.le] at hy
    exact (Real.sqrt_pos.2 (by nlinarith [hy.1, hy.2])).ne'
  rw [intervalIntegral.integral_eq_sub_of_hasDerivAt hd hcn.intervalIntegrable, zero_div, arcsin_zero, sub_zero]
  rw [arccos_eq_arcsin (by positivity), div_pow, hρ2]
  congr 1
  rw [show 1 - c ^ 2 / (r ^ 2 - x ^ 2) = (Y / ρ) ^ 2 by rw [div_pow, hY2, hρ2]; field_simp; ring, Real.sqrt_sq (by positivity)]

/-! ### The antiderivative -/

/-- the antiderivative of the angle of the crown, in real form -/
def crownF (b c x : ℝ) : ℝ :=
  x * arccos (c / √(b - x ^ 2)) - c * arctan (x / √(b - c ^ 2 - x ^ 2)) + √b * arctan (c * x / (√b * √(b - c ^ 2 - x ^ 2)))

theorem crownF_deriv {b c x : ℝ} (hc : 0 < c) (hx : x ^ 2 < b - c ^ 2) : HasDerivAt (crownF b c) (arccos (c / √(b - x ^ 2))) x := by
  have hw : 0 < b - c ^ 2 - x ^ 2 := by linarith
  have hq : 0 < b - x ^ 2 := by nlinarith [sq_nonneg c]
  have hb : 0 < b := by nlinarith [sq_nonneg x]
  have hw0 : 0 < √(b - c ^ 2 - x ^ 2) := Real.sqrt_pos.2 hw
  have hq0 : 0 < √(b - x ^ 2) := Real.sqrt_pos.2 hq
  have hb0 : 0 < √b := Real.sqrt_pos.2 hb
  have hw2 := Real.sq_sqrt hw.le
  have hq2 := Real.sq_sqrt hq.le
  have hb2 := Real.sq_sqrt hb.le
  have dw : HasDerivAt (fun x : ℝ => √(b - c ^ 2 - x ^ 2)) (-(2 * x) / (2 * √(b - c ^ 2 - x ^ 2))) x := by
    have h1 : HasDerivAt (fun x : ℝ => b - c ^ 2 - x ^ 2) (-(2 * x)) x := by simpa using (hasDerivAt_pow 2 x).const_sub (b - c ^ 2)
    exact h1.sqrt hw.ne'
  have dq : HasDerivAt (fun x : ℝ => √(b - x ^ 2)) (-(2 * x) / (2 * √(b - x ^ 2))) x := by
    have h1 : HasDerivAt (fun x : ℝ => b - x ^ 2) (-(2 * x)) x := by simpa using (hasDerivAt_pow 2 x).const_sub b
    exact h1.sqrt hq.ne'
  have hu1 : c / √(b - x ^ 2) < 1 := by
    rw [div_lt_one hq0]
    exact Real.lt_sqrt_of_sq_lt (by linarith)
  have hu0 : 0 < c / √(b - x ^ 2) := by positivity
  have d1 := (hasDerivAt_id x).mul ((hasDerivAt_arccos (by linarith) hu1.ne).comp x ((hasDerivAt_const x c).div dq hq0.ne'))
  have d2 := (((hasDerivAt_id x).div dw hw0.ne').arctan).const_mul c
  have d3 := (((((hasDerivAt_id x).const_mul c).div (dw.const_mul √b) (by positivity)).arctan)).const_mul √b
  have d := (d1.sub d2).add d3
  refine (d.congr_deriv ?_)
  have e1 : √(1 - (c / √(b - x ^ 2)) ^ 2) = √(b - c ^ 2 - x ^ 2) / √(b - x ^ 2) := by
    rw [div_pow, hq2, ← Real.sqrt_div hw.le]
    congr 1
    field_simp
    ring
  simp only [id, Function.comp, Pi.div_apply] at *
  rw [e1]
  have hbw : √b ^ 2 * √(b - c ^ 2 - x ^ 2) ^ 2 + c ^ 2 * x ^ 2 = (b - c ^ 2) * √(b - x ^ 2) ^ 2 := by rw [hb2, hw2, hq2]; ring
  have hwx : √(b - c ^ 2 - x ^ 2) ^ 2 + x ^ 2 = b - c ^ 2 := by rw [hw2]; ring
  have hbc : 0 < b - c ^ 2 := by nlinarith [sq_nonneg x]
  have hqx : √(b - x ^ 2) ^ 2 + x ^ 2 = b := by rw [hq2]; ring
  generalize √(b - c ^ 2 - x ^ 2) = w at *
  generalize √(b - x ^ 2) = q at *
  generalize √b = β at *
  have t2 : 1 / (1 + (x / w) ^ 2) * ((1 * w - x * (-(2 * x) / (2 * w))) / w ^ 2) = 1 / w := by
    have : 1 + (x / w) ^ 2 = (b - c ^ 2) / w ^ 2 := by rw [← hwx]; field_simp
    rw [this]
    field_simp
    linear_combination hwx
  have t3 : 1 / (1 + (c * x / (β * w)) ^ 2) * ((c * 1 * (β * w) - c * x * (β * (-(2 * x) / (2 * w)))) / (β * w) ^ 2) = c * β / (w * q ^ 2) := by
    have : 1 + (c * x / (β * w)) ^ 2 = (b - c ^ 2) * q ^ 2 / (β ^ 2 * w ^ 2) := by rw [← hbw]; field_simp
    rw [this]
    field_simp
    linear_combination hwx
  have t1 : -(1 / (w / q)) * ((0 * q - c * (-(2 * x) / (2 * q))) / q ^ 2) = -(c * x) / (w * q ^ 2) := by
    field_simp
    ring
  rw [t1, t2, t3]
  field_simp
  rw [show β ^ 2 = b from hb2]
  linear_combination (-c) * hqx

theorem csqrt_neg {x : ℝ} (h : 0 < x) : csqrt ((-x : ℝ) : ℂ) = (√x : ℝ) * Complex.I := by
  rw [csqrt, Complex.ofReal_cpow_of_nonpos (by linarith), Complex.ofReal_neg, neg_neg, show (x : ℂ) ^ (1 / 2 : ℂ) = csqrt x from rfl, csqrt_nonneg h.le]
  congr 1
  rw [show (π : ℂ) * Complex.I * (1 / 2) = (π / 2 : ℂ) * Complex.I by ring, Complex.exp_pi_div_two_mul_I]

theorem int1_pow_neg {x : ℝ} (h : 0 < x) : int1_pow (-x) = .ok (1 / ((x : ℂ) * (√x : ℝ)) * Complex.I) := by
  rw [int1_pow, if_neg (by linarith)]
  congr 1
  rw [Complex.ofReal_cpow_of_nonpos (by linarith), Complex.ofReal_neg, neg_neg]
  congr 1
  · rw [show (-(3 / 2) : ℂ) = ((-(3 / 2) : ℝ) : ℂ) by push_cast; ring, ← Complex.ofReal_cpow h.le, Real.rpow_neg h.le,
      show (3 / 2 : ℝ) = 1 + 1 / 2 by norm_num, Real.rpow_add h, Real.rpow_one, ← Real.sqrt_eq_rpow]
    push_cast
    rw [one_div]
  · rw [show (π : ℂ) * Complex.I * (-(3 / 2)) = (π / 2 : ℂ) * Complex.I - 2 * π * Complex.I by ring, Complex.exp_sub, Complex.exp_two_pi_mul_I, div_one,
      Complex.exp_pi_div_two_mul_I]

theorem toriInt1_raw {x b c : ℝ} (hc : 0 < c) (hx0 : 0 ≤ x) (hx : x ^ 2 < b - c ^ 2) : toriInt1 x b c = .ok |crownF b c x| := by
  have hw : 0 < b - c ^ 2 - x ^ 2 := by linarith
  have hq : 0 < b - x ^ 2 := by nlinarith [sq_nonneg c]
  have hb : 0 < b := by nlinarith [sq_nonneg x]
  have hw0 : 0 < √(b - c ^ 2 - x ^ 2) := Real.sqrt_pos.2 hw
  have hq0 : 0 < √(b - x ^ 2) := Real.sqrt_pos.2 hq
  have hb0 : 0 < √b := Real.sqrt_pos.2 hb
  have hw2 := Real.sq_sqrt hw.le
  have hq2 := Real.sq_sqrt hq.le
  have hI := Complex.I_sq
  rw [toriInt1]
  simp only [show b - x * x = b - x ^ 2 by ring, show b - x ^ 2 - c * c = b - c ^ 2 - x ^ 2 by ring, show -b + x * x = -(b - x ^ 2) by ring,
    show -(b - x ^ 2) + c * c = -(b - c ^ 2 - x ^ 2) by ring, psqrt_ok hq.le, psqrt_ok hb.le, Py.ok_bind, int1_x5, if_neg hw.ne', int1_pow_neg hq, pdiv_ok hq0.ne',
    csqrt_neg hq, csqrt_neg hw, csqrt_nonneg hw.le, pdiv_ok hq.ne', Py.pure_eq]
  rw [cdiv, if_neg (by
    have h1 : ((√(b - x ^ 2) : ℝ) : ℂ) ≠ 0 := by exact_mod_cast hq0.ne'
    have h2 : ((√(b - c ^ 2 - x ^ 2) : ℝ) : ℂ) ≠ 0 := by exact_mod_cast hw0.ne'
    exact mul_ne_zero (mul_ne_zero h1 Complex.I_ne_zero) (mul_ne_zero h2 Complex.I_ne_zero)), Py.ok_bind]
  rw [cdiv, if_neg (by exact_mod_cast hb0.ne'), Py.ok_bind]
  have ey : csqrt ((- -(b - c ^ 2 - x ^ 2) / (b - x ^ 2) : ℝ) : ℂ) = ((√(b - c ^ 2 - x ^ 2) / √(b - x ^ 2) : ℝ) : ℂ) := by
    rw [neg_neg, csqrt_nonneg (by positivity), Real.sqrt_div hw.le]
  have e1 : csqrt ((- -(b - c ^ 2 - x ^ 2) * -(b - c ^ 2 - x ^ 2) : ℝ) : ℂ) = ((b - c ^ 2 - x ^ 2 : ℝ) : ℂ) * Complex.I := by
    rw [show - -(b - c ^ 2 - x ^ 2) * -(b - c ^ 2 - x ^ 2) = -((b - c ^ 2 - x ^ 2) ^ 2) by ring, csqrt_neg (by positivity), Real.sqrt_sq hw.le]
  have e2 : csqrt ((-(b - x ^ 2) * (b - x ^ 2) : ℝ) : ℂ) = ((b - x ^ 2 : ℝ) : ℂ) * Complex.I := by
    rw [show -(b - x ^ 2) * (b - x ^ 2) = -((b - x ^ 2) ^ 2) by ring, csqrt_neg (by positivity), Real.sqrt_sq hq.le]
  rw [ey, e1, e2, cdiv, if_neg (by exact_mod_cast (div_pos hw0 hq0).ne'), Py.ok_bind]
  have hqc : ((√(b - x ^ 2) : ℝ) : ℂ) ≠ 0 := by exact_mod_cast hq0.ne'
  have hwc : ((√(b - c ^ 2 - x ^ 2) : ℝ) : ℂ) ≠ 0 := by exact_mod_cast hw0.ne'
  have hbc : ((√b : ℝ) : ℂ) ≠ 0 := by exact_mod_cast hb0.ne'
  have eu : (x : ℂ) * (√(b - x ^ 2) : ℝ) / (((√(b - x ^ 2) : ℝ) : ℂ) * Complex.I * (((√(b - c ^ 2 - x ^ 2) : ℝ) : ℂ) * Complex.I)) =
      ((-(x / √(b - c ^ 2 - x ^ 2)) : ℝ) : ℂ) := by
    have : ((√(b - x ^ 2) : ℝ) : ℂ) * Complex.I * (((√(b - c ^ 2 - x ^ 2) : ℝ) : ℂ) * Complex.I) = -(((√(b - x ^ 2) : ℝ) : ℂ) * ((√(b - c ^ 2 - x ^ 2) : ℝ) : ℂ)) := by
      linear_combination ((√(b - x ^ 2) : ℝ) : ℂ) * ((√(b - c ^ 2 - x ^ 2) : ℝ) : ℂ) * hI
    rw [this]
    push_cast
    field_simp
  have ev : (c : ℂ) * x * (1 / ((√(b - c ^ 2 - x ^ 2) : ℝ) : ℂ)) / ((√b : ℝ) : ℂ) = ((c * x / (√b * √(b - c ^ 2 - x ^ 2)) : ℝ) : ℂ) := by
    push_cast
    field_simp
  rw [eu, ev, ← Complex.ofReal_arctan, ← Complex.ofReal_arctan, arctan_neg]
  congr 2
  rw [crownF]
  have hq2c : ((b - x ^ 2 : ℝ) : ℂ) = ((√(b - x ^ 2) : ℝ) : ℂ) ^ 2 := by rw [← Complex.ofReal_pow, hq2]
  have hw2c : ((b - c ^ 2 - x ^ 2 : ℝ) : ℂ) = ((√(b - c ^ 2 - x ^ 2) : ℝ) : ℂ) ^ 2 := by rw [← Complex.ofReal_pow, hw2]
  rw [Complex.ofReal_neg (b - c ^ 2 - x ^ 2), hq2c, hw2c]
  set A1 := arctan (x / √(b - c ^ 2 - x ^ 2))
  set A2 := arctan (c * x / (√b * √(b - c ^ 2 - x ^ 2)))
  set A0 := arccos (c / √(b - x ^ 2))
  set q := √(b - x ^ 2)
  set w := √(b - c ^ 2 - x ^ 2)
  set β := √b
  have key : 1 / ((q : ℂ) ^ 2 * q) * Complex.I * (1 / (w : ℂ)) * (-(c : ℂ) * (q : ℂ) ^ 2 * ((w : ℂ) ^ 2 * Complex.I) * ((-A1 : ℝ) : ℂ) +
      -(w : ℂ) ^ 2 * β * ((q : ℂ) ^ 2 * Complex.I) * (A2 : ℂ)) / ((w / q : ℝ) : ℂ) = ((-(c * A1) + β * A2 : ℝ) : ℂ) := by
    push_cast
    field_simp
    linear_combination (c * A1 - β * A2 : ℂ) * hI
  rw [key, ← Complex.ofReal_mul, ← Complex.ofReal_add, Complex.ofReal_re]
  ring

theorem crownF_eq {x b c : ℝ} (hc : 0 < c) (hx0 : 0 ≤ x) (hx : x ^ 2 < b - c ^ 2) : crownF b c x = ∫ u in (0 : ℝ)..x, arccos (c / √(b - u ^ 2)) := by
  have hin : ∀ u ∈ Set.uIcc 0 x, u ^ 2 < b - c ^ 2 := by
    intro u hu
    rw [Set.uIcc_of_le hx0] at hu
    nlinarith [hu.1, hu.2]
  have hcn : ContinuousOn (fun u => arccos (c / √(b - u ^ 2))) (Set.uIcc 0 x) := by
    refine continuous_arccos.comp_continuousOn (ContinuousOn.div continuousOn_const (by fun_prop) fun u hu => ?_)
    exact (Real.sqrt_pos.2 (by nlinarith [hin u hu, sq_nonneg c])).ne'
  rw [intervalIntegral.integral_eq_sub_of_hasDerivAt (fun u hu => crownF_deriv hc (hin u hu)) hcn.intervalIntegrable]
  simp [crownF]

/-- C134: the antiderivative of the crown, evaluated through complex numbers, is the integral of the crown's half-angle from the axis, exactly -/
theorem C134_crown_integral {x b c : ℝ} (hc : 0 < c) (hx0 : 0 ≤ x) (hx : x ^ 2 < b - c ^ 2) :
    toriInt1 x b c = .ok (∫ u in (0 : ℝ)..x, arccos (c / √(b - u ^ 2))) := by
  rw [toriInt1_raw hc hx0 hx, ← crownF_eq hc hx0 hx, abs_of_nonneg]
  rw [crownF_eq hc hx0 hx]
  exact intervalIntegral.integral_nonneg hx0 fun u _ => arccos_nonneg _

/-- C134: at the edge of the crown itself the expression divides by zero -/
theorem C134_crown_edge {x b c : ℝ} (hc : 0 < c) (hx : x ^ 2 = b - c ^ 2) : toriInt1 x b c = .error .zeroDivisionError := by
  have hq : 0 ≤ b - x * x := by nlinarith [sq_nonneg c]
  rw [toriInt1]
  simp only [psqrt_ok hq, Py.ok_bind, int1_x5, if_pos (show b - x * x - c * c = 0 by nlinarith), Py.error_bind]

theorem arctan_cut {y : ℝ} (hy : 1 < y) : (Complex.arctan (-((y : ℂ) * Complex.I))).re = π / 2 := by
  have e : (1 + -((y : ℂ) * Complex.I) * Complex.I) / (1 - -((y : ℂ) * Complex.I) * Complex.I) = ((-((y + 1) / (y - 1)) : ℝ) : ℂ) := by
    have h1 : -((y : ℂ) * Complex.I) * Complex.I = y := by linear_combination (-(y : ℂ)) * Complex.I_sq
    rw [h1]
    have : (1 : ℂ) - y ≠ 0 := by
      have : (1 - y : ℝ) ≠ 0 := by linarith
      exact_mod_cast this
    have h2 : (y : ℂ) - 1 ≠ 0 := by
      have : (y - 1 : ℝ) ≠ 0 := by linarith
      exact_mod_cast this
    push_cast
    field_simp
    ring
  rw [Complex.arctan, e]
  have him : (Complex.log ((-((y + 1) / (y - 1)) : ℝ) : ℂ)).im = π := by
    rw [Complex.log_im, Complex.arg_ofReal_of_neg]
    have : 0 < (y + 1) / (y - 1) := div_pos (by linarith) (by linarith)
    linarith
  rw [show -Complex.I / 2 * Complex.log ((-((y + 1) / (y - 1)) : ℝ) : ℂ) = ((-1 / 2 : ℝ) : ℂ) * (Complex.I * Complex.log ((-((y + 1) / (y - 1)) : ℝ) : ℂ)) by
    push_cast; ring, Complex.re_ofReal_mul, Complex.I_mul_re, him]
  ring

/-- slightly beyond the edge the expression has the value of the edge -/
theorem toriInt1_beyond {x b c : ℝ} (hc : 0 < c) (hx0 : 0 < x) (hx : b - c ^ 2 < x ^ 2) (hxb : x ^ 2 < b) (hcl : b * (x ^ 2 - (b - c ^ 2)) < c ^ 2 * x ^ 2)
    (hbc : c ^ 2 ≤ b) :
    toriInt1 x b c = .ok (π / 2 * (√b - c)) := by
  have hw : 0 < x ^ 2 - (b - c ^ 2) := by linarith
  have hq : 0 < b - x ^ 2 := by linarith
  have hb : 0 < b := by nlinarith [sq_nonneg x]
  have hw0 : 0 < √(x ^ 2 - (b - c ^ 2)) := Real.sqrt_pos.2 hw
  have hq0 : 0 < √(b - x ^ 2) := Real.sqrt_pos.2 hq
  have hb0 : 0 < √b := Real.sqrt_pos.2 hb
  have hw2 := Real.sq_sqrt hw.le
  have hq2 := Real.sq_sqrt hq.le
  have hb2 := Real.sq_sqrt hb.le
  have hI := Complex.I_sq
  have hI0 := Complex.I_ne_zero
  have hqc : ((√(b - x ^ 2) : ℝ) : ℂ) ≠ 0 := by exact_mod_cast hq0.ne'
  have hwc : ((√(x ^ 2 - (b - c ^ 2)) : ℝ) : ℂ) ≠ 0 := by exact_mod_cast hw0.ne'
  have hbc' : ((√b : ℝ) : ℂ) ≠ 0 := by exact_mod_cast hb0.ne'
  have hacos : arccos (c / √(b - x ^ 2)) = 0 := by
    rw [arccos_eq_zero, one_le_div hq0]
    exact Real.sqrt_le_iff.2 ⟨hc.le, by linarith⟩
  rw [toriInt1]
  simp only [show b - x * x = b - x ^ 2 by ring, show b - x ^ 2 - c * c = -(x ^ 2 - (b - c ^ 2)) by ring, show -b + x * x = -(b - x ^ 2) by ring,
    show -(b - x ^ 2) + c * c = x ^ 2 - (b - c ^ 2) by ring, psqrt_ok hq.le, psqrt_ok hb.le, Py.ok_bind, int1_x5, if_neg (neg_ne_zero.2 hw.ne'), int1_pow_neg hq,
    pdiv_ok hq0.ne', csqrt_neg hq, csqrt_neg hw, csqrt_nonneg hw.le, pdiv_ok hq.ne', Py.pure_eq]
  rw [cdiv, if_neg (mul_ne_zero (mul_ne_zero hqc hI0) hwc), Py.ok_bind]
  rw [cdiv, if_neg hbc', Py.ok_bind]
  have ey : csqrt ((-(x ^ 2 - (b - c ^ 2)) / (b - x ^ 2) : ℝ) : ℂ) = ((√(x ^ 2 - (b - c ^ 2)) / √(b - x ^ 2) : ℝ) : ℂ) * Complex.I := by
    rw [neg_div, csqrt_neg (by positivity), Real.sqrt_div hw.le]
  have e1 : csqrt ((-(x ^ 2 - (b - c ^ 2)) * (x ^ 2 - (b - c ^ 2)) : ℝ) : ℂ) = ((x ^ 2 - (b - c ^ 2) : ℝ) : ℂ) * Complex.I := by
    rw [show -(x ^ 2 - (b - c ^ 2)) * (x ^ 2 - (b - c ^ 2)) = -((x ^ 2 - (b - c ^ 2)) ^ 2) by ring, csqrt_neg (by positivity), Real.sqrt_sq hw.le]
  have e2 : csqrt ((-(b - x ^ 2) * (b - x ^ 2) : ℝ) : ℂ) = ((b - x ^ 2 : ℝ) : ℂ) * Complex.I := by
    rw [show -(b - x ^ 2) * (b - x ^ 2) = -((b - x ^ 2) ^ 2) by ring, csqrt_neg (by positivity), Real.sqrt_sq hq.le]
  rw [ey, e1, e2, cdiv, if_neg (mul_ne_zero (by exact_mod_cast (div_pos hw0 hq0).ne') hI0), Py.ok_bind]
  have eu : (x : ℂ) * (√(b - x ^ 2) : ℝ) / (((√(b - x ^ 2) : ℝ) : ℂ) * Complex.I * ((√(x ^ 2 - (b - c ^ 2)) : ℝ) : ℂ)) =
      -(((x / √(x ^ 2 - (b - c ^ 2)) : ℝ) : ℂ) * Complex.I) := by
    push_cast
    field_simp
    linear_combination (x : ℂ) * hI
  have ev : (c : ℂ) * x * (1 / (((√(x ^ 2 - (b - c ^ 2)) : ℝ) : ℂ) * Complex.I)) / ((√b : ℝ) : ℂ) =
      -(((c * x / (√b * √(x ^ 2 - (b - c ^ 2))) : ℝ) : ℂ) * Complex.I) := by
    push_cast
    field_simp
    linear_combination (c * x : ℂ) * hI
  have l1 : 1 < x / √(x ^ 2 - (b - c ^ 2)) := by
    rw [one_lt_div hw0, Real.sqrt_lt' hx0]
    nlinarith [sq_nonneg c, pow_pos hc 2]
  have l2 : 1 < c * x / (√b * √(x ^ 2 - (b - c ^ 2))) := by
    rw [one_lt_div (by positivity)]
    refine lt_of_pow_lt_pow_left₀ 2 (by positivity) ?_
    rw [mul_pow, mul_pow, hb2, hw2]; exact hcl
  have c1 := arctan_cut l1
  have c2 := arctan_cut l2
  rw [eu, ev, hacos]
  have hq2c : ((b - x ^ 2 : ℝ) : ℂ) = ((√(b - x ^ 2) : ℝ) : ℂ) ^ 2 := by rw [← Complex.ofReal_pow, hq2]
  have hw2c : ((x ^ 2 - (b - c ^ 2) : ℝ) : ℂ) = ((√(x ^ 2 - (b - c ^ 2)) : ℝ) : ℂ) ^ 2 := by rw [← Complex.ofReal_pow, hw2]
  rw [hq2c, hw2c]
  generalize Complex.arctan (-(((x / √(x ^ 2 - (b - c ^ 2)) : ℝ) : ℂ) * Complex.I)) = A1 at *
  generalize Complex.arctan (-(((c * x / (√b * √(x ^ 2 - (b - c ^ 2))) : ℝ) : ℂ) * Complex.I)) = A2 at *
  have hcb : c ≤ √b := Real.le_sqrt_of_sq_le hbc
  generalize √(x ^ 2 - (b - c ^ 2)) = w at *
  generalize √(b - x ^ 2) = q at *
  generalize √b = β at *
  have key : 1 / ((q : ℂ) ^ 2 * q) * Complex.I * (1 / ((w : ℂ) * Complex.I)) * (-(c : ℂ) * (q : ℂ) ^ 2 * ((w : ℂ) ^ 2 * Complex.I) * A1 +
      (w : ℂ) ^ 2 * β * ((q : ℂ) ^ 2 * Complex.I) * A2) / (((w / q : ℝ) : ℂ) * Complex.I) = -((c : ℂ) * A1) + (β : ℂ) * A2 := by
    push_cast
    field_simp
  rw [key, Complex.ofReal_zero, mul_zero, zero_add, Complex.add_re, Complex.neg_re, Complex.re_ofReal_mul, Complex.re_ofReal_mul, c1, c2]
  rw [show -(c * (π / 2)) + β * (π / 2) = π / 2 * (β - c) by ring, abs_of_nonneg]
  exact mul_nonneg (by positivity) (by linarith)

theorem crown_total {b c : ℝ} (hc : 0 < c) (hb : c ^ 2 < b) :
    ∫ u in (0 : ℝ)..√(b - c ^ 2), arccos (c / √(b - u ^ 2)) = π / 2 * (√b - c) := by
  have hX : 0 < √(b - c ^ 2) := Real.sqrt_pos.2 (by linarith)
  have hX2 : √(b - c ^ 2) ^ 2 = b - c ^ 2 := Real.sq_sqrt (by linarith)
  have hb0 : 0 < b := by nlinarith [sq_nonneg c]
  have hbs : 0 < √b := Real.sqrt_pos.2 hb0
  generalize √(b - c ^ 2) = X at *
  have hcn : ContinuousOn (fun u => arccos (c / √(b - u ^ 2))) (Set.uIcc 0 X) := by
    refine continuous_arccos.comp_continuousOn (ContinuousOn.div continuousOn_const (by fun_prop) fun u hu => ?_)
    rw [Set.uIcc_of_le hX.le] at hu
    exact (Real.sqrt_pos.2 (by nlinarith [hu.1, hu.2, pow_pos hc 2])).ne'
  have hcont := intervalIntegral.continuousOn_primitive_interval' (hcn.intervalIntegrable (μ := volume)) Set.left_mem_uIcc
  have lim1 : Filter.Tendsto (fun x => ∫ u in (0 : ℝ)..x, arccos (c / √(b - u ^ 2))) (nhdsWithin X (Set.Ioo 0 X))
      (nhds (∫ u in (0 : ℝ)..X, arccos (c / √(b - u ^ 2)))) := by
    refine (hcont X Set.right_mem_uIcc).mono_left (nhdsWithin_mono _ fun x hx => ?_)
    rw [Set.uIcc_of_le hX.le]
    exact ⟨hx.1.le, hx.2.le⟩
  have hne : (nhdsWithin X (Set.Ioo 0 X)).NeBot := by
    rw [nhdsWithin_Ioo_eq_nhdsLT hX]; infer_instance
  have hid : Filter.Tendsto (fun x : ℝ => x) (nhdsWithin X (Set.Ioo 0 X)) (nhds X) := Filter.tendsto_id.mono_left nhdsWithin_le_nhds
  have hw : Filter.Tendsto (fun x => √(b - c ^ 2 - x ^ 2)) (nhdsWithin X (Set.Ioo 0 X)) (nhdsWithin 0 (Set.Ioi 0)) := by
    refine tendsto_nhdsWithin_iff.2 ⟨?_, ?_⟩
    · have : Filter.Tendsto (fun x => √(b - c ^ 2 - x ^ 2)) (nhds X) (nhds √(b - c ^ 2 - X ^ 2)) := (by fun_prop : Continuous fun x => √(b - c ^ 2 - x ^ 2)).tendsto X
      rw [hX2, sub_self, Real.sqrt_zero] at this
      exact this.mono_left nhdsWithin_le_nhds
    · filter_upwards [self_mem_nhdsWithin] with x hx
      exact Real.sqrt_pos.2 (by nlinarith [hx.1, hx.2])
  have hwi := tendsto_inv_nhdsGT_zero.comp hw
  have t1 : Filter.Tendsto (fun x => arctan (x / √(b - c ^ 2 - x ^ 2))) (nhdsWithin X (Set.Ioo 0 X)) (nhds (π / 2)) :=
    (tendsto_arctan_atTop.mono_right nhdsWithin_le_nhds).comp (hid.pos_mul_atTop hX hwi)
  have t2 : Filter.Tendsto (fun x => arctan (c * x / (√b * √(b - c ^ 2 - x ^ 2)))) (nhdsWithin X (Set.Ioo 0 X)) (nhds (π / 2)) := by
    have h1 : Filter.Tendsto (fun x => c * x / √b) (nhdsWithin X (Set.Ioo 0 X)) (nhds (c * X / √b)) := (hid.const_mul c).div_const _
    have h2 := h1.pos_mul_atTop (by positivity) hwi
    refine ((tendsto_arctan_atTop.mono_right nhdsWithin_le_nhds).comp h2).congr fun x => ?_
    simp only [Function.comp]
    congr 1
    rw [← div_eq_mul_inv, div_div]
  have t0 : Filter.Tendsto (fun x => x * arccos (c / √(b - x ^ 2))) (nhdsWithin X (Set.Ioo 0 X)) (nhds 0) := by
    have e : X * arccos (c / √(b - X ^ 2)) = 0 := by
      rw [hX2, show b - (b - c ^ 2) = c ^ 2 by ring, Real.sqrt_sq hc.le, div_self hc.ne', arccos_one, mul_zero]
    have h : Filter.Tendsto (fun x => x * arccos (c / √(b - x ^ 2))) (nhdsWithin X (Set.Ioo 0 X)) (nhds (X * arccos (c / √(b - X ^ 2)))) := by
      refine hid.mul ((hcn X Set.right_mem_uIcc).mono_left (nhdsWithin_mono _ fun x hx => ?_))
      rw [Set.uIcc_of_le hX.le]
      exact ⟨hx.1.le, hx.2.le⟩
    rwa [e] at h
  have lim2 := (t0.sub (t1.const_mul c)).add (t2.const_mul √b)
  have hev : (fun x => ∫ u in (0 : ℝ)..x, arccos (c / √(b - u ^ 2))) =ᶠ[nhdsWithin X (Set.Ioo 0 X)]
      (fun x => x * arccos (c / √(b - x ^ 2)) - c * arctan (x / √(b - c ^ 2 - x ^ 2)) + √b * arctan (c * x / (√b * √(b - c ^ 2 - x ^ 2)))) := by
    filter_upwards [self_mem_nhdsWithin] with x hx
    rw [← crownF_eq hc hx.1.le (by nlinarith [hx.1, hx.2]), crownF]
  rw [tendsto_nhds_unique (lim1.congr' hev) lim2]
  ring

/-- C134: the expression at the upper limit, which divides by zero there and is then evaluated a part in 10¹⁴ further on, has the exact value of the integral over the whole
crown, unless the crown is nearly a hemisphere -/
theorem C134_crown_high {r S C : ℝ} (hr : 0 < r) (hS : 0 < S) (hC : 0 < C) (hSC : S ^ 2 + C ^ 2 = 1) (hcl : 1e-13 ≤ C ^ 2) :
    toriHigh (r * S) (r ^ 2) (r * C) = .ok (∫ u in (0 : ℝ)..(r * S), arccos (r * C / √(r ^ 2 - u ^ 2))) := by
  have e : (r * S) ^ 2 = r ^ 2 - (r * C) ^ 2 := by linear_combination r ^ 2 * hSC
  have hc : 0 < r * C := by positivity
  have hX : √(r ^ 2 - (r * C) ^ 2) = r * S := by rw [← e, Real.sqrt_sq (by positivity)]
  have hcr : (r * C) ^ 2 < r ^ 2 := by nlinarith [pow_pos (mul_pos hr hS) 2]
  rw [toriHigh, C134_crown_edge hc e]
  have hr2 : 0 < r ^ 2 := by positivity
  have hS2 : 0 < S ^ 2 := by positivity
  have tot := crown_total hc hcr
  rw [hX, Real.sqrt_sq hr.le] at tot
  rw [tot]
  have hb := toriInt1_beyond (x := r * S * (1 + 1e-14)) (b := r ^ 2) hc (by positivity) ?_ ?_ ?_ hcr.le
  · rw [Real.sqrt_sq hr.le] at hb
    exact hb
  · rw [← e, mul_pow]
    have : 0 < (r * S) ^ 2 := by positivity
    nlinarith
  · rw [mul_pow, mul_pow]
    have : S ^ 2 * (1 + 1e-14) ^ 2 < 1 := by nlinarith
    nlinarith
  · rw [← e, mul_pow, mul_pow, mul_pow]
    have h1 : (1 + 1e-14 : ℝ) ^ 2 - 1 < C ^ 2 * (1 + 1e-14) ^ 2 := by nlinarith
    have h2 : 0 < r ^ 2 * (r ^ 2 * S ^ 2) := by positivity
    nlinarith [mul_lt_mul_of_pos_left h1 h2]

theorem crownArea_eq {r c d : ℝ} (hr : 0 < r) (hc : 0 < c) (hd : 0 ≤ d) (hdX : d ^ 2 < r ^ 2 - c ^ 2) :
    crownArea r c d = 2 * r * ((∫ u in (0 : ℝ)..√(r ^ 2 - c ^ 2), arccos (c / √(r ^ 2 - u ^ 2))) - ∫ u in (0 : ℝ)..d, arccos (c / √(r ^ 2 - u ^ 2))) := by
  have hX2 : √(r ^ 2 - c ^ 2) ^ 2 = r ^ 2 - c ^ 2 := Real.sq_sqrt (by nlinarith [sq_nonneg d])
  have hdx : d < √(r ^ 2 - c ^ 2) := Real.lt_sqrt_of_sq_lt hdX
  rw [crownArea]
  generalize √(r ^ 2 - c ^ 2) = X at *
  have hcn : ContinuousOn (fun u => arccos (c / √(r ^ 2 - u ^ 2))) (Set.Icc 0 X) := by
    refine continuous_arccos.comp_continuousOn (ContinuousOn.div continuousOn_const (by fun_prop) fun u hu => ?_)
    exact (Real.sqrt_pos.2 (by nlinarith [hu.1, hu.2, pow_pos hc 2])).ne'
  have i1 : IntervalIntegrable (fun u => arccos (c / √(r ^ 2 - u ^ 2))) volume 0 X := (hcn.mono (by rw [Set.uIcc_of_le (by linarith)])).intervalIntegrable
  have i2 : IntervalIntegrable (fun u => arccos (c / √(r ^ 2 - u ^ 2))) volume 0 d :=
    (hcn.mono (by rw [Set.uIcc_of_le hd]; exact Set.Icc_subset_Icc le_rfl hdx.le)).intervalIntegrable
  rw [intervalIntegral.integral_interval_sub_left i1 i2, mul_assoc]
  congr 1
  rw [intervalIntegral.integral_of_le hdx.le, intervalIntegral.integral_of_le hdx.le, integral_Ioc_eq_integral_Ioo, integral_Ioc_eq_integral_Ioo, ← integral_const_mul]
  refine setIntegral_congr_fun measurableSet_Ioo fun x hx => ?_
  exact crown_inner hr hc (by nlinarith [hx.1, hx.2])

/-- the inner integral of `dblquad` is the strip of the torus, on the axis too -/
theorem knuckle_double {s t x d : ℝ} (hs : 0 ≤ s) (hx : x ^ 2 < t ^ 2) :
    ∫ y in (0 : ℝ)..toriG x (t ^ 2) s (s ^ 2 + t ^ 2 - d ^ 2), toriInt3Val y x s (t ^ 2) =
      ∫ y in (0 : ℝ)..√((s + √(t ^ 2 - x ^ 2)) ^ 2 - d ^ 2), graphElement (torusKnuckle s t) x y := by
  have hp : 0 < t ^ 2 - x ^ 2 := by linarith
  have hq2 := Real.sq_sqrt hp.le
  have hq : 0 < √(t ^ 2 - x ^ 2) := Real.sqrt_pos.2 hp
  have eG : toriG x (t ^ 2) s (s ^ 2 + t ^ 2 - d ^ 2) = √((s + √(t ^ 2 - x ^ 2)) ^ 2 - d ^ 2) := by
    rw [toriG, show t ^ 2 - x * x = t ^ 2 - x ^ 2 by ring]
    congr 1
    linear_combination -hq2
  have hG := Real.sqrt_nonneg ((s + √(t ^ 2 - x ^ 2)) ^ 2 - d ^ 2)
  have hGle : √((s + √(t ^ 2 - x ^ 2)) ^ 2 - d ^ 2) ≤ s + √(t ^ 2 - x ^ 2) := Real.sqrt_le_iff.2 ⟨by positivity, by nlinarith [sq_nonneg d]⟩
  rw [eG, intervalIntegral.integral_of_le hG, intervalIntegral.integral_of_le hG, integral_Ioc_eq_integral_Ioo, integral_Ioc_eq_integral_Ioo]
  refine setIntegral_congr_fun measurableSet_Ioo fun y hy => ?_
  simp only [toriInt3Val]
  rw [C134_knuckle_element hs hx (by nlinarith [hy.1, hy.2])]

/-- C134: from the top of the knuckle up to the axis, the wetted area of a horizontal torispherical head is the area of the wetted part of the knuckle plus that of the wetted
part of the crown: the middle band, where the code integrates twice, included -/
theorem C134_mid {D f k h : ℝ} (hD : 0 < D) (hk : 0 < k) (hk2 : k < 1 / 2) (hf : 1 / 2 < f)
    (hcl : ((1 - 2 * k) / (2 * (f - k))) ^ 2 ≤ 1 - 1e-13)
    (h0 : k * D * (1 - (1 - 2 * k) / (2 * (f - k))) < h) (hh : h ≤ D / 2) :
    toriMid D f k h = .ok (knuckleArea (D / 2 - k * D) (k * D) (D / 2 - h) (k * D * √(1 - ((1 - 2 * k) / (2 * (f - k))) ^ 2)) +
      crownArea (f * D) (f * D * √(1 - ((1 - 2 * k) / (2 * (f - k))) ^ 2)) (D / 2 - h)) := by
  have hfk : 0 < 2 * (f - k) := by linarith
  set S := (1 - 2 * k) / (2 * (f - k)) with hS
  have hS0 : 0 < S := div_pos (by linarith) hfk
  have hS1 : S < 1 := by rw [hS, div_lt_one hfk]; linarith
  have hSe : S * (2 * (f - k)) = 1 - 2 * k := by rw [hS]; exact div_mul_cancel₀ _ hfk.ne'
  have hcos : cos (arcsin S) = √(1 - S ^ 2) := cos_arcsin S
  have hC0 : 0 < √(1 - S ^ 2) := Real.sqrt_pos.2 (by nlinarith)
  have hC2 : √(1 - S ^ 2) ^ 2 = 1 - S ^ 2 := Real.sq_sqrt (by nlinarith)
  have hal : toriAlpha f k = .ok (arcsin S) := by
    rw [toriAlpha, pdiv_ok hfk.ne', Py.ok_bind, ← hS, pasin_ok (by linarith) hS1.le]
  have hsin : sin (arcsin S) = S := sin_arcsin (by linarith) hS1.le
  have hs : 0 ≤ D / 2 - k * D := by nlinarith
  have ht : 0 < k * D := by positivity
  have hr : 0 < f * D := by nlinarith
  have hd : 0 ≤ D / 2 - h := by linarith
  have hdS : D / 2 - h < f * D * S := by nlinarith
  have hfs : f * D * S = D / 2 - k * D + k * D * S := by nlinarith
  clear_value S
  have hC1 : √(1 - S ^ 2) ≤ 1 := Real.sqrt_le_one.2 (by nlinarith)
  generalize √(1 - S ^ 2) = C at *
  have eb : f * f * D * D = (f * D) ^ 2 := by ring
  have hi := C134_crown_high (r := f * D) hr hS0 hC0 (by linarith) (by linarith)
  have hdX : (D / 2 - h) ^ 2 < (f * D) ^ 2 - (f * D * C) ^ 2 := by
    have : (f * D) ^ 2 - (f * D * C) ^ 2 = (f * D * S) ^ 2 := by linear_combination (-(f * D) ^ 2) * hC2
    rw [this]; nlinarith
  have hX : √((f * D) ^ 2 - (f * D * C) ^ 2) = f * D * S := by
    rw [show (f * D) ^ 2 - (f * D * C) ^ 2 = (f * D * S) ^ 2 by linear_combination (-(f * D) ^ 2) * hC2, Real.sqrt_sq (by positivity)]
  have hlo := C134_crown_integral (x := D / 2 - h) (b := (f * D) ^ 2) (c := f * D * C) (by positivity) hd hdX
  rw [crownArea_eq hr (by positivity) hd hdX, hX]
  rw [toriMid]
  simp only [hal, Py.ok_bind, hsin, hcos, eb, hi, hlo, Py.pure_eq]
  congr 1
  rw [mul_assoc 2 f D]
  congr 1
  have hXk : 0 ≤ k * D * C := by positivity
  have hxt : ∀ x ∈ Set.Ioo 0 (k * D * C), x ^ 2 < (k * D) ^ 2 := by
    intro x hx
    have : x < k * D := lt_of_lt_of_le hx.2 (by nlinarith)
    nlinarith [hx.1]
  rw [knuckleArea]
  have ec : (D / 2 - k * D) * (D / 2 - k * D) + k * D * (k * D) - (D / 2 - h) ^ 2 = (D / 2 - k * D) ^ 2 + (k * D) ^ 2 - (D / 2 - h) ^ 2 := by ring
  rw [ec, show k * D * (k * D) = (k * D) ^ 2 by ring]
  split_ifs with hband
  · congr 1
    rw [intervalIntegral.integral_of_le hXk, intervalIntegral.integral_of_le hXk, integral_Ioc_eq_integral_Ioo, integral_Ioc_eq_integral_Ioo]
    refine setIntegral_congr_fun measurableSet_Ioo fun x hx => ?_
    exact knuckle_double hs (hxt x hx)
  · congr 1
    rw [intervalIntegral.integral_of_le hXk, intervalIntegral.integral_of_le hXk, integral_Ioc_eq_integral_Ioo, integral_Ioc_eq_integral_Ioo]
    refine setIntegral_congr_fun measurableSet_Ioo fun x hx => ?_
    have hd' : 0 < D / 2 - h := by
      rcases hd.eq_or_lt with g | g
      · exact absurd (⟨by linarith, by linarith⟩ : D * 0.499 < h ∧ h < D * 0.501) hband
      · exact g
    have hq : k * D * S ≤ √((k * D) ^ 2 - x ^ 2) := by
      refine Real.le_sqrt_of_sq_le ?_
      have : (k * D * S) ^ 2 = (k * D) ^ 2 - (k * D * C) ^ 2 := by linear_combination (k * D) ^ 2 * hC2
      have h2 : x ^ 2 ≤ (k * D * C) ^ 2 := pow_le_pow_left₀ hx.1.le hx.2.le 2
      linarith
    exact C134_knuckle_strip hs (hxt x hx) hd' (by linarith)

/-- C134: the wetted area that the public function returns for a horizontal torispherical head at most half full -/
theorem C134_torispherical {D f k : ℝ} (fuel : ℕ) (hD : 0 < D) (hk : 0 < k) (hk2 : k < 1 / 2) (hf : 1 / 2 < f)
    (hcl : ((1 - 2 * k) / (2 * (f - k))) ^ 2 ≤ 1 - 1e-13) :
    (∀ h, 0 < h → h < k * D * (1 - (1 - 2 * k) / (2 * (f - k))) → SA_partial_horiz_torispherical_head toriLow toriMid (fuel + 1) D f k h =
      .ok (knuckleArea (D / 2 - k * D) (k * D) (D / 2 - h) √(2 * (k * D) * h - h ^ 2))) ∧
    (∀ h, k * D * (1 - (1 - 2 * k) / (2 * (f - k))) < h → h ≤ D / 2 → SA_partial_horiz_torispherical_head toriLow toriMid (fuel + 1) D f k h =
      .ok (knuckleArea (D / 2 - k * D) (k * D) (D / 2 - h) (k * D * √(1 - ((1 - 2 * k) / (2 * (f - k))) ^ 2)) +
        crownArea (f * D) (f * D * √(1 - ((1 - 2 * k) / (2 * (f - k))) ^ 2)) (D / 2 - h))) := by
  have hfk : 0 < 2 * (f - k) := by linarith
  have hS0 : 0 < (1 - 2 * k) / (2 * (f - k)) := div_pos (by linarith) hfk
  have hS1 : (1 - 2 * k) / (2 * (f - k)) < 1 := by rw [div_lt_one hfk]; linarith
  have hal : toriAlpha f k = .ok (arcsin ((1 - 2 * k) / (2 * (f - k)))) := by
    rw [toriAlpha, pdiv_ok hfk.ne', Py.ok_bind, pasin_ok (by linarith) hS1.le]
  have hsin : sin (arcsin ((1 - 2 * k) / (2 * (f - k)))) = (1 - 2 * k) / (2 * (f - k)) := sin_arcsin (by linarith) hS1.le
  have ht : 0 < k * D := by positivity
  refine ⟨fun h h0 hl => ?_, fun h hl hh => ?_⟩
  · have hkd : h < k * D := by nlinarith
    have hkD : k * D ≤ D := by nlinarith
    rw [SA_partial_horiz_torispherical_head]
    simp only [if_neg (not_le.2 h0), if_neg (show ¬ h > D by linarith), hal, Py.ok_bind, hsin, if_pos hl]
    exact C134_low hD hk2.le h0.le hkd
  · have h0 : 0 < h := lt_of_le_of_lt (mul_nonneg ht.le (by linarith)) hl
    rw [SA_partial_horiz_torispherical_head]
    simp only [if_neg (not_le.2 h0), if_neg (show ¬ h > D by linarith), hal, Py.ok_bind, hsin, if_neg (not_lt.2 hl.le), if_pos (And.intro hl hh)]
    exact C134_mid hD hk hk2 hf hcl hl hh

/-! Non-vacuity: the documented head `D = 72, f = 1, k = .06` at depth 24 and at half depth, and the crown's half-angle for a crown of radius 5 and height 3 at 2. -/
example : ∃ v, SA_partial_horiz_torispherical_head toriLow toriMid 1 72 1 0.06 24 = .ok v :=
  ⟨_, (C134_torispherical 0 (by norm_num) (by norm_num) (by norm_num) (by norm_num) (by norm_num)).2 24 (by norm_num) (by norm_num)⟩
example : ∃ v, SA_partial_horiz_torispherical_head toriLow toriMid 1 72 1 0.06 36 = .ok v :=
  ⟨_, (C134_torispherical 0 (by norm_num) (by norm_num) (by norm_num) (by norm_num) (by norm_num)).2 36 (by norm_num) (by norm_num)⟩
example : toriInt1 2 25 3 = .ok (∫ u in (0 : ℝ)..2, arccos (3 / √(25 - u ^ 2))) := C134_crown_integral (by norm_num) (by norm_num) (by norm_num)
example : toriInt1 4 25 3 = .error .zeroDivisionError := C134_crown_edge (by norm_num) (by norm_num)
example : toriHigh (5 * 0.8) (5 ^ 2) (5 * 0.6) = .ok (∫ u in (0 : ℝ)..(5 * 0.8), arccos (5 * 0.6 / √(5 ^ 2 - u ^ 2))) :=
  C134_crown_high (by norm_num) (by norm_num) (by norm_num) (by norm_num) (by norm_num)

end Verif.Geometry
