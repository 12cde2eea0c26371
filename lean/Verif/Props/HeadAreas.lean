import Verif.Model.HeadAreas
import Mathlib.MeasureTheory.Function.Jacobian
import Mathlib.Analysis.SpecialFunctions.Trigonometric.InverseDeriv
import Mathlib.Analysis.SpecialFunctions.Sqrt
import Mathlib.MeasureTheory.Integral.IntervalIntegral.FundThmCalculus

/-! C134: the wetted areas of horizontal heads are areas of surfaces. -/

open Real MeasureTheory

noncomputable section

namespace Verif.Geometry

/-- the area element of the graph of `z` over the plane, at `(x, y)`: `√(1 + z_x² + z_y²)` -/
def graphElement (z : ℝ → ℝ → ℝ) (x y : ℝ) : ℝ :=
  √(1 + deriv (fun u => z u y) x ^ 2 + deriv (fun v => z x v) y ^ 2)

/-- the complete elliptic integral of the second kind, as a function of the parameter `m` -/
def completeE (m : ℝ) : ℝ := ∫ θ in (0 : ℝ)..(π / 2), √(1 - m * sin θ ^ 2)

/-- half of the ellipsoid of revolution with radius `R` and depth `a` -/
def ellipsoidHead (R a x y : ℝ) : ℝ := a / R * √(R ^ 2 - x ^ 2 - y ^ 2)

theorem ellipsoid_element {R a x y : ℝ} (hR : 0 < R) (hin : x ^ 2 + y ^ 2 < R ^ 2) :
    graphElement (ellipsoidHead R a) x y = 1 / R * √((R ^ 4 - (R ^ 2 - a ^ 2) * (x ^ 2 + y ^ 2)) / (R ^ 2 - (x ^ 2 + y ^ 2))) := by
  have hp : 0 < R ^ 2 - x ^ 2 - y ^ 2 := by linarith
  have dx : deriv (fun u => ellipsoidHead R a u y) x = a / R * (-(2 * x) / (2 * √(R ^ 2 - x ^ 2 - y ^ 2))) := by
    have h1 : HasDerivAt (fun u : ℝ => R ^ 2 - u ^ 2 - y ^ 2) (-(2 * x)) x := by
      have := ((hasDerivAt_pow 2 x).const_sub (R ^ 2)).sub_const (y ^ 2)
      simpa using this
    exact ((h1.sqrt hp.ne').const_mul (a / R)).deriv
  have dy : deriv (fun v => ellipsoidHead R a x v) y = a / R * (-(2 * y) / (2 * √(R ^ 2 - x ^ 2 - y ^ 2))) := by
    have h1 : HasDerivAt (fun v : ℝ => R ^ 2 - x ^ 2 - v ^ 2) (-(2 * y)) y := by
      have := (hasDerivAt_pow 2 y).const_sub (R ^ 2 - x ^ 2)
      simpa using this
    exact ((h1.sqrt hp.ne').const_mul (a / R)).deriv
  have hs := Real.sq_sqrt hp.le
  have hs0 := (Real.sqrt_pos.2 hp).ne'
  rw [graphElement, dx, dy, show 1 / R = √((1 / R) ^ 2) by rw [Real.sqrt_sq (by positivity)], ← Real.sqrt_mul (by positivity)]
  congr 1
  rw [show R ^ 2 - (x ^ 2 + y ^ 2) = √(R ^ 2 - x ^ 2 - y ^ 2) ^ 2 by rw [hs]; ring]
  generalize √(R ^ 2 - x ^ 2 - y ^ 2) = q at *
  field_simp
  have : R ^ 2 = q ^ 2 + x ^ 2 + y ^ 2 := by rw [hs]; ring
  rw [show R ^ 4 = R ^ 2 * R ^ 2 by ring]
  linear_combination R ^ 2 * hs

/-- the inner integral of the ellipsoid's area element over a half-chord is the closed form with the complete elliptic integral -/
theorem ellipsoid_inner {R a y : ℝ} (hR : 0 < R) (ha : 0 < a) (hy : y ^ 2 < R ^ 2) :
    ∫ x in (0 : ℝ)..√(R ^ 2 - y ^ 2), graphElement (ellipsoidHead R a) x y =
      1 / R * (√(R ^ 4 - (R ^ 2 - a ^ 2) * y ^ 2) * completeE ((R ^ 2 - a ^ 2) * (y ^ 2 - R ^ 2) / ((R ^ 2 - a ^ 2) * y ^ 2 - R ^ 4))) := by
  have hp : 0 < R ^ 2 - y ^ 2 := by linarith
  set S : ℝ := √(R ^ 2 - y ^ 2) with hS
  have hS0 : 0 < S := Real.sqrt_pos.2 hp
  have hS2 : S ^ 2 = R ^ 2 - y ^ 2 := Real.sq_sqrt hp.le
  have hpi : (0 : ℝ) < π / 2 := by positivity
  have hK : 0 < R ^ 4 - (R ^ 2 - a ^ 2) * y ^ 2 := by
    have : R ^ 4 - (R ^ 2 - a ^ 2) * y ^ 2 = R ^ 2 * (R ^ 2 - y ^ 2) + a ^ 2 * y ^ 2 := by ring
    rw [this]; positivity
  have img : (fun θ => S * sin θ) '' Set.Ioo 0 (π / 2) = Set.Ioo 0 S := by
    ext x
    simp only [Set.mem_image, Set.mem_Ioo]
    constructor
    · rintro ⟨θ, ⟨h1, h2⟩, rfl⟩
      have s1 : 0 < sin θ := sin_pos_of_pos_of_lt_pi h1 (by linarith)
      have s2 : sin θ < 1 := by
        rw [← sin_pi_div_two]
        exact sin_lt_sin_of_lt_of_le_pi_div_two (by linarith) le_rfl h2
      exact ⟨by positivity, by nlinarith⟩
    · rintro ⟨h1, h2⟩
      have d1 : x / S < 1 := (div_lt_one hS0).2 h2
      have d0 : 0 < x / S := by positivity
      refine ⟨arcsin (x / S), ⟨arcsin_pos.2 d0, ?_⟩, ?_⟩
      · exact arcsin_lt_pi_div_two.2 d1
      · rw [sin_arcsin (by linarith) d1.le]; field_simp
  have cov := integral_image_eq_integral_abs_deriv_smul (s := Set.Ioo 0 (π / 2)) measurableSet_Ioo
    (f := fun θ => S * sin θ) (f' := fun θ => S * cos θ)
    (fun θ _ => ((hasDerivAt_sin θ).const_mul S).hasDerivWithinAt)
    (by
      intro u hu v hv huv
      have : sin u = sin v := mul_left_cancel₀ hS0.ne' huv
      exact injOn_sin ⟨by linarith [hu.1], hu.2.le⟩ ⟨by linarith [hv.1], hv.2.le⟩ this)
    (fun x => graphElement (ellipsoidHead R a) x y)
  rw [img] at cov
  rw [intervalIntegral.integral_of_le hS0.le, ← integral_Ioc_eq_integral_Ioo.symm, cov, completeE,
    intervalIntegral.integral_of_le hpi.le, integral_Ioc_eq_integral_Ioo, ← integral_const_mul, ← integral_const_mul]
  refine setIntegral_congr_fun measurableSet_Ioo fun θ hθ => ?_
  have c0 : 0 < cos θ := cos_pos_of_mem_Ioo ⟨by linarith [hθ.1], hθ.2⟩
  have sc := sin_sq_add_cos_sq θ
  have hin : (S * sin θ) ^ 2 + y ^ 2 < R ^ 2 := by
    have : (S * sin θ) ^ 2 = (R ^ 2 - y ^ 2) * (1 - cos θ ^ 2) := by rw [mul_pow, hS2]; congr 1; linarith
    rw [this]
    have : 0 < (R ^ 2 - y ^ 2) * cos θ ^ 2 := by positivity
    linarith
  simp only [smul_eq_mul]
  rw [ellipsoid_element hR hin, abs_of_pos (by positivity), ← Real.sqrt_mul hK.le]
  have e1 : R ^ 2 - ((S * sin θ) ^ 2 + y ^ 2) = (S * cos θ) ^ 2 := by
    rw [mul_pow, mul_pow, hS2]; linear_combination (-(R ^ 2 - y ^ 2)) * sc
  rw [e1, Real.sqrt_div' _ (sq_nonneg _), Real.sqrt_sq (by positivity)]
  have e2 : (R ^ 4 - (R ^ 2 - a ^ 2) * y ^ 2) * (1 - (R ^ 2 - a ^ 2) * (y ^ 2 - R ^ 2) / ((R ^ 2 - a ^ 2) * y ^ 2 - R ^ 4) * sin θ ^ 2) =
      R ^ 4 - (R ^ 2 - a ^ 2) * ((S * sin θ) ^ 2 + y ^ 2) := by
    have : (R ^ 2 - a ^ 2) * y ^ 2 - R ^ 4 ≠ 0 := by linarith
    rw [mul_pow, hS2]
    field_simp
    ring
  rw [e2]
  field_simp

/-- C134: the wetted area of a horizontal ellipsoidal head is the surface integral of the ellipsoid over the wetted part of the end disk, where `ellipe` is the complete
elliptic integral of the second kind; it is 0 below the head and constant above it -/
theorem C134_ellipsoidal {D a : ℝ} (hD : 0 < D) (ha : 0 < a) :
    (∀ h, 0 ≤ h → h ≤ D → SA_partial_horiz_ellipsoidal_head completeE D a h =
      .ok (∫ y in (D / 2 - h)..(D / 2), 2 * ∫ x in (0 : ℝ)..√((D / 2) ^ 2 - y ^ 2), graphElement (ellipsoidHead (D / 2) a) x y)) ∧
    (∀ h < 0, SA_partial_horiz_ellipsoidal_head completeE D a h = .ok 0) ∧
    (∀ h ≥ D, SA_partial_horiz_ellipsoidal_head completeE D a h = SA_partial_horiz_ellipsoidal_head completeE D a D) := by
  have hR : 0 < D / 2 := by linarith
  refine ⟨fun h h0 hh => ?_, fun h hh => by simp only [SA_partial_horiz_ellipsoidal_head, if_pos hh], fun h hh => ?_⟩
  · simp only [SA_partial_horiz_ellipsoidal_head, if_neg (not_lt.2 h0), if_neg (show ¬ h > D by linarith), show (0.5 : ℝ) * D = D / 2 by ring,
      pdiv_ok hR.ne', Py.ok_bind, Py.pure_eq]
    congr 1
    have hh' : h ≤ 2 * (D / 2) := by linarith
    generalize D / 2 = R at *
    have hle : R - h ≤ R := by linarith
    rw [intervalIntegral.integral_of_le hle, intervalIntegral.integral_of_le hle, integral_Ioc_eq_integral_Ioo, integral_Ioc_eq_integral_Ioo,
      ← integral_const_mul]
    refine setIntegral_congr_fun measurableSet_Ioo fun y hy => ?_
    have hy2 : y ^ 2 < R ^ 2 := by
      exact sq_lt_sq' (by linarith [hy.1]) hy.2
    rw [ellipsoid_inner hR ha hy2]
    rw [show R * R * (R * R) - (R * R - a * a) * (y * y) = R ^ 4 - (R ^ 2 - a ^ 2) * y ^ 2 by ring,
      show (R * R - a * a) * (y * y - R * R) / ((R * R - a * a) * (y * y) - R * R * (R * R)) =
        (R ^ 2 - a ^ 2) * (y ^ 2 - R ^ 2) / ((R ^ 2 - a ^ 2) * y ^ 2 - R ^ 4) by ring_nf]
    ring
  · rcases hh.eq_or_lt with rfl | g
    · rfl
    · simp only [SA_partial_horiz_ellipsoidal_head, if_neg (show ¬ h < 0 by linarith), if_neg (show ¬ D < 0 by linarith), if_pos (show h > D from g), gt_iff_lt,
        lt_irrefl, if_false]

/-! ### The knuckle -/

/-- the knuckle of a torispherical head, a piece of a torus: at axial distance `x` its circle has radius `s + √(t² - x²)`; the value is the depth below the axis at the
horizontal offset `y` -/
def torusKnuckle (s t x y : ℝ) : ℝ := √((s + √(t ^ 2 - x ^ 2)) ^ 2 - y ^ 2)

/-- the area of the part of the knuckle with axial distance below `X` that lies at least `d` below the axis, both sides -/
def knuckleArea (s t d X : ℝ) : ℝ :=
  2 * ∫ x in (0 : ℝ)..X, ∫ y in (0 : ℝ)..√((s + √(t ^ 2 - x ^ 2)) ^ 2 - d ^ 2), graphElement (torusKnuckle s t) x y

theorem knuckle_element {s t x y : ℝ} (hs : 0 ≤ s) (hx : x ^ 2 < t ^ 2) (hy : y ^ 2 < (s + √(t ^ 2 - x ^ 2)) ^ 2) :
    graphElement (torusKnuckle s t) x y =
      |t| * (s + √(t ^ 2 - x ^ 2)) / √(t ^ 2 - x ^ 2) * (1 / √((s + √(t ^ 2 - x ^ 2)) ^ 2 - y ^ 2)) := by
  have hp : 0 < t ^ 2 - x ^ 2 := by linarith
  have hv : 0 < (s + √(t ^ 2 - x ^ 2)) ^ 2 - y ^ 2 := by linarith
  have hq : 0 < √(t ^ 2 - x ^ 2) := Real.sqrt_pos.2 hp
  have hV : 0 < √((s + √(t ^ 2 - x ^ 2)) ^ 2 - y ^ 2) := Real.sqrt_pos.2 hv
  have hq2 := Real.sq_sqrt hp.le
  have hV2 := Real.sq_sqrt hv.le
  have dx : deriv (fun u => torusKnuckle s t u y) x =
      2 * (s + √(t ^ 2 - x ^ 2)) * (-(2 * x) / (2 * √(t ^ 2 - x ^ 2))) / (2 * √((s + √(t ^ 2 - x ^ 2)) ^ 2 - y ^ 2)) := by
    have h1 : HasDerivAt (fun u : ℝ => t ^ 2 - u ^ 2) (-(2 * x)) x := by
      simpa using (hasDerivAt_pow 2 x).const_sub (t ^ 2)
    have h2 := ((h1.sqrt hp.ne').const_add s).pow 2
    have h3 : HasDerivAt (fun u : ℝ => (s + √(t ^ 2 - u ^ 2)) ^ 2 - y ^ 2) (2 * (s + √(t ^ 2 - x ^ 2)) * (-(2 * x) / (2 * √(t ^ 2 - x ^ 2)))) x := by
      simpa using h2.sub_const (y ^ 2)
    exact (h3.sqrt hv.ne').deriv
  have dy : deriv (fun v => torusKnuckle s t x v) y = -(2 * y) / (2 * √((s + √(t ^ 2 - x ^ 2)) ^ 2 - y ^ 2)) := by
    have h1 : HasDerivAt (fun v : ℝ => (s + √(t ^ 2 - x ^ 2)) ^ 2 - v ^ 2) (-(2 * y)) y := by
      simpa using (hasDerivAt_pow 2 y).const_sub ((s + √(t ^ 2 - x ^ 2)) ^ 2)
    exact (h1.sqrt hv.ne').deriv
  rw [graphElement, dx, dy]
  rw [← Real.sqrt_sq (show (0 : ℝ) ≤ |t| * (s + √(t ^ 2 - x ^ 2)) / √(t ^ 2 - x ^ 2) * (1 / √((s + √(t ^ 2 - x ^ 2)) ^ 2 - y ^ 2)) by positivity)]
  congr 1
  generalize √((s + √(t ^ 2 - x ^ 2)) ^ 2 - y ^ 2) = V at *
  generalize √(t ^ 2 - x ^ 2) = q at *
  have e : (|t| * (s + q) / q * (1 / V)) ^ 2 = t ^ 2 * (s + q) ^ 2 / (q ^ 2 * V ^ 2) := by
    rw [← sq_abs t]; field_simp
  rw [e]
  field_simp
  linear_combination (q ^ 2 ) * hV2 + (s + q) ^ 2 * hq2

/-- the inner integral of the knuckle's area element over a half-chord, in closed form -/
theorem knuckle_inner {s t x G : ℝ} (hs : 0 ≤ s) (hx : x ^ 2 < t ^ 2) (hG0 : 0 ≤ G) (hG : G < s + √(t ^ 2 - x ^ 2)) :
    ∫ y in (0 : ℝ)..G, graphElement (torusKnuckle s t) x y =
      |t| * (s + √(t ^ 2 - x ^ 2)) / √(t ^ 2 - x ^ 2) * arcsin (G / (s + √(t ^ 2 - x ^ 2))) := by
  have e : ∀ y ∈ Set.uIcc 0 G, graphElement (torusKnuckle s t) x y =
      |t| * (s + √(t ^ 2 - x ^ 2)) / √(t ^ 2 - x ^ 2) * (1 / √((s + √(t ^ 2 - x ^ 2)) ^ 2 - y ^ 2)) := by
    intro y hy
    rw [Set.uIcc_of_le hG0] at hy
    exact knuckle_element hs hx (by nlinarith [hy.1, hy.2])
  rw [intervalIntegral.integral_congr e, intervalIntegral.integral_const_mul]
  congr 1
  generalize s + √(t ^ 2 - x ^ 2) = ρ at *
  have hρ : 0 < ρ := by linarith
  have hd : ∀ y ∈ Set.uIcc 0 G, HasDerivAt (fun y => arcsin (y / ρ)) (1 / √(ρ ^ 2 - y ^ 2)) y := by
    intro y hy
    rw [Set.uIcc_of_le hG0] at hy
    have l : y / ρ < 1 := (div_lt_one hρ).2 (by linarith [hy.2])
    have l0 : 0 ≤ y / ρ := div_nonneg hy.1 hρ.le
    have := (hasDerivAt_arcsin (by linarith) l.ne).comp y ((hasDerivAt_id y).div_const ρ)
    refine this.congr_deriv ?_
    have hp : 0 < ρ ^ 2 - y ^ 2 := by nlinarith [hy.1, hy.2]
    rw [show 1 - (y / ρ) ^ 2 = (ρ ^ 2 - y ^ 2) / ρ ^ 2 by field_simp, Real.sqrt_div hp.le, Real.sqrt_sq hρ.le]
    field_simp
  have hc : ContinuousOn (fun y => 1 / √(ρ ^ 2 - y ^ 2)) (Set.uIcc 0 G) := by
    refine ContinuousOn.div continuousOn_const (by fun_prop) fun y hy => ?_
    rw [Set.uIcc_of_le hG0] at hy
    exact (Real.sqrt_pos.2 (by nlinarith [hy.1, hy.2])).ne'
  rw [intervalIntegral.integral_eq_sub_of_hasDerivAt hd hc.intervalIntegrable]
  simp

/-- C134: the doubly integrated function of the knuckle is the area element of the torus -/
theorem C134_knuckle_element {s t x y : ℝ} (hs : 0 ≤ s) (hx : x ^ 2 < t ^ 2) (hy : y ^ 2 < (s + √(t ^ 2 - x ^ 2)) ^ 2) :
    toriInt3 y x s (t ^ 2) = .ok (graphElement (torusKnuckle s t) x y) := by
  have hp : 0 < t ^ 2 - x ^ 2 := by linarith
  have hv : 0 < (s + √(t ^ 2 - x ^ 2)) ^ 2 - y ^ 2 := by linarith
  have hq : 0 < √(t ^ 2 - x ^ 2) := Real.sqrt_pos.2 hp
  have hq2 := Real.sq_sqrt hp.le
  have e1 : t ^ 2 - x * x = √(t ^ 2 - x ^ 2) ^ 2 := by rw [hq2]; ring
  have e2 : s * s + t ^ 2 - x * x - y * y + 2 * s * √(t ^ 2 - x ^ 2) = (s + √(t ^ 2 - x ^ 2)) ^ 2 - y ^ 2 := by linear_combination -hq2
  rw [knuckle_element hs hx hy, toriInt3]
  simp only [show t ^ 2 - x * x = t ^ 2 - x ^ 2 by ring]
  rw [psqrt_ok hp.le, Py.ok_bind, e2]
  rw [pdiv_ok (by positivity), Py.ok_bind]
  have key : 1 + ((s + √(t ^ 2 - x ^ 2)) * (s + √(t ^ 2 - x ^ 2)) * (x * x) + (t ^ 2 - x ^ 2) * (y * y)) / ((t ^ 2 - x ^ 2) * ((s + √(t ^ 2 - x ^ 2)) ^ 2 - y ^ 2)) =
      (|t| * (s + √(t ^ 2 - x ^ 2)) / √(t ^ 2 - x ^ 2) * (1 / √((s + √(t ^ 2 - x ^ 2)) ^ 2 - y ^ 2))) ^ 2 := by
    rw [mul_pow, div_pow, mul_pow, div_pow, sq_abs, hq2, Real.sq_sqrt hv.le]
    have := hp.ne'
    have := hv.ne'
    field_simp
    ring
  rw [key, psqrt_ok (sq_nonneg _), Real.sqrt_sq (by positivity)]

theorem csqrt_nonneg {x : ℝ} (h : 0 ≤ x) : csqrt (x : ℂ) = (√x : ℝ) := by
  rw [csqrt, Real.sqrt_eq_rpow, Complex.ofReal_cpow h]
  norm_num

theorem int2_x_real {x t s d : ℝ} (hx : x ^ 2 < t ^ 2) (hd : d ^ 2 ≤ (s + √(t ^ 2 - x ^ 2)) ^ 2) :
    int2_x (x * x) (t ^ 2) s (s ^ 2 + t ^ 2 - d ^ 2) = √((s + √(t ^ 2 - x ^ 2)) ^ 2 - d ^ 2) := by
  have hp : 0 < t ^ 2 - x ^ 2 := by linarith
  have hq2 := Real.sq_sqrt hp.le
  rw [int2_x, int2_x10, show t ^ 2 - x * x = t ^ 2 - x ^ 2 by ring, if_pos hp.le]
  rw [show (((s ^ 2 + t ^ 2 - d ^ 2 : ℝ) : ℂ) - ((x * x : ℝ) : ℂ) + ((s : ℂ) + s) * (√(t ^ 2 - x ^ 2) : ℝ)) = (((s + √(t ^ 2 - x ^ 2)) ^ 2 - d ^ 2 : ℝ) : ℂ) by
    rw [← Complex.ofReal_add s s, ← Complex.ofReal_mul, ← Complex.ofReal_sub, ← Complex.ofReal_add]
    congr 1
    linear_combination -hq2]
  rw [csqrt_nonneg (by linarith), Complex.ofReal_re]

/-- C134: the singly integrated function of the knuckle is the strip of the torus at one axial distance, exactly, at every depth off the axis -/
theorem C134_knuckle_strip {s t x d : ℝ} (hs : 0 ≤ s) (hx : x ^ 2 < t ^ 2) (hd : 0 < d) (hd' : d ≤ s + √(t ^ 2 - x ^ 2)) :
    toriInt2 x (t ^ 2) s (s ^ 2 + t ^ 2 - d ^ 2) =
      ∫ y in (0 : ℝ)..√((s + √(t ^ 2 - x ^ 2)) ^ 2 - d ^ 2), graphElement (torusKnuckle s t) x y := by
  have hp : 0 < t ^ 2 - x ^ 2 := by linarith
  have hq : 0 < √(t ^ 2 - x ^ 2) := Real.sqrt_pos.2 hp
  have hq2 := Real.sq_sqrt hp.le
  have hdd : d ^ 2 ≤ (s + √(t ^ 2 - x ^ 2)) ^ 2 := by nlinarith
  have hG : √((s + √(t ^ 2 - x ^ 2)) ^ 2 - d ^ 2) < s + √(t ^ 2 - x ^ 2) := by
    rw [Real.sqrt_lt' (by positivity)]; nlinarith
  have hx10 : (int2_x10 (t ^ 2 - x * x)).re = √(t ^ 2 - x ^ 2) := by
    rw [int2_x10, show t ^ 2 - x * x = t ^ 2 - x ^ 2 by ring, if_pos hp.le, Complex.ofReal_re]
  rw [knuckle_inner hs hx (Real.sqrt_nonneg _) hG]
  have hb : int2_body (t ^ 2) s (t ^ 2 - x * x) √(t ^ 2 - x ^ 2) √((s + √(t ^ 2 - x ^ 2)) ^ 2 - d ^ 2) =
      .ok (|t| * (s + √(t ^ 2 - x ^ 2)) / √(t ^ 2 - x ^ 2) * arcsin (√((s + √(t ^ 2 - x ^ 2)) ^ 2 - d ^ 2) / (s + √(t ^ 2 - x ^ 2)))) := by
    have hGG : √((s + √(t ^ 2 - x ^ 2)) ^ 2 - d ^ 2) * √((s + √(t ^ 2 - x ^ 2)) ^ 2 - d ^ 2) = (s + √(t ^ 2 - x ^ 2)) ^ 2 - d ^ 2 :=
      Real.mul_self_sqrt (by linarith)
    have et : s * √(t ^ 2 - x ^ 2) + s * √(t ^ 2 - x ^ 2) + s * s + (t ^ 2 - x * x) = (s + √(t ^ 2 - x ^ 2)) ^ 2 := by linear_combination -hq2
    simp only [int2_body, et, hGG]
    rw [show (s + √(t ^ 2 - x ^ 2)) ^ 2 - ((s + √(t ^ 2 - x ^ 2)) ^ 2 - d ^ 2) = d ^ 2 by ring, psqrt_ok (sq_nonneg _), Py.ok_bind, Real.sqrt_sq hd.le,
      show t ^ 2 - x * x = √(t ^ 2 - x ^ 2) ^ 2 by rw [hq2]; ring, pdiv_ok (by positivity), Py.ok_bind]
    rw [show t ^ 2 * (s + √(t ^ 2 - x ^ 2)) ^ 2 / (√(t ^ 2 - x ^ 2) ^ 2 * d ^ 2) = (|t| * (s + √(t ^ 2 - x ^ 2)) / (√(t ^ 2 - x ^ 2) * d)) ^ 2 by
      rw [← sq_abs t]; field_simp, psqrt_ok (sq_nonneg _), Py.ok_bind, Real.sqrt_sq (by positivity), pdiv_ok hd.ne', Py.ok_bind, Py.pure_eq]
    have hat : arctan (√((s + √(t ^ 2 - x ^ 2)) ^ 2 - d ^ 2) / d) = arcsin (√((s + √(t ^ 2 - x ^ 2)) ^ 2 - d ^ 2) / (s + √(t ^ 2 - x ^ 2))) := by
      have hρ : 0 < s + √(t ^ 2 - x ^ 2) := by positivity
      have l : √((s + √(t ^ 2 - x ^ 2)) ^ 2 - d ^ 2) / (s + √(t ^ 2 - x ^ 2)) < 1 := (div_lt_one hρ).2 hG
      have l0 : 0 ≤ √((s + √(t ^ 2 - x ^ 2)) ^ 2 - d ^ 2) / (s + √(t ^ 2 - x ^ 2)) := by positivity
      rw [arcsin_eq_arctan ⟨by linarith, l⟩, div_pow, Real.sq_sqrt (by linarith)]
      rw [show 1 - ((s + √(t ^ 2 - x ^ 2)) ^ 2 - d ^ 2) / (s + √(t ^ 2 - x ^ 2)) ^ 2 = (d / (s + √(t ^ 2 - x ^ 2))) ^ 2 by field_simp; ring,
        Real.sqrt_sq (by positivity)]
      congr 1
      field_simp
    rw [hat]
    congr 1
    field_simp
  rw [toriInt2, hx10, int2_x_real hx hdd, hb]

/-- C134: on the axis the singly integrated form is useless: it divides by zero and answers 0 at every point, although the strip has a positive area -/
theorem C134_axis_fails {s t x : ℝ} (hs : 0 ≤ s) (hx : x ^ 2 < t ^ 2) : toriInt2 x (t ^ 2) s (s ^ 2 + t ^ 2 - 0 ^ 2) = 0 := by
  have hp : 0 < t ^ 2 - x ^ 2 := by linarith
  have hq : 0 < √(t ^ 2 - x ^ 2) := Real.sqrt_pos.2 hp
  have hq2 := Real.sq_sqrt hp.le
  have hx10 : (int2_x10 (t ^ 2 - x * x)).re = √(t ^ 2 - x ^ 2) := by
    rw [int2_x10, show t ^ 2 - x * x = t ^ 2 - x ^ 2 by ring, if_pos hp.le, Complex.ofReal_re]
  have et : s * √(t ^ 2 - x ^ 2) + s * √(t ^ 2 - x ^ 2) + s * s + (t ^ 2 - x * x) = (s + √(t ^ 2 - x ^ 2)) ^ 2 := by linear_combination -hq2
  have hg : √((s + √(t ^ 2 - x ^ 2)) ^ 2 - 0 ^ 2) = s + √(t ^ 2 - x ^ 2) := by
    rw [show (s + √(t ^ 2 - x ^ 2)) ^ 2 - 0 ^ 2 = (s + √(t ^ 2 - x ^ 2)) ^ 2 by ring, Real.sqrt_sq (by positivity)]
  have hb : int2_body (t ^ 2) s (t ^ 2 - x * x) √(t ^ 2 - x ^ 2) (s + √(t ^ 2 - x ^ 2)) = .error .zeroDivisionError := by
    simp only [int2_body, et]
    rw [show (s + √(t ^ 2 - x ^ 2)) ^ 2 - (s + √(t ^ 2 - x ^ 2)) * (s + √(t ^ 2 - x ^ 2)) = 0 by ring, psqrt_ok le_rfl, Py.ok_bind, mul_zero, pdiv, if_pos rfl,
      Py.error_bind]
  rw [toriInt2, hx10, int2_x_real hx (by nlinarith [sq_nonneg (s + √(t ^ 2 - x ^ 2))]), hg, hb]

/-- C134: while the liquid touches only the knuckle, the wetted area is the area of that part of the torus -/
theorem C134_low {D f k h : ℝ} (hD : 0 < D) (hk : k ≤ 1 / 2) (h0 : 0 ≤ h) (hh : h < k * D) :
    toriLow D f k h = .ok (knuckleArea (D / 2 - k * D) (k * D) (D / 2 - h) √(2 * (k * D) * h - h ^ 2)) := by
  have hs : 0 ≤ D / 2 - k * D := by nlinarith
  have hd : 0 < D / 2 - h := by nlinarith
  have ht : 0 < k * D := by linarith
  have hr : 0 ≤ 2 * (k * D) * h - h ^ 2 := by nlinarith
  rw [toriLow]
  simp only [show 2 * k * D * h - h * h = 2 * (k * D) * h - h ^ 2 by ring, psqrt_ok hr, Py.ok_bind, Py.pure_eq]
  rw [knuckleArea]
  congr 2
  have hX := Real.sqrt_nonneg (2 * (k * D) * h - h ^ 2)
  rw [intervalIntegral.integral_of_le hX, intervalIntegral.integral_of_le hX, integral_Ioc_eq_integral_Ioo, integral_Ioc_eq_integral_Ioo]
  refine setIntegral_congr_fun measurableSet_Ioo fun x hx => ?_
  have hx2 : x ^ 2 < 2 * (k * D) * h - h ^ 2 := by
    have := (Real.lt_sqrt hx.1.le).1 hx.2
    exact this
  have hxt : x ^ 2 < (k * D) ^ 2 := by nlinarith [sq_nonneg (k * D - h)]
  have hq : k * D - h ≤ √((k * D) ^ 2 - x ^ 2) := Real.le_sqrt_of_sq_le (by nlinarith)
  have := C134_knuckle_strip (x := x) hs hxt hd (by linarith)
  rw [← this]
  simp only [pow_two]

/-! Non-vacuity: a 72-by-48 ellipsoidal head at depth 24, and a torispherical head with `D = 100`, `f = 0.9`, `k = 0.1` at depth 2. -/
example : ∃ v, SA_partial_horiz_ellipsoidal_head completeE 72 48 24 = .ok v := ⟨_, (C134_ellipsoidal (by norm_num) (by norm_num)).1 24 (by norm_num) (by norm_num)⟩
example : ∃ v, toriLow 100 0.9 0.1 2 = .ok v := ⟨_, C134_low (by norm_num) (by norm_num) (by norm_num) (by norm_num)⟩
example : toriInt2 3 (10 ^ 2) 40 (40 ^ 2 + 10 ^ 2 - 20 ^ 2) = ∫ y in (0 : ℝ)..√((40 + √(10 ^ 2 - 3 ^ 2)) ^ 2 - 20 ^ 2), graphElement (torusKnuckle 40 10) 3 y :=
  C134_knuckle_strip (by norm_num) (by norm_num) (by norm_num) (by have := Real.sqrt_nonneg ((10 : ℝ) ^ 2 - 3 ^ 2); linarith)

end Verif.Geometry
