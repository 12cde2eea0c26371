import Verif.Props.HeadVolume

/-! C59: vertical torispherical heads. -/

open Real

noncomputable section

namespace Verif.Geometry

/-! A torispherical head of dish radius `f D` and knuckle radius `k D` (`0 < k < 1/2 ≤ f`): a spherical dish meets a torus whose tube has radius `k D` and
centre circle `D/2 - k D`.  The angle between the axis and the line through the centres has the sine `(1/2 - k)/(f - k)`. -/

/-- sine of the dish half angle -/
def toriSin (f k : ℝ) : ℝ := (1 / 2 - k) / (f - k)
/-- its cosine -/
def toriCos (f k : ℝ) : ℝ := √(1 - toriSin f k ^ 2)
/-- depth of the dish -/
def dishDepth (D f k : ℝ) : ℝ := f * D * (1 - toriCos f k)
/-- height of the knuckle -/
def knuckleHeight (D f k : ℝ) : ℝ := k * D * toriCos f k

/-- radius at the height `y` above the lowest point -/
def toriRadius (D f k y : ℝ) : ℝ :=
  if y ≤ dishDepth D f k then √(y * (2 * (f * D) - y))
  else if y ≤ dishDepth D f k + knuckleHeight D f k then (D / 2 - k * D) + √((k * D) ^ 2 - (dishDepth D f k + knuckleHeight D f k - y) ^ 2)
  else D / 2

variable {D f k : ℝ}

theorem toriSin_pos (hk : 0 < k ∧ k < 1 / 2) (hf : 1 / 2 ≤ f) : 0 < toriSin f k := div_pos (by linarith) (by linarith)
theorem toriSin_le (hk : 0 < k ∧ k < 1 / 2) (hf : 1 / 2 ≤ f) : toriSin f k ≤ 1 := by
  rw [toriSin, div_le_one (by linarith)]; linarith
theorem tori_sq (hk : 0 < k ∧ k < 1 / 2) (hf : 1 / 2 ≤ f) : toriSin f k ^ 2 + toriCos f k ^ 2 = 1 := by
  rw [toriCos, sq_sqrt]
  · ring
  · nlinarith [toriSin_pos hk hf, toriSin_le hk hf]
theorem toriCos_nonneg : 0 ≤ toriCos f k := sqrt_nonneg _
theorem toriCos_lt (hk : 0 < k ∧ k < 1 / 2) (hf : 1 / 2 ≤ f) : toriCos f k < 1 := by
  have := toriSin_pos hk hf
  have h := tori_sq hk hf
  nlinarith [toriCos_nonneg (f := f) (k := k)]
theorem toriSin_mul (hk : 0 < k ∧ k < 1 / 2) (hf : 1 / 2 ≤ f) : f * toriSin f k = 1 / 2 - k + k * toriSin f k := by
  have : f - k ≠ 0 := by linarith
  rw [toriSin]; field_simp; ring

theorem toriAlpha_ok (hk : 0 < k ∧ k < 1 / 2) (hf : 1 / 2 ≤ f) : toriAlpha f k = .ok (arcsin (toriSin f k)) := by
  have h2 : (2 * (f - k)) ≠ 0 := by linarith
  have e : (1 - 2 * k) / (2 * (f - k)) = toriSin f k := by
    have : f - k ≠ 0 := by linarith
    rw [toriSin]; field_simp
  simp only [toriAlpha]
  rw [pdiv_ok h2, Py.ok_bind, e, pasin_ok (by linarith [toriSin_pos hk hf]) (toriSin_le hk hf)]

theorem sin_alpha (hk : 0 < k ∧ k < 1 / 2) (hf : 1 / 2 ≤ f) : sin (arcsin (toriSin f k)) = toriSin f k :=
  sin_arcsin (by linarith [toriSin_pos hk hf]) (toriSin_le hk hf)
theorem cos_alpha (f k : ℝ) : cos (arcsin (toriSin f k)) = toriCos f k := cos_arcsin _

theorem dishDepth_pos (hD : 0 < D) (hk : 0 < k ∧ k < 1 / 2) (hf : 1 / 2 ≤ f) : 0 < dishDepth D f k :=
  mul_pos (mul_pos (by linarith) hD) (by linarith [toriCos_lt hk hf])
theorem knuckleHeight_nonneg (hD : 0 < D) (hk : 0 < k ∧ k < 1 / 2) : 0 ≤ knuckleHeight D f k :=
  mul_nonneg (mul_nonneg hk.1.le hD.le) toriCos_nonneg
theorem knuckleHeight_lt (hD : 0 < D) (hk : 0 < k ∧ k < 1 / 2) (hf : 1 / 2 ≤ f) : knuckleHeight D f k < k * D := by
  have := mul_pos hk.1 hD
  unfold knuckleHeight
  nlinarith [toriCos_lt hk hf]

/-- the dish and the knuckle meet -/
theorem dish_join (hD : 0 < D) (hk : 0 < k ∧ k < 1 / 2) (hf : 1 / 2 ≤ f) :
    √(dishDepth D f k * (2 * (f * D) - dishDepth D f k)) = f * D * toriSin f k := by
  rw [show dishDepth D f k * (2 * (f * D) - dishDepth D f k) = (f * D * toriSin f k) ^ 2 by
    rw [mul_pow, show toriSin f k ^ 2 = 1 - toriCos f k ^ 2 by linarith [tori_sq hk hf]]
    unfold dishDepth; ring]
  exact sqrt_sq (mul_nonneg (mul_nonneg (by linarith) hD.le) (toriSin_pos hk hf).le)

theorem knuckle_join (hD : 0 < D) (hk : 0 < k ∧ k < 1 / 2) (hf : 1 / 2 ≤ f) :
    √((k * D) ^ 2 - knuckleHeight D f k ^ 2) = k * D * toriSin f k := by
  rw [show (k * D) ^ 2 - knuckleHeight D f k ^ 2 = (k * D * toriSin f k) ^ 2 by
    rw [mul_pow (k * D), show toriSin f k ^ 2 = 1 - toriCos f k ^ 2 by linarith [tori_sq hk hf]]
    unfold knuckleHeight; ring]
  exact sqrt_sq (mul_nonneg (mul_nonneg hk.1.le hD.le) (toriSin_pos hk hf).le)

theorem continuous_toriRadius (hD : 0 < D) (hk : 0 < k ∧ k < 1 / 2) (hf : 1 / 2 ≤ f) : Continuous (toriRadius D f k) := by
  unfold toriRadius
  refine Continuous.if_le (by fun_prop) (Continuous.if_le (by fun_prop) (by fun_prop) (by fun_prop) (by fun_prop) ?_) (by fun_prop) (by fun_prop) ?_
  · rintro y rfl
    rw [sub_self, zero_pow two_ne_zero, sub_zero, sqrt_sq (mul_nonneg hk.1.le hD.le)]
    ring
  · rintro y rfl
    rw [dish_join hD hk hf, if_pos (by linarith [knuckleHeight_nonneg (f := f) hD hk]), add_sub_cancel_left, knuckle_join hD hk hf]
    linear_combination D * toriSin_mul hk hf

/-- volume below the height `y` of the dish -/
def dishV (D f y : ℝ) : ℝ := (- (π / 3)) * y ^ 3 + π * (f * D) * y ^ 2 + 0 * y + 0

/-- volume below the height `u` above the dish -/
def knuckleV (D f k u : ℝ) : ℝ :=
  dishV D f (dishDepth D f k) + ((- (π / 3)) * u ^ 3 + π * knuckleHeight D f k * u ^ 2
      + π * ((D / 2 - k * D) ^ 2 + (k * D * toriSin f k) ^ 2) * u + 0)
    + π * (D / 2 - k * D) * (segArea (k * D) (k * D - knuckleHeight D f k + u) - segArea (k * D) (k * D - knuckleHeight D f k))

theorem continuous_knuckleV : Continuous (knuckleV D f k) := by
  have := continuous_segArea (k * D)
  unfold knuckleV dishV
  fun_prop

theorem hasDerivAt_knuckleV (hD : 0 < D) (hk : 0 < k ∧ k < 1 / 2) (hf : 1 / 2 ≤ f) {u : ℝ} (h0 : 0 < u) (h1 : u < knuckleHeight D f k) :
    HasDerivAt (knuckleV D f k) (π * ((D / 2 - k * D) + √((k * D) ^ 2 - (knuckleHeight D f k - u) ^ 2)) ^ 2) u := by
  have hr : 0 < k * D := mul_pos hk.1 hD
  have hkh := knuckleHeight_lt hD hk hf
  have d1 := hasDerivAt_cubic (- (π / 3)) (π * knuckleHeight D f k) (π * ((D / 2 - k * D) ^ 2 + (k * D * toriSin f k) ^ 2)) 0 u
  have d2 : HasDerivAt (fun u => segArea (k * D) (k * D - knuckleHeight D f k + u)) (chord (k * D) (k * D - knuckleHeight D f k + u)) u :=
    HasDerivAt.comp_const_add (k * D - knuckleHeight D f k) u (hasDerivAt_segArea hr (by linarith) (by linarith))
  refine ((d1.const_add (dishV D f (dishDepth D f k))).add ((d2.sub_const _).const_mul (π * (D / 2 - k * D)))).congr_deriv ?_
  have hq : 0 ≤ (k * D) ^ 2 - (knuckleHeight D f k - u) ^ 2 := by nlinarith
  have e : (k * D - knuckleHeight D f k + u) * (2 * (k * D) - (k * D - knuckleHeight D f k + u)) = (k * D) ^ 2 - (knuckleHeight D f k - u) ^ 2 := by ring
  unfold chord
  rw [e]
  have hs := sq_sqrt hq
  have hj := sq_sqrt (show 0 ≤ (k * D) ^ 2 - knuckleHeight D f k ^ 2 by nlinarith [knuckleHeight_nonneg (f := f) hD hk])
  rw [knuckle_join hD hk hf] at hj
  generalize √((k * D) ^ 2 - (knuckleHeight D f k - u) ^ 2) = q at *
  rw [hj]
  linear_combination (-π) * hs

theorem hasDerivAt_dishV {y : ℝ} (h0 : 0 ≤ y * (2 * (f * D) - y)) : HasDerivAt (dishV D f) (π * √(y * (2 * (f * D) - y)) ^ 2) y := by
  refine (hasDerivAt_cubic _ _ _ _ _).congr_deriv ?_
  rw [sq_sqrt h0]; ring

theorem acos_kn (hD : 0 < D) (hk : 0 < k ∧ k < 1 / 2) (hf : 1 / 2 ≤ f) :
    segArea (k * D) (k * D - knuckleHeight D f k) = (k * D) ^ 2 * arcsin (toriSin f k) - knuckleHeight D f k * (k * D * toriSin f k) := by
  have hr : 0 < k * D := mul_pos hk.1 hD
  unfold segArea
  rw [show (k * D - (k * D - knuckleHeight D f k)) / (k * D) = toriCos f k by unfold knuckleHeight; have := hk.1.ne'; field_simp; ring,
    show (k * D - (k * D - knuckleHeight D f k)) = knuckleHeight D f k by ring,
    show (k * D - knuckleHeight D f k) * (2 * (k * D) - (k * D - knuckleHeight D f k)) = (k * D) ^ 2 - knuckleHeight D f k ^ 2 by ring, knuckle_join hD hk hf]
  congr 2
  rw [← cos_alpha f k, arccos_cos]
  · exact arcsin_nonneg.mpr (toriSin_pos hk hf).le
  · linarith [arcsin_le_pi_div_two (toriSin f k), pi_pos]

/-- the term of the code for the partly filled knuckle -/
theorem knuckle_term (hD : 0 < D) (hk : 0 < k ∧ k < 1 / 2) (hf : 1 / 2 ≤ f) {u : ℝ} (h0 : 0 ≤ u) (h1 : u ≤ knuckleHeight D f k) :
    ∃ q4, pacos ((2 * knuckleHeight D f k - 2 * u) / (2 * k * D)) = .ok q4 ∧
      0.25 * (2 * u - 2 * knuckleHeight D f k) * √((k * D) ^ 2 - (knuckleHeight D f k - u) ^ 2) + 0.25 * (2 * knuckleHeight D f k) * (k * D * toriSin f k)
        + 0.5 * k * k * D * D * (q4 - arcsin (toriSin f k))
        = 1 / 2 * (segArea (k * D) (k * D - knuckleHeight D f k + u) - segArea (k * D) (k * D - knuckleHeight D f k)) := by
  have hr : 0 < k * D := mul_pos hk.1 hD
  have hkh := knuckleHeight_lt hD hk hf
  have e : (2 * knuckleHeight D f k - 2 * u) / (2 * k * D) = (knuckleHeight D f k - u) / (k * D) := by
    have := hk.1.ne'; field_simp
  have e' : pacos ((knuckleHeight D f k - u) / (k * D)) = .ok (arccos ((knuckleHeight D f k - u) / (k * D))) := by
    refine pacos_ok ?_ ?_
    · rw [le_div_iff₀ hr]; linarith
    · rw [div_le_one hr]; linarith
  refine ⟨_, by rw [e, e'], ?_⟩
  · rw [acos_kn hD hk hf]
    unfold segArea
    rw [show k * D - (k * D - knuckleHeight D f k + u) = knuckleHeight D f k - u by ring,
      show (k * D - knuckleHeight D f k + u) * (2 * (k * D) - (k * D - knuckleHeight D f k + u)) = (k * D) ^ 2 - (knuckleHeight D f k - u) ^ 2 by ring]
    ring

theorem dishV_code (hD : 0 < D) (hk : 0 < k ∧ k < 1 / 2) (hf : 1 / 2 ≤ f) :
    0.25 * π * dishDepth D f k * (2 / 3 * dishDepth D f k * dishDepth D f k + 0.5 * (2 * f * D * toriSin f k) * (2 * f * D * toriSin f k))
      = dishV D f (dishDepth D f k) := by
  have hs : toriSin f k ^ 2 = 1 - toriCos f k ^ 2 := by linarith [tori_sq hk hf]
  unfold dishV dishDepth
  linear_combination (0.5 * π * (f * D * (1 - toriCos f k)) * f ^ 2 * D ^ 2) * hs

theorem dish_quot (hD : 0 < D) (hk : 0 < k ∧ k < 1 / 2) (hf : 1 / 2 ≤ f) :
    2 * f * D * toriSin f k * (2 * f * D * toriSin f k) / dishDepth D f k = 4 * f * D * (1 + toriCos f k) := by
  have hs : toriSin f k ^ 2 = 1 - toriCos f k ^ 2 := by linarith [tori_sq hk hf]
  rw [div_eq_iff (dishDepth_pos hD hk hf).ne']
  unfold dishDepth
  linear_combination (4 * f ^ 2 * D ^ 2) * hs

theorem vertical_tori_eq (hD : 0 < D) (hk : 0 < k ∧ k < 1 / 2) (hf : 1 / 2 ≤ f) {h : ℝ} (hh : 0 < h) :
    (h ≤ dishDepth D f k → V_vertical_torispherical D f k h = .ok (dishV D f h)) ∧
    (dishDepth D f k < h → h ≤ dishDepth D f k + knuckleHeight D f k → V_vertical_torispherical D f k h = .ok (knuckleV D f k (h - dishDepth D f k))) ∧
    (dishDepth D f k + knuckleHeight D f k < h → V_vertical_torispherical D f k h =
      .ok (knuckleV D f k (knuckleHeight D f k) + π * (D / 2) ^ 2 * (h - (dishDepth D f k + knuckleHeight D f k)))) := by
  have hr : 0 < k * D := mul_pos hk.1 hD
  have ha1 := dishDepth_pos hD hk hf
  have ha2 := knuckleHeight_nonneg (f := f) hD hk
  have hkh := knuckleHeight_lt hD hk hf
  have ed : f * D * (1 - toriCos f k) = dishDepth D f k := rfl
  have ek : k * D * toriCos f k = knuckleHeight D f k := rfl
  have es : psqrt (k * D * toriSin f k * (k * D * toriSin f k)) = .ok (k * D * toriSin f k) := by
    rw [psqrt_ok (mul_self_nonneg _), sqrt_mul_self]
    exact mul_nonneg hr.le (toriSin_pos hk hf).le
  refine ⟨fun h1 => ?_, fun h1 h2 => ?_, fun h1 => ?_⟩
  · simp only [V_vertical_torispherical, if_neg (not_le.mpr hh), toriAlpha_ok hk hf, Py.ok_bind, sin_alpha hk hf, cos_alpha, ed, ek, hh.le, h1,
      true_and, if_true, pdiv_ok ha1.ne', Py.pure_eq]
    congr 1
    have := dish_quot hD hk hf
    rw [show 0.5 * (2 * f * D * toriSin f k) * (2 * f * D * toriSin f k) / dishDepth D f k
      = 0.5 * (2 * f * D * toriSin f k * (2 * f * D * toriSin f k) / dishDepth D f k) by ring, this]
    unfold dishV dishDepth
    ring
  · obtain ⟨q4, e4, hq4⟩ := knuckle_term hD hk hf (u := h - dishDepth D f k) (by linarith) (by linarith)
    have eu : k * D * toriSin f k * (k * D * toriSin f k) + (knuckleHeight D f k + knuckleHeight D f k) * (h - dishDepth D f k)
        - (h - dishDepth D f k) * (h - dishDepth D f k) = (k * D) ^ 2 - (knuckleHeight D f k - (h - dishDepth D f k)) ^ 2 := by
      have hj := sq_sqrt (show 0 ≤ (k * D) ^ 2 - knuckleHeight D f k ^ 2 by nlinarith)
      rw [knuckle_join hD hk hf] at hj
      linear_combination hj
    have eq : psqrt ((k * D) ^ 2 - (knuckleHeight D f k - (h - dishDepth D f k)) ^ 2)
        = .ok √((k * D) ^ 2 - (knuckleHeight D f k - (h - dishDepth D f k)) ^ 2) := psqrt_ok (by nlinarith)
    have e2k : (2 : ℝ) * k * D ≠ 0 := by nlinarith
    rw [← two_mul] at eu
    simp only [V_vertical_torispherical, if_neg (not_le.mpr hh), toriAlpha_ok hk hf, Py.ok_bind, sin_alpha hk hf, cos_alpha, ed, ek, hh.le,
      not_le.mpr h1, and_false, if_false, h1, h2, true_and, if_true, ← two_mul, eu, eq, es, pdiv_ok e2k, e4, Py.pure_eq, dishV_code hD hk hf]
    congr 1
    unfold knuckleV
    linear_combination (π * D * (1 - 2 * k)) * hq4
  · have e5 : pasin (toriCos f k) = .ok (π / 2 - arcsin (toriSin f k)) := by
      rw [pasin_ok (by linarith [toriCos_nonneg (f := f) (k := k)]) (toriCos_lt hk hf).le, ← cos_alpha f k, ← sin_pi_div_two_sub, arcsin_sin]
      · linarith [arcsin_le_pi_div_two (toriSin f k), pi_pos]
      · linarith [arcsin_nonneg.mpr (toriSin_pos hk hf).le]
    simp only [V_vertical_torispherical, if_neg (not_le.mpr hh), toriAlpha_ok hk hf, Py.ok_bind, sin_alpha hk hf, cos_alpha, ed, ek, hh.le,
      not_le.mpr (show dishDepth D f k < h by linarith), not_le.mpr h1, and_false, if_false, es, e5, Py.pure_eq]
    congr 1
    have hd := dishV_code hD hk hf
    have hseg : segArea (k * D) (k * D - knuckleHeight D f k + knuckleHeight D f k) = (k * D) ^ 2 * (π / 2) := by
      rw [sub_add_cancel]
      unfold segArea
      simp
    unfold knuckleV
    rw [hseg, acos_kn hD hk hf, ← hd]
    ring

/-- C59: liquid in a vertical torispherical head (and the shell above it) -/
theorem C59_vertical_torispherical (hD : 0 < D) (hk : 0 < k ∧ k < 1 / 2) (hf : 1 / 2 ≤ f) :
    IsFillVolume (V_vertical_torispherical D f k) (fun y => π * toriRadius D f k y ^ 2) := by
  have hr : 0 < k * D := mul_pos hk.1 hD
  have ha1 := dishDepth_pos hD hk hf
  have ha2 := knuckleHeight_nonneg (f := f) hD hk
  have hkh := knuckleHeight_lt hD hk hf
  have hc : Continuous (fun y => π * toriRadius D f k y ^ 2) := continuous_const.mul ((continuous_toriRadius hD hk hf).pow 2)
  refine isFillVolume_of hc (fun y _ => by positivity) (fun h hh => by simp only [V_vertical_torispherical, if_pos hh]) ?_
  intro h hh
  obtain ⟨c1, c2, c3⟩ := vertical_tori_eq hD hk hf hh
  have dish_le : dishDepth D f k ≤ 2 * (f * D) := by
    unfold dishDepth
    nlinarith [toriCos_nonneg (f := f) (k := k), mul_pos (show 0 < f by linarith) hD]
  have d1 : ∀ y ∈ Set.Ioo 0 (dishDepth D f k), HasDerivAt (dishV D f) (π * toriRadius D f k y ^ 2) y := by
    rintro y ⟨h0, h1⟩
    refine (hasDerivAt_dishV (mul_nonneg h0.le (by linarith))).congr_deriv ?_
    simp only [toriRadius, if_pos h1.le]
  have d2 : ∀ y ∈ Set.Ioo (dishDepth D f k) (dishDepth D f k + knuckleHeight D f k),
      HasDerivAt (fun h => knuckleV D f k (h - dishDepth D f k)) (π * toriRadius D f k y ^ 2) y := by
    rintro y ⟨h0, h1⟩
    refine (HasDerivAt.comp_sub_const y (dishDepth D f k) (hasDerivAt_knuckleV hD hk hf (by linarith) (by linarith))).congr_deriv ?_
    simp only [toriRadius, if_neg (not_le.mpr h0), if_pos h1.le]
    rw [show knuckleHeight D f k - (y - dishDepth D f k) = dishDepth D f k + knuckleHeight D f k - y by ring]
  have d3 : ∀ y > dishDepth D f k + knuckleHeight D f k,
      HasDerivAt (fun h => knuckleV D f k (knuckleHeight D f k) + π * (D / 2) ^ 2 * (h - (dishDepth D f k + knuckleHeight D f k)))
        (π * toriRadius D f k y ^ 2) y := by
    intro y hy
    have := ((hasDerivAt_id' y).sub_const (dishDepth D f k + knuckleHeight D f k)).const_mul (π * (D / 2) ^ 2)
    refine (this.const_add _).congr_deriv ?_
    simp only [toriRadius, if_neg (not_le.mpr (show dishDepth D f k < y by linarith [show y > _ from hy])), if_neg (not_le.mpr hy), mul_one]
  obtain ⟨i1, i2, i3⟩ := integral_three ha1.le (by linarith) hc (by unfold dishV; fun_prop) (continuous_knuckleV.comp (by fun_prop)) (by fun_prop)
    d1 d2 d3 (by simp [dishV]) (by simp [knuckleV]) (by simp) hh.le
  rcases le_or_gt h (dishDepth D f k) with g1 | g1
  · rw [c1 g1, i1 g1]
  rcases le_or_gt h (dishDepth D f k + knuckleHeight D f k) with g2 | g2
  · rw [c2 g1 g2, i2 g1.le g2]; rfl
  · rw [c3 g2, i3 g2.le]

/-- a standard dish: `f = 1`, `k = 0.06` -/
example : ∃ v, V_vertical_torispherical 2 1 0.06 0.3 = .ok v ∧ v = ∫ y in (0 : ℝ)..0.3, π * toriRadius 2 1 0.06 y ^ 2 := by
  obtain ⟨V, h1, -, h2, -, -⟩ := C59_vertical_torispherical (D := 2) (f := 1) (k := 0.06) (by norm_num) (by norm_num) (by norm_num)
  exact ⟨_, h1 _, h2 _ (by norm_num)⟩

theorem toriRadius_le (hD : 0 < D) (hk : 0 < k ∧ k < 1 / 2) (hf : 1 / 2 ≤ f) (y : ℝ) : 0 ≤ toriRadius D f k y ∧ toriRadius D f k y ≤ D / 2 := by
  have hr : 0 < k * D := mul_pos hk.1 hD
  unfold toriRadius
  split_ifs with h1 h2
  · refine ⟨sqrt_nonneg _, ?_⟩
    have hj := dish_join hD hk hf
    have hle : dishDepth D f k ≤ f * D := by
      unfold dishDepth
      nlinarith [toriCos_nonneg (f := f) (k := k), mul_pos (show 0 < f by linarith) hD]
    have : √(y * (2 * (f * D) - y)) ≤ √(dishDepth D f k * (2 * (f * D) - dishDepth D f k)) := sqrt_le_sqrt (by nlinarith)
    rw [hj] at this
    have h3 := toriSin_mul hk hf
    have h4 := mul_le_mul_of_nonneg_left (toriSin_le hk hf) hk.1.le
    nlinarith
  · refine ⟨add_nonneg (by nlinarith) (sqrt_nonneg _), ?_⟩
    have : √((k * D) ^ 2 - (dishDepth D f k + knuckleHeight D f k - y) ^ 2) ≤ √((k * D) ^ 2) := sqrt_le_sqrt (by nlinarith [sq_nonneg (dishDepth D f k + knuckleHeight D f k - y)])
    rw [sqrt_sq hr.le] at this
    linarith
  · exact ⟨by linarith, le_rfl⟩

theorem toriV1_ok (hD : 0 < D) (hk : 0 < k ∧ k < 1 / 2) (hf : 1 / 2 ≤ f) {x : ℝ} (h1 : dishDepth D f k ≤ x) (h2 : x ≤ dishDepth D f k + knuckleHeight D f k) :
    toriV1 D f k (arcsin (toriSin f k)) x = .ok (knuckleV D f k (x - dishDepth D f k)) := by
  have hr : 0 < k * D := mul_pos hk.1 hD
  have hkh := knuckleHeight_lt hD hk hf
  have ha2 := knuckleHeight_nonneg (f := f) hD hk
  have ed : f * D * (1 - toriCos f k) = dishDepth D f k := rfl
  have ek : k * D * toriCos f k = knuckleHeight D f k := rfl
  have es : psqrt (k * D * toriSin f k * (k * D * toriSin f k)) = .ok (k * D * toriSin f k) := by
    rw [psqrt_ok (mul_self_nonneg _), sqrt_mul_self]
    exact mul_nonneg hr.le (toriSin_pos hk hf).le
  obtain ⟨q4, e4, hq4⟩ := knuckle_term hD hk hf (u := x - dishDepth D f k) (by linarith) (by linarith)
  have eu : k * D * toriSin f k * (k * D * toriSin f k) + 2 * knuckleHeight D f k * (x - dishDepth D f k)
      - (x - dishDepth D f k) * (x - dishDepth D f k) = (k * D) ^ 2 - (knuckleHeight D f k - (x - dishDepth D f k)) ^ 2 := by
    have hj := sq_sqrt (show 0 ≤ (k * D) ^ 2 - knuckleHeight D f k ^ 2 by nlinarith)
    rw [knuckle_join hD hk hf] at hj
    linear_combination hj
  have eq : psqrt ((k * D) ^ 2 - (knuckleHeight D f k - (x - dishDepth D f k)) ^ 2)
      = .ok √((k * D) ^ 2 - (knuckleHeight D f k - (x - dishDepth D f k)) ^ 2) := psqrt_ok (by nlinarith)
  have e2k : (2 : ℝ) * k * D ≠ 0 := by nlinarith
  simp only [toriV1, Py.ok_bind, sin_alpha hk hf, cos_alpha, ed, ek, eu, eq, es, pdiv_ok e2k, e4, Py.pure_eq]
  congr 1
  have hd := dishV_code hD hk hf
  unfold knuckleV
  linear_combination (π * D * (1 - 2 * k)) * hq4 + hd

theorem toriV2_ok (hD : 0 < D) (hk : 0 < k ∧ k < 1 / 2) (hf : 1 / 2 ≤ f) (x : ℝ) :
    toriV2 D f (arcsin (toriSin f k)) x = .ok (dishV D f x) := by
  have ha1 := dishDepth_pos hD hk hf
  have ed : f * D * (1 - toriCos f k) = dishDepth D f k := rfl
  simp only [toriV2, sin_alpha hk hf, cos_alpha, ed, pdiv_ok (mul_ne_zero two_ne_zero ha1.ne'), Py.ok_bind, Py.pure_eq]
  congr 1
  have := dish_quot hD hk hf
  rw [show 2 * f * D * toriSin f k * (2 * f * D * toriSin f k) / (2 * dishDepth D f k)
      = 0.5 * (2 * f * D * toriSin f k * (2 * f * D * toriSin f k) / dishDepth D f k) by field_simp; norm_num; ring, this]
  unfold dishV dishDepth
  ring

/-- C59: concave torispherical head -/
theorem C59_vertical_torispherical_concave (hD : 0 < D) (hk : 0 < k ∧ k < 1 / 2) (hf : 1 / 2 ≤ f) :
    IsFillVolume (V_vertical_torispherical_concave D f k) (ringArea D (toriRadius D f k) (dishDepth D f k + knuckleHeight D f k)) := by
  have ha1 := dishDepth_pos hD hk hf
  have ha2 := knuckleHeight_nonneg (f := f) hD hk
  have hA : Continuous (fun y => π * toriRadius D f k y ^ 2) := continuous_const.mul ((continuous_toriRadius hD hk hf).pow 2)
  have hc : Continuous (ringArea D (toriRadius D f k) (dishDepth D f k + knuckleHeight D f k)) :=
    continuous_ring hA (by simp [toriRadius, ha1.le])
  refine isFillVolume_of hc ?_ (fun h hh => by simp only [V_vertical_torispherical_concave, if_pos hh]) ?_
  · intro y _
    simp only [ringArea]
    split_ifs
    · obtain ⟨h1, h2⟩ := toriRadius_le hD hk hf (dishDepth D f k + knuckleHeight D f k - y)
      have := pow_le_pow_left₀ h1 h2 2
      nlinarith [pi_pos]
    · positivity
  intro h hh
  set a := dishDepth D f k + knuckleHeight D f k with ha
  -- the convex head gives the integrals
  obtain ⟨V, hV, V0, hVi, -, -⟩ := C59_vertical_torispherical hD hk hf
  have hVdish : ∀ x, 0 < x → x ≤ dishDepth D f k → dishV D f x = V x := by
    intro x h1 h2
    have := (vertical_tori_eq hD hk hf h1).1 h2
    rw [hV, Except.ok.injEq] at this
    exact this.symm
  have hVkn : ∀ x, dishDepth D f k ≤ x → x ≤ a → knuckleV D f k (x - dishDepth D f k) = V x := by
    intro x h1 h2
    rcases h1.eq_or_lt with h1 | h1
    · subst h1
      rw [← hVdish _ ha1 le_rfl]
      simp [knuckleV]
    · have := (vertical_tori_eq hD hk hf (ha1.trans h1)).2.1 h1 h2
      rw [hV, Except.ok.injEq] at this
      exact this.symm
  have ring1 : ∀ x, 0 ≤ x → x ≤ a → ∫ y in (0 : ℝ)..x, ringArea D (toriRadius D f k) a y = 0.25 * π * D * D * x - V a + V (a - x) := by
    intro x h0 h1
    have e : ∫ y in (0 : ℝ)..x, ringArea D (toriRadius D f k) a y = ∫ y in (0 : ℝ)..x, (π * (D / 2) ^ 2 - (fun z => π * toriRadius D f k z ^ 2) (a - y)) := by
      refine intervalIntegral.integral_congr fun y hy => ?_
      rw [Set.uIcc_of_le h0] at hy
      simp only [ringArea, if_pos (hy.2.trans h1)]
    have hi : IntervalIntegrable (fun y => (fun z => π * toriRadius D f k z ^ 2) (a - y)) MeasureTheory.volume 0 x :=
      (hA.comp (continuous_const.sub continuous_id)).intervalIntegrable _ _
    rw [e, intervalIntegral.integral_sub (by simp) hi, intervalIntegral.integral_comp_sub_left (fun z => π * toriRadius D f k z ^ 2) a, sub_zero,
      intervalIntegral.integral_const, hVi a (by linarith), hVi (a - x) (by linarith),
      ← intervalIntegral.integral_add_adjacent_intervals (hA.intervalIntegrable 0 (a - x)) (hA.intervalIntegrable (a - x) a)]
    simp only [sub_zero, smul_eq_mul]
    ring
  have ea : a - dishDepth D f k = knuckleHeight D f k := by rw [ha]; ring
  have eta : toriV1 D f k (arcsin (toriSin f k)) a = .ok (V a) := by
    rw [toriV1_ok hD hk hf (by linarith) le_rfl, hVkn a (by linarith) le_rfl]
  have ed : f * D * (1 - toriCos f k) = dishDepth D f k := rfl
  have ek : k * D * toriCos f k = knuckleHeight D f k := rfl
  simp only [V_vertical_torispherical_concave, if_neg (not_le.mpr hh), toriAlpha_ok hk hf, Py.ok_bind, cos_alpha, ed, ek, ← ha]
  rcases lt_or_ge h (knuckleHeight D f k) with g1 | g1
  · simp only [hh.le, g1, true_and, if_true, eta, toriV1_ok hD hk hf (x := a - h) (by linarith) (by linarith), hVkn (a - h) (by linarith) (by linarith),
      Py.ok_bind, Py.pure_eq]
    rw [ring1 h hh.le (by linarith)]
  rcases lt_or_ge h a with g2 | g2
  · simp only [not_lt.mpr g1, and_false, if_false, g1, g2, true_and, if_true, eta, toriV2_ok hD hk hf, hVdish (a - h) (by linarith) (by linarith),
      Py.ok_bind, Py.pure_eq]
    rw [ring1 h hh.le g2.le]
  · simp only [not_lt.mpr g1, not_lt.mpr g2, and_false, if_false, eta, Py.ok_bind, Py.pure_eq]
    have e : ∫ y in a..h, ringArea D (toriRadius D f k) a y = ∫ _ in a..h, π * (D / 2) ^ 2 := by
      refine intervalIntegral.integral_congr fun y hy => ?_
      rw [Set.uIcc_of_le g2] at hy
      simp only [ringArea]
      split_ifs with h3
      · rw [le_antisymm h3 hy.1]; simp [toriRadius, ha1.le]
      · rfl
    rw [← intervalIntegral.integral_add_adjacent_intervals (hc.intervalIntegrable 0 a) (hc.intervalIntegrable a h), ring1 a (by linarith) le_rfl, e,
      intervalIntegral.integral_const, sub_self, V0 0 le_rfl]
    simp only [smul_eq_mul]
    congr 1
    ring

example : ∃ v, V_vertical_torispherical_concave 2 1 0.06 0.3 = .ok v := by
  obtain ⟨V, h1, -⟩ := C59_vertical_torispherical_concave (D := 2) (f := 1) (k := 0.06) (by norm_num) (by norm_num) (by norm_num)
  exact ⟨_, h1 _⟩

end Verif.Geometry
