import Verif.Props.HorizSphere
import Verif.Props.ToriVolume

/-! C59: torispherical heads of horizontal tanks. -/

open Real

noncomputable section

namespace Verif.Geometry

/-! Seen along the axis, the head is a knuckle whose radius falls from `D/2` to the dish radius over the length `knuckleHeight`, followed by a spherical dish.
The liquid in the knuckle is the integral over the axial position of the wetted part of each disc; the liquid in the dish is the integral over the height of
the wetted area of the cap. -/

/-- radius of the knuckle at the axial distance `x` from the shell -/
def knuckleRadius (D k x : ℝ) : ℝ := D / 2 - k * D + √((k * D) ^ 2 - x ^ 2)
/-- liquid in the knuckle (the disc of radius `n` has its lowest point at the height `D/2 - n`) -/
def knuckleFill (D f k h : ℝ) : ℝ :=
  ∫ x in (0 : ℝ)..knuckleHeight D f k, segArea (knuckleRadius D k x) (h - (D / 2 - knuckleRadius D k x))
/-- rim radius of the dish -/
def dishRim (D f k : ℝ) : ℝ := f * D * toriSin f k
/-- depth of the dish at the horizontal offset `x` and the height `y` above the lowest point of its rim -/
def dishDepthAt (D f k x y : ℝ) : ℝ := √((f * D) ^ 2 - x ^ 2 - (dishRim D f k - y) ^ 2) - f * D * toriCos f k
/-- liquid in the dish -/
def dishFill (D f k h : ℝ) : ℝ :=
  ∫ y in (0 : ℝ)..h, slice (dishDepthAt D f k) (dishRim D f k) (y - (D / 2 - dishRim D f k))

/-! ### Segments of any height -/

/-- `segArea` in terms of the distance `w` of the level below the centre -/
def seg (n w : ℝ) : ℝ := n ^ 2 * arccos (w / n) - w * √(n ^ 2 - w ^ 2)

theorem segArea_eq_seg (n t : ℝ) : segArea n t = seg n (n - t) := by
  unfold segArea seg
  congr 3
  ring

theorem seg_empty {n w : ℝ} (hn : 0 < n) (h : n ≤ w) : seg n w = 0 := by
  unfold seg
  rw [arccos_eq_zero.mpr (by rwa [le_div_iff₀ hn, one_mul]), sqrt_eq_zero_of_nonpos (by nlinarith)]
  ring

theorem seg_neg {n w : ℝ} : seg n (-w) = π * n ^ 2 - seg n w := by
  unfold seg
  rw [neg_div, arccos_neg, neg_sq]
  ring

theorem seg_continuous {n : ℝ → ℝ} (hc : Continuous n) (hn : ∀ x, 0 < n x) (w : ℝ) : Continuous fun x => seg (n x) w := by
  unfold seg
  have h1 : Continuous fun x => w / n x := continuous_const.div hc fun x => (hn x).ne'
  exact ((hc.pow 2).mul (continuous_arccos.comp h1)).sub (continuous_const.mul (((hc.pow 2).sub continuous_const).sqrt))

theorem toint_1_eq {n w : ℝ} (hn : 0 < n) (hw : 0 ≤ w) : n * n * arcsin (√(n * n - w * w) / n) - w * √(n * n - w * w) = seg n w := by
  unfold seg
  rw [arccos_eq_arcsin (by positivity), ← sq, ← sq, show 1 - (w / n) ^ 2 = (n ^ 2 - w ^ 2) / n ^ 2 by field_simp, sqrt_div' _ (sq_nonneg _), sqrt_sq hn.le]

variable {D f k : ℝ}

theorem knuckleRadius_pos (hD : 0 < D) (hk : 0 < k ∧ k < 1 / 2) (x : ℝ) : 0 < knuckleRadius D k x := by
  have := sqrt_nonneg ((k * D) ^ 2 - x ^ 2)
  unfold knuckleRadius
  nlinarith

theorem continuous_knuckleRadius : Continuous (knuckleRadius D k) := by
  unfold knuckleRadius; fun_prop

theorem dishRim_eq (hk : 0 < k ∧ k < 1 / 2) (hf : 1 / 2 ≤ f) : dishRim D f k = D / 2 - k * D + k * D * toriSin f k := by
  have := toriSin_mul hk hf
  unfold dishRim
  linear_combination D * this

theorem dishRim_pos (hD : 0 < D) (hk : 0 < k ∧ k < 1 / 2) (hf : 1 / 2 ≤ f) : 0 < dishRim D f k :=
  mul_pos (mul_pos (by linarith) hD) (toriSin_pos hk hf)

theorem dishRim_le (hD : 0 < D) (hk : 0 < k ∧ k < 1 / 2) (hf : 1 / 2 ≤ f) : dishRim D f k ≤ D / 2 := by
  rw [dishRim_eq hk hf]
  have := mul_pos hk.1 hD
  nlinarith [toriSin_le hk hf]

theorem knuckleFill_eq (h : ℝ) : knuckleFill D f k h = ∫ x in (0 : ℝ)..knuckleHeight D f k, seg (knuckleRadius D k x) (D / 2 - h) := by
  unfold knuckleFill
  refine intervalIntegral.integral_congr fun x _ => ?_
  beta_reduce
  rw [segArea_eq_seg]
  congr 1
  ring

theorem toriCos_pos (hk : 0 < k ∧ k < 1 / 2) (hf : 1 / 2 < f) : 0 < toriCos f k := by
  refine sqrt_pos.mpr ?_
  have h1 := toriSin_pos hk hf.le
  have h2 : toriSin f k < 1 := by rw [toriSin, div_lt_one (by linarith)]; linarith
  nlinarith

theorem tori_cap (hD : 0 < D) (hk : 0 < k ∧ k < 1 / 2) (hf : 1 / 2 < f) : Cap (dishRim D f k) (f * D) (f * D * toriCos f k) := by
  have hfD : 0 < f * D := mul_pos (by linarith) hD
  refine ⟨dishRim_pos hD hk hf.le, mul_pos hfD (toriCos_pos hk hf), hfD, ?_⟩
  have := tori_sq hk hf.le
  unfold dishRim
  linear_combination (f * D) ^ 2 * this

theorem continuous_dishSlice (hD : 0 < D) (hk : 0 < k ∧ k < 1 / 2) (hf : 1 / 2 < f) : Continuous (slice (dishDepthAt D f k) (dishRim D f k)) :=
  slice_continuous (tori_cap hD hk hf).hR continuous_capS.continuousOn fun _ hy => slice_cap_gen (tori_cap hD hk hf) hy

theorem dishSlice_nonneg (hD : 0 < D) (hk : 0 < k ∧ k < 1 / 2) (hf : 1 / 2 < f) (y : ℝ) : 0 ≤ slice (dishDepthAt D f k) (dishRim D f k) y := by
  have hC := tori_cap hD hk hf
  have := hC.hR
  rcases lt_or_ge y 0 with h0 | h0
  · rw [slice_out (by nlinarith)]
  rcases le_or_gt y (2 * dishRim D f k) with h1 | h1
  · exact capS_nonneg hC ⟨h0, h1⟩
  · rw [slice_out (by nlinarith)]

theorem dishFill_eq (h : ℝ) : dishFill D f k h = ∫ y in (0 - (D / 2 - dishRim D f k))..(h - (D / 2 - dishRim D f k)), slice (dishDepthAt D f k) (dishRim D f k) y := by
  unfold dishFill
  exact intervalIntegral.integral_comp_sub_right (fun y => slice (dishDepthAt D f k) (dishRim D f k) y) _

theorem integral_zero_of {T : ℝ → ℝ} {a b : ℝ} (hab : a ≤ b) (h : ∀ y ∈ Set.Icc a b, T y = 0) : ∫ y in a..b, T y = 0 := by
  refine intervalIntegral.integral_zero_ae (Filter.Eventually.of_forall fun y hy => ?_)
  rw [Set.uIoc_of_le hab] at hy
  exact h y ⟨hy.1.le, hy.2⟩

/-- from the rim upwards -/
theorem dishFill_eq' (hD : 0 < D) (hk : 0 < k ∧ k < 1 / 2) (hf : 1 / 2 < f) (h : ℝ) :
    dishFill D f k h = ∫ y in (0 : ℝ)..(h - (D / 2 - dishRim D f k)), slice (dishDepthAt D f k) (dishRim D f k) y := by
  have hc := continuous_dishSlice hD hk hf
  have hC := tori_cap hD hk hf
  have hR := hC.hR
  rw [dishFill_eq, ← intervalIntegral.integral_add_adjacent_intervals (hc.intervalIntegrable _ 0) (hc.intervalIntegrable 0 _),
    integral_zero_of (by linarith [dishRim_le hD hk hf.le]), zero_add]
  intro y hy
  exact slice_out (by nlinarith [hy.2])

theorem cap_integral {R r z : ℝ} (hC : Cap R r z) {x : ℝ} (h0 : 0 ≤ x) (h1 : x ≤ 2 * R) : ∫ y in (0 : ℝ)..x, capS R r z y = capW R r z x := by
  rw [integral_of_deriv (p := 0) (V := capW R r z) h0 continuous_capS ((continuousOn_capW hC).mono (Set.Icc_subset_Icc le_rfl h1)), capW_zero hC, sub_zero]
  rintro y ⟨g0, g1⟩ -
  exact hasDerivAt_capW hC g0 (by linarith)

theorem dishFill_low (hD : 0 < D) (hk : 0 < k ∧ k < 1 / 2) (hf : 1 / 2 < f) {h : ℝ} (hh : h ≤ D / 2 - dishRim D f k) : dishFill D f k h = 0 := by
  have hR := (tori_cap hD hk hf).hR
  rw [dishFill_eq' hD hk hf, intervalIntegral.integral_symm, integral_zero_of (by linarith), neg_zero]
  intro y hy
  exact slice_out (by nlinarith [hy.2])

theorem dishFill_mid (hD : 0 < D) (hk : 0 < k ∧ k < 1 / 2) (hf : 1 / 2 < f) {h : ℝ} (h0 : D / 2 - dishRim D f k ≤ h) (h1 : h ≤ D / 2 + dishRim D f k) :
    dishFill D f k h = ∫ y in (0 : ℝ)..(h - (D / 2 - dishRim D f k)), capS (dishRim D f k) (f * D) (f * D * toriCos f k) y := by
  rw [dishFill_eq' hD hk hf]
  refine intervalIntegral.integral_congr fun y hy => ?_
  rw [Set.uIcc_of_le (by linarith)] at hy
  exact slice_cap_gen (tori_cap hD hk hf) ⟨hy.1, by linarith [hy.2]⟩

theorem dishFill_high (hD : 0 < D) (hk : 0 < k ∧ k < 1 / 2) (hf : 1 / 2 < f) {h : ℝ} (h1 : D / 2 + dishRim D f k ≤ h) :
    dishFill D f k h = π / 6 * dishDepth D f k * (3 * dishRim D f k ^ 2 + dishDepth D f k ^ 2) := by
  have hC := tori_cap hD hk hf
  have hR := hC.hR
  have hc := continuous_dishSlice hD hk hf
  rw [dishFill_eq' hD hk hf, ← intervalIntegral.integral_add_adjacent_intervals (hc.intervalIntegrable 0 (2 * dishRim D f k)) (hc.intervalIntegrable _ _),
    integral_zero_of (a := 2 * dishRim D f k) (by linarith), add_zero]
  · have e : ∫ y in (0 : ℝ)..(2 * dishRim D f k), slice (dishDepthAt D f k) (dishRim D f k) y = ∫ y in (0 : ℝ)..(2 * dishRim D f k), capS (dishRim D f k) (f * D) (f * D * toriCos f k) y := by
      refine intervalIntegral.integral_congr fun y hy => ?_
      rw [Set.uIcc_of_le (by linarith)] at hy
      exact slice_cap_gen hC hy
    rw [e, cap_integral hC (by linarith) le_rfl, capW_full hC]
    have hsq := hC.sq
    have : dishDepth D f k = f * D - f * D * toriCos f k := by unfold dishDepth; ring
    rw [this, show dishRim D f k ^ 2 = (f * D) ^ 2 - (f * D * toriCos f k) ^ 2 by linarith]
    ring
  · intro y hy
    exact slice_out (by nlinarith [hy.1])

/-! ### The three branches -/

theorem toint_1_int (hD : 0 < D) (hk : 0 < k ∧ k < 1 / 2) {w u : ℝ} (hw : 0 ≤ w) :
    ∫ x in (0 : ℝ)..u, toint_1 w (k * k * D * D) (D / 2 - k * D) x = ∫ x in (0 : ℝ)..u, seg (knuckleRadius D k x) w := by
  refine intervalIntegral.integral_congr fun x _ => ?_
  beta_reduce
  rw [← toint_1_eq (knuckleRadius_pos hD hk x) hw]
  unfold toint_1 knuckleRadius
  rw [show k * k * D * D - x * x = (k * D) ^ 2 - x ^ 2 by ring]

/-- the discs further out than `sqrt(2kD h - h²)` are dry -/
theorem knuckle_dry (hD : 0 < D) (hk : 0 < k ∧ k < 1 / 2) (hf : 1 / 2 ≤ f) {h : ℝ} (h0 : 0 ≤ h) (h1 : h ≤ D / 2 - dishRim D f k) :
    ∫ x in (0 : ℝ)..√(2 * k * D * h - h * h), seg (knuckleRadius D k x) (D / 2 - h) = ∫ x in (0 : ℝ)..knuckleHeight D f k, seg (knuckleRadius D k x) (D / 2 - h) := by
  have hkD := mul_pos hk.1 hD
  have hs := toriSin_pos hk hf
  have hr := dishRim_eq (D := D) hk hf
  have hkh : h ≤ k * D * (1 - toriSin f k) := by linarith
  have hh : h ≤ k * D := by nlinarith
  have hle : √(2 * k * D * h - h * h) ≤ knuckleHeight D f k := by
    rw [sqrt_le_iff]
    refine ⟨knuckleHeight_nonneg hD hk, ?_⟩
    have := tori_sq hk hf
    have h2 : k * D * toriSin f k ≤ k * D - h := by linarith
    have h3 : (k * D * toriSin f k) ^ 2 ≤ (k * D - h) ^ 2 := pow_le_pow_left₀ (by positivity) h2 2
    unfold knuckleHeight
    nlinarith
  have hc := seg_continuous (continuous_knuckleRadius (D := D) (k := k)) (knuckleRadius_pos hD hk) (D / 2 - h)
  rw [← intervalIntegral.integral_add_adjacent_intervals (hc.intervalIntegrable 0 √(2 * k * D * h - h * h)) (hc.intervalIntegrable _ (knuckleHeight D f k)),
    integral_zero_of hle, add_zero]
  intro x hx
  refine seg_empty (knuckleRadius_pos hD hk x) ?_
  have hx2 : 2 * k * D * h - h * h ≤ x ^ 2 := by
    rcases le_or_gt 0 (2 * k * D * h - h * h) with g | g
    · rw [← sq_sqrt g]; exact pow_le_pow_left₀ (sqrt_nonneg _) hx.1 2
    · nlinarith [sq_nonneg x]
  have : √((k * D) ^ 2 - x ^ 2) ≤ k * D - h := by
    rw [sqrt_le_iff]
    exact ⟨by linarith, by nlinarith⟩
  unfold knuckleRadius
  linarith

theorem toint_2_int (hD : 0 < D) (hk : 0 < k ∧ k < 1 / 2) {w g u : ℝ} :
    ∫ x in (0 : ℝ)..u, toint_2 w (k * k * D * D) (D / 2 - k * D) g (g * g) x
      = (∫ x in (0 : ℝ)..u, seg (knuckleRadius D k x) w) - ∫ x in (0 : ℝ)..u, seg (knuckleRadius D k x) g := by
  have hc := fun w => seg_continuous (continuous_knuckleRadius (D := D) (k := k)) (knuckleRadius_pos hD hk) w
  rw [← intervalIntegral.integral_sub ((hc w).intervalIntegrable _ _) ((hc g).intervalIntegrable _ _)]
  refine intervalIntegral.integral_congr fun x _ => ?_
  beta_reduce
  unfold toint_2 seg knuckleRadius
  rw [show k * k * D * D - x * x = (k * D) ^ 2 - x ^ 2 by ring]
  simp only [mul_one_div]
  ring

theorem toint_3_int {R r z : ℝ} (hC : Cap R r z) {h : ℝ} (h0 : 0 ≤ h) (h1 : h ≤ 2 * R) :
    (∫ x in (R - h)..R, toint_3 (r * r) (R * R) (1 / z) x) - 0.5 * z * segArea R h = ∫ y in (0 : ℝ)..h, capS R r z y := by
  have hR := hC.hR
  have hz := hC.hz
  have h2 := continuous_arctan
  have c1 : Continuous (fun y => (r ^ 2 - (R - y) ^ 2) * arctan (√(y * (2 * R - y)) / z)) := by fun_prop
  have c2 : Continuous (fun y => z / 2 * chord R y) := continuous_const.mul (continuous_chord R)
  have e : ∫ y in (0 : ℝ)..h, capS R r z y = ∫ y in (0 : ℝ)..h, ((r ^ 2 - (R - y) ^ 2) * arctan (√(y * (2 * R - y)) / z) - z / 2 * chord R y) := by
    refine intervalIntegral.integral_congr fun y _ => ?_
    simp only [capS, chord]; ring
  have e2 : ∫ x in (R - h)..R, toint_3 (r * r) (R * R) (1 / z) x = ∫ y in (0 : ℝ)..h, (r ^ 2 - (R - y) ^ 2) * arctan (√(y * (2 * R - y)) / z) := by
    have := intervalIntegral.integral_comp_sub_left (a := 0) (b := h) (fun x => toint_3 (r * r) (R * R) (1 / z) x) R
    rw [sub_zero] at this
    rw [← this]
    refine intervalIntegral.integral_congr fun y hy => ?_
    simp only [toint_3]
    rw [show R * R - (R - y) * (R - y) = y * (2 * R - y) by ring, mul_one_div]
    ring
  rw [e, e2, intervalIntegral.integral_sub (c1.intervalIntegrable _ _) (c2.intervalIntegrable _ _), intervalIntegral.integral_const_mul, integral_chord hR h0 h1]
  ring

theorem horizToriPair_eq (hD : 0 < D) (hk : 0 < k ∧ k < 1 / 2) (hf : 1 / 2 < f) {h : ℝ} (h0 : 0 ≤ h) (h1 : h ≤ D) :
    horizToriPair D (D / 2) k h (arcsin (toriSin f k)) (f * D) = .ok (2 * (knuckleFill D f k h + dishFill D f k h)) := by
  have hkD := mul_pos hk.1 hD
  have hs := toriSin_pos hk hf.le
  have hs1 := toriSin_le hk hf.le
  have hr := dishRim_eq (D := D) hk hf.le
  have hrp := dishRim_pos hD hk hf.le
  have hrl := dishRim_le hD hk hf.le
  have hC := tori_cap hD hk hf
  have hh1 : k * D * (1 - toriSin f k) = D / 2 - dishRim D f k := by rw [hr]; ring
  have hkn : f * D * toriSin f k = dishRim D f k := rfl
  have hkh : k * D * toriCos f k = knuckleHeight D f k := rfl
  have hc := fun w => seg_continuous (continuous_knuckleRadius (D := D) (k := k)) (knuckleRadius_pos hD hk) w
  have hu : 0 ≤ D / 2 - dishRim D f k := by linarith
  have huk : D / 2 - dishRim D f k ≤ 2 * k * D := by rw [hr]; nlinarith
  simp only [horizToriPair, sin_alpha hk hf.le, cos_alpha, hh1, hkn, hkh]
  have eV1 : psqrt (2 * k * D * (D / 2 - dishRim D f k) - (D / 2 - dishRim D f k) * (D / 2 - dishRim D f k))
      = .ok √(2 * k * D * (D / 2 - dishRim D f k) - (D / 2 - dishRim D f k) * (D / 2 - dishRim D f k)) := psqrt_ok (by nlinarith)
  have V1 : ∫ x in (0 : ℝ)..√(2 * k * D * (D / 2 - dishRim D f k) - (D / 2 - dishRim D f k) * (D / 2 - dishRim D f k)),
      toint_1 (D / 2 - (D / 2 - dishRim D f k)) (k * k * D * D) (D / 2 - k * D) x = ∫ x in (0 : ℝ)..knuckleHeight D f k, seg (knuckleRadius D k x) (dishRim D f k) := by
    rw [toint_1_int hD hk (by linarith), knuckle_dry hD hk hf.le hu le_rfl, sub_sub_cancel]
  split_ifs with b1 b2 b3
  · rw [psqrt_ok (by nlinarith [b1.2]), Py.ok_bind, Py.pure_eq, toint_1_int hD hk (by linarith [b1.2]), knuckle_dry hD hk hf.le h0 b1.2, ← knuckleFill_eq,
      dishFill_low hD hk hf b1.2, add_zero]
  · have m1 : 0 < h - (D / 2 - dishRim D f k) := by linarith [b2.1]
    have m2 : h - (D / 2 - dishRim D f k) < 2 * dishRim D f k := by linarith [b2.2]
    have ew : D / 2 - h = dishRim D f k - (h - (D / 2 - dishRim D f k)) := by ring
    have ea : pacos ((D / 2 - h) / dishRim D f k) = .ok (arccos ((D / 2 - h) / dishRim D f k)) := by
      refine pacos_ok ?_ ?_
      · rw [le_div_iff₀ hrp]; linarith
      · rw [div_le_iff₀ hrp]; linarith
    rw [eV1, Py.ok_bind, pdiv_ok hC.hz.ne', Py.ok_bind, pdiv_ok hrp.ne', Py.ok_bind, ea, Py.ok_bind, psqrt_ok (by nlinarith), Py.ok_bind, Py.pure_eq, V1, toint_2_int hD hk,
      knuckleFill_eq, dishFill_mid hD hk hf b2.1.le (by linarith [b2.2]), ← toint_3_int hC m1.le m2.le]
    congr 1
    have : dishRim D f k * dishRim D f k * arccos ((D / 2 - h) / dishRim D f k)
        - (D / 2 - h) * √(2 * dishRim D f k * (h - (D / 2 - dishRim D f k)) - (h - (D / 2 - dishRim D f k)) * (h - (D / 2 - dishRim D f k)))
        = segArea (dishRim D f k) (h - (D / 2 - dishRim D f k)) := by
      unfold segArea
      rw [← ew]
      ring_nf
    rw [this, ← ew]
    ring
  all_goals
    have hhi : D / 2 + dishRim D f k ≤ h := by
      by_contra hcon
      push Not at hcon
      by_cases hlo : h ≤ D / 2 - dishRim D f k
      · exact b1 ⟨h0, hlo⟩
      · exact b2 ⟨not_le.mp hlo, by linarith⟩
    have e2 : psqrt (2 * k * D * (D - h) - (D - h) * (D - h)) = .ok √(2 * k * D * (D - h) - (D - h) * (D - h)) := psqrt_ok (by nlinarith)
    rw [eV1, Py.ok_bind, e2, Py.ok_bind, Py.pure_eq, V1, toint_2_int hD hk, dishFill_high hD hk hf hhi, knuckleFill_eq]
    congr 1
    have hw : ∫ x in (0 : ℝ)..√(2 * k * D * (D - h) - (D - h) * (D - h)), toint_1 (D / 2 - (D - h)) (k * k * D * D) (D / 2 - k * D) x
        = ∫ x in (0 : ℝ)..knuckleHeight D f k, seg (knuckleRadius D k x) (D / 2 - (D - h)) := by
      rw [toint_1_int hD hk (by linarith), knuckle_dry hD hk hf.le (by linarith) (by linarith)]
    have hif : (if √(2 * k * D * (D - h) - (D - h) * (D - h)) ≠ 0 then
        ∫ x in (0 : ℝ)..√(2 * k * D * (D - h) - (D - h) * (D - h)), toint_1 (D / 2 - (D - h)) (k * k * D * D) (D / 2 - k * D) x else 0)
        = ∫ x in (0 : ℝ)..knuckleHeight D f k, seg (knuckleRadius D k x) (D / 2 - (D - h)) := by
      split_ifs with hz
      · exact hw
      · rw [← hw, not_not.mp hz, intervalIntegral.integral_same]
    have pair : ∀ w, (∫ x in (0 : ℝ)..knuckleHeight D f k, seg (knuckleRadius D k x) (-w)) =
        (∫ x in (0 : ℝ)..knuckleHeight D f k, π * knuckleRadius D k x ^ 2) - ∫ x in (0 : ℝ)..knuckleHeight D f k, seg (knuckleRadius D k x) w := by
      intro w
      have hcn : Continuous fun x => π * knuckleRadius D k x ^ 2 := continuous_const.mul (continuous_knuckleRadius.pow 2)
      rw [← intervalIntegral.integral_sub (hcn.intervalIntegrable _ _) ((hc w).intervalIntegrable _ _)]
      exact intervalIntegral.integral_congr fun x _ => seg_neg
    have p1 := pair (dishRim D f k)
    have p2 := pair (D / 2 - (D - h))
    rw [show -(D / 2 - (D - h)) = D / 2 - h by ring] at p2
    rw [hif, show D / 2 - (D - (D / 2 - dishRim D f k)) = -dishRim D f k by ring, p1, p2, show f * D * (1 - toriCos f k) = dishDepth D f k from rfl]
    ring

/-- C59: torispherical heads of a horizontal tank.  The level is first limited to the diameter; a level within a relative 2e-15 of the diameter counts as full. -/
theorem C59_horiz_torispherical {D L f k : ℝ} (hD : 0 < D) (hk : 0 < k ∧ k < 1 / 2) (hf : 1 / 2 < f) :
    (∀ h ≤ 0, ∀ b, V_horiz_torispherical D L f k h b = .ok 0) ∧
    (∀ h, 0 < h → h ≤ D → ¬ isclose h D 2e-15 →
      V_horiz_torispherical D L f k h true = .ok (knuckleFill D f k h + dishFill D f k h) ∧
      V_horiz_torispherical D L f k h false = .ok (2 * (knuckleFill D f k h + dishFill D f k h) + L * segArea (D / 2) h)) ∧
    (∀ h, 0 < h → (D ≤ h ∨ isclose h D 2e-15) →
      V_horiz_torispherical D L f k h true = .ok (knuckleFill D f k D + dishFill D f k D) ∧
      V_horiz_torispherical D L f k h false = .ok (2 * (knuckleFill D f k D + dishFill D f k D) + L * segArea (D / 2) D)) := by
  have key : ∀ h h' b, 0 < h → (if h > D ∨ isclose h D 2e-15 then D else h) = h' → 0 ≤ h' → h' ≤ D → V_horiz_torispherical D L f k h b =
      .ok (finish b (2 * (knuckleFill D f k h' + dishFill D f k h')) (segArea (D / 2) h') L) := by
    intro h h' b hh e h0 h1
    simp only [V_horiz_torispherical, if_neg (not_le.mpr hh), e]
    rw [show (0.5 : ℝ) * D = D / 2 by ring, segment_ok (by linarith) h0 (by linarith), Py.ok_bind, toriAlpha_ok hk hf.le, Py.ok_bind, horizToriPair_eq hD hk hf h0 h1,
      Py.ok_bind, Py.pure_eq]
  refine ⟨fun h hh b => by simp only [V_horiz_torispherical, if_pos hh], fun h hh h1 hc => ?_, fun h hh hc => ?_⟩
  · have e : (if h > D ∨ isclose h D 2e-15 then D else h) = h := if_neg (by rintro (g | g); exacts [absurd h1 (not_le.mpr g), hc g])
    rw [key h h true hh e hh.le h1, key h h false hh e hh.le h1]
    simp only [finish, if_true, Bool.false_eq_true, if_false]
    exact ⟨by congr 1; ring, by congr 1; ring⟩
  · have e : (if h > D ∨ isclose h D 2e-15 then D else h) = D := by
      split_ifs with g
      · rfl
      · push Not at g
        rcases hc with hc | hc
        · exact le_antisymm g.1 hc
        · exact absurd hc g.2
    rw [key h D true hh e hD.le le_rfl, key h D false hh e hD.le le_rfl]
    simp only [finish, if_true, Bool.false_eq_true, if_false]
    exact ⟨by congr 1; ring, by congr 1; ring⟩

/-! ### The fill function: zero when empty, nondecreasing, the knuckle and the dish full at the top -/

theorem segArea_le_of {R : ℝ} (hR : 0 < R) {s t : ℝ} (h : s ≤ t) : segArea R s ≤ segArea R t := by
  have e : ∀ x, segArea R x = segArea R (max 0 (min x (2 * R))) := by
    intro x
    rcases le_or_gt x 0 with h0 | h0
    · rw [max_eq_left ((min_le_left _ _).trans h0), segArea_zero hR, segArea_eq_seg, seg_empty hR (by linarith)]
    rcases le_or_gt x (2 * R) with h1 | h1
    · rw [min_eq_left h1, max_eq_right h0.le]
    · rw [min_eq_right h1.le, max_eq_right (by linarith), segArea_full hR, segArea_eq_seg, show R - x = -(x - R) by ring, seg_neg, seg_empty hR (by linarith), sub_zero]
  rw [e s, e t]
  have hm : ∀ y, max 0 (min y (2 * R)) ∈ Set.Icc 0 (2 * R) := fun y => ⟨le_max_left _ _, max_le (by linarith) (min_le_right _ _)⟩
  exact (segArea_strictMono hR).monotoneOn (hm s) (hm t) (max_le_max le_rfl (min_le_min h le_rfl))

theorem toriFill_mono (hD : 0 < D) (hk : 0 < k ∧ k < 1 / 2) (hf : 1 / 2 < f) : Monotone fun h => knuckleFill D f k h + dishFill D f k h := by
  intro s t hst
  refine add_le_add ?_ ?_
  · have hc := fun w => seg_continuous (continuous_knuckleRadius (D := D) (k := k)) (knuckleRadius_pos hD hk) w
    rw [knuckleFill_eq, knuckleFill_eq]
    refine intervalIntegral.integral_mono_on (knuckleHeight_nonneg hD hk) ((hc _).intervalIntegrable _ _) ((hc _).intervalIntegrable _ _) fun x _ => ?_
    have := segArea_le_of (knuckleRadius_pos hD hk x) (show s - (D / 2 - knuckleRadius D k x) ≤ t - (D / 2 - knuckleRadius D k x) by linarith)
    rw [segArea_eq_seg, segArea_eq_seg] at this
    rw [show D / 2 - s = knuckleRadius D k x - (s - (D / 2 - knuckleRadius D k x)) by ring, show D / 2 - t = knuckleRadius D k x - (t - (D / 2 - knuckleRadius D k x)) by ring]
    exact this
  · have hc := continuous_dishSlice hD hk hf
    have hc' : Continuous fun y => slice (dishDepthAt D f k) (dishRim D f k) (y - (D / 2 - dishRim D f k)) := hc.comp (by fun_prop)
    unfold dishFill
    rw [← intervalIntegral.integral_add_adjacent_intervals (hc'.intervalIntegrable 0 s) (hc'.intervalIntegrable s t)]
    have : 0 ≤ ∫ y in s..t, slice (dishDepthAt D f k) (dishRim D f k) (y - (D / 2 - dishRim D f k)) :=
      intervalIntegral.integral_nonneg hst fun y _ => dishSlice_nonneg hD hk hf _
    linarith

/-- C59: the torispherical head is empty at `h = 0`, holds the whole solid of revolution when full, and never loses liquid as the level rises -/
theorem C59_horiz_torispherical_fill {D L f k : ℝ} (hD : 0 < D) (hL : 0 ≤ L) (hk : 0 < k ∧ k < 1 / 2) (hf : 1 / 2 < f) :
    knuckleFill D f k 0 + dishFill D f k 0 = 0 ∧
    knuckleFill D f k D + dishFill D f k D
      = (∫ x in (0 : ℝ)..knuckleHeight D f k, π * knuckleRadius D k x ^ 2) + π / 6 * dishDepth D f k * (3 * dishRim D f k ^ 2 + dishDepth D f k ^ 2) ∧
    (∀ b, ∃ V : ℝ → ℝ, (∀ h, V_horiz_torispherical D L f k h b = .ok (V h)) ∧ Monotone V) := by
  have hrad : ∀ x, knuckleRadius D k x ≤ D / 2 := by
    intro x
    have hkD := mul_pos hk.1 hD
    have : √((k * D) ^ 2 - x ^ 2) ≤ k * D := by rw [sqrt_le_iff]; exact ⟨hkD.le, by nlinarith [sq_nonneg x]⟩
    unfold knuckleRadius; linarith
  have hzero : knuckleFill D f k 0 + dishFill D f k 0 = 0 := by
    have : dishFill D f k 0 = 0 := by unfold dishFill; rw [intervalIntegral.integral_same]
    rw [this, knuckleFill_eq, integral_zero_of (knuckleHeight_nonneg hD hk), add_zero]
    intro x _
    exact seg_empty (knuckleRadius_pos hD hk x) (by linarith [hrad x])
  refine ⟨hzero, ?_, ?_⟩
  · rw [dishFill_high hD hk hf (by linarith [dishRim_le hD hk hf.le]), knuckleFill_eq]
    congr 1
    refine intervalIntegral.integral_congr fun x _ => ?_
    beta_reduce
    rw [show D / 2 - D = -(D / 2) by ring, seg_neg, seg_empty (knuckleRadius_pos hD hk x) (hrad x), sub_zero]
  · intro b
    obtain ⟨c1, c2, c3⟩ := C59_horiz_torispherical (L := L) hD hk hf
    have hm := toriFill_mono hD hk hf
    let e : ℝ → ℝ := fun h => if h ≤ 0 then 0 else if D ≤ h ∨ isclose h D 2e-15 then D else h
    have e0 : ∀ h, 0 ≤ e h := by intro h; simp only [e]; split_ifs with g1 g2 <;> linarith
    have eD : ∀ h, e h ≤ D := by
      intro h; simp only [e]; split_ifs with g1 g2
      · exact hD.le
      · exact le_rfl
      · push Not at g2; exact g2.1.le
    have em : Monotone e := by
      intro s t hst
      simp only [e]
      by_cases s0 : s ≤ 0
      · rw [if_pos s0]; exact e0 t
      have t0 : ¬ t ≤ 0 := by push Not at s0 ⊢; linarith
      rw [if_neg s0, if_neg t0]
      by_cases td : D ≤ t ∨ isclose t D 2e-15
      · rw [if_pos td]; have := eD s; simpa only [e, if_neg s0] using this
      · rw [if_neg td]
        push Not at td s0 t0
        rw [if_neg]
        · exact hst
        push Not
        refine ⟨by linarith [td.1], fun hc => td.2 ?_⟩
        unfold isclose at hc ⊢
        rw [abs_of_nonpos (by linarith [td.1]), abs_of_pos s0, abs_of_pos hD, max_eq_right (by linarith [td.1])] at hc
        rw [abs_of_nonpos (by linarith [td.1]), abs_of_pos t0, abs_of_pos hD, max_eq_right td.1.le]
        linarith
    refine ⟨fun h => if b then knuckleFill D f k (e h) + dishFill D f k (e h) else 2 * (knuckleFill D f k (e h) + dishFill D f k (e h)) + L * segArea (D / 2) (e h), ?_, ?_⟩
    · intro h
      by_cases h0 : h ≤ 0
      · rw [c1 h h0 b]
        have : e h = 0 := by simp only [e, if_pos h0]
        simp only [this, hzero, segArea_zero (show (0 : ℝ) < D / 2 by linarith)]
        cases b <;> simp
      · by_cases hd : D ≤ h ∨ isclose h D 2e-15
        · have : e h = D := by simp only [e, if_neg h0, if_pos hd]
          obtain ⟨d1, d2⟩ := c3 h (not_le.mp h0) hd
          cases b
          · rw [d2]; simp [this]
          · rw [d1]; simp [this]
        · have : e h = h := by simp only [e, if_neg h0, if_neg hd]
          push Not at hd h0
          obtain ⟨d1, d2⟩ := c2 h h0 hd.1.le hd.2
          cases b
          · rw [d2]; simp [this]
          · rw [d1]; simp [this]
    · intro s t hst
      have h1 := hm (em hst)
      have h2 := segArea_le_of (show (0 : ℝ) < D / 2 by linarith) (em hst)
      have h3 := mul_le_mul_of_nonneg_left h2 hL
      beta_reduce at h1 ⊢
      cases b
      · simp only [Bool.false_eq_true, if_false]; linarith
      · simp only [if_true]; exact h1

example : V_horiz_torispherical 2 5 1 0.06 1.3 true = .ok (knuckleFill 2 1 0.06 1.3 + dishFill 2 1 0.06 1.3) :=
  ((C59_horiz_torispherical (D := 2) (L := 5) (f := 1) (k := 0.06) (by norm_num) (by norm_num) (by norm_num)).2.1 1.3 (by norm_num) (by norm_num)
    (by unfold isclose; norm_num [abs_of_neg, abs_of_pos])).1

end Verif.Geometry
