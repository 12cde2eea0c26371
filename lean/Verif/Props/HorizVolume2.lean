import Verif.Props.HorizVolume

/-! C59: conical and spherical heads of horizontal tanks. -/

open Real

noncomputable section

namespace Verif.Geometry

variable {R a : ℝ}

/-! ### Conical heads -/

/-- primitive of `sqrt(x^2 + w^2)` -/
theorem integral_hyp {c w : ℝ} (hc : 0 ≤ c) : ∫ x in (-c)..c, √(x ^ 2 + w ^ 2) = c * √(c ^ 2 + w ^ 2) + w ^ 2 * arsinh (c / |w|) := by
  have hP : Continuous fun x => (x * √(x ^ 2 + w ^ 2) + w ^ 2 * arsinh (x / |w|)) / 2 := by
    have := continuous_arsinh
    fun_prop
  rw [integral_of_deriv (p := 0) (V := fun x => (x * √(x ^ 2 + w ^ 2) + w ^ 2 * arsinh (x / |w|)) / 2) (by linarith) (by fun_prop) hP.continuousOn]
  · rw [neg_div, arsinh_neg, neg_sq]; ring
  · intro x _ hx
    have hq : 0 < x ^ 2 + w ^ 2 := by positivity
    have hs : 0 < √(x ^ 2 + w ^ 2) := sqrt_pos.mpr hq
    have hss := sq_sqrt hq.le
    have d1 : HasDerivAt (fun x : ℝ => √(x ^ 2 + w ^ 2)) (2 * x / (2 * √(x ^ 2 + w ^ 2))) x := by
      have := ((hasDerivAt_pow 2 x).add_const (w ^ 2)).sqrt hq.ne'
      simpa using this
    have d2 : HasDerivAt (fun x : ℝ => w ^ 2 * arsinh (x / |w|)) (w ^ 2 / √(x ^ 2 + w ^ 2)) x := by
      rcases eq_or_ne w 0 with rfl | hw
      · simpa using hasDerivAt_const x (0 : ℝ)
      · have hw' : 0 < |w| := abs_pos.mpr hw
        have h1 := ((hasDerivAt_arsinh (x / |w|)).comp x ((hasDerivAt_id' x).div_const |w|)).const_mul (w ^ 2)
        refine h1.congr_deriv ?_
        rw [show 1 + (x / |w|) ^ 2 = (x ^ 2 + w ^ 2) / |w| ^ 2 by rw [div_pow, sq_abs]; field_simp; ring, sqrt_div hq.le, sqrt_sq hw'.le]
        field_simp
    have d := (((hasDerivAt_id' x).mul d1).add d2).div_const 2
    refine d.congr_deriv ?_
    generalize √(x ^ 2 + w ^ 2) = s at *
    field_simp
    linear_combination (-1 : ℝ) * hss

theorem arsinh_log {c w : ℝ} (hw : w ≠ 0) : arsinh (c / |w|) = log (c + √(c ^ 2 + w ^ 2)) - log w := by
  have hw' : 0 < |w| := abs_pos.mpr hw
  have hq : 0 < c ^ 2 + w ^ 2 := by positivity
  have hpos : 0 < c + √(c ^ 2 + w ^ 2) := by
    have : |c| < √(c ^ 2 + w ^ 2) := by
      rw [← sqrt_sq_eq_abs]
      exact sqrt_lt_sqrt (sq_nonneg _) (by have : 0 < w ^ 2 := by positivity
                                           linarith)
    linarith [neg_abs_le c]
  rw [arsinh, show 1 + (c / |w|) ^ 2 = (c ^ 2 + w ^ 2) / |w| ^ 2 by rw [div_pow, sq_abs]; field_simp; ring, sqrt_div hq.le, sqrt_sq hw'.le,
    ← add_div, log_div hpos.ne' hw'.ne', log_abs]

/-- wetted area of a conical head -/
def coneS (R a y : ℝ) : ℝ :=
  a * (√(y * (2 * R - y)) - ((R - y) ^ 2 * log (√(y * (2 * R - y)) + R) - (R - y) * ((R - y) * log (R - y))) / R)

theorem continuous_coneS (hR : 0 < R) : Continuous (coneS R a) := by
  have h1 : Continuous fun y : ℝ => log (√(y * (2 * R - y)) + R) :=
    Continuous.log (by fun_prop) (fun y => by have := sqrt_nonneg (y * (2 * R - y)); linarith)
  have h2 : Continuous fun y : ℝ => (R - y) * log (R - y) := continuous_mul_log.comp (continuous_const.sub continuous_id)
  unfold coneS
  fun_prop

theorem slice_cone (hR : 0 < R) {y : ℝ} (hy : y ∈ Set.Icc 0 (2 * R)) : slice (coneDepth R a) R y = coneS R a y := by
  have hq : 0 ≤ y * (2 * R - y) := mul_nonneg hy.1 (by linarith [hy.2])
  have hs := sqrt_nonneg (y * (2 * R - y))
  have hcc := sq_sqrt hq
  unfold slice coneS
  generalize √(y * (2 * R - y)) = c at *
  have hcw : c ^ 2 + (R - y) ^ 2 = R ^ 2 := by rw [hcc]; ring
  have e : ∫ x in (-c)..c, coneDepth R a x y = ∫ x in (-c)..c, (a - a / R * √(x ^ 2 + (R - y) ^ 2)) := by
    refine intervalIntegral.integral_congr fun x _ => ?_
    simp only [coneDepth]; ring
  rw [e, intervalIntegral.integral_sub (by simp) ((by fun_prop : Continuous fun x : ℝ => a / R * √(x ^ 2 + (R - y) ^ 2)).intervalIntegrable _ _),
    intervalIntegral.integral_const, intervalIntegral.integral_const_mul, integral_hyp hs, hcw, sqrt_sq hR.le]
  simp only [smul_eq_mul]
  rcases eq_or_ne (R - y) 0 with hw | hw
  · rw [hw]; simp; field_simp; ring
  · rw [arsinh_log hw, hcw, sqrt_sq hR.le]
    field_simp; ring

/-- volume of one conical head below `y` -/
def coneW (R a y : ℝ) : ℝ :=
  a / (3 * R) * (R ^ 3 * arccos ((R - y) / R) + (R - y) ^ 3 * log (√(y * (2 * R - y)) + R) - (R - y) ^ 2 * ((R - y) * log (R - y))
    - 2 * R * ((R - y) * √(y * (2 * R - y))))

theorem continuous_coneW (hR : 0 < R) : Continuous (coneW R a) := by
  have h1 : Continuous fun y : ℝ => log (√(y * (2 * R - y)) + R) :=
    Continuous.log (by fun_prop) (fun y => by have := sqrt_nonneg (y * (2 * R - y)); linarith)
  have h2 : Continuous fun y : ℝ => (R - y) * log (R - y) := continuous_mul_log.comp (continuous_const.sub continuous_id)
  have := continuous_arccos
  unfold coneW
  fun_prop

theorem hasDerivAt_coneW (hR : 0 < R) {y : ℝ} (h0 : 0 < y) (h1 : y < 2 * R) (hne : y ≠ R) : HasDerivAt (coneW R a) (coneS R a y) y := by
  have hq : 0 < y * (2 * R - y) := mul_pos h0 (by linarith)
  have hs : 0 < √(y * (2 * R - y)) := sqrt_pos.mpr hq
  have hss := sq_sqrt hq.le
  have hw : R - y ≠ 0 := sub_ne_zero.mpr hne.symm
  have hpos : √(y * (2 * R - y)) + R ≠ 0 := by linarith
  have dw : HasDerivAt (fun y : ℝ => R - y) (-1) y := by simpa using (hasDerivAt_id' y).const_sub R
  have dc := hasDerivAt_halfchord hq
  have dl : HasDerivAt (fun y => log (√(y * (2 * R - y)) + R)) ((R - y) / √(y * (2 * R - y)) / (√(y * (2 * R - y)) + R)) y := (dc.add_const R).log hpos
  have dlw : HasDerivAt (fun y : ℝ => log (R - y)) (-1 / (R - y)) y := dw.log hw
  have d := (((((hasDerivAt_acos hR h0 h1).const_mul (R ^ 3)).add ((dw.pow 3).mul dl)).sub ((dw.pow 2).mul (dw.mul dlw))).sub
    ((dw.mul dc).const_mul (2 * R))).const_mul (a / (3 * R))
  unfold coneW coneS
  refine d.congr_deriv ?_
  simp only [Pi.mul_apply, Pi.pow_apply]
  have hcw : √(y * (2 * R - y)) ^ 2 = R ^ 2 - (R - y) ^ 2 := by rw [hss]; ring
  generalize √(y * (2 * R - y)) = c at *
  generalize R - y = w at *
  have hR' := hR.ne'
  have hs' := hs.ne'
  generalize log (c + R) = l1
  generalize log w = l2
  have hw2 : w ^ 2 = (R - c) * (c + R) := by linear_combination hcw
  have key : w ^ 3 * (w / c / (c + R)) = w ^ 2 * (R - c) / c := by
    field_simp
    linear_combination hw2
  norm_num
  rw [key]
  field_simp
  linear_combination (-a * R : ℝ) * hcw

theorem arcosh_eq {c w : ℝ} (hR : 0 < R) (hw : w ≠ 0) (hc : 0 ≤ c) (hcw : c ^ 2 + w ^ 2 = R ^ 2) : arcosh (1 / (|w / R|)) = log (c + R) - log w := by
  have hw' : 0 < |w| := abs_pos.mpr hw
  rw [arcosh, abs_div, abs_of_pos hR, one_div_div,
    show (R / |w|) ^ 2 - 1 = c ^ 2 / |w| ^ 2 by rw [div_pow, sq_abs]; field_simp; linarith, sqrt_div (sq_nonneg _), sqrt_sq hc, sqrt_sq hw'.le,
    ← add_div, log_div (by linarith) hw'.ne', log_abs, add_comm]

/-- the pair of cones of the code is twice the volume of one cone -/
theorem conePair_ok (hR : 0 < R) {y : ℝ} (h0 : 0 ≤ y) (h1 : y ≤ 2 * R) :
    horizConicalPair R (R * (1 / 3)) a y |(R - y) / R| = .ok (2 * coneW R a y) := by
  have hq : 0 ≤ y * (2 * R - y) := mul_nonneg h0 (by linarith)
  have hs := sqrt_nonneg (y * (2 * R - y))
  have hss := sq_sqrt hq
  simp only [horizConicalPair]
  split_ifs with hy hb
  · subst hy
    congr 1
    unfold coneW
    simp; field_simp
  all_goals
    have hw : R - y ≠ 0 := sub_ne_zero.mpr (Ne.symm hy)
    have hM : |(R - y) / R| ≠ 0 := abs_ne_zero.mpr (div_ne_zero hw hR.ne')
    have hM1 : |(R - y) / R| ≤ 1 := by
      rw [abs_le]; constructor
      · rw [le_div_iff₀ hR]; linarith
      · rw [div_le_one hR]; linarith
    have hcw : √(y * (2 * R - y)) ^ 2 + (R - y) ^ 2 = R ^ 2 := by rw [hss]; ring
    have e1 : pacos |(R - y) / R| = .ok (arccos |(R - y) / R|) := pacos_ok (by linarith [abs_nonneg ((R - y) / R)]) hM1
    have e2 : pacosh (1 / |(R - y) / R|) = .ok (log (√(y * (2 * R - y)) + R) - log (R - y)) := by
      rw [pacosh_ok, arcosh_eq hR hw hs hcw]
      rw [le_div_iff₀ (abs_pos.mpr (div_ne_zero hw hR.ne'))]; linarith
    have e3 : psqrt (1 - |(R - y) / R| * |(R - y) / R|) = .ok (√(y * (2 * R - y)) / R) := by
      rw [psqrt_ok (by nlinarith [abs_nonneg ((R - y) / R)]), abs_mul_abs_self,
        show 1 - (R - y) / R * ((R - y) / R) = y * (2 * R - y) / R ^ 2 by field_simp; ring, sqrt_div hq, sqrt_sq hR.le]
  · rw [e1, Py.ok_bind, pdiv_ok hM, Py.ok_bind, e2, Py.ok_bind, e3, Py.ok_bind, Py.pure_eq]
    have : |(R - y) / R| = (R - y) / R := abs_of_pos (div_pos (by linarith [hb.2]) hR)
    rw [this]
    congr 1
    unfold coneW
    generalize √(y * (2 * R - y)) = c at *
    generalize log (c + R) = l1
    generalize log (R - y) = l2
    generalize arccos ((R - y) / R) = θ
    field_simp
    ring
  · rw [e1, Py.ok_bind, pdiv_ok hM, Py.ok_bind, e2, Py.ok_bind, e3, Py.ok_bind, Py.pure_eq]
    have hlt : R < y := by
      by_contra hcon
      exact hb ⟨h0, lt_of_le_of_ne (not_lt.mp hcon) hy⟩
    have : |(R - y) / R| = -((R - y) / R) := abs_of_neg (div_neg_of_neg_of_pos (by linarith) hR)
    rw [this, arccos_neg]
    congr 1
    unfold coneW
    generalize √(y * (2 * R - y)) = c at *
    generalize log (c + R) = l1
    generalize log (R - y) = l2
    generalize arccos ((R - y) / R) = θ
    field_simp
    ring

/-- depth of a cone is nowhere negative inside the shell, so neither is the wetted area -/
theorem coneS_nonneg (hR : 0 < R) (ha : 0 ≤ a) {y : ℝ} (hy : y ∈ Set.Icc 0 (2 * R)) : 0 ≤ slice (coneDepth R a) R y := by
  have hq : 0 ≤ y * (2 * R - y) := mul_nonneg hy.1 (by linarith [hy.2])
  have hss := sq_sqrt hq
  have hs := sqrt_nonneg (y * (2 * R - y))
  unfold slice
  refine intervalIntegral.integral_nonneg (by linarith) fun x hx => ?_
  have : √(x ^ 2 + (R - y) ^ 2) ≤ R := by
    refine sqrt_le_iff.mpr ⟨hR.le, ?_⟩
    have : x ^ 2 ≤ √(y * (2 * R - y)) ^ 2 := sq_le_sq.mpr (by rw [abs_of_nonneg hs]; exact abs_le.mpr hx)
    rw [hss] at this
    nlinarith
  unfold coneDepth
  refine mul_nonneg ha ?_
  have : √(x ^ 2 + (R - y) ^ 2) / R ≤ 1 := (div_le_one hR).mpr this
  linarith

theorem emin (h D : ℝ) : (if h > D then D else h) = min h D := by
  split_ifs with g
  · rw [min_eq_right (le_of_lt g)]
  · rw [min_eq_left (not_lt.mp g)]

/-- C59: conical heads of a horizontal tank -/
theorem C59_horiz_conical {D L a : ℝ} (hD : 0 < D) (hL : 0 ≤ L) (ha : 0 ≤ a) :
    IsFillVolume (fun h => V_horiz_conical D L a h true) (slice (coneDepth (D / 2) a) (D / 2)) ∧
    IsFillVolume (fun h => V_horiz_conical D L a h false) (fun y => 2 * slice (coneDepth (D / 2) a) (D / 2) y + L * (2 * √(y * (D - y)))) := by
  have hR : 0 < D / 2 := by linarith
  have hS := fun y hy => slice_cone (R := D / 2) (a := a) (y := y) hR hy
  have hc : Continuous (slice (coneDepth (D / 2) a) (D / 2)) := slice_continuous hR (continuous_coneS hR).continuousOn hS
  refine horiz_of (F := fun b h => V_horiz_conical D L a h b) hD hL hc ?_ ?_ ?_ ?_
  · intro y hy
    rcases le_or_gt y (2 * (D / 2)) with h1 | h1
    · exact coneS_nonneg hR ha ⟨hy, h1⟩
    · rw [slice_out (by nlinarith)]
  · intro y hy
    exact slice_out (by nlinarith)
  · intro b h hh
    simp only [V_horiz_conical, if_pos hh]
  · intro b h hh
    have hm : 0 ≤ min h D := le_min hh.le hD.le
    have hm' := min_le_right h D
    simp only [V_horiz_conical, if_neg (not_le.mpr hh), emin]
    rw [show (0.5 : ℝ) * D = D / 2 by ring, pdiv_ok hR.ne', Py.ok_bind, segment_ok hR hm (by linarith), Py.ok_bind, conePair_ok hR hm (by linarith), Py.ok_bind,
      Py.pure_eq]
    have hi : ∫ y in (0 : ℝ)..(min h D), slice (coneDepth (D / 2) a) (D / 2) y = coneW (D / 2) a (min h D) - coneW (D / 2) a 0 := by
      refine integral_of_deriv (p := D / 2) hm hc (continuous_coneW hR).continuousOn ?_
      rintro y ⟨g0, g1⟩ g2
      refine (hasDerivAt_coneW hR g0 (by linarith) g2).congr_deriv ?_
      rw [hS y ⟨g0.le, by linarith⟩]
    have h00 : coneW (D / 2) a 0 = 0 := by simp [coneW, div_self hR.ne']; right; ring
    rw [hi, h00, sub_zero]

example : ∃ v, V_horiz_conical 2 3 0.5 1.7 true = .ok v ∧ v = ∫ y in (0 : ℝ)..1.7, slice (coneDepth (2 / 2) 0.5) (2 / 2) y := by
  obtain ⟨⟨V, h1, -, h2, -, -⟩, -⟩ := C59_horiz_conical (D := 2) (L := 3) (a := 0.5) (by norm_num) (by norm_num) (by norm_num)
  exact ⟨_, h1 _, h2 _ (by norm_num)⟩

end Verif.Geometry
