import Verif.Props.HorizVolume2

/-! C59: spherical heads of horizontal tanks. -/

open Real

noncomputable section

namespace Verif.Geometry

/-- a cap: sphere radius `r`, shell radius `R`, distance `z` of the sphere's centre from the shell's end -/
structure Cap (R r z : ℝ) : Prop where
  hR : 0 < R
  hz : 0 < z
  hr : 0 < r
  sq : z ^ 2 = r ^ 2 - R ^ 2

variable {R r z a : ℝ}

theorem Cap.lt (h : Cap R r z) : R < r := by
  have := h.sq; have := h.hz; have := h.hr; have := h.hR
  nlinarith [sq_nonneg z, mul_pos h.hz h.hz]

/-- wetted area of a cap -/
def capS (R r z y : ℝ) : ℝ := (r ^ 2 - (R - y) ^ 2) * arctan (√(y * (2 * R - y)) / z) - √(y * (2 * R - y)) * z

theorem continuous_capS : Continuous (capS R r z) := by
  have := continuous_arctan
  unfold capS
  fun_prop

theorem arcsin_arctan {c ρ z : ℝ} (hz : 0 < z) (hρ : 0 < ρ) (h : ρ ^ 2 = z ^ 2 + c ^ 2) : arcsin (c / ρ) = arctan (c / z) := by
  rw [arctan_eq_arcsin, show 1 + (c / z) ^ 2 = ρ ^ 2 / z ^ 2 by rw [h]; field_simp, sqrt_div (sq_nonneg _), sqrt_sq hz.le, sqrt_sq hρ.le]
  congr 1
  field_simp

theorem slice_cap_gen (hC : Cap R r z) {y : ℝ} (hy : y ∈ Set.Icc 0 (2 * R)) : slice (fun x y => √(r ^ 2 - x ^ 2 - (R - y) ^ 2) - z) R y = capS R r z y := by
  have hlt := hC.lt
  have hR := hC.hR
  have hq : 0 ≤ y * (2 * R - y) := mul_nonneg hy.1 (by linarith [hy.2])
  have hs := sqrt_nonneg (y * (2 * R - y))
  have hcc := sq_sqrt hq
  unfold slice capS
  generalize √(y * (2 * R - y)) = c at *
  have hp : 0 < r ^ 2 - (R - y) ^ 2 := by nlinarith [hy.1, hy.2]
  have hρ : 0 < √(r ^ 2 - (R - y) ^ 2) := sqrt_pos.mpr hp
  have hρs := sq_sqrt hp.le
  have hle : c ≤ √(r ^ 2 - (R - y) ^ 2) := le_sqrt_of_sq_le (by rw [hcc]; nlinarith)
  have hd := integral_disc hρ hs hle
  rw [hρs] at hd
  rw [intervalIntegral.integral_sub ((by fun_prop : Continuous fun x : ℝ => √(r ^ 2 - x ^ 2 - (R - y) ^ 2)).intervalIntegrable _ _) (by simp),
    intervalIntegral.integral_const]
  have e : ∫ x in (-c)..c, √(r ^ 2 - x ^ 2 - (R - y) ^ 2) = ∫ x in (-c)..c, √(r ^ 2 - (R - y) ^ 2 - x ^ 2) := by
    refine intervalIntegral.integral_congr fun x _ => ?_
    beta_reduce
    congr 1; ring
  rw [e, hd, show r ^ 2 - (R - y) ^ 2 - c ^ 2 = z ^ 2 by rw [hC.sq, hcc]; ring, sqrt_sq hC.hz.le, arcsin_arctan hC.hz hρ (by rw [hρs, hC.sq, hcc]; ring)]
  simp only [smul_eq_mul]
  ring

/-- volume of one cap below `y` (half of geometry.py:568-571) -/
def capW (R r z y : ℝ) : ℝ :=
  1 / 2 * ((2 / 3) * r ^ 3 * (arccos ((R ^ 2 - r * (R - y)) / (R * (R - y - r))) + arccos ((R ^ 2 + r * (R - y)) / (R * (R - y + r)))
      - z / r * (2 + (R / r) ^ 2) * arccos ((R - y) / R))
    - 2 * ((R - y) * r ^ 2 - (R - y) ^ 3 * (1 / 3)) * arctan (√(y * (2 * R - y)) / z) + (4 / 3) * (R - y) * √(y * (2 * R - y)) * z)

theorem continuousOn_capW (hC : Cap R r z) : ContinuousOn (capW R r z) (Set.Icc 0 (2 * R)) := by
  have hlt := hC.lt
  have hR := hC.hR
  have h1 := continuous_arctan
  have h2 := continuous_arccos
  have c1 : ContinuousOn (fun y => (R ^ 2 - r * (R - y)) / (R * (R - y - r))) (Set.Icc 0 (2 * R)) := by
    refine ContinuousOn.div (by fun_prop) (by fun_prop) fun y hy => ?_
    have : R - y - r < 0 := by linarith [hy.1]
    exact mul_ne_zero hR.ne' this.ne
  have c2 : ContinuousOn (fun y => (R ^ 2 + r * (R - y)) / (R * (R - y + r))) (Set.Icc 0 (2 * R)) := by
    refine ContinuousOn.div (by fun_prop) (by fun_prop) fun y hy => ?_
    have : 0 < R - y + r := by linarith [hy.2]
    exact mul_ne_zero hR.ne' this.ne'
  have a1 := h2.comp_continuousOn c1
  have a2 := h2.comp_continuousOn c2
  unfold capW
  simp only [Function.comp_def] at a1 a2
  have c3 : Continuous (fun y => z / r * (2 + (R / r) ^ 2) * arccos ((R - y) / R)) := by fun_prop
  have c4 : Continuous (fun y => 2 * ((R - y) * r ^ 2 - (R - y) ^ 3 * (1 / 3)) * arctan (√(y * (2 * R - y)) / z)) := by fun_prop
  have c5 : Continuous (fun y => (4 / 3) * (R - y) * √(y * (2 * R - y)) * z) := by fun_prop
  exact continuousOn_const.mul (((continuousOn_const.mul ((a1.add a2).sub c3.continuousOn)).sub c4.continuousOn).add c5.continuousOn)

theorem cap_args (hC : Cap R r z) {y : ℝ} (hy : y ∈ Set.Icc 0 (2 * R)) :
    1 - ((R ^ 2 - r * (R - y)) / (R * (R - y - r))) ^ 2 = (z * √(y * (2 * R - y)) / (R * (r - (R - y)))) ^ 2 ∧
    1 - ((R ^ 2 + r * (R - y)) / (R * (R - y + r))) ^ 2 = (z * √(y * (2 * R - y)) / (R * (r + (R - y)))) ^ 2 := by
  have hlt := hC.lt
  have hR := hC.hR
  have hq : 0 ≤ y * (2 * R - y) := mul_nonneg hy.1 (by linarith [hy.2])
  have hcc := sq_sqrt hq
  have n1 : R - y - r ≠ 0 := by have : R - y - r < 0 := by linarith [hy.1]
                                exact this.ne
  have n1' : r - (R - y) ≠ 0 := by have : 0 < r - (R - y) := by linarith [hy.1]
                                   exact this.ne'
  have n2 : R - y + r ≠ 0 := by have : 0 < R - y + r := by linarith [hy.2]
                                exact this.ne'
  have n2' : r + (R - y) ≠ 0 := by rw [add_comm]; exact n2
  constructor
  · rw [div_pow, div_pow, mul_pow z, hC.sq, hcc]
    rw [show (R * (r - (R - y))) ^ 2 = (R * (R - y - r)) ^ 2 by ring, eq_div_iff (by positivity), sub_mul, div_mul_cancel₀ _ (by positivity)]
    ring
  · rw [div_pow, div_pow, mul_pow z, hC.sq, hcc]
    rw [show (R * (r + (R - y))) ^ 2 = (R * (R - y + r)) ^ 2 by ring, eq_div_iff (by positivity), sub_mul, div_mul_cancel₀ _ (by positivity)]
    ring

theorem cap_derivs (hC : Cap R r z) {y : ℝ} (h0 : 0 < y) (h1 : y < 2 * R) :
    HasDerivAt (fun y => arccos ((R ^ 2 - r * (R - y)) / (R * (R - y - r)))) (z / (√(y * (2 * R - y)) * (r - (R - y)))) y ∧
    HasDerivAt (fun y => arccos ((R ^ 2 + r * (R - y)) / (R * (R - y + r)))) (z / (√(y * (2 * R - y)) * (r + (R - y)))) y ∧
    HasDerivAt (fun y => arctan (√(y * (2 * R - y)) / z)) ((R - y) * z / (√(y * (2 * R - y)) * (r ^ 2 - (R - y) ^ 2))) y := by
  have hlt := hC.lt
  have hR := hC.hR
  have hz := hC.hz
  have hr := hC.hr
  have hq : 0 < y * (2 * R - y) := mul_pos h0 (by linarith)
  have hs : 0 < √(y * (2 * R - y)) := sqrt_pos.mpr hq
  have hss := sq_sqrt hq.le
  have n1 : R - y - r < 0 := by linarith
  have n1' : 0 < r - (R - y) := by linarith
  have n2 : 0 < R - y + r := by linarith
  have n2' : 0 < r + (R - y) := by linarith
  obtain ⟨g1, g2⟩ := cap_args hC ⟨h0.le, h1.le⟩
  have s1 : √(1 - ((R ^ 2 - r * (R - y)) / (R * (R - y - r))) ^ 2) = z * √(y * (2 * R - y)) / (R * (r - (R - y))) := by
    rw [g1]; exact sqrt_sq (by positivity)
  have s2 : √(1 - ((R ^ 2 + r * (R - y)) / (R * (R - y + r))) ^ 2) = z * √(y * (2 * R - y)) / (R * (r + (R - y))) := by
    rw [g2]; exact sqrt_sq (by positivity)
  have ne1 : ∀ v : ℝ, v ^ 2 = 1 → ((R ^ 2 - r * (R - y)) / (R * (R - y - r))) ≠ v := by
    intro v hv e
    rw [e, hv, sub_self] at g1
    have : 0 < (z * √(y * (2 * R - y)) / (R * (r - (R - y)))) ^ 2 := by positivity
    linarith
  have ne2 : ∀ v : ℝ, v ^ 2 = 1 → ((R ^ 2 + r * (R - y)) / (R * (R - y + r))) ≠ v := by
    intro v hv e
    rw [e, hv, sub_self] at g2
    have : 0 < (z * √(y * (2 * R - y)) / (R * (r + (R - y)))) ^ 2 := by positivity
    linarith
  have dw : HasDerivAt (fun y : ℝ => R - y) (-1) y := by simpa using (hasDerivAt_id' y).const_sub R
  have dg1 : HasDerivAt (fun y => (R ^ 2 - r * (R - y)) / (R * (R - y - r))) (-(z ^ 2 / (R * (R - y - r) ^ 2))) y := by
    have := (((dw.const_mul r).const_sub (R ^ 2))).div ((dw.sub_const r).const_mul R) (mul_ne_zero hR.ne' n1.ne)
    refine this.congr_deriv ?_
    rw [hC.sq]
    have := n1.ne
    field_simp; ring
  have dg2 : HasDerivAt (fun y => (R ^ 2 + r * (R - y)) / (R * (R - y + r))) (-(z ^ 2 / (R * (R - y + r) ^ 2))) y := by
    have := (((dw.const_mul r).const_add (R ^ 2))).div ((dw.add_const r).const_mul R) (mul_ne_zero hR.ne' n2.ne')
    refine this.congr_deriv ?_
    rw [hC.sq]
    field_simp; ring
  have dA1 : HasDerivAt (fun y => arccos ((R ^ 2 - r * (R - y)) / (R * (R - y - r)))) (z / (√(y * (2 * R - y)) * (r - (R - y)))) y := by
    refine ((hasDerivAt_arccos (ne1 (-1) (by norm_num)) (ne1 1 (by norm_num))).comp y dg1).congr_deriv ?_
    rw [s1, show (R - y - r) ^ 2 = (r - (R - y)) ^ 2 by ring]
    field_simp
  have dA2 : HasDerivAt (fun y => arccos ((R ^ 2 + r * (R - y)) / (R * (R - y + r)))) (z / (√(y * (2 * R - y)) * (r + (R - y)))) y := by
    refine ((hasDerivAt_arccos (ne2 (-1) (by norm_num)) (ne2 1 (by norm_num))).comp y dg2).congr_deriv ?_
    rw [s2, show (R - y + r) ^ 2 = (r + (R - y)) ^ 2 by ring]
    field_simp
  have dc := hasDerivAt_halfchord hq
  have dat : HasDerivAt (fun y => arctan (√(y * (2 * R - y)) / z)) ((R - y) * z / (√(y * (2 * R - y)) * (r ^ 2 - (R - y) ^ 2))) y := by
    refine ((hasDerivAt_arctan _).comp y (dc.div_const z)).congr_deriv ?_
    have e : r ^ 2 - (R - y) ^ 2 = z ^ 2 + √(y * (2 * R - y)) ^ 2 := by rw [hC.sq, hss]; ring
    rw [e]
    field_simp
  exact ⟨dA1, dA2, dat⟩

theorem hasDerivAt_capW (hC : Cap R r z) {y : ℝ} (h0 : 0 < y) (h1 : y < 2 * R) : HasDerivAt (capW R r z) (capS R r z y) y := by
  have hlt := hC.lt
  have hR := hC.hR
  have hz := hC.hz
  have hr := hC.hr
  have hq : 0 < y * (2 * R - y) := mul_pos h0 (by linarith)
  have hs : 0 < √(y * (2 * R - y)) := sqrt_pos.mpr hq
  have hss := sq_sqrt hq.le
  have n1' : 0 < r - (R - y) := by linarith
  have n2' : 0 < r + (R - y) := by linarith
  obtain ⟨dA1, dA2, dat⟩ := cap_derivs hC h0 h1
  have dw : HasDerivAt (fun y : ℝ => R - y) (-1) y := by simpa using (hasDerivAt_id' y).const_sub R
  have dc := hasDerivAt_halfchord hq
  have dpol : HasDerivAt (fun y => (R - y) * r ^ 2 - (R - y) ^ 3 * (1 / 3)) (-1 * r ^ 2 - (3 * (R - y) ^ 2 * -1) * (1 / 3)) y := by
    have := (dw.mul_const (r ^ 2)).sub ((dw.pow 3).mul_const (1 / 3))
    refine this.congr_deriv ?_
    norm_num
  have d := (((((dA1.add dA2).sub ((hasDerivAt_acos hR h0 h1).const_mul (z / r * (2 + (R / r) ^ 2)))).const_mul ((2 / 3) * r ^ 3)).sub
    ((dpol.const_mul 2).mul dat)).add (((dw.const_mul (4 / 3)).mul dc).mul_const z)).const_mul (1 / 2 : ℝ)
  unfold capW capS
  refine d.congr_deriv ?_
  generalize arctan (√(y * (2 * R - y)) / z) = θ at *
  have hR2 : R ^ 2 = √(y * (2 * R - y)) ^ 2 + (R - y) ^ 2 := by rw [hss]; ring
  rw [div_pow, hR2]
  generalize √(y * (2 * R - y)) = c at *
  have e3 : r ^ 2 - (R - y) ^ 2 = (r - (R - y)) * (r + (R - y)) := by ring
  rw [e3]
  clear d dpol dat dc dA1 dA2 dw hR2 e3 hss hq h0 h1 hlt hR hC
  generalize R - y = w at *
  field_simp
  ring

/-- the wetted area of a cap as seen from its depth: `r = (a^2 + R^2)/(2a)`, `z = r - a` -/
theorem cap_of (hR : 0 < R) (ha : 0 < a) (hlt : a < R) : Cap R ((a ^ 2 + R ^ 2) / (2 * a)) ((a ^ 2 + R ^ 2) / (2 * a) - a) := by
  refine ⟨hR, ?_, by positivity, ?_⟩
  · rw [show (a ^ 2 + R ^ 2) / (2 * a) - a = (R ^ 2 - a ^ 2) / (2 * a) by field_simp; ring]
    exact div_pos (by nlinarith) (by linarith)
  · field_simp; ring

theorem capW_zero (hC : Cap R r z) : capW R r z 0 = 0 := by
  have hR := hC.hR
  have hlt := hC.lt
  have e1 : (R ^ 2 - r * (R - 0)) / (R * (R - 0 - r)) = 1 := by
    have : R - 0 - r ≠ 0 := by have : R - 0 - r < 0 := by linarith
                               exact this.ne
    rw [div_eq_one_iff_eq (mul_ne_zero hR.ne' this)]; ring
  have e2 : (R ^ 2 + r * (R - 0)) / (R * (R - 0 + r)) = 1 := by
    have : 0 < R - 0 + r := by linarith
    rw [div_eq_one_iff_eq (mul_ne_zero hR.ne' this.ne')]; ring
  have e3 : (R - 0) / R = 1 := by rw [sub_zero, div_self hR.ne']
  unfold capW
  rw [e1, e2, e3]
  simp

theorem capW_half (hC : Cap R r z) : capW R r z R = π / 3 * (r ^ 3 - z * r ^ 2 - z * R ^ 2 / 2) := by
  have hR := hC.hR
  have hr := hC.hr
  have e1 : (R ^ 2 - r * (R - R)) / (R * (R - R - r)) = -(R / r) := by
    rw [sub_self, mul_zero, sub_zero, zero_sub]; field_simp
  have e2 : (R ^ 2 + r * (R - R)) / (R * (R - R + r)) = R / r := by
    rw [sub_self, mul_zero, add_zero, zero_add]; field_simp
  have e3 : (R - R) / R = 0 := by rw [sub_self, zero_div]
  unfold capW
  rw [e1, e2, e3, arccos_neg, arccos_zero]
  field_simp
  ring

theorem capW_full (hC : Cap R r z) : capW R r z (2 * R) = 2 * (π / 3 * (r ^ 3 - z * r ^ 2 - z * R ^ 2 / 2)) := by
  have hR := hC.hR
  have hr := hC.hr
  have hlt := hC.lt
  have e1 : (R ^ 2 - r * (R - 2 * R)) / (R * (R - 2 * R - r)) = -1 := by
    have : R - 2 * R - r < 0 := by linarith
    rw [div_eq_iff (mul_ne_zero hR.ne' this.ne)]; ring
  have e2 : (R ^ 2 + r * (R - 2 * R)) / (R * (R - 2 * R + r)) = -1 := by
    have : 0 < R - 2 * R + r := by linarith
    rw [div_eq_iff (mul_ne_zero hR.ne' this.ne')]; ring
  have e3 : (R - 2 * R) / R = -1 := by field_simp; ring
  unfold capW
  rw [e1, e2, e3, arccos_neg_one, sub_self (2 * R), mul_zero, sqrt_zero, zero_div, arctan_zero]
  field_simp
  ring

theorem cap_volume (ha : 0 < a) : π / 3 * (((a ^ 2 + R ^ 2) / (2 * a)) ^ 3 - ((a ^ 2 + R ^ 2) / (2 * a) - a) * ((a ^ 2 + R ^ 2) / (2 * a)) ^ 2
    - ((a ^ 2 + R ^ 2) / (2 * a) - a) * R ^ 2 / 2) = π / 12 * a * (3 * R ^ 2 + a ^ 2) := by
  field_simp
  ring

theorem closed_ok (hC : Cap R r z) (ha : 0 < a) {h : ℝ} (h0 : 0 ≤ h) (h1 : h ≤ 2 * R) :
    horizSphericalClosed R a r (R - h) √(h * (2 * R - h)) z = .ok (2 * capW R r z h) := by
  have hR := hC.hR
  have hr := hC.hr
  have hz := hC.hz
  have hlt := hC.lt
  obtain ⟨g1, g2⟩ := cap_args hC ⟨h0, h1⟩
  have n1 : R - h - r ≠ 0 := by have : R - h - r < 0 := by linarith
                                exact this.ne
  have n2 : R - h + r ≠ 0 := by have : 0 < R - h + r := by linarith
                                exact this.ne'
  have b1 := abs_le.mp ((sq_le_one_iff_abs_le_one ((R ^ 2 - r * (R - h)) / (R * (R - h - r)))).mp (by nlinarith [sq_nonneg (z * √(h * (2 * R - h)) / (R * (r - (R - h))))]))
  have b2 := abs_le.mp ((sq_le_one_iff_abs_le_one ((R ^ 2 + r * (R - h)) / (R * (R - h + r)))).mp (by nlinarith [sq_nonneg (z * √(h * (2 * R - h)) / (R * (r + (R - h))))]))
  have e1 : pacos ((R * R - r * (R - h)) / (R * (R - h - r))) = .ok (arccos ((R ^ 2 - r * (R - h)) / (R * (R - h - r)))) := by
    rw [← sq]; exact pacos_ok b1.1 b1.2
  have e2 : pacos ((R * R + r * (R - h)) / (R * (R - h + r))) = .ok (arccos ((R ^ 2 + r * (R - h)) / (R * (R - h + r)))) := by
    rw [← sq]; exact pacos_ok b2.1 b2.2
  have e3 : pacos ((R - h) / R) = .ok (arccos ((R - h) / R)) := by
    refine pacos_ok ?_ ?_
    · rw [le_div_iff₀ hR]; linarith
    · rw [div_le_iff₀ hR]; linarith
  simp only [horizSphericalClosed, pdiv_ok hr.ne', pdiv_ok (abs_pos.mpr ha.ne').ne', pdiv_ok (mul_ne_zero hR.ne' n1), pdiv_ok (mul_ne_zero hR.ne' n2), e1, e2,
    pdiv_ok hR.ne', e3, pdiv_ok hz.ne', Py.ok_bind, Py.pure_eq]
  rw [abs_of_pos ha, div_self ha.ne', one_mul]
  congr 1
  unfold capW
  ring

theorem quad_ok (hC : Cap R r z) (ha : 0 < a) {h : ℝ} (h0 : 0 ≤ h) (h1 : h ≤ 2 * R) :
    horizSphericalQuad R a r (R - h) z (segArea R h) = .ok (2 * ∫ y in (0 : ℝ)..h, capS R r z y) := by
  have hR := hC.hR
  have hz := hC.hz
  have hsq := hC.sq
  have hne : r * r - R * R ≠ 0 := by
    have : 0 < z ^ 2 := by positivity
    nlinarith
  simp only [horizSphericalQuad, pdiv_ok hne, pdiv_ok (abs_pos.mpr ha.ne').ne', Py.ok_bind, Py.pure_eq]
  rw [abs_of_pos ha, div_self ha.ne', one_mul]
  congr 1
  have h2 := continuous_arctan
  have c1 : Continuous (fun y => (r ^ 2 - (R - y) ^ 2) * arctan (√(y * (2 * R - y)) / z)) := by fun_prop
  have c2 : Continuous (fun y => z / 2 * chord R y) := continuous_const.mul (continuous_chord R)
  have e : ∫ y in (0 : ℝ)..h, capS R r z y = ∫ y in (0 : ℝ)..h, ((r ^ 2 - (R - y) ^ 2) * arctan (√(y * (2 * R - y)) / z) - z / 2 * chord R y) := by
    refine intervalIntegral.integral_congr fun y _ => ?_
    simp only [capS, chord]; ring
  have e2 : ∫ x in (R - h)..R, V_horiz_spherical_toint (r * r) (R * R) (1 / (r * r - R * R)) x
      = ∫ y in (0 : ℝ)..h, (r ^ 2 - (R - y) ^ 2) * arctan (√(y * (2 * R - y)) / z) := by
    have := intervalIntegral.integral_comp_sub_left (a := 0) (b := h) (fun x => V_horiz_spherical_toint (r * r) (R * R) (1 / (r * r - R * R)) x) R
    rw [sub_zero] at this
    rw [← this]
    refine intervalIntegral.integral_congr fun y hy => ?_
    simp only [V_horiz_spherical_toint]
    rw [show (R * R - (R - y) * (R - y)) * (1 / (r * r - R * R)) = y * (2 * R - y) / z ^ 2 by rw [hsq]; field_simp; ring, sqrt_div' _ (sq_nonneg _), sqrt_sq hz.le]
    ring
  rw [e, e2, intervalIntegral.integral_sub (c1.intervalIntegrable _ _) (c2.intervalIntegrable _ _), intervalIntegral.integral_const_mul, integral_chord hR h0 h1]
  ring

theorem capS_nonneg (hC : Cap R r z) {y : ℝ} (hy : y ∈ Set.Icc 0 (2 * R)) : 0 ≤ slice (fun x y => √(r ^ 2 - x ^ 2 - (R - y) ^ 2) - z) R y := by
  have hR := hC.hR
  have hq : 0 ≤ y * (2 * R - y) := mul_nonneg hy.1 (by linarith [hy.2])
  have hss := sq_sqrt hq
  have hs := sqrt_nonneg (y * (2 * R - y))
  unfold slice
  refine intervalIntegral.integral_nonneg (by linarith) fun x hx => ?_
  have : x ^ 2 ≤ √(y * (2 * R - y)) ^ 2 := sq_le_sq.mpr (by rw [abs_of_nonneg hs]; exact abs_le.mpr hx)
  rw [hss] at this
  have : z ≤ √(r ^ 2 - x ^ 2 - (R - y) ^ 2) := le_sqrt_of_sq_le (by rw [hC.sq]; nlinarith)
  linarith

/-- C59: spherical heads of a horizontal tank, up to a half sphere.  (The code treats sphere radii within a relative 2e-15 of the shell radius as half
spheres, so exactness is claimed for half spheres and for caps outside that band.) -/
theorem C59_horiz_spherical {D L a : ℝ} (hD : 0 < D) (hL : 0 ≤ L) (ha : 0 < a)
    (hb : a = D / 2 ∨ (a < D / 2 ∧ ¬ isclose ((a ^ 2 + (D / 2) ^ 2) / (2 * a)) (D / 2) 2e-15)) :
    IsFillVolume (fun h => V_horiz_spherical D L a h true) (slice (capDepth (D / 2) a) (D / 2)) ∧
    IsFillVolume (fun h => V_horiz_spherical D L a h false) (fun y => 2 * slice (capDepth (D / 2) a) (D / 2) y + L * (2 * √(y * (D - y)))) := by
  have hR : 0 < D / 2 := by linarith
  have hr0 : 0.5 * (a * a + D / 2 * (D / 2)) / a = (a ^ 2 + (D / 2) ^ 2) / (2 * a) := by field_simp; ring
  rcases hb with hb | ⟨hlt, hnc⟩
  · -- a half sphere is an ellipsoid
    have hdep : slice (capDepth (D / 2) a) (D / 2) = slice (ellipsoidDepth (D / 2) a) (D / 2) := by
      funext y
      unfold slice
      refine intervalIntegral.integral_congr fun x _ => ?_
      simp only [capDepth, ellipsoidDepth, hb]
      rw [show ((D / 2) ^ 2 + (D / 2) ^ 2) / (2 * (D / 2)) = D / 2 by field_simp; ring, sub_self, sub_zero,
        show 1 - (x ^ 2 + (D / 2 - y) ^ 2) / (D / 2) ^ 2 = ((D / 2) ^ 2 - x ^ 2 - (D / 2 - y) ^ 2) / (D / 2) ^ 2 by field_simp; ring, sqrt_div' _ (sq_nonneg _), sqrt_sq hR.le]
      field_simp
    have hF : ∀ h b, V_horiz_spherical D L a h b = V_horiz_ellipsoidal D L a h b := by
      intro h b
      simp only [V_horiz_spherical, V_horiz_ellipsoidal, emin]
      split_ifs with hh
      · rfl
      have hm : 0 ≤ min h D := le_min (not_le.mp hh).le hD.le
      have hm' := min_le_right h D
      have er : (a ^ 2 + (D / 2) ^ 2) / (2 * a) = D / 2 := by rw [hb]; field_simp; ring
      have e1 : psqrt (2 * (D / 2) * min h D - min h D * min h D) = .ok √(2 * (D / 2) * min h D - min h D * min h D) := psqrt_ok (by nlinarith)
      have ez : horizSphericalZ (D / 2) (D / 2) = .ok 0 := by
        rw [horizSphericalZ, if_pos]
        unfold isclose
        rw [sub_self, abs_zero]
        positivity
      rw [show (0.5 : ℝ) * D = D / 2 by ring, abs_of_pos ha, pdiv_ok ha.ne', Py.ok_bind, hr0, er, e1, Py.ok_bind, ez, Py.ok_bind, segment_ok hR hm (by linarith),
        Py.ok_bind, Py.ok_bind, pdiv_ok (by linarith), Py.ok_bind]
      have : horizSphericalPair D (D / 2) a (D / 2) (D / 2 - min h D) √(2 * (D / 2) * min h D - min h D * min h D) 0 (segArea (D / 2) (min h D)) (min h D)
          = .ok (π * a * min h D * min h D * (1 - min h D / (3 * (D / 2)))) := by
        simp only [horizSphericalPair]
        split_ifs with c1 c2 c3
        · rw [c1.1, hb]; congr 1; field_simp; ring
        · rw [c2.1, hb]; congr 1; field_simp; ring
        · rw [pdiv_ok hR.ne', Py.ok_bind, Py.pure_eq]; congr 1; field_simp
        · simp at c3
        · simp at c3
      rw [this, Py.ok_bind]
    simp only [hF, hdep]
    exact C59_horiz_ellipsoidal hD hL ha.le
  · have hC := cap_of hR ha hlt
    set r := (a ^ 2 + (D / 2) ^ 2) / (2 * a) with hr
    have hdep : capDepth (D / 2) a = fun x y => √(r ^ 2 - x ^ 2 - (D / 2 - y) ^ 2) - (r - a) := by
      funext x y; rfl
    rw [hdep]
    have hS := fun y hy => slice_cap_gen (y := y) hC hy
    have hc : Continuous (slice (fun x y => √(r ^ 2 - x ^ 2 - (D / 2 - y) ^ 2) - (r - a)) (D / 2)) := slice_continuous hR continuous_capS.continuousOn hS
    refine horiz_of (F := fun b h => V_horiz_spherical D L a h b) hD hL hc ?_ ?_ ?_ ?_
    · intro y hy
      rcases le_or_gt y (2 * (D / 2)) with h1 | h1
      · exact capS_nonneg hC ⟨hy, h1⟩
      · rw [slice_out (by nlinarith)]
    · intro y hy
      exact slice_out (by nlinarith)
    · intro b h hh
      simp only [V_horiz_spherical, if_pos hh]
    · intro b h hh
      have hm0 : 0 < min h D := lt_min hh hD
      have hm : 0 ≤ min h D := hm0.le
      have hm' := min_le_right h D
      have e1 : psqrt (2 * (D / 2) * min h D - min h D * min h D) = .ok √(min h D * (2 * (D / 2) - min h D)) := by
        rw [psqrt_ok (by nlinarith)]; ring_nf
      have ez : horizSphericalZ r (D / 2) = .ok (r - a) := by
        rw [horizSphericalZ, if_neg hnc, show r * r - D / 2 * (D / 2) = (r - a) ^ 2 by rw [hC.sq]; ring, psqrt_ok (sq_nonneg _), sqrt_sq hC.hz.le]
      have hi : ∀ x, 0 ≤ x → x ≤ D → ∫ y in (0 : ℝ)..x, slice (fun x y => √(r ^ 2 - x ^ 2 - (D / 2 - y) ^ 2) - (r - a)) (D / 2) y = capW (D / 2) r (r - a) x := by
        intro x h0 h1
        rw [integral_of_deriv (p := 0) (V := capW (D / 2) r (r - a)) h0 hc ((continuousOn_capW hC).mono (Set.Icc_subset_Icc le_rfl (by linarith))), capW_zero hC, sub_zero]
        rintro y ⟨g0, g1⟩ -
        refine (hasDerivAt_capW hC g0 (by linarith)).congr_deriv ?_
        rw [hS y ⟨g0.le, by linarith⟩]
      have pair : horizSphericalPair D (D / 2) a r (D / 2 - min h D) √(min h D * (2 * (D / 2) - min h D)) (r - a) (segArea (D / 2) (min h D)) (min h D)
          = .ok (2 * ∫ y in (0 : ℝ)..(min h D), slice (fun x y => √(r ^ 2 - x ^ 2 - (D / 2 - y) ^ 2) - (r - a)) (D / 2) y) := by
        simp only [horizSphericalPair]
        split_ifs with c1 c2 c3 c4
        · rw [hi _ hm hm', c1.1, capW_half hC, cap_volume ha]; congr 1; ring
        · rw [hi _ hm hm', c2.1]
          have := capW_full hC
          rw [show 2 * (D / 2) = D by ring] at this
          rw [this, cap_volume ha]; congr 1; ring
        · exfalso
          rcases c3 with c | c | c | c | c
          · linarith
          · linarith
          · linarith
          · linarith
          · exact hC.hz.ne' c
        · rw [closed_ok hC ha hm (by linarith), hi _ hm hm']
        · rw [quad_ok hC ha hm (by linarith)]
          congr 2
          refine intervalIntegral.integral_congr fun y hy => ?_
          rw [Set.uIcc_of_le hm] at hy
          exact (hS y ⟨hy.1, by linarith [hy.2]⟩).symm
      simp only [V_horiz_spherical, if_neg (not_le.mpr hh), emin]
      rw [show (0.5 : ℝ) * D = D / 2 by ring, abs_of_pos ha, pdiv_ok ha.ne', Py.ok_bind, hr0, e1, Py.ok_bind, ez, Py.ok_bind, segment_ok hR hm (by linarith), Py.ok_bind,
        pair, Py.ok_bind, Py.pure_eq]

/-- C59 (finding): a flat spherical head, `a = 0`, raises ZeroDivisionError as soon as there is any liquid, although the code has a branch for it -/
theorem C59_horiz_spherical_flat (D L h : ℝ) (hh : 0 < h) (b : Bool) : V_horiz_spherical D L 0 h b = .error .zeroDivisionError := by
  simp only [V_horiz_spherical, if_neg (not_le.mpr hh), abs_zero, pdiv_zero, Py.error_bind]

example : ∃ v, V_horiz_spherical 4 3 1 1.7 true = .ok v ∧ v = ∫ y in (0 : ℝ)..1.7, slice (capDepth (4 / 2) 1) (4 / 2) y := by
  obtain ⟨⟨V, h1, -, h2, -, -⟩, -⟩ := C59_horiz_spherical (D := 4) (L := 3) (a := 1) (by norm_num) (by norm_num) (by norm_num) (Or.inr ⟨by norm_num, by
    unfold isclose; norm_num [abs_of_pos]⟩)
  exact ⟨_, h1 _, h2 _ (by norm_num)⟩

end Verif.Geometry
