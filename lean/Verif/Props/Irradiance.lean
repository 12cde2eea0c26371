import Verif.Model.Irradiance
import Verif.Props.SolarAngles
import Mathlib.MeasureTheory.Integral.IntervalIntegral.IntegrationByParts
import Mathlib.Analysis.SpecialFunctions.Log.Deriv
import Mathlib.Analysis.Complex.ExponentialBounds

/-!
# C124: solar irradiation on inclined surfaces and air mass
-/

namespace Verif.Props.Irradiance
open Verif Verif.Spa Verif.Irradiance Verif.Props.SolarAngles Real

theorem proj_bound (t a z b : ℝ) : -1 ≤ aoi_projection t a z b ∧ aoi_projection t a z b ≤ 1 := by
  have := dot_bound (π / 2 - d2r t) (π / 2 - d2r z) (d2r (b - a))
  simp only [sin_pi_div_two_sub, cos_pi_div_two_sub] at this
  exact this

/-- C124: the angle of incidence is between 0 and 180 degrees, never an error, and its cosine is the projection; the projection is 1 for a surface facing the sun, the cosine of the zenith angle for a
horizontal surface. -/
theorem C124_incidence (t a z b : ℝ) :
    (∃ th, aoi t a z b = .ok th ∧ 0 ≤ th ∧ th ≤ 180 ∧ cos (d2r th) = aoi_projection t a z b) ∧
    aoi_projection z b z b = 1 ∧ aoi_projection 0 a z b = cos (d2r z) ∧ aoi_projection 90 a z b = sin (d2r z) * cos (d2r (b - a)) := by
  have h := proj_bound t a z b
  have hp := pi_pos
  refine ⟨⟨r2d (arccos (aoi_projection t a z b)), ?_, ?_, ?_, ?_⟩, ?_, ?_, ?_⟩
  · unfold aoi; rw [pacos_ok h.1 h.2]; rfl
  · unfold r2d; have := arccos_nonneg (aoi_projection t a z b); positivity
  · unfold r2d
    have := arccos_le_pi (aoi_projection t a z b)
    rw [div_mul_eq_mul_div, div_le_iff₀ hp]; nlinarith
  · rw [d2r_r2d, cos_arccos h.1 h.2]
  · unfold aoi_projection
    rw [sub_self, show d2r 0 = 0 by unfold d2r; ring, cos_zero]
    nlinarith [sin_sq_add_cos_sq (d2r z)]
  · unfold aoi_projection
    rw [show d2r 0 = 0 by unfold d2r; ring, cos_zero, sin_zero]; ring
  · unfold aoi_projection
    rw [show d2r 90 = π / 2 by unfold d2r; ring, cos_pi_div_two, sin_pi_div_two]; ring

/-- C124: the total irradiance is the beam irradiance (projected, at least zero) plus the diffuse irradiance of the sky (between zero and `dhi`) plus that of the ground (between zero and `albedo*ghi`); a
horizontal surface sees the whole sky and no ground, one facing down the whole ground and no sky. -/
theorem C124_total (t a z b dni ghi dhi albedo : ℝ) (h2 : 0 ≤ ghi) (h3 : 0 ≤ dhi) (h4 : 0 ≤ albedo) :
    ∃ r s, get_total_irradiance t a z b dni ghi dhi albedo = .ok r ∧ r.sky_diffuse = some s ∧ r.direct = max (dni * aoi_projection t a z b) 0 ∧ r.diffuse = s + r.ground_diffuse ∧
      r.global = r.direct + s + r.ground_diffuse ∧ 0 ≤ r.direct ∧ 0 ≤ s ∧ s ≤ dhi ∧ 0 ≤ r.ground_diffuse ∧ r.ground_diffuse ≤ albedo * ghi ∧
      (t = 0 → s = dhi ∧ r.ground_diffuse = 0 ∧ r.direct = max (dni * cos (d2r z)) 0) ∧ (t = 180 → s = 0 ∧ r.ground_diffuse = albedo * ghi) := by
  obtain ⟨⟨th, h, -, -, hc⟩, -, h0, -⟩ := C124_incidence t a z b
  have c1 := neg_one_le_cos (d2r t)
  have c2 := cos_le_one (d2r t)
  have hag := mul_nonneg h4 h2
  refine ⟨_, isotropic t dhi, by unfold get_total_irradiance; rw [h]; rfl, rfl, ?_, rfl, ?_, ?_, ?_, ?_, ?_, ?_, ?_, ?_⟩
  · simp only [poa_components]; rw [hc]
  · simp only [poa_components]; ring
  · exact le_max_right _ _
  · unfold isotropic; nlinarith [mul_nonneg h3 (by linarith : 0 ≤ 1 + cos (d2r t))]
  · unfold isotropic; nlinarith [mul_nonneg h3 (by linarith : 0 ≤ 1 - cos (d2r t))]
  · simp only [poa_components, get_ground_diffuse]
    have : 0 ≤ 1 - cos (d2r t) := by linarith
    positivity
  · simp only [poa_components, get_ground_diffuse]
    nlinarith [mul_nonneg hag (by linarith : 0 ≤ 1 + cos (d2r t))]
  · rintro rfl
    have : d2r 0 = 0 := by unfold d2r; ring
    refine ⟨by unfold isotropic; rw [this, cos_zero]; ring, by simp only [poa_components, get_ground_diffuse]; rw [this, cos_zero]; ring, ?_⟩
    simp only [poa_components]; rw [hc, h0]
  · rintro rfl
    have : d2r 180 = π := by unfold d2r; ring
    refine ⟨by unfold isotropic; rw [this, cos_pi]; ring, by simp only [poa_components, get_ground_diffuse]; rw [this, cos_pi]; ring⟩

/-! ### Air mass -/

theorem sixteen : (0.1 : ℝ) ≤ (4 : ℝ) ^ (-1.6364 : ℝ) := by
  rw [show (4 : ℝ) = 2 ^ (2 : ℝ) by norm_num, ← rpow_mul (by norm_num)]
  have h1 : (2 : ℝ) ^ (-3.3 : ℝ) ≤ 2 ^ (2 * -1.6364 : ℝ) := rpow_le_rpow_of_exponent_le (by norm_num) (by norm_num)
  refine le_trans ?_ h1
  rw [show (-3.3 : ℝ) = -(33 / 10) by norm_num, rpow_neg (by norm_num), show (0.1 : ℝ) = 10⁻¹ by norm_num]
  apply inv_anti₀ (by positivity)
  rw [← rpow_le_rpow_iff (z := 10) (by positivity) (by norm_num) (by norm_num), ← rpow_mul (by norm_num)]
  norm_num

theorem pow_tangent {w : ℝ} (h : 0 < w) (h' : w ≤ 6.07995) : 0.1 * (2.6364 - 0.4091 * w) ≤ w ^ (-1.6364 : ℝ) := by
  have hlog : log w ≤ w / 4 - 1 + log 4 := by
    have := log_le_sub_one_of_pos (by positivity : 0 < w / 4)
    rw [log_div h.ne' (by norm_num)] at this
    linarith
  have h4 := sixteen
  have e1 : w ^ (-1.6364 : ℝ) = exp (log w * (-1.6364)) := rpow_def_of_pos h _
  have e2 : (4 : ℝ) ^ (-1.6364 : ℝ) = exp (log 4 * (-1.6364)) := rpow_def_of_pos (by norm_num) _
  rw [e2] at h4
  rw [e1]
  have h5 : exp (log 4 * (-1.6364)) * exp (-1.6364 * (w / 4 - 1)) ≤ exp (log w * (-1.6364)) := by
    rw [← exp_add]
    apply exp_le_exp.2
    nlinarith
  refine le_trans ?_ h5
  have h6 := add_one_le_exp (-1.6364 * (w / 4 - 1))
  exact mul_le_mul h4 (by linarith) (by nlinarith) (exp_pos _).le

/-- C124: the relative air mass of Kasten and Young is a positive number below 140 for zenith angles from 0 to 96.07995 degrees, and NaN beyond; at the zenith it is (slightly) below 1. -/
theorem C124_relative_airmass (z : ℝ) :
    (0 ≤ z → z < 96.07995 → ∃ am, get_relative_airmass z "kastenyoung1989" = .ok (some am) ∧ 0 < am ∧ am < 140) ∧
    (96.07995 ≤ z → get_relative_airmass z "kastenyoung1989" = .ok none) ∧
    (∃ am, get_relative_airmass 0 "kastenyoung1989" = .ok (some am) ∧ 0.999 < am ∧ am < 1) := by
  have hpi := pi_lt_d4
  have hpi0 := pi_pos
  have gen : ∀ z, 6.07995 + (90 - z) > 0 → cos (d2r z) + 0.50572 * (6.07995 + (90 - z)) ^ (-1.6364 : ℝ) ≠ 0 →
      get_relative_airmass z "kastenyoung1989" = .ok (some (1 / (cos (d2r z) + 0.50572 * (6.07995 + (90 - z)) ^ (-1.6364 : ℝ)))) := by
    intro z h1 h2
    unfold get_relative_airmass kastenyoung
    rw [if_pos rfl, if_neg (not_le.2 h1)]
    simp only [if_neg h2]
    rfl
  refine ⟨?_, ?_, ?_⟩
  · intro h0 h1
    have hw : 0 < 6.07995 + (90 - z) := by linarith
    have hpow := rpow_pos_of_pos hw (-1.6364)
    have hden : 1 / 140 < cos (d2r z) + 0.50572 * (6.07995 + (90 - z)) ^ (-1.6364 : ℝ) := by
      rcases le_or_gt z 90 with h | h
      · rcases le_or_gt z 89 with h' | h'
        · have hc : cos (d2r 89) ≤ cos (d2r z) := by
            apply cos_le_cos_of_nonneg_of_le_pi <;> unfold d2r
            · positivity
            · linarith
            · nlinarith
          have hs : 0.01745 * 0.999 ≤ cos (d2r 89) := by
            rw [show d2r 89 = π / 2 - π / 180 by unfold d2r; ring, cos_pi_div_two_sub]
            have hg := pi_gt_d4
            have := sin_gt_sub_cube (by positivity : 0 < π / 180)
            have h3 : (π / 180) ^ 3 ≤ 0.0175 ^ 3 := by gcongr; linarith
            norm_num at h3 ⊢
            linarith
          norm_num at hs ⊢
          linarith
        · have hc := cos_nonneg_deg (by linarith : -90 ≤ z) h
          have : (0.0303 : ℝ) ≤ (6.07995 + (90 - z)) ^ (-1.6364 : ℝ) := by
            calc (0.0303 : ℝ) ≤ (8 : ℝ) ^ (-1.6364 : ℝ) := by
                  rw [show (8 : ℝ) = 2 ^ (3 : ℝ) by norm_num, ← rpow_mul (by norm_num)]
                  have h1 : (2 : ℝ) ^ (-5 : ℝ) ≤ 2 ^ (3 * -1.6364 : ℝ) := rpow_le_rpow_of_exponent_le (by norm_num) (by norm_num)
                  refine le_trans ?_ h1
                  rw [show (-5 : ℝ) = -((5 : ℕ) : ℝ) by norm_num, rpow_neg (by norm_num), rpow_natCast]
                  norm_num
              _ ≤ _ := rpow_le_rpow_of_nonpos hw (by linarith) (by norm_num)
          norm_num at this ⊢
          linarith
      · have ht := pow_tangent hw (by linarith)
        have hc : -(π / 180 * (z - 90)) ≤ cos (d2r z) := by
          rw [show d2r z = π / 180 * (z - 90) + π / 2 by unfold d2r; ring, cos_add_pi_div_two]
          have := sin_le (by have := sub_pos.2 h; positivity : 0 ≤ π / 180 * (z - 90))
          linarith
        nlinarith
    refine ⟨_, gen z hw (by linarith), ?_, ?_⟩
    · have : 0 < cos (d2r z) + 0.50572 * (6.07995 + (90 - z)) ^ (-1.6364 : ℝ) := by linarith
      positivity
    · rw [div_lt_iff₀ (by linarith)]; linarith
  · intro h
    unfold get_relative_airmass kastenyoung
    rw [if_pos rfl, if_pos (by linarith)]
    rfl
  · have hpow := rpow_pos_of_pos (by norm_num : (0 : ℝ) < 6.07995 + (90 - 0)) (-1.6364)
    have hle : (6.07995 + (90 - 0) : ℝ) ^ (-1.6364 : ℝ) ≤ 0.0016 := by
      calc (6.07995 + (90 - 0) : ℝ) ^ (-1.6364 : ℝ) ≤ (64 : ℝ) ^ (-1.6364 : ℝ) := rpow_le_rpow_of_nonpos (by norm_num) (by norm_num) (by norm_num)
        _ ≤ (64 : ℝ) ^ (-1.6 : ℝ) := rpow_le_rpow_of_exponent_le (by norm_num) (by norm_num)
        _ ≤ 0.0016 := by
          rw [show (64 : ℝ) = 2 ^ (6 : ℝ) by norm_num, ← rpow_mul (by norm_num)]
          have h1 : (2 : ℝ) ^ (6 * -1.6 : ℝ) ≤ 2 ^ (-9.5 : ℝ) := rpow_le_rpow_of_exponent_le (by norm_num) (by norm_num)
          refine h1.trans ?_
          rw [← rpow_le_rpow_iff (z := 2) (by positivity) (by norm_num) (by norm_num), ← rpow_mul (by norm_num), show (-9.5 * 2 : ℝ) = -((19 : ℕ) : ℝ) by norm_num, rpow_neg (by norm_num), rpow_natCast]
          norm_num
    have hc : cos (d2r 0) = 1 := by rw [show d2r 0 = 0 by unfold d2r; ring, cos_zero]
    refine ⟨_, gen 0 (by norm_num) (by rw [hc]; positivity), ?_, ?_⟩
    · rw [hc, lt_div_iff₀ (by positivity)]; norm_num at *; linarith
    · rw [hc, div_lt_one (by positivity)]; linarith

/-! ### Clear sky -/

theorem att_ok (am fh1 fh2 cg2 tl : ℝ) (perez : Bool) (h : 0 < am) : ∃ g, attenuation am fh1 fh2 cg2 tl perez = .ok g ∧ 0 < g := by
  unfold attenuation
  cases perez
  · exact ⟨_, rfl, exp_pos _⟩
  · rw [ppow_ok h]
    exact ⟨_, rfl, by positivity⟩

/-- the clear-sky computation, spelled out -/
theorem ineichen_eq (az am tl alt E : ℝ) (perez : Bool) (ham : 0 < am) (htl : tl ≠ 0) :
    ∃ g > 0, (∀ E' : ℝ, ineichenNum az am tl alt E' perez = .ok
      (let cz := max (cos (d2r az)) 0
       let ghi := (5.09e-5 * alt + 0.868) * E' * cz * g
       let dni := min (ghi * beamFactor tl (exp (-alt / 8000)) cz) (E' * ((0.664 + 0.163 / exp (-alt / 8000)) * exp (-0.09 * am * (tl - 1))))
       ⟨ghi, dni, ghi - dni * cz⟩)) := by
  obtain ⟨g, hg, hg0⟩ := att_ok am (exp (-alt / 8000)) (exp (-alt / 1250)) (3.92e-5 * alt + 0.0387) tl perez ham
  refine ⟨g, hg0, fun E' => ?_⟩
  have hcz : (if cos (d2r az) < 0 then 0 else cos (d2r az)) = max (cos (d2r az)) 0 := by
    split_ifs with h
    · rw [max_eq_right h.le]
    · rw [max_eq_left (not_lt.1 h)]
  unfold ineichenNum
  rw [hcz]
  dsimp only
  rw [hg, Py.ok_bind, pdiv_ok htl, Py.ok_bind, if_pos hg0, if_pos (by positivity), mul_div_assoc, div_self htl, mul_one]
  rfl

theorem beam_nonneg {tl fh1 cz : ℝ} (hf : 0 < fh1) (hf1 : fh1 ≤ 1) (hc : 0 ≤ cz) : 0 ≤ beamFactor tl fh1 cz := by
  unfold beamFactor
  apply le_min _ (by norm_num)
  split_ifs
  · norm_num
  · apply div_nonneg _ hc
    have he := exp_pos (-tl)
    have h1 : 0.882 ≤ 0.882 / fh1 := by rw [le_div_iff₀ hf]; nlinarith
    rw [sub_nonneg, div_le_one (by linarith)]
    linarith

theorem beam_le {tl fh1 cz : ℝ} (hf : 0 < fh1) (hc : 0 ≤ cz) (htl : log 2 ≤ tl) : beamFactor tl fh1 cz * cz ≤ 1 := by
  rcases eq_or_lt_of_le hc with h | h
  · rw [← h]; norm_num
  · unfold beamFactor
    rw [if_neg h.ne']
    refine (mul_le_mul_of_nonneg_right (min_le_left _ _) hc).trans ?_
    rw [div_mul_cancel₀ _ h.ne']
    have he : exp (-tl) ≤ 1 / 2 := by
      have : exp (-tl) ≤ exp (-log 2) := exp_le_exp.2 (by linarith)
      rw [exp_neg, exp_neg, exp_log (by norm_num)] at this
      rw [exp_neg]; linarith
    have : 0 ≤ (0.1 - 0.2 * exp (-tl)) / (0.1 + 0.882 / fh1) := by
      apply div_nonneg (by linarith) (by positivity)
    linarith

/-- C124: the clear-sky irradiances (altitude not negative): the global one is the diffuse one plus the beam times the cosine of the zenith angle (0 below the horizon), global and beam irradiance are not
negative, nor is the diffuse one for turbidities from log 2 on; all vanish for a sun at or below the horizon; the beam irradiance does not exceed the extraterrestrial one up to 5700 m and for turbidities from 1 on;
all are proportional to the extraterrestrial irradiance.  A turbidity of zero divides by zero; an air mass of NaN gives zeros. -/
theorem C124_clear_sky (az am tl alt E : ℝ) (perez : Bool) (ham : 0 < am) (htl : 0 < tl) (halt : 0 ≤ alt) (hE : 0 ≤ E) :
    ∃ s, ineichen az (some am) tl alt E perez = .ok s ∧ s.ghi = s.dhi + s.dni * max (cos (d2r az)) 0 ∧ 0 ≤ s.ghi ∧ 0 ≤ s.dni ∧
      (log 2 ≤ tl → 0 ≤ s.dhi) ∧ (cos (d2r az) ≤ 0 → s.ghi = 0 ∧ s.dni = 0 ∧ s.dhi = 0) ∧ (0 < cos (d2r az) → 0 < E → 0 < s.ghi) ∧
      (alt ≤ 5700 → 1 ≤ tl → s.dni ≤ E) ∧
      (∀ k, 0 ≤ k → ineichen az (some am) tl alt (k * E) perez = .ok ⟨k * s.ghi, k * s.dni, k * s.dhi⟩) := by
  obtain ⟨g, hg, heq⟩ := ineichen_eq az am tl alt E perez ham htl.ne'
  have hf : 0 < exp (-alt / 8000) := exp_pos _
  have hf1 : exp (-alt / 8000) ≤ 1 := exp_le_one_iff.2 (by linarith)
  have hcz : 0 ≤ max (cos (d2r az)) 0 := le_max_right _ _
  set cz := max (cos (d2r az)) 0 with hczd
  have hcg : 0 < 5.09e-5 * alt + 0.868 := by positivity
  set A := (5.09e-5 * alt + 0.868) * E * cz * g with hA
  have hA0 : 0 ≤ A := by positivity
  have hbf := beam_nonneg (tl := tl) hf hf1 hcz
  have hbn : 0 ≤ E * ((0.664 + 0.163 / exp (-alt / 8000)) * exp (-0.09 * am * (tl - 1))) := by positivity
  have heqE : ineichenNum az am tl alt E perez = .ok ⟨A, min (A * beamFactor tl (exp (-alt / 8000)) cz) (E * ((0.664 + 0.163 / exp (-alt / 8000)) * exp (-0.09 * am * (tl - 1)))),
      A - min (A * beamFactor tl (exp (-alt / 8000)) cz) (E * ((0.664 + 0.163 / exp (-alt / 8000)) * exp (-0.09 * am * (tl - 1)))) * cz⟩ := heq E
  refine ⟨_, heqE, ?_, hA0, ?_, ?_, ?_, ?_, ?_, ?_⟩
  · simp only; ring
  · simp only; exact le_min (mul_nonneg hA0 hbf) hbn
  · intro h
    simp only
    have h1 := beam_le hf hcz h
    have h2 := min_le_left (A * beamFactor tl (exp (-alt / 8000)) cz) (E * ((0.664 + 0.163 / exp (-alt / 8000)) * exp (-0.09 * am * (tl - 1))))
    have h3 := mul_le_mul_of_nonneg_right h2 hcz
    have h4 := mul_le_mul_of_nonneg_left h1 hA0
    rw [sub_nonneg]
    calc _ ≤ A * beamFactor tl (exp (-alt / 8000)) cz * cz := h3
      _ = A * (beamFactor tl (exp (-alt / 8000)) cz * cz) := by ring
      _ ≤ A * 1 := h4
      _ = A := mul_one _
  · intro h
    have hz : cz = 0 := max_eq_right h
    have hA' : A = 0 := by rw [hA, hz]; ring
    simp only
    rw [hA', hz, zero_mul, min_eq_left hbn]
    norm_num
  · intro h hE'
    simp only
    have : 0 < cz := lt_of_lt_of_le h (le_max_left _ _)
    rw [hA]; positivity
  · intro h1 h2
    simp only
    refine (min_le_right _ _).trans ?_
    have e1 : exp (-0.09 * am * (tl - 1)) ≤ 1 := exp_le_one_iff.2 (by nlinarith [mul_nonneg ham.le (by linarith : 0 ≤ tl - 1)])
    have e2 : 0.664 + 0.163 / exp (-alt / 8000) ≤ 1 := by
      have : exp (alt / 8000) ≤ 2.0613 := by
        have h3 : exp (alt / 8000) ≤ exp (0.7125) := exp_le_exp.2 (by linarith)
        have h4 : exp (0.7125) = exp 0.35625 ^ 2 := by rw [← exp_nat_mul]; norm_num
        have h5 : exp 0.35625 ≤ 1.4356 := by
          have := exp_bound' (x := 0.35625) (by norm_num) (by norm_num) (n := 6) (by norm_num)
          refine this.trans ?_
          norm_num [Finset.sum_range_succ, Nat.factorial]
        rw [h4] at h3
        have := pow_le_pow_left₀ (exp_pos _).le h5 2
        norm_num at this h3 ⊢
        linarith
      have e3 : 0.163 / exp (-alt / 8000) = 0.163 * exp (alt / 8000) := by
        rw [neg_div, exp_neg]; field_simp
      rw [e3]; linarith
    have e4 : 0 ≤ 0.664 + 0.163 / exp (-alt / 8000) := by positivity
    have := mul_le_mul e2 e1 (exp_pos _).le (by norm_num)
    nlinarith
  · intro k hk
    show ineichenNum _ _ _ _ _ _ = _
    rw [heq (k * E)]
    have hAk : (5.09e-5 * alt + 0.868) * (k * E) * cz * g = k * A := by rw [hA]; ring
    simp only
    rw [hAk, show k * A * beamFactor tl (exp (-alt / 8000)) cz = k * (A * beamFactor tl (exp (-alt / 8000)) cz) by ring, mul_assoc k E, ← mul_min_of_nonneg _ _ hk]
    generalize min (A * beamFactor tl (exp (-alt / 8000)) cz) (E * ((0.664 + 0.163 / exp (-alt / 8000)) * exp (-0.09 * am * (tl - 1)))) = M
    rw [show k * A - k * M * cz = k * (A - M * cz) by ring]

example : (0 : ℝ) < 3 ∧ log 2 ≤ (3 : ℝ) := ⟨by norm_num, by have := log_two_lt_d9; linarith⟩

/-- C124: the error and NaN cases of `ineichen` -/
theorem C124_clear_sky_errors (az am tl alt E : ℝ) (perez : Bool) :
    ineichen az none tl alt E perez = .ok ⟨0, 0, 0⟩ ∧ (0 < am → ineichen az (some am) 0 alt E perez = .error .zeroDivisionError) := by
  refine ⟨rfl, fun h => ?_⟩
  obtain ⟨g, hg, -⟩ := att_ok am (exp (-alt / 8000)) (exp (-alt / 1250)) (3.92e-5 * alt + 0.0387) 0 perez h
  show ineichenNum _ _ _ _ _ _ = _
  unfold ineichenNum
  dsimp only
  rw [hg, Py.ok_bind, pdiv_zero]
  rfl

/-! ### `solar_irradiation` -/

/-- C124: `solar_irradiation` succeeds for the default air mass model, with a positive pressure and a turbidity of at least log 2; total = direct + sky + ground, none negative; everything is zero for a sun
at or below the horizon. -/
theorem C124_solar_irradiation (pv : String → ℝ → Py ℝ) (az z b P day Z t a sc albedo tl : ℝ) (haz : 0 ≤ az) (hP : 0 < P) (hZ : 0 ≤ Z) (hsc : 0 ≤ sc) (hal : 0 ≤ albedo) (htl : log 2 ≤ tl) :
    ∃ r s, solar_irradiation pv az z b P day Z t a sc albedo tl "spencer" "kastenyoung1989" = .ok r ∧ r.sky_diffuse = some s ∧ r.global = r.direct + s + r.ground_diffuse ∧ r.diffuse = s + r.ground_diffuse ∧
      0 ≤ r.direct ∧ 0 ≤ s ∧ 0 ≤ r.ground_diffuse ∧
      (90 ≤ az → az ≤ 270 → r.global = 0) ∧
      (t = 0 → az ≤ 90 → ∃ am cs, get_relative_airmass az "kastenyoung1989" = .ok (some am) ∧ ineichen az (some (am * P / 101325)) tl Z sc true = .ok cs ∧ r.global = cs.ghi) := by
  have htl0 : 0 < tl := lt_of_lt_of_le (log_pos (by norm_num)) htl
  have hp := pi_pos
  have hcneg : 90 ≤ az → az ≤ 270 → cos (d2r az) ≤ 0 := by
    intro h1 h2
    apply cos_nonpos_of_pi_div_two_le_of_le <;> unfold d2r <;> nlinarith
  have main : ∃ rel cs, get_relative_airmass az "kastenyoung1989" = .ok rel ∧ ineichen az (get_absolute_airmass rel P) tl Z sc true = .ok cs ∧ 0 ≤ cs.ghi ∧ 0 ≤ cs.dhi ∧ 0 ≤ cs.dni ∧
      cs.ghi = cs.dhi + cs.dni * max (cos (d2r az)) 0 ∧
      (90 ≤ az → az ≤ 270 → cs.ghi = 0 ∧ cs.dni = 0 ∧ cs.dhi = 0) ∧ (az ≤ 90 → ∃ am, rel = some am) := by
    rcases lt_or_ge az 96.07995 with h | h
    · obtain ⟨am, h1, h2, -⟩ := (C124_relative_airmass az).1 haz h
      have h3 : 0 < am * P / 101325 := by positivity
      obtain ⟨cs, c1, c2, c3, c4, c5, c6, -⟩ := C124_clear_sky az (am * P / 101325) tl Z sc true h3 htl0 hZ hsc
      exact ⟨some am, cs, h1, c1, c3, c5 htl, c4, c2, fun g1 g2 => c6 (hcneg g1 g2), fun _ => ⟨am, rfl⟩⟩
    · refine ⟨none, ⟨0, 0, 0⟩, (C124_relative_airmass az).2.1 h, rfl, le_rfl, le_rfl, le_rfl, by simp, fun _ _ => ⟨rfl, rfl, rfl⟩, fun h' => ?_⟩
      linarith
  obtain ⟨rel, cs, m1, m2, g1, g2, g3, g4, g5, g6⟩ := main
  obtain ⟨r, s, t1, t2, t3, t4, t5, t6, t7, t8, t9, t10, t11, -⟩ := C124_total t a az b cs.dni cs.ghi cs.dhi albedo g1 g2 hal
  refine ⟨r, s, ?_, t2, t5, t4, t6, t7, t9, ?_, ?_⟩
  · unfold solar_irradiation extra_radiation usedZenith
    rw [if_pos rfl, if_pos (by simp), Py.pure_eq, Py.ok_bind, Py.pure_eq, Py.ok_bind, m1, Py.ok_bind]
    dsimp only
    rw [m2, Py.ok_bind, t1]
  · intro h1 h2
    obtain ⟨k1, k2, k3⟩ := g5 h1 h2
    rw [k2, zero_mul, max_self] at t3
    rw [k3] at t8
    rw [k1, mul_zero] at t10
    rw [t5, t3, le_antisymm t8 t7, le_antisymm t10 t9]; norm_num
  · intro h0 h1
    obtain ⟨am, rfl⟩ := g6 h1
    obtain ⟨k1, k2, k3⟩ := t11 h0
    refine ⟨am, cs, m1, m2, ?_⟩
    have hc := cos_nonneg_deg (by linarith : -90 ≤ az) h1
    rw [t5, k1, k2, k3, g4, max_eq_left hc, max_eq_left (mul_nonneg g3 hc)]; ring

example : (0 : ℝ) ≤ 41.1 ∧ (0 : ℝ) < 101325 ∧ (0 : ℝ) ≤ 1100 := by norm_num

/-- C124: the variation of the distance to the sun is computed and then not used: the day of the year, and any extraterrestrial-radiation method that does not fail, leave the result unchanged. -/
theorem C124_distance_ignored (pv : String → ℝ → Py ℝ) (az z b P day day' Z t a sc albedo tl : ℝ) (m m' model : String)
    (h : ∃ x, extra_radiation pv day sc m = .ok x) (h' : ∃ x, extra_radiation pv day' sc m' = .ok x) :
    solar_irradiation pv az z b P day Z t a sc albedo tl m model = solar_irradiation pv az z b P day' Z t a sc albedo tl m' model := by
  obtain ⟨x, h⟩ := h
  obtain ⟨x', h'⟩ := h'
  unfold solar_irradiation
  rw [h, h', Py.ok_bind, Py.ok_bind]

/-- C124: every air mass model other than "kastenyoung1989" — the six others the function recognises included — ends in a ValueError. -/
theorem C124_airmass_models (pv : String → ℝ → Py ℝ) (az z b P day Z t a sc albedo tl : ℝ) (model : String) (h : model ≠ "kastenyoung1989") :
    solar_irradiation pv az z b P day Z t a sc albedo tl "spencer" model = .error .valueError := by
  unfold solar_irradiation extra_radiation
  rw [if_pos rfl, Py.pure_eq, Py.ok_bind]
  have hrel : ∀ x, get_relative_airmass x model = .error .valueError := fun x => by unfold get_relative_airmass; rw [if_neg h]; rfl
  simp only [hrel]
  unfold usedZenith
  split_ifs <;> rfl

/-- C124: the extraterrestrial irradiance of Spencer's formula stays within 3.7 % of the solar constant and repeats after 365 days. -/
theorem C124_spencer (day sc : ℝ) (h : 0 ≤ sc) : 0.963 * sc ≤ spencer day sc ∧ spencer day sc ≤ 1.037 * sc ∧ spencer (day + 365) sc = spencer day sc := by
  refine ⟨?_, ?_, ?_⟩
  · simp only [spencer]
    have := neg_one_le_cos (2 * π / 365 * (day - 1))
    have := neg_one_le_sin (2 * π / 365 * (day - 1))
    have := neg_one_le_cos (2 * (2 * π / 365 * (day - 1)))
    have := neg_one_le_sin (2 * (2 * π / 365 * (day - 1)))
    rw [mul_comm]
    apply mul_le_mul_of_nonneg_left _ h
    linarith
  · simp only [spencer]
    have := cos_le_one (2 * π / 365 * (day - 1))
    have := sin_le_one (2 * π / 365 * (day - 1))
    have := cos_le_one (2 * (2 * π / 365 * (day - 1)))
    have := sin_le_one (2 * (2 * π / 365 * (day - 1)))
    rw [mul_comm 1.037]
    apply mul_le_mul_of_nonneg_left _ h
    linarith
  · simp only [spencer]
    rw [show 2 * π / 365 * (day + 365 - 1) = 2 * π / 365 * (day - 1) + 2 * π by ring, show 2 * (2 * π / 365 * (day - 1) + 2 * π) = 2 * (2 * π / 365 * (day - 1)) + 2 * π + 2 * π by ring]
    simp only [cos_add_two_pi, sin_add_two_pi]

/-! ### Air mass of an atmosphere -/

/-- the radicand of the air mass integrand: 1 - (1 + 2(RI-1)(1-ρ/ρ₀)) (cos γ/(1+h/R))² -/
noncomputable def radicand (rho : ℝ → ℝ) (angle R RI h : ℝ) : ℝ := 1 - (1 + 2 * (RI - 1) * (1 - rho h / rho 0)) * (cos (d2r angle) / (1 + h / R)) ^ 2

theorem airmass_eq (rho : ℝ → ℝ) (angle H R RI : ℝ) : airmass rho angle H R RI = ∫ h in (0)..H, rho h / √(radicand rho angle R RI h) := by
  unfold airmass
  apply intervalIntegral.integral_congr
  intro h _
  simp only [to_int_airmass, radicand]
  rw [div_eq_mul_one_div]
  congr 4
  ring

/-- C124: straight up the air mass is the integral of the density. -/
theorem C124_airmass_vertical (rho : ℝ → ℝ) (H R RI : ℝ) : airmass rho 90 H R RI = ∫ h in (0)..H, rho h := by
  rw [airmass_eq]
  apply intervalIntegral.integral_congr
  intro h _
  simp only [radicand]
  rw [show d2r 90 = π / 2 by unfold d2r; ring, cos_pi_div_two]
  norm_num

/-- C124: the air mass does not decrease as the angle above the horizon is lowered (for a continuous density, not negative and largest at the ground, a refractive index of at least 1, and as long as the
radicand is positive). -/
theorem C124_airmass_decreasing (rho : ℝ → ℝ) (g g' H R RI : ℝ) (hc : Continuous rho) (h0 : ∀ h, 0 ≤ rho h) (hr0 : 0 < rho 0) (h1 : ∀ h, 0 ≤ h → rho h ≤ rho 0) (hH : 0 ≤ H) (hR : 0 < R) (hRI : 1 ≤ RI)
    (hg : 0 ≤ g) (hgg : g ≤ g') (hg' : g' ≤ 90) (hpos : ∀ h ∈ Set.Icc 0 H, 0 < radicand rho g R RI h) :
    airmass rho g' H R RI ≤ airmass rho g H R RI ∧ (∫ h in (0)..H, rho h) ≤ airmass rho g' H R RI := by
  have hp := pi_pos
  have hcc : ∀ a b : ℝ, 0 ≤ a → a ≤ b → b ≤ 90 → cos (d2r b) ≤ cos (d2r a) ∧ 0 ≤ cos (d2r b) := by
    intro a b ha hab hb
    refine ⟨?_, cos_nonneg_deg (by linarith) hb⟩
    apply cos_le_cos_of_nonneg_of_le_pi <;> unfold d2r
    · positivity
    · nlinarith
    · have : 0 ≤ π / 180 := by positivity
      exact mul_le_mul_of_nonneg_left hab this
  have hmono : ∀ a b : ℝ, 0 ≤ a → a ≤ b → b ≤ 90 → ∀ h ∈ Set.Icc 0 H, radicand rho a R RI h ≤ radicand rho b R RI h := by
    intro a b ha hab hb h hh
    unfold radicand
    have hden : 0 < 1 + h / R := by have := hh.1; positivity
    have hfac : 0 ≤ 1 + 2 * (RI - 1) * (1 - rho h / rho 0) := by
      have : rho h / rho 0 ≤ 1 := (div_le_one hr0).2 (h1 h hh.1)
      have := mul_nonneg (by linarith : 0 ≤ 2 * (RI - 1)) (by linarith : 0 ≤ 1 - rho h / rho 0)
      linarith
    obtain ⟨k1, k2⟩ := hcc a b ha hab hb
    have : (cos (d2r b) / (1 + h / R)) ^ 2 ≤ (cos (d2r a) / (1 + h / R)) ^ 2 := by gcongr
    have := mul_le_mul_of_nonneg_left this hfac
    linarith
  have hcont : ∀ a, (∀ h ∈ Set.Icc 0 H, 0 < radicand rho a R RI h) → ContinuousOn (fun h => rho h / √(radicand rho a R RI h)) (Set.Icc 0 H) := by
    intro a ha
    apply ContinuousOn.div hc.continuousOn
    · apply ContinuousOn.sqrt
      unfold radicand
      apply ContinuousOn.sub continuousOn_const
      apply ContinuousOn.mul
      · exact (continuous_const.add (continuous_const.mul (continuous_const.sub (hc.div_const _)))).continuousOn
      · apply ContinuousOn.pow
        apply ContinuousOn.div continuousOn_const (by fun_prop)
        intro h hh
        have := hh.1
        positivity
    · intro h hh
      exact (sqrt_pos.2 (ha h hh)).ne'
  have hpos' : ∀ h ∈ Set.Icc 0 H, 0 < radicand rho g' R RI h := fun h hh => lt_of_lt_of_le (hpos h hh) (hmono g g' hg hgg hg' h hh)
  rw [airmass_eq, airmass_eq]
  have i1 := (hcont g hpos).intervalIntegrable_of_Icc (μ := MeasureTheory.volume) hH
  have i2 := (hcont g' hpos').intervalIntegrable_of_Icc (μ := MeasureTheory.volume) hH
  constructor
  · apply intervalIntegral.integral_mono_on hH i2 i1
    intro h hh
    apply div_le_div_of_nonneg_left (h0 h) (sqrt_pos.2 (hpos h hh))
    exact sqrt_le_sqrt (hmono g g' hg hgg hg' h hh)
  · apply intervalIntegral.integral_mono_on hH (hc.intervalIntegrable _ _) i2
    intro h hh
    have hle : radicand rho g' R RI h ≤ 1 := by
      have := hmono g' 90 (hg.trans hgg) hg' le_rfl h hh
      refine this.trans ?_
      unfold radicand
      rw [show d2r 90 = π / 2 by unfold d2r; ring, cos_pi_div_two]
      norm_num
    rw [le_div_iff₀ (sqrt_pos.2 (hpos' h hh))]
    exact mul_le_of_le_one_right (h0 h) (sqrt_le_one.2 hle)

/-- a constant atmosphere meets the hypotheses at 30 degrees -/
example : ∀ h ∈ Set.Icc (0 : ℝ) 86400, 0 < radicand (fun _ => 1) 30 6371229 1.000276 h := by
  intro h hh
  unfold radicand
  rw [show d2r 30 = π / 6 by unfold d2r; ring, cos_pi_div_six]
  have h1 : 1 ≤ 1 + h / 6371229 := by have := hh.1; linarith [div_nonneg hh.1 (by norm_num : (0 : ℝ) ≤ 6371229)]
  have h2 : (√3 / 2 / (1 + h / 6371229)) ^ 2 ≤ 3 / 4 := by
    rw [div_pow, div_pow, sq_sqrt (by norm_num), div_le_iff₀ (by positivity)]
    nlinarith [one_le_pow₀ h1 (n := 2)]
  rw [show (1 + 2 * (1.000276 - 1) * (1 - (1 : ℝ) / 1)) = 1 by norm_num]
  linarith

end Verif.Props.Irradiance
