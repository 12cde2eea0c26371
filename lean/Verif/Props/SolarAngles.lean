import Verif.Model.Spa
import Mathlib.Tactic.NormNum
import Mathlib.Tactic.Linarith
import Mathlib.Tactic.FieldSimp
import Mathlib.Tactic.Positivity
import Mathlib.Analysis.Real.Pi.Bounds
import Mathlib.Analysis.SpecialFunctions.Trigonometric.Inverse
import Mathlib.Analysis.SpecialFunctions.Complex.Arg
import Mathlib.Analysis.SpecialFunctions.Trigonometric.Bounds

/-!
# C123: the solar position algorithm — angles
-/

namespace Verif.Props.SolarAngles
open Verif Verif.Spa Real

theorem pmod_range {x m : ℝ} (hm : 0 < m) : 0 ≤ pmod x m ∧ pmod x m < m := by
  unfold pmod
  have h1 := Int.floor_le (x / m)
  have h2 := Int.lt_floor_add_one (x / m)
  rw [le_div_iff₀ hm] at h1
  rw [div_lt_iff₀ hm] at h2
  constructor <;> nlinarith

theorem pmod_mod (x m : ℝ) : ∃ k : ℤ, pmod x m = x + k * m := ⟨-⌊x / m⌋, by unfold pmod; push_cast; ring⟩

theorem pmod_eq {x m : ℝ} (hm : 0 < m) (h0 : 0 ≤ x) (h1 : x < m) : pmod x m = x := by
  unfold pmod
  have : ⌊x / m⌋ = 0 := by
    rw [Int.floor_eq_zero_iff]
    exact ⟨by positivity, by rwa [div_lt_one hm]⟩
  simp [this]

theorem pmod_shift {x m : ℝ} (hm : 0 < m) (h0 : m ≤ x) (h1 : x < 2 * m) : pmod x m = x - m := by
  unfold pmod
  have : ⌊x / m⌋ = 1 := by
    rw [Int.floor_eq_iff]
    push_cast
    exact ⟨by rwa [le_div_iff₀ hm, one_mul], by rw [div_lt_iff₀ hm]; linarith⟩
  simp [this]

theorem d2r_mod (x : ℝ) (k : ℤ) : d2r (x + k * 360) = d2r x + k * (2 * π) := by unfold d2r; ring

theorem d2r_r2d (x : ℝ) : d2r (r2d x) = x := by
  unfold d2r r2d; have := pi_ne_zero; field_simp

theorem r2d_d2r (x : ℝ) : r2d (d2r x) = x := by
  unfold d2r r2d; have := pi_ne_zero; field_simp

theorem cos_pmod (x : ℝ) : cos (d2r (pmod x 360)) = cos (d2r x) := by
  obtain ⟨k, hk⟩ := pmod_mod x 360
  rw [hk, d2r_mod, cos_add_int_mul_two_pi]

theorem sin_pmod (x : ℝ) : sin (d2r (pmod x 360)) = sin (d2r x) := by
  obtain ⟨k, hk⟩ := pmod_mod x 360
  rw [hk, d2r_mod, sin_add_int_mul_two_pi]

/-- C123: longitudes, sidereal time, right ascension, hour angle and azimuths are reduced to [0, 360), and the reduction does not change the direction. -/
theorem C123_ranges (x y z : ℝ) :
    (0 ≤ heliocentric_longitude x ∧ heliocentric_longitude x < 360) ∧
    (0 ≤ geocentric_longitude x ∧ geocentric_longitude x < 360 ∧ cos (d2r (geocentric_longitude x)) = -cos (d2r x) ∧ sin (d2r (geocentric_longitude x)) = -sin (d2r x)) ∧
    (0 ≤ mean_sidereal_time x y ∧ mean_sidereal_time x y < 360) ∧
    (0 ≤ geocentric_sun_right_ascension x y z ∧ geocentric_sun_right_ascension x y z < 360) ∧
    (0 ≤ local_hour_angle x y z ∧ local_hour_angle x y z < 360 ∧ cos (d2r (local_hour_angle x y z)) = cos (d2r (x + y - z)) ∧ sin (d2r (local_hour_angle x y z)) = sin (d2r (x + y - z))) ∧
    (0 ≤ topocentric_astronomers_azimuth x y z ∧ topocentric_astronomers_azimuth x y z < 360) ∧
    (0 ≤ topocentric_azimuth_angle x ∧ topocentric_azimuth_angle x < 360) := by
  have h : (0 : ℝ) < 360 := by norm_num
  refine ⟨pmod_range h, ⟨(pmod_range h).1, (pmod_range h).2, ?_, ?_⟩, pmod_range h, pmod_range h, ⟨(pmod_range h).1, (pmod_range h).2, cos_pmod _, sin_pmod _⟩, pmod_range h, pmod_range h⟩
  · unfold geocentric_longitude
    rw [cos_pmod, show d2r (x + 180) = d2r x + π by unfold d2r; ring, cos_add_pi]
  · unfold geocentric_longitude
    rw [sin_pmod, show d2r (x + 180) = d2r x + π by unfold d2r; ring, sin_add_pi]

/-! ### From unit vectors to angles -/

/-- the latitude-like and longitude-like angles of a unit vector give back the vector -/
theorem unit_angles {x y z k : ℝ} (h : x ^ 2 + y ^ 2 + z ^ 2 = 1) (hk : 0 < k) :
    cos (arcsin z) * cos (atan2 (y / k) (x / k)) = x ∧ cos (arcsin z) * sin (atan2 (y / k) (x / k)) = y ∧ sin (arcsin z) = z := by
  have hz1 : -1 ≤ z := by nlinarith [sq_nonneg x, sq_nonneg y]
  have hz2 : z ≤ 1 := by nlinarith [sq_nonneg x, sq_nonneg y]
  have hs := sin_arcsin hz1 hz2
  have hc : cos (arcsin z) = √(x ^ 2 + y ^ 2) := by rw [cos_arcsin]; congr 1; linarith
  rw [hc]
  refine ⟨?_, ?_, hs⟩
  all_goals
    unfold atan2
    rcases eq_or_ne (⟨x / k, y / k⟩ : ℂ) 0 with h0 | h0
    · rw [Complex.ext_iff] at h0
      have hx : x = 0 := by simpa [hk.ne'] using h0.1
      have hy : y = 0 := by simpa [hk.ne'] using h0.2
      simp [hx, hy]
    · have hn : ‖(⟨x / k, y / k⟩ : ℂ)‖ = √(x ^ 2 + y ^ 2) / k := by
        rw [Complex.norm_def, Complex.normSq_mk, show x / k * (x / k) + y / k * (y / k) = (x ^ 2 + y ^ 2) / k ^ 2 by field_simp, sqrt_div (by positivity), sqrt_sq hk.le]
      have hpos : 0 < √(x ^ 2 + y ^ 2) := by
        have := norm_pos_iff.2 h0
        rw [hn] at this
        exact (div_pos_iff_of_pos_right hk).1 this
      first
        | rw [Complex.cos_arg h0, hn]; simp only; field_simp
        | rw [Complex.sin_arg, hn]; simp only; field_simp

/-- the arguments of the arcsines are sines -/
theorem dot_bound (a b c : ℝ) : -1 ≤ sin a * sin b + cos a * cos b * cos c ∧ sin a * sin b + cos a * cos b * cos c ≤ 1 := by
  have h1 := sin_sq_add_cos_sq a
  have h2 := sin_sq_add_cos_sq b
  have h3 := abs_le.1 (abs_cos_le_one c)
  have h4 : |cos a * cos b * cos c| ≤ |cos a * cos b| := by
    rw [abs_mul]; exact mul_le_of_le_one_right (abs_nonneg _) (abs_cos_le_one c)
  have h5 : |sin a * sin b| + |cos a * cos b| ≤ 1 := by
    rw [abs_mul, abs_mul]
    nlinarith [sq_abs (sin a), sq_abs (sin b), sq_abs (cos a), sq_abs (cos b), sq_nonneg (|sin a| - |sin b|), sq_nonneg (|cos a| - |cos b|)]
  have h6 : |sin a * sin b + cos a * cos b * cos c| ≤ 1 := (abs_add_le _ _).trans (by linarith)
  exact abs_le.1 h6

/-- C123: the computed right ascension and declination are the angles of the sun's direction after the rotation by the obliquity from ecliptic to equatorial coordinates: for an ecliptic latitude whose
cosine is positive, never an error. -/
theorem C123_equatorial (lam eps beta : ℝ) (hb : 0 < cos (d2r beta)) :
    ∃ delta, geocentric_sun_declination lam eps beta = .ok delta ∧ -90 ≤ delta ∧ delta ≤ 90 ∧
      cos (d2r delta) * cos (d2r (geocentric_sun_right_ascension lam eps beta)) = cos (d2r beta) * cos (d2r lam) ∧
      cos (d2r delta) * sin (d2r (geocentric_sun_right_ascension lam eps beta)) = cos (d2r eps) * (cos (d2r beta) * sin (d2r lam)) - sin (d2r eps) * sin (d2r beta) ∧
      sin (d2r delta) = sin (d2r eps) * (cos (d2r beta) * sin (d2r lam)) + cos (d2r eps) * sin (d2r beta) := by
  set b := d2r beta
  set l := d2r lam
  set e := d2r eps
  have hbd : -1 ≤ sin b * cos e + cos b * sin e * sin l ∧ sin b * cos e + cos b * sin e * sin l ≤ 1 := by
    have := dot_bound b (π / 2 - e) (π / 2 - l)
    simpa [sin_pi_div_two_sub, cos_pi_div_two_sub] using this
  have hu : (cos b * cos l) ^ 2 + (cos e * (cos b * sin l) - sin e * sin b) ^ 2 + (sin b * cos e + cos b * sin e * sin l) ^ 2 = 1 := by
    have h1 := sin_sq_add_cos_sq b
    have h2 := sin_sq_add_cos_sq e
    have h3 := sin_sq_add_cos_sq l
    have : (cos b * cos l) ^ 2 + (cos e * (cos b * sin l) - sin e * sin b) ^ 2 + (sin b * cos e + cos b * sin e * sin l) ^ 2
        = cos b ^ 2 * cos l ^ 2 + (sin e ^ 2 + cos e ^ 2) * (cos b ^ 2 * sin l ^ 2 + sin b ^ 2) := by ring
    rw [this, h2]
    nlinarith
  obtain ⟨g1, g2, g3⟩ := unit_angles hu hb
  refine ⟨r2d (arcsin (sin b * cos e + cos b * sin e * sin l)), ?_, ?_, ?_, ?_, ?_, ?_⟩
  · unfold geocentric_sun_declination
    rw [pasin_ok hbd.1 hbd.2]; rfl
  · unfold r2d
    have := neg_pi_div_two_le_arcsin (sin b * cos e + cos b * sin e * sin l)
    have hp := pi_pos
    rw [div_mul_eq_mul_div, le_div_iff₀ hp]; linarith
  · unfold r2d
    have := arcsin_le_pi_div_two (sin b * cos e + cos b * sin e * sin l)
    have hp := pi_pos
    rw [div_mul_eq_mul_div, div_le_iff₀ hp]; linarith
  all_goals
    rw [d2r_r2d]
    try
      unfold geocentric_sun_right_ascension
      first
        | rw [cos_pmod]
        | rw [sin_pmod]
      rw [d2r_r2d]
      have k1 : sin l * cos e - tan b * sin e = (cos e * (cos b * sin l) - sin e * sin b) / cos b := by
        rw [tan_eq_sin_div_cos]; field_simp
      have k2 : cos l = cos b * cos l / cos b := by field_simp
  · rw [show atan2 (sin (d2r lam) * cos (d2r eps) - tan (d2r beta) * sin (d2r eps)) (cos (d2r lam)) = atan2 ((cos e * (cos b * sin l) - sin e * sin b) / cos b) (cos b * cos l / cos b) from by
      rw [← k1, ← k2]]
    exact g1
  · rw [show atan2 (sin (d2r lam) * cos (d2r eps) - tan (d2r beta) * sin (d2r eps)) (cos (d2r lam)) = atan2 ((cos e * (cos b * sin l) - sin e * sin b) / cos b) (cos b * cos l / cos b) from by
      rw [← k1, ← k2]]
    exact g2
  · rw [g3]; ring

/-- C123: the computed elevation and astronomers' azimuth (measured westward from the south) are the angles of the sun's direction after the rotation by the latitude into the horizon system: for a
declination whose cosine is positive, never an error. -/
theorem C123_horizontal (lat delta H : ℝ) (hd : 0 < cos (d2r delta)) :
    ∃ e, topocentric_elevation_angle_without_atmosphere lat delta H = .ok e ∧ -90 ≤ e ∧ e ≤ 90 ∧
      cos (d2r e) * cos (d2r (topocentric_astronomers_azimuth H delta lat)) = sin (d2r lat) * (cos (d2r delta) * cos (d2r H)) - cos (d2r lat) * sin (d2r delta) ∧
      cos (d2r e) * sin (d2r (topocentric_astronomers_azimuth H delta lat)) = cos (d2r delta) * sin (d2r H) ∧
      sin (d2r e) = cos (d2r lat) * (cos (d2r delta) * cos (d2r H)) + sin (d2r lat) * sin (d2r delta) := by
  set b := d2r delta
  set h := d2r H
  set l := d2r lat
  have hbd := dot_bound l b h
  have hu : (sin l * (cos b * cos h) - cos l * sin b) ^ 2 + (cos b * sin h) ^ 2 + (sin l * sin b + cos l * cos b * cos h) ^ 2 = 1 := by
    have h1 := sin_sq_add_cos_sq b
    have h2 := sin_sq_add_cos_sq l
    have h3 := sin_sq_add_cos_sq h
    have : (sin l * (cos b * cos h) - cos l * sin b) ^ 2 + (cos b * sin h) ^ 2 + (sin l * sin b + cos l * cos b * cos h) ^ 2
        = (sin l ^ 2 + cos l ^ 2) * (cos b ^ 2 * cos h ^ 2 + sin b ^ 2) + cos b ^ 2 * sin h ^ 2 := by ring
    rw [this, h2]
    nlinarith
  obtain ⟨g1, g2, g3⟩ := unit_angles hu hd
  have key : atan2 (sin (d2r H)) (cos (d2r H) * sin (d2r lat) - tan (d2r delta) * cos (d2r lat))
      = atan2 (cos b * sin h / cos b) ((sin l * (cos b * cos h) - cos l * sin b) / cos b) := by
    have k1 : cos h * sin l - tan b * cos l = (sin l * (cos b * cos h) - cos l * sin b) / cos b := by
      rw [tan_eq_sin_div_cos]; field_simp
    have k2 : sin h = cos b * sin h / cos b := by field_simp
    rw [← k1, ← k2]
  refine ⟨r2d (arcsin (sin l * sin b + cos l * cos b * cos h)), ?_, ?_, ?_, ?_, ?_, ?_⟩
  · unfold topocentric_elevation_angle_without_atmosphere
    rw [pasin_ok hbd.1 hbd.2]; rfl
  · unfold r2d
    have := neg_pi_div_two_le_arcsin (sin l * sin b + cos l * cos b * cos h)
    have hp := pi_pos
    rw [div_mul_eq_mul_div, le_div_iff₀ hp]; linarith
  · unfold r2d
    have := arcsin_le_pi_div_two (sin l * sin b + cos l * cos b * cos h)
    have hp := pi_pos
    rw [div_mul_eq_mul_div, div_le_iff₀ hp]; linarith
  · unfold topocentric_astronomers_azimuth
    rw [d2r_r2d, cos_pmod, d2r_r2d, key]
    exact g1
  · unfold topocentric_astronomers_azimuth
    rw [d2r_r2d, sin_pmod, d2r_r2d, key]
    exact g2
  · rw [d2r_r2d, g3]; ring

theorem cos_pos_deg {x : ℝ} (h1 : -90 < x) (h2 : x < 90) : 0 < cos (d2r x) := by
  apply cos_pos_of_mem_Ioo
  have := pi_pos
  unfold d2r
  constructor <;> nlinarith

theorem cos_nonneg_deg {x : ℝ} (h1 : -90 ≤ x) (h2 : x ≤ 90) : 0 ≤ cos (d2r x) := by
  apply cos_nonneg_of_mem_Icc
  have := pi_pos
  unfold d2r
  constructor <;> nlinarith

/-- C123: the elevation is symmetric about the meridian, never higher than at the meridian, and there equal to 90° minus the difference of latitude and declination. -/
theorem C123_noon (lat delta H e : ℝ) (hl : -90 ≤ lat) (hl' : lat ≤ 90) (hd : -90 ≤ delta) (hd' : delta ≤ 90)
    (he : topocentric_elevation_angle_without_atmosphere lat delta H = .ok e) :
    topocentric_elevation_angle_without_atmosphere lat delta (-H) = .ok e ∧
    topocentric_elevation_angle_without_atmosphere lat delta 0 = .ok (90 - |lat - delta|) ∧ e ≤ 90 - |lat - delta| := by
  have hp := pi_pos
  have hb := dot_bound (d2r lat) (d2r delta) (d2r H)
  have hv : e = r2d (arcsin (sin (d2r lat) * sin (d2r delta) + cos (d2r lat) * cos (d2r delta) * cos (d2r H))) := by
    unfold topocentric_elevation_angle_without_atmosphere at he
    rw [pasin_ok hb.1 hb.2] at he
    exact (Except.ok.inj he).symm
  have h0 : r2d (arcsin (sin (d2r lat) * sin (d2r delta) + cos (d2r lat) * cos (d2r delta))) = 90 - |lat - delta| := by
    have e1 : sin (d2r lat) * sin (d2r delta) + cos (d2r lat) * cos (d2r delta) = sin (d2r (90 - |lat - delta|)) := by
      rw [show d2r (90 - |lat - delta|) = π / 2 - |d2r (lat - delta)| by
        unfold d2r; rw [abs_mul, abs_of_pos (by positivity : 0 < π / 180)]; ring, sin_pi_div_two_sub, cos_abs, show d2r (lat - delta) = d2r lat - d2r delta by unfold d2r; ring, cos_sub]
      ring
    have h2 : |lat - delta| ≤ 180 := abs_le.2 ⟨by linarith, by linarith⟩
    have h3 := abs_nonneg (lat - delta)
    rw [e1, arcsin_sin, r2d_d2r]
    · unfold d2r; nlinarith
    · unfold d2r; nlinarith
  refine ⟨?_, ?_, ?_⟩
  · rw [← he]
    unfold topocentric_elevation_angle_without_atmosphere
    rw [show d2r (-H) = -d2r H by unfold d2r; ring, cos_neg]
  · have hb0 := dot_bound (d2r lat) (d2r delta) (d2r 0)
    unfold topocentric_elevation_angle_without_atmosphere
    rw [pasin_ok hb0.1 hb0.2]
    rw [show d2r 0 = 0 by unfold d2r; ring, cos_zero, mul_one]
    exact congrArg Except.ok h0
  · rw [← h0, hv]
    unfold r2d
    apply mul_le_mul_of_nonneg_left _ (by positivity)
    apply monotone_arcsin
    have : 0 ≤ cos (d2r lat) * cos (d2r delta) := mul_nonneg (cos_nonneg_deg hl hl') (cos_nonneg_deg hd hd')
    have := mul_le_of_le_one_right this (cos_le_one (d2r H))
    linarith

/-- C123: at the meridian the sun stands due south (azimuth 180) of an observer to the north of its declination and due north (azimuth 0) of one to the south of it; in the afternoon it stands in the
west, in the morning in the east. -/
theorem C123_azimuth (lat delta H : ℝ) (hl : -90 ≤ lat) (hl' : lat ≤ 90) (hd : -90 < delta) (hd' : delta < 90) :
    (delta < lat → topocentric_azimuth_angle (topocentric_astronomers_azimuth 0 delta lat) = 180) ∧
    (lat < delta → topocentric_azimuth_angle (topocentric_astronomers_azimuth 0 delta lat) = 0) ∧
    (0 < H → H < 180 → 180 < topocentric_azimuth_angle (topocentric_astronomers_azimuth H delta lat)) ∧
    (180 < H → H < 360 → 0 < topocentric_azimuth_angle (topocentric_astronomers_azimuth H delta lat) ∧ topocentric_azimuth_angle (topocentric_astronomers_azimuth H delta lat) < 180) := by
  have hp := pi_pos
  have hcd := cos_pos_deg hd hd'
  have hden : cos (d2r 0) * sin (d2r lat) - tan (d2r delta) * cos (d2r lat) = sin (d2r (lat - delta)) / cos (d2r delta) := by
    rw [show d2r (lat - delta) = d2r lat - d2r delta by unfold d2r; ring, sin_sub, show d2r 0 = 0 by unfold d2r; ring, cos_zero, tan_eq_sin_div_cos]
    field_simp
  have h36 : (0 : ℝ) < 360 := by norm_num
  refine ⟨?_, ?_, ?_, ?_⟩
  · intro h
    have hs : 0 < sin (d2r (lat - delta)) := by
      apply sin_pos_of_pos_of_lt_pi <;> unfold d2r <;> nlinarith
    have : topocentric_astronomers_azimuth 0 delta lat = 0 := by
      unfold topocentric_astronomers_azimuth
      rw [hden, show d2r 0 = 0 by unfold d2r; ring, sin_zero]
      have : atan2 0 (sin (d2r (lat - delta)) / cos (d2r delta)) = 0 := by
        unfold atan2
        exact Complex.arg_ofReal_of_nonneg (x := sin (d2r (lat - delta)) / cos (d2r delta)) (by positivity)
      rw [this]
      simp [r2d, pmod]
    rw [this]
    unfold topocentric_azimuth_angle
    rw [zero_add, pmod_eq h36 (by norm_num) (by norm_num)]
  · intro h
    have hs : sin (d2r (lat - delta)) < 0 := by
      apply sin_neg_of_neg_of_neg_pi_lt <;> unfold d2r <;> nlinarith
    have : topocentric_astronomers_azimuth 0 delta lat = 180 := by
      unfold topocentric_astronomers_azimuth
      rw [hden, show d2r 0 = 0 by unfold d2r; ring, sin_zero]
      have : atan2 0 (sin (d2r (lat - delta)) / cos (d2r delta)) = π := by
        unfold atan2
        exact Complex.arg_ofReal_of_neg (x := sin (d2r (lat - delta)) / cos (d2r delta)) (div_neg_of_neg_of_pos hs hcd)
      rw [this]
      have : r2d π = 180 := by unfold r2d; field_simp
      rw [this, pmod_eq h36 (by norm_num) (by norm_num)]
    rw [this]
    unfold topocentric_azimuth_angle
    rw [pmod_shift h36 (by norm_num) (by norm_num)]; norm_num
  · intro h1 h2
    have hs : 0 < sin (d2r H) := by
      apply sin_pos_of_pos_of_lt_pi <;> unfold d2r <;> nlinarith
    unfold topocentric_azimuth_angle topocentric_astronomers_azimuth
    set a := atan2 (sin (d2r H)) (cos (d2r H) * sin (d2r lat) - tan (d2r delta) * cos (d2r lat)) with ha
    have ha0 : 0 < a ∧ a < π := by
      have h0 : 0 ≤ a := Complex.arg_nonneg_iff.2 hs.le
      have hle : a ≤ π := Complex.arg_le_pi _
      refine ⟨lt_of_le_of_ne h0 fun h => ?_, lt_of_le_of_ne hle fun h => ?_⟩
      · have := (Complex.arg_eq_zero_iff.1 h.symm).2
        simp only at this; linarith
      · have := (Complex.arg_eq_pi_iff.1 h).2
        simp only at this; linarith
    have hr : 0 < r2d a ∧ r2d a < 180 := by
      unfold r2d
      refine ⟨by have := ha0.1; positivity, ?_⟩
      rw [div_mul_eq_mul_div, div_lt_iff₀ hp]; nlinarith [ha0.2]
    rw [pmod_eq h36 hr.1.le (by linarith [hr.2]), pmod_eq h36 (by linarith [hr.1]) (by linarith [hr.2])]
    linarith [hr.1]
  · intro h1 h2
    have hs : sin (d2r H) < 0 := by
      rw [← sin_sub_two_pi]
      apply sin_neg_of_neg_of_neg_pi_lt <;> unfold d2r <;> nlinarith
    unfold topocentric_azimuth_angle topocentric_astronomers_azimuth
    set a := atan2 (sin (d2r H)) (cos (d2r H) * sin (d2r lat) - tan (d2r delta) * cos (d2r lat)) with ha
    have ha0 : -π < a ∧ a < 0 := ⟨Complex.neg_pi_lt_arg _, Complex.arg_neg_iff.2 hs⟩
    have hr : -180 < r2d a ∧ r2d a < 0 := by
      unfold r2d
      constructor
      · rw [div_mul_eq_mul_div, lt_div_iff₀ hp]; nlinarith [ha0.1]
      · have : 0 < 180 / π := by positivity
        nlinarith [ha0.2]
    have e1 : pmod (r2d a) 360 = r2d a + 360 := by
      unfold pmod
      have : ⌊r2d a / 360⌋ = -1 := by
        rw [Int.floor_eq_iff]; push_cast
        constructor
        · rw [le_div_iff₀ h36]; linarith [hr.1]
        · rw [div_lt_iff₀ h36]; linarith [hr.2]
      rw [this]; push_cast; ring
    rw [e1, pmod_shift h36 (by linarith [hr.1]) (by linarith [hr.2])]
    constructor <;> linarith [hr.1, hr.2]

example : (0 : ℝ) < 20 ∧ (20 : ℝ) < 51 := by norm_num

/-- C123: the apparent sidereal time is ahead of the mean one by the projection of the nutation in longitude on the equator: all of it for no obliquity, none at 90°. -/
theorem C123_equinoxes (v psi eps : ℝ) :
    apparent_sidereal_time v 0 eps = v ∧ apparent_sidereal_time v psi 0 = v + psi ∧ apparent_sidereal_time v psi 90 = v ∧ apparent_sidereal_time v psi 60 = v + psi / 2 ∧
    (0 < psi → |eps| < 90 → v < apparent_sidereal_time v psi eps ∧ apparent_sidereal_time v psi eps ≤ v + psi) := by
  have e90 : d2r 90 = π / 2 := by unfold d2r; ring
  have e60 : d2r 60 = π / 3 := by unfold d2r; ring
  unfold apparent_sidereal_time
  refine ⟨by simp, by simp [d2r], by rw [e90, cos_pi_div_two]; ring, by rw [e60, cos_pi_div_three]; ring, fun hp h => ?_⟩
  have hpi := pi_pos
  rw [abs_lt] at h
  have hc : 0 < cos (d2r eps) := cos_pos_of_mem_Ioo ⟨by unfold d2r; nlinarith [h.1], by unfold d2r; nlinarith [h.2]⟩
  exact ⟨by nlinarith, by nlinarith [cos_le_one (d2r eps)]⟩

/-- C123: the mean sidereal time `d` days after noon on 1 January 2000 is, up to full turns, 280.46061837 + 360.98564736629 d + 0.000387933 T² - T³/38710000 degrees, T = `27378507871321012·10⁻²¹ d`
Julian centuries (the rounded 1/36525). It is periodic to within 10⁻⁶ degrees with the sidereal day of 360/360.98564736629 days, for a thousand years either side. -/
theorem C123_sidereal_day (d : ℝ) :
    let v := fun d : ℝ => mean_sidereal_time (2451545 + d) (julian_century (2451545 + d));
    0 ≤ v d ∧ v d < 360 ∧ (∃ k : ℤ, v d = 280.46061837 + 360.98564736629 * d + 0.000387933 * (d * (27378507871321012 / 10 ^ 21)) ^ 2 - (d * (27378507871321012 / 10 ^ 21)) ^ 3 / 38710000 + 360 * k) ∧
    (|d| ≤ 365000 → ∃ k : ℤ, |v (d + 360 / 360.98564736629) - v d - 360 * k| ≤ 1e-6) := by
  intro v
  have hv : ∀ d, ∃ k : ℤ, v d = 280.46061837 + 360.98564736629 * d + 0.000387933 * (d * (27378507871321012 / 10 ^ 21)) ^ 2 - (d * (27378507871321012 / 10 ^ 21)) ^ 3 / 38710000 + 360 * k := by
    intro d
    refine ⟨-⌊(280.46061837 + 360.98564736629 * (2451545 + d - 2451545) + 0.000387933 * (julian_century (2451545 + d) * julian_century (2451545 + d)) -
      julian_century (2451545 + d) * julian_century (2451545 + d) * julian_century (2451545 + d) / 38710000) / 360⌋, ?_⟩
    show mean_sidereal_time _ _ = _
    unfold mean_sidereal_time pmod
    have : julian_century (2451545 + d) = d * (27378507871321012 / 10 ^ 21) := by unfold julian_century; ring
    rw [this]
    push_cast
    ring
  have hr := pmod_range (m := (360 : ℝ)) (x := 280.46061837 + 360.98564736629 * (2451545 + d - 2451545) + 0.000387933 * (julian_century (2451545 + d) * julian_century (2451545 + d)) -
      julian_century (2451545 + d) * julian_century (2451545 + d) * julian_century (2451545 + d) / 38710000) (by norm_num)
  refine ⟨hr.1, hr.2, hv d, fun hd => ?_⟩
  obtain ⟨k, hk⟩ := hv d
  obtain ⟨k', hk'⟩ := hv (d + 360 / 360.98564736629)
  refine ⟨1 + k' - k, ?_⟩
  rw [hk, hk']
  obtain ⟨s, hs⟩ : ∃ s : ℝ, s = 360 / 360.98564736629 := ⟨_, rfl⟩
  have hs1 : 360.98564736629 * s = 360 := by rw [hs]; norm_num
  rw [← hs]
  obtain ⟨t, ht⟩ : ∃ t : ℝ, t = d * (27378507871321012 / 10 ^ 21) := ⟨_, rfl⟩
  have htd : |t| ≤ 10 := by rw [ht, abs_mul, abs_of_pos (show (0:ℝ) < 27378507871321012 / 10 ^ 21 by norm_num)]; linarith
  obtain ⟨e, he⟩ : ∃ e : ℝ, e = s * (27378507871321012 / 10 ^ 21) := ⟨_, rfl⟩
  have he0 : 0 ≤ e := by rw [he, hs]; norm_num
  have he1 : e ≤ 2.8e-5 := by rw [he, hs]; norm_num
  rw [show (d + s) * (27378507871321012 / 10 ^ 21) = t + e by rw [ht, he]; ring, ← ht]
  have key : 280.46061837 + 360.98564736629 * (d + s) + 0.000387933 * (t + e) ^ 2 - (t + e) ^ 3 / 38710000 + 360 * (k' : ℝ) -
      (280.46061837 + 360.98564736629 * d + 0.000387933 * t ^ 2 - t ^ 3 / 38710000 + 360 * (k : ℝ)) - 360 * ((1 + k' - k : ℤ) : ℝ)
      = e * (0.000387933 * (2 * t + e) - (3 * t ^ 2 + 3 * t * e + e ^ 2) / 38710000) := by
    push_cast
    linear_combination hs1
  rw [key, abs_mul, abs_of_nonneg he0]
  obtain ⟨t1, t2⟩ := abs_le.1 htd
  have hb : |0.000387933 * (2 * t + e) - (3 * t ^ 2 + 3 * t * e + e ^ 2) / 38710000| ≤ 0.02 := by
    have q1 : t ^ 2 ≤ 100 := by nlinarith
    have q2 : |t * e| ≤ 1 := by rw [abs_le]; constructor <;> nlinarith
    obtain ⟨q3, q4⟩ := abs_le.1 q2
    have q5 : e ^ 2 ≤ 1 := by nlinarith
    have q6 := sq_nonneg t
    have q7 := sq_nonneg e
    rw [abs_le]; constructor <;> linarith
  calc e * _ ≤ 2.8e-5 * 0.02 := mul_le_mul he1 hb (abs_nonneg _) (by norm_num)
    _ ≤ 1e-6 := by norm_num

/-- C123: parallax moves the right ascension by as much as it moves the hour angle the other way: the sidereal time, their sum, is the same seen from the centre of the Earth and from the observer. -/
theorem C123_sidereal (alpha H da : ℝ) :
    topocentric_sun_right_ascension alpha da + topocentric_local_hour_angle H da = alpha + H ∧ topocentric_sun_right_ascension alpha da - alpha = da := by
  unfold topocentric_sun_right_ascension topocentric_local_hour_angle
  constructor <;> ring

/-- C123: the correction for parallax is the change of direction from the centre of the Earth to the observer at distances x from its axis and y from the equatorial plane (in units in which the sine of
the parallax is `s`): the vector from the observer to the sun, in the system of hour angle and declination, is a positive multiple of the direction computed. -/
theorem C123_parallax (delta x y xi H : ℝ) (hD : 0 < cos (d2r delta) - x * sin (d2r xi) * cos (d2r H)) :
    let da := parallax_sun_right_ascension x xi H delta
    let d' := topocentric_sun_declination delta x y xi da H
    let H' := topocentric_local_hour_angle H da;
    (-90 < d' ∧ d' < 90) ∧ ∃ k > 0,
      k * (cos (d2r d') * cos (d2r H')) = cos (d2r delta) * cos (d2r H) - x * sin (d2r xi) ∧
      k * (cos (d2r d') * sin (d2r H')) = cos (d2r delta) * sin (d2r H) ∧
      k * sin (d2r d') = sin (d2r delta) - y * sin (d2r xi) := by
  have hp := pi_pos
  extract_lets da d' H'
  set s := sin (d2r xi)
  set c := cos (d2r delta)
  set h := d2r H
  set D := c - x * s * cos h with hDdef
  set N := -x * s * sin h with hN
  have hz : (⟨D, N⟩ : ℂ) ≠ 0 := by
    intro h0; rw [Complex.ext_iff] at h0; simp at h0; linarith
  set rho := ‖(⟨D, N⟩ : ℂ)‖ with hrho
  have hrpos : 0 < rho := norm_pos_iff.2 hz
  have hda : d2r da = Complex.arg ⟨D, N⟩ := d2r_r2d _
  have hcda : cos (d2r da) = D / rho := by rw [hda, Complex.cos_arg hz]
  have hsda : sin (d2r da) = N / rho := by rw [hda, Complex.sin_arg]
  set M := (sin (d2r delta) - y * s) * cos (d2r da) with hM
  have hw : (⟨D, M⟩ : ℂ) ≠ 0 := by
    intro h0; rw [Complex.ext_iff] at h0; simp at h0; linarith
  set sig := ‖(⟨D, M⟩ : ℂ)‖ with hsig
  have hspos : 0 < sig := norm_pos_iff.2 hw
  have hd : d2r d' = Complex.arg ⟨D, M⟩ := d2r_r2d _
  have hcd : cos (d2r d') = D / sig := by rw [hd, Complex.cos_arg hw]
  have hsd : sin (d2r d') = M / sig := by rw [hd, Complex.sin_arg]
  have habs : |d2r d'| < π / 2 := by rw [hd]; exact Complex.abs_arg_lt_pi_div_two_iff.2 (Or.inl hD)
  have hH : d2r H' = h - d2r da := by
    show d2r (H - da) = _
    show π / 180 * (H - da) = π / 180 * H - π / 180 * da
    ring
  refine ⟨⟨?_, ?_⟩, rho * sig / D, by positivity, ?_, ?_, ?_⟩
  · have := (abs_lt.1 habs).1
    unfold d2r at this; nlinarith
  · have := (abs_lt.1 habs).2
    unfold d2r at this; nlinarith
  · rw [hH, cos_sub, hcda, hsda, hcd]
    have h2 := sin_sq_add_cos_sq h
    field_simp
    rw [hDdef, hN]
    linear_combination (-(x * s)) * h2
  · rw [hH, sin_sub, hcda, hsda, hcd]
    field_simp
    rw [hDdef, hN]
    ring
  · rw [hsd, hM, hcda]
    field_simp

/-- C123: the equation of time lies in (-1420, 20] minutes and differs from four times the angle by a multiple of 1440 minutes. -/
theorem C123_equation_of_time (m alpha psi eps : ℝ) :
    -1420 < equation_of_time m alpha psi eps ∧ equation_of_time m alpha psi eps ≤ 20 ∧
    ∃ k : ℤ, equation_of_time m alpha psi eps = 4 * (m - 0.0057183 - alpha + psi * cos (d2r eps)) + k * 1440 := by
  unfold equation_of_time
  extract_lets E
  have hr := pmod_range (x := m - 0.0057183 - alpha + psi * cos (d2r eps)) (by norm_num : (0 : ℝ) < 360)
  have hE : 0 ≤ E ∧ E < 1440 := by
    constructor
    · show 0 ≤ pmod _ _ * 4
      linarith [hr.1]
    · show pmod _ _ * 4 < 1440
      linarith [hr.2]
  obtain ⟨k, hk⟩ := pmod_mod (m - 0.0057183 - alpha + psi * cos (d2r eps)) 360
  have hEk : E = 4 * (m - 0.0057183 - alpha + psi * cos (d2r eps)) + k * 1440 := by
    show pmod _ _ * 4 = _
    rw [hk]; ring
  rcases lt_or_ge 20 E with h | h
  · rw [if_pos h, if_neg (by linarith), if_neg (by intro h'; linarith [h'.1])]
    refine ⟨by linarith, by linarith, k - 1, ?_⟩
    rw [hEk]; push_cast; ring
  · rw [if_neg (not_lt.2 h), if_neg (by linarith), if_pos ⟨h, by linarith⟩]
    refine ⟨by linarith, by linarith, k, ?_⟩
    rw [hEk]; ring

/-- C123: the time scales. The Julian day is 2440587.5 at the Unix epoch and advances by one in 86400 s, the ephemeris day adds ΔT in days, the century is 36525 days from the epoch J2000 and the millennium ten of them, all to a relative error of 1e-16. -/
theorem C123_time_scales (u dt jd : ℝ) :
    |julian_day u - (2440587.5 + u / 86400)| ≤ 1e-16 * |u / 86400| ∧ |julian_ephemeris_day jd dt - (jd + dt / 86400)| ≤ 1e-16 * |dt / 86400| ∧
    |julian_century jd - (jd - 2451545) / 36525| ≤ 1e-16 * |(jd - 2451545) / 36525| ∧ 10 * julian_ephemeris_millennium jd = jd := by
  unfold julian_day julian_ephemeris_day julian_century julian_ephemeris_millennium
  refine ⟨?_, ?_, ?_, by ring⟩
  · rw [show u * (11574074074074073 / 10 ^ 21) + 4881175 / 2 - (2440587.5 + u / 86400) = (-9.28e-17) * (u / 86400) by ring, abs_mul]
    exact mul_le_mul_of_nonneg_right (by norm_num [abs_le]) (abs_nonneg _)
  · rw [show jd + dt * (11574074074074073 / 10 ^ 21) - (jd + dt / 86400) = (-9.28e-17) * (dt / 86400) by ring, abs_mul]
    exact mul_le_mul_of_nonneg_right (by norm_num [abs_le]) (abs_nonneg _)
  · rw [show (jd - 2451545) * (27378507871321012 / 10 ^ 21) - (jd - 2451545) / 36525 = (-3.67e-17) * ((jd - 2451545) / 36525) by ring, abs_mul]
    exact mul_le_mul_of_nonneg_right (by norm_num [abs_le]) (abs_nonneg _)

/-- C123: the five fundamental arguments of the nutation are the cubic polynomials of the 1980 IAU theory, to 1e-19 degrees times the cube of the century. -/
theorem C123_nutation_arguments (T : ℝ) :
    |mean_elongation T - (297.85036 + 445267.11148 * T - 0.0019142 * T ^ 2 + T ^ 3 / 189474)| ≤ 1e-19 * |T| ^ 3 ∧
    |mean_anomaly_sun T - (357.52772 + 35999.05034 * T - 0.0001603 * T ^ 2 - T ^ 3 / 300000)| ≤ 1e-19 * |T| ^ 3 ∧
    |mean_anomaly_moon T - (134.96298 + 477198.867398 * T + 0.0086972 * T ^ 2 + T ^ 3 / 56250)| ≤ 1e-19 * |T| ^ 3 ∧
    |moon_argument_latitude T - (93.27191 + 483202.017538 * T - 0.0036825 * T ^ 2 + T ^ 3 / 327270)| ≤ 1e-19 * |T| ^ 3 ∧
    |moon_ascending_longitude T - (125.04452 - 1934.136261 * T + 0.0020708 * T ^ 2 + T ^ 3 / 450000)| ≤ 1e-19 * |T| ^ 3 := by
  have key : ∀ e a : ℝ, |e| ≤ 1e-19 → a = e * T ^ 3 → |a| ≤ 1e-19 * |T| ^ 3 := by
    intro e a he h
    rw [h, abs_mul, abs_pow]
    exact mul_le_mul_of_nonneg_right he (by positivity)
  unfold mean_elongation mean_anomaly_sun mean_anomaly_moon moon_argument_latitude moon_ascending_longitude
  refine ⟨key (5.27776898149614e-6 - 1 / 189474) _ (by norm_num [abs_le]) (by ring), key (-3.33333333333333e-6 + 1 / 300000) _ (by norm_num [abs_le]) (by ring),
    key (1.77777777777778e-5 - 1 / 56250) _ (by norm_num [abs_le]) (by ring), key (3.05558101873071e-6 - 1 / 327270) _ (by norm_num [abs_le]) (by ring),
    key (2.22222222222222e-6 - 1 / 450000) _ (by norm_num [abs_le]) (by ring)⟩

end Verif.Props.SolarAngles
