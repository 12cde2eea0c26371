import Verif.Props.SolarAngles

/-!
# C123: the solar position algorithm — series, refraction and the whole computation
-/

namespace Verif.Props.SolarPosition
open Verif Verif.Spa Verif.Props.SolarAngles Real

/-! ### Bounds on the series -/

theorem series_le (T : List (ℕ × ℕ × ℕ)) (j : ℝ) : |series T j| ≤ ((T.map (·.1)).sum : ℕ) := by
  induction T with
  | nil => simp [series]
  | cons r T ih =>
    unfold series at *
    simp only [List.map_cons, List.sum_cons]
    rw [Nat.cast_add]
    refine (abs_add_le _ _).trans (add_le_add ?_ ih)
    rw [abs_mul, Nat.abs_cast]
    exact mul_le_of_le_one_right (Nat.cast_nonneg _) (abs_cos_le_one _)

theorem series_bound {T : List (ℕ × ℕ × ℕ)} {n : ℕ} (h : (T.map (·.1)).sum = n) (j : ℝ) : |series T j| ≤ n := h ▸ series_le T j

theorem abs_mul_le' {a b M : ℝ} (ha : |a| ≤ 1) (hb : |b| ≤ M) : |a * b| ≤ M := by
  rw [abs_mul]
  exact (mul_le_of_le_one_left (abs_nonneg b) ha).trans hb

theorem horner {a r x M N : ℝ} (ha : |a| ≤ 1) (hr : |r| ≤ M) (hx : |x| ≤ N) : |a * r + x| ≤ M + N :=
  (abs_add_le _ _).trans (add_le_add (abs_mul_le' ha hr) hx)

/-- C123: within a thousand years of 2000 the computed distance between Earth and sun lies between 0.982 and 1.0183 astronomical units. -/
theorem C123_distance (jme : ℝ) (h : |jme| ≤ 1) : 0.982 < heliocentric_radius_vector jme ∧ heliocentric_radius_vector jme < 1.0183 := by
  have h0 : series R0 jme = 100013989 + series R0.tail jme := by
    unfold series
    simp [R0]
  have b0 : |series R0.tail jme| ≤ (1695887 : ℕ) := series_bound (by decide +kernel) jme
  have b1 : |series R1 jme| ≤ (105576 : ℕ) := series_bound (by decide +kernel) jme
  have b2 : |series R2 jme| ≤ (4513 : ℕ) := series_bound (by decide +kernel) jme
  have b3 : |series R3 jme| ≤ (152 : ℕ) := series_bound (by decide +kernel) jme
  have b4 : |4 * cos (2.56 + 6283.08 * jme)| ≤ 4 := by
    rw [abs_mul]; norm_num; exact abs_cos_le_one _
  unfold heliocentric_radius_vector
  extract_lets r0 r1 r2 r3 r4
  have hr0 : r0 = 100013989 + series R0.tail jme := h0
  have c1 := horner h b4 b3
  have c2 := horner h c1 b2
  have c3 := horner h c2 b1
  have c4 := horner h c3 b0
  have c5 := abs_le.1 c4
  rw [hr0]
  have e : jme * (jme * (jme * (jme * r4 + r3) + r2) + r1) + (100013989 + series R0.tail jme) = 100013989 + (jme * (jme * (jme * (jme * r4 + r3) + r2) + r1) + series R0.tail jme) := by ring
  rw [e]
  have d1 : -((4 : ℝ) + (152 : ℕ) + (4513 : ℕ) + (105576 : ℕ) + (1695887 : ℕ)) ≤ jme * (jme * (jme * (jme * r4 + r3) + r2) + r1) + series R0.tail jme := c5.1
  have d2 : jme * (jme * (jme * (jme * r4 + r3) + r2) + r1) + series R0.tail jme ≤ ((4 : ℝ) + (152 : ℕ) + (4513 : ℕ) + (105576 : ℕ) + (1695887 : ℕ)) := c5.2
  push_cast at d1 d2
  constructor <;> linarith

/-- C123: within a thousand years of 2000 the heliocentric latitude is at most 5.53·10⁻⁶ radians. -/
theorem C123_latitude (jme : ℝ) (h : |jme| ≤ 1) : |d2r (heliocentric_latitude jme)| ≤ 5.53e-6 := by
  unfold heliocentric_latitude
  rw [d2r_r2d]
  have b0 : |series B0 jme| ≤ (538 : ℕ) := series_bound (by decide +kernel) jme
  have b1 : |series B1 jme| ≤ (15 : ℕ) := series_bound (by decide +kernel) jme
  have c := horner h b1 b0
  rw [show series B0 jme + series B1 jme * jme = jme * series B1 jme + series B0 jme by ring, abs_mul]
  norm_num at c ⊢
  linarith

/-- C123: within a thousand years of 2000 the heliocentric longitude stays within 0.04 radians (2.3 degrees) of a uniform revolution, one in 365.242 days. -/
theorem C123_longitude (jme : ℝ) (h : |jme| ≤ 1) : ∃ k : ℤ, |d2r (heliocentric_longitude jme) - (1.75347046 + 6283.31966747 * jme + k * (2 * π))| ≤ 0.04 := by
  have h0 : series L0 jme = 175347046 + series L0.tail jme := by
    unfold series
    simp [L0]
  have h1 : series L1 jme = 628331966747 + series L1.tail jme := by
    unfold series
    simp [L1]
  have b0 : |series L0.tail jme| ≤ (3405402 : ℕ) := series_bound (by decide +kernel) jme
  have b1 : |series L1.tail jme| ≤ (211780 : ℕ) := series_bound (by decide +kernel) jme
  have b2 : |series L2 jme| ≤ (62068 : ℕ) := series_bound (by decide +kernel) jme
  have b3 : |series L3 jme| ≤ (347 : ℕ) := series_bound (by decide +kernel) jme
  have b4 : |series L4 jme| ≤ (123 : ℕ) := series_bound (by decide +kernel) jme
  have b5 : |(-(9999987317275395 / 10 ^ 16) : ℝ)| ≤ 1 := by rw [abs_neg]; norm_num
  unfold heliocentric_longitude
  extract_lets l0 l1 l2 l3 l4 l5 lr
  have c0 := horner h b5 b4
  have c1 := horner h c0 b3
  have c2 := horner h c1 b2
  have c3 := horner h c2 b1
  have c4 := horner h c3 b0
  obtain ⟨k, hk⟩ := pmod_mod (r2d lr) 360
  refine ⟨k, ?_⟩
  rw [hk, d2r_mod, d2r_r2d]
  have e : lr + k * (2 * π) - (1.75347046 + 6283.31966747 * jme + k * (2 * π)) = (jme * (jme * (jme * (jme * (jme * l5 + l4) + l3) + l2) + series L1.tail jme) + series L0.tail jme) * (1 / 10 ^ 8) := by
    show (jme * (jme * (jme * (jme * (jme * l5 + l4) + l3) + l2) + series L1 jme) + series L0 jme) * (1 / 10 ^ 8) + k * (2 * π) - _ = _
    rw [h0, h1]
    ring
  rw [e, abs_mul]
  have c5 : |jme * (jme * (jme * (jme * (jme * l5 + l4) + l3) + l2) + series L1.tail jme) + series L0.tail jme| ≤ _ := c4
  refine (mul_le_mul_of_nonneg_right c5 (abs_nonneg _)).trans ?_
  norm_num

theorem zip_bound (l : List (ℤ × ℤ × ℤ × ℤ × ℤ)) (m : List (ℤ × ℤ × ℤ × ℤ)) (f : (ℤ × ℤ × ℤ × ℤ × ℤ) → ℝ) (hf : ∀ y, |f y| ≤ 1) (p q : (ℤ × ℤ × ℤ × ℤ) → ℤ) (j : ℝ) (hj : |j| ≤ 10) :
    |(List.zipWith (fun y a => ((p a : ℝ) / 10 + j * ((q a : ℝ) / 10)) * f y) l m).sum| ≤ ((m.map fun a => (p a).natAbs + 10 * (q a).natAbs).sum : ℕ) / 10 := by
  induction l generalizing m with
  | nil => simp only [List.zipWith_nil_left, List.sum_nil, abs_zero]; positivity
  | cons y l ih =>
    cases m with
    | nil => simp
    | cons a m =>
      simp only [List.zipWith_cons_cons, List.sum_cons, List.map_cons, Nat.cast_add]
      refine (abs_add_le _ _).trans ?_
      rw [add_div]
      refine add_le_add ?_ (ih m)
      rw [abs_mul]
      refine (mul_le_of_le_one_right (abs_nonneg _) (hf y)).trans ((abs_add_le _ _).trans ?_)
      rw [abs_mul, abs_div, abs_div]
      push_cast
      rw [Nat.cast_natAbs, Nat.cast_natAbs]
      push_cast
      rw [abs_of_pos (by norm_num : (0 : ℝ) < 10)]
      have := mul_le_mul_of_nonneg_right hj (abs_nonneg (q a : ℝ))
      linarith

/-- C123: within a thousand years of 2000 the nutation in longitude is below 0.0055 degrees and the one in obliquity below 0.0029 degrees. -/
theorem C123_nutation (jce x0 x1 x2 x3 x4 : ℝ) (h : |jce| ≤ 10) :
    |(longitude_obliquity_nutation jce x0 x1 x2 x3 x4).1| < 0.0055 ∧ |(longitude_obliquity_nutation jce x0 x1 x2 x3 x4).2| < 0.0029 := by
  have k1 := zip_bound Y ABCD (fun y => sin (nutArg y x0 x1 x2 x3 x4)) (fun y => abs_sin_le_one _) (fun a => a.1) (fun a => a.2.1) jce h
  have k2 := zip_bound Y ABCD (fun y => cos (nutArg y x0 x1 x2 x3 x4)) (fun y => abs_cos_le_one _) (fun a => a.2.2.1) (fun a => a.2.2.2) jce h
  have e1 : (ABCD.map fun a => a.1.natAbs + 10 * a.2.1.natAbs).sum = 1961390 := by decide +kernel
  have e2 : (ABCD.map fun a => a.2.2.1.natAbs + 10 * a.2.2.2.natAbs).sum = 1008740 := by decide +kernel
  rw [e1] at k1
  rw [e2] at k2
  unfold longitude_obliquity_nutation
  simp only
  rw [abs_div, abs_div, abs_of_pos (by norm_num : (0 : ℝ) < 36000000)]
  push_cast at k1 k2
  constructor
  · rw [div_lt_iff₀ (by norm_num)]; refine lt_of_le_of_lt k1 (by norm_num)
  · rw [div_lt_iff₀ (by norm_num)]; refine lt_of_le_of_lt k2 (by norm_num)

theorem obliquity_mean {jme : ℝ} (h : |jme| ≤ 1) : 83900 < mean_ecliptic_obliquity jme ∧ mean_ecliptic_obliquity jme < 84860 := by
  unfold mean_ecliptic_obliquity
  extract_lets U
  have hU : |U| ≤ 1 / 10 := by
    show |0.1 * jme| ≤ _
    rw [abs_mul]; norm_num; linarith
  have step : ∀ {r x M N : ℝ}, |r| ≤ M → |x| ≤ N → |U * r + x| ≤ M / 10 + N := by
    intro r x M N hr hx
    refine (abs_add_le _ _).trans (add_le_add ?_ hx)
    rw [abs_mul]
    have := mul_le_mul hU hr (abs_nonneg _) (by norm_num)
    linarith
  have hU1 : |2.45 * U + 5.79| ≤ 6.1 := by
    refine (abs_add_le _ _).trans ?_
    rw [abs_mul]; norm_num; linarith
  have num : ∀ {x : ℝ}, |x| ≤ |x| := fun {x} => le_refl _
  have s1 : |U * (2.45 * U + 5.79) + 27.87| ≤ 29 := (step hU1 (le_refl |(27.87 : ℝ)|)).trans (by norm_num)
  have s2 : |U * (U * (2.45 * U + 5.79) + 27.87) + 7.12| ≤ 11 := (step s1 (le_refl |(7.12 : ℝ)|)).trans (by norm_num)
  have s3 := (step s2 (le_refl |(-39.05 : ℝ)|))
  have s4 := (step s3 (le_refl |(-249.67 : ℝ)|))
  have s5 := (step s4 (le_refl |(-51.38 : ℝ)|))
  have s6 := (step s5 (le_refl |(1999.25 : ℝ)|))
  have s7 := (step s6 (le_refl |(-1.55 : ℝ)|))
  have s8 := (step s7 (le_refl |(-4680.93 : ℝ)|))
  have s9 : |U * (U * (U * (U * (U * (U * (U * (U * (U * (2.45 * U + 5.79) + 27.87) + 7.12) + -39.05) + -249.67) + -51.38) + 1999.25) + -1.55) + -4680.93)| ≤ 470.4 := by
    rw [abs_mul]
    have := mul_le_mul hU s8 (abs_nonneg _) (by norm_num)
    refine this.trans (by norm_num)
  have := abs_le.1 s9
  simp only [← sub_eq_add_neg] at this
  constructor <;> linarith

/-- C123: within a thousand years of 2000 the obliquity of the ecliptic lies between 23.3 and 23.6 degrees. -/
theorem C123_obliquity (jme jce x0 x1 x2 x3 x4 : ℝ) (h : |jme| ≤ 1) (h' : |jce| ≤ 10) :
    23.3 < true_ecliptic_obliquity (mean_ecliptic_obliquity jme) (longitude_obliquity_nutation jce x0 x1 x2 x3 x4).2 ∧
    true_ecliptic_obliquity (mean_ecliptic_obliquity jme) (longitude_obliquity_nutation jce x0 x1 x2 x3 x4).2 < 23.6 := by
  have h1 := obliquity_mean h
  have h2 := abs_lt.1 (C123_nutation jce x0 x1 x2 x3 x4 h').2
  unfold true_ecliptic_obliquity
  constructor <;> norm_num at * <;> linarith [h1.1, h1.2, h2.1, h2.2]

/-! ### Refraction -/

theorem arg_range {e : ℝ} (h : -5 ≤ e) (h' : e ≤ 90) : 0 < e + 10.3 / (e + 5.11) ∧ e + 10.3 / (e + 5.11) < 180 := by
  have hp : 0 < e + 5.11 := by linarith
  constructor
  · rw [← mul_pos_iff_of_pos_right hp, add_mul, div_mul_cancel₀ _ hp.ne']
    nlinarith [sq_nonneg (e + 2.555)]
  · rw [← sub_pos, ← mul_pos_iff_of_pos_right hp, show (180 - (e + 10.3 / (e + 5.11))) * (e + 5.11) = (180 - e) * (e + 5.11) - 10.3 by field_simp; ring]
    nlinarith

theorem sin_deg_pos {x : ℝ} (h : 0 < x) (h' : x < 180) : 0 < sin (d2r x) := by
  have := pi_pos
  apply sin_pos_of_pos_of_lt_pi <;> unfold d2r <;> nlinarith

/-- the correction of a sun not far below the horizon -/
theorem refraction_eq (p t e0 refract : ℝ) (ht : -273 < t) (h : -5 ≤ e0) (h' : e0 ≤ 90) :
    atmospheric_refraction_correction p t e0 refract =
      .ok (p / 1010 * (283 / (273 + t)) * 1.02 * cos (d2r (e0 + 10.3 / (e0 + 5.11))) / (60 * sin (d2r (e0 + 10.3 / (e0 + 5.11)))) * (if e0 ≥ -1 * (0.26667 + refract) then 1 else 0)) := by
  unfold atmospheric_refraction_correction
  have hr := arg_range h h'
  have hs := sin_deg_pos hr.1 hr.2
  have h1 : 273 + t ≠ 0 := by linarith
  have h2 : e0 + 5.11 ≠ 0 := by linarith
  dsimp only
  rw [pdiv_ok h1, Py.ok_bind, pdiv_ok h2, Py.ok_bind, pdiv_ok (mul_pos (by norm_num) hs).ne', Py.ok_bind]
  rfl

theorem cot_lt {a b : ℝ} (ha : 0 < a) (hab : a < b) (hb : b < 180) : cos (d2r b) / sin (d2r b) < cos (d2r a) / sin (d2r a) := by
  have h1 := sin_deg_pos ha (hab.trans hb)
  have h2 := sin_deg_pos (ha.trans hab) hb
  have h3 := sin_deg_pos (sub_pos.2 hab) (by linarith)
  rw [show d2r (b - a) = d2r b - d2r a by unfold d2r; ring, sin_sub] at h3
  rw [div_lt_div_iff₀ h2 h1]
  linarith

theorem arg_lt {a b : ℝ} (ha : 0 ≤ a) (hab : a < b) : a + 10.3 / (a + 5.11) < b + 10.3 / (b + 5.11) := by
  have h1 : 0 < a + 5.11 := by linarith
  have h2 : 0 < b + 5.11 := by linarith
  have : b + 10.3 / (b + 5.11) - (a + 10.3 / (a + 5.11)) = (b - a) * ((a + 5.11) * (b + 5.11) - 10.3) / ((a + 5.11) * (b + 5.11)) := by
    field_simp; ring
  have h3 : 0 < (a + 5.11) * (b + 5.11) - 10.3 := by nlinarith
  have : 0 < b + 10.3 / (b + 5.11) - (a + 10.3 / (a + 5.11)) := by
    rw [this]
    have := sub_pos.2 hab
    positivity
  linarith

theorem cot_horizon : cos (d2r (0 + 10.3 / (0 + 5.11))) / sin (d2r (0 + 10.3 / (0 + 5.11))) ≤ 28.45 := by
  have hp := pi_gt_d4
  have hp' := pi_lt_d4
  set x := d2r (0 + 10.3 / (0 + 5.11)) with hx
  have hx0 : 1 / 28.45 ≤ x := by rw [hx]; unfold d2r; norm_num at *; linarith
  have hx1 : x < π / 2 := by rw [hx]; unfold d2r; norm_num at *; linarith
  have hxp : 0 < x := lt_of_lt_of_le (by norm_num) hx0
  have ht := (lt_tan hxp hx1).le
  have hc : 0 < cos x := cos_pos_of_mem_Ioo ⟨by linarith, hx1⟩
  rw [tan_eq_sin_div_cos, le_div_iff₀ hc] at ht
  have hs : 0 < sin x := lt_of_lt_of_le (mul_pos hxp hc) ht
  rw [div_le_iff₀ hs]
  have := mul_le_mul_of_nonneg_right hx0 hc.le
  norm_num at *
  linarith

/-- C123: the refraction correction is zero for a sun below the horizon by more than its radius and the refraction there, positive for a sun between the horizon and 89.89°, at most 0.484° at standard
conditions (1010 millibar, 10 °C; in proportion to pressure and inversely to temperature otherwise), decreasing in elevation. -/
theorem C123_refraction (p t e0 refract : ℝ) (hp : 0 < p) (ht : -273 < t) :
    (∀ v, e0 < -(0.26667 + refract) → atmospheric_refraction_correction p t e0 refract = .ok v → v = 0) ∧
    (0 ≤ e0 → e0 ≤ 89.89 → -0.26667 ≤ refract →
      ∃ v, atmospheric_refraction_correction p t e0 refract = .ok v ∧ 0 < v ∧ v ≤ 0.484 * (p / 1010) * (283 / (273 + t))) ∧
    (∀ e1, 0 ≤ e0 → e0 < e1 → e1 ≤ 90 → -0.26667 ≤ refract →
      ∃ v w, atmospheric_refraction_correction p t e0 refract = .ok v ∧ atmospheric_refraction_correction p t e1 refract = .ok w ∧ w < v) := by
  have h273 : 0 < 273 + t := by linarith
  have hk : 0 < p / 1010 * (283 / (273 + t)) * 1.02 := by positivity
  refine ⟨?_, ?_, ?_⟩
  · intro v h hv
    unfold atmospheric_refraction_correction at hv
    dsimp only at hv
    obtain ⟨q, -, hv⟩ := Py.bind_eq_ok.1 hv
    obtain ⟨s, -, hv⟩ := Py.bind_eq_ok.1 hv
    obtain ⟨r, -, hv⟩ := Py.bind_eq_ok.1 hv
    rw [if_neg (by intro h'; linarith), mul_zero] at hv
    exact (Except.ok.inj hv).symm
  · intro h0 h1 hr
    have harg := arg_range (by linarith : -5 ≤ e0) (by linarith)
    have hs := sin_deg_pos harg.1 harg.2
    have h90 : e0 + 10.3 / (e0 + 5.11) < 90 := by
      have hp : 0 < e0 + 5.11 := by linarith
      rw [← sub_pos, ← mul_pos_iff_of_pos_right hp, show (90 - (e0 + 10.3 / (e0 + 5.11))) * (e0 + 5.11) = (90 - e0) * (e0 + 5.11) - 10.3 by field_simp; ring]
      nlinarith
    have hc := cos_pos_deg (by linarith [harg.1] : -90 < e0 + 10.3 / (e0 + 5.11)) h90
    refine ⟨_, refraction_eq p t e0 refract ht (by linarith) (by linarith), ?_, ?_⟩
    · rw [if_pos (by linarith)]; positivity
    · rw [if_pos (by linarith), mul_one, mul_div_mul_comm]
      have hcot : cos (d2r (e0 + 10.3 / (e0 + 5.11))) / sin (d2r (e0 + 10.3 / (e0 + 5.11))) ≤ 28.45 := by
        rcases eq_or_lt_of_le h0 with h | h
        · rw [← h]; exact cot_horizon
        · refine le_trans (cot_lt ?_ (arg_lt le_rfl h) harg.2).le cot_horizon
          norm_num
      have hq : 0 < p / 1010 * (283 / (273 + t)) := by positivity
      calc p / 1010 * (283 / (273 + t)) * 1.02 / 60 * (cos (d2r (e0 + 10.3 / (e0 + 5.11))) / sin (d2r (e0 + 10.3 / (e0 + 5.11))))
          ≤ p / 1010 * (283 / (273 + t)) * 1.02 / 60 * 28.45 := by gcongr
        _ ≤ 0.484 * (p / 1010) * (283 / (273 + t)) := by nlinarith
  · intro e1 h0 h1 h2 hr
    have ha0 := arg_range (by linarith : -5 ≤ e0) (by linarith)
    have ha1 := arg_range (by linarith : -5 ≤ e1) h2
    refine ⟨_, _, refraction_eq p t e0 refract ht (by linarith) (by linarith), refraction_eq p t e1 refract ht (by linarith) h2, ?_⟩
    rw [if_pos (by linarith), if_pos (by linarith), mul_one, mul_one, mul_div_mul_comm, mul_div_mul_comm]
    have := cot_lt ha0.1 (arg_lt h0 h1) ha1.2
    gcongr

example : (0 : ℝ) ≤ 30 ∧ (30 : ℝ) ≤ 89.89 ∧ (-0.26667 : ℝ) ≤ 0.5667 := by norm_num

/-- C123: for a sun at the zenith the correction is negative (the apparent sun is moved below it), and at an elevation of exactly -5.11° the computation ends with a division by zero although the
correction is switched off there. -/
theorem C123_refraction_defects (p t refract : ℝ) (hp : 0 < p) (ht : -273 < t) (hr : -0.26667 ≤ refract) :
    (∃ v < 0, atmospheric_refraction_correction p t 90 refract = .ok v) ∧
    atmospheric_refraction_correction p t (-5.11) refract = .error .zeroDivisionError := by
  have h273 : 0 < 273 + t := by linarith
  constructor
  · have harg := arg_range (by norm_num : (-5 : ℝ) ≤ 90) le_rfl
    have hs := sin_deg_pos harg.1 harg.2
    refine ⟨_, ?_, refraction_eq p t 90 refract ht (by norm_num) le_rfl⟩
    rw [if_pos (by linarith), mul_one]
    have hc : cos (d2r (90 + 10.3 / (90 + 5.11))) < 0 := by
      have := pi_pos
      apply cos_neg_of_pi_div_two_lt_of_lt
      · unfold d2r; norm_num; nlinarith
      · unfold d2r; norm_num; nlinarith
    apply div_neg_of_neg_of_pos _ (by positivity)
    have : 0 < p / 1010 * (283 / (273 + t)) * 1.02 := by positivity
    exact mul_neg_of_pos_of_neg this hc
  · unfold atmospheric_refraction_correction
    dsimp only
    rw [pdiv_ok h273.ne', Py.ok_bind]
    norm_num

/-! ### The whole computation -/

theorem jce_bound {u dt : ℝ} (hu : |u| ≤ 3 * 10 ^ 10) (hd : |dt| ≤ 10 ^ 5) :
    |julian_century (julian_ephemeris_day (julian_day u) dt)| ≤ 10 := by
  unfold julian_century julian_ephemeris_day julian_day
  rw [abs_le] at *
  constructor <;> norm_num at * <;> linarith [hu.1, hu.2, hd.1, hd.2]

theorem jme_bound {x : ℝ} (h : |x| ≤ 10) : |julian_ephemeris_millennium x| ≤ 1 := by
  unfold julian_ephemeris_millennium
  rw [abs_mul]; norm_num; linarith

theorem declination_bound {lam eps beta delta : ℝ} (he : 23.3 < eps) (he' : eps < 23.6) (hb : |d2r beta| ≤ 5.53e-6)
    (h : geocentric_sun_declination lam eps beta = .ok delta) : |delta| < 23.61 := by
  have hp := pi_gt_d4
  have hp' := pi_lt_d4
  have hb' := abs_le.1 hb
  have hcb : 0 < cos (d2r beta) := cos_pos_of_mem_Ioo ⟨by linarith [hb'.1], by linarith [hb'.2]⟩
  obtain ⟨d, hd, h1, h2, -, -, h5⟩ := C123_equatorial lam eps beta hcb
  obtain rfl : d = delta := Except.ok.inj (hd.symm.trans h)
  have hE1 : 0 ≤ sin (d2r eps) := (sin_deg_pos (by linarith) (by linarith)).le
  have hE2 : 0 ≤ cos (d2r eps) := (cos_pos_deg (by linarith) (by linarith)).le
  have hsb : |sin (d2r beta)| = sin |d2r beta| := by
    rw [abs_sin_eq_sin_abs_of_abs_le_pi (by linarith)]
  have hbound : |sin (d2r d)| ≤ sin (d2r eps + |d2r beta|) := by
    rw [h5, sin_add, cos_abs, ← hsb]
    refine (abs_add_le _ _).trans (add_le_add ?_ ?_)
    · rw [abs_mul, abs_of_nonneg hE1, abs_mul, abs_of_pos hcb]
      exact mul_le_mul_of_nonneg_left (mul_le_of_le_one_right hcb.le (abs_sin_le_one _)) hE1
    · rw [abs_mul, abs_of_nonneg hE2]
  have hlt : sin (d2r eps + |d2r beta|) < sin (d2r 23.61) := by
    apply sin_lt_sin_of_lt_of_le_pi_div_two
    · have := abs_nonneg (d2r beta); unfold d2r at *; nlinarith
    · unfold d2r; nlinarith
    · unfold d2r at *; norm_num at *; nlinarith
  have hlt' := abs_lt.1 (lt_of_le_of_lt hbound hlt)
  rw [abs_lt]
  constructor
  · by_contra hc
    have : sin (d2r d) ≤ sin (d2r (-23.61)) := by
      apply sin_le_sin_of_le_of_le_pi_div_two <;> unfold d2r <;> nlinarith
    rw [show d2r (-23.61) = -d2r 23.61 by unfold d2r; ring, sin_neg] at this
    linarith [hlt'.1]
  · by_contra hc
    have : sin (d2r 23.61) ≤ sin (d2r d) := by
      apply sin_le_sin_of_le_of_le_pi_div_two <;> unfold d2r <;> nlinarith
    linarith [hlt'.2]

/-- C123: within 950 years of 1970 the geocentric part of the computation always succeeds; the distance lies between 0.982 and 1.0183 astronomical units, the right ascension in [0, 360) and the
declination between -23.61° and 23.61°. -/
theorem C123_geocentric (u dt : ℝ) (hu : |u| ≤ 3 * 10 ^ 10) (hd : |dt| ≤ 10 ^ 5) :
    ∃ g, geo u dt = .ok g ∧ g.R = earthsun_distance u dt ∧ 0.982 < g.R ∧ g.R < 1.0183 ∧ 0 ≤ g.alpha ∧ g.alpha < 360 ∧ |g.delta| < 23.61 ∧ 23.3 < g.eps ∧ g.eps < 23.6 ∧ |g.psi| < 0.0055 := by
  have hc := jce_bound hu hd
  have hm := jme_bound hc
  unfold geo
  extract_lets jd jc jce jme R theta beta nut eps lam v
  have hR := C123_distance jme hm
  have hob := C123_obliquity jme jce (mean_elongation jce) (mean_anomaly_sun jce) (mean_anomaly_moon jce) (moon_argument_latitude jce) (moon_ascending_longitude jce) hm hc
  have hnu := C123_nutation jce (mean_elongation jce) (mean_anomaly_sun jce) (mean_anomaly_moon jce) (moon_argument_latitude jce) (moon_ascending_longitude jce) hc
  have hbe : |d2r beta| ≤ 5.53e-6 := by
    have := C123_latitude jme hm
    show |d2r (-heliocentric_latitude jme)| ≤ _
    rwa [show d2r (-heliocentric_latitude jme) = -d2r (heliocentric_latitude jme) by unfold d2r; ring, abs_neg]
  have hRne : R ≠ 0 := by have := hR.1; show heliocentric_radius_vector jme ≠ 0; linarith
  unfold aberration_correction
  rw [pdiv_ok hRne, Py.ok_bind]
  have hcb : 0 < cos (d2r beta) := by
    have := abs_le.1 hbe
    have hp := pi_gt_d4
    exact cos_pos_of_mem_Ioo ⟨by linarith [this.1], by linarith [this.2]⟩
  obtain ⟨d, hd', -⟩ := C123_equatorial (apparent_sun_longitude theta nut.1 (-0.005691611111111111 / R)) eps beta hcb
  have hdb := declination_bound hob.1 hob.2 hbe hd'
  dsimp only
  rw [hd', Py.ok_bind]
  have hra := (C123_ranges (apparent_sun_longitude theta nut.1 (-0.005691611111111111 / R)) eps beta).2.2.2.1
  exact ⟨_, rfl, rfl, hR.1, hR.2, hra.1, hra.2, hdb, hob.1, hob.2, hnu.1⟩

/-- C123: the direction of the sun is computed from its apparent longitude, the heliocentric longitude of the earth plus 180°, the nutation in longitude and the aberration of -0.0056916°
(20.4898 arc seconds) over the distance: the right ascension and declination are those of that ecliptic direction, seen along the axes tilted by the obliquity. -/
theorem C123_direction (u dt : ℝ) (hu : |u| ≤ 3 * 10 ^ 10) (hd : |dt| ≤ 10 ^ 5) {g : Geo} (h : geo u dt = .ok g) :
    ∃ lam beta : ℝ, (∃ k : ℤ, lam = heliocentric_longitude g.jme + 180 + 360 * k + g.psi - 0.005691611111111111 / g.R) ∧ beta = -heliocentric_latitude g.jme ∧
      cos (d2r g.delta) * cos (d2r g.alpha) = cos (d2r beta) * cos (d2r lam) ∧
      cos (d2r g.delta) * sin (d2r g.alpha) = cos (d2r g.eps) * (cos (d2r beta) * sin (d2r lam)) - sin (d2r g.eps) * sin (d2r beta) ∧
      sin (d2r g.delta) = sin (d2r g.eps) * (cos (d2r beta) * sin (d2r lam)) + cos (d2r g.eps) * sin (d2r beta) := by
  have hc := jce_bound hu hd
  have hm := jme_bound hc
  unfold geo at h
  extract_lets jd jc jce jme R theta beta nut eps lam v at h
  have hR := C123_distance jme hm
  have hbe : |d2r beta| ≤ 5.53e-6 := by
    have := C123_latitude jme hm
    show |d2r (-heliocentric_latitude jme)| ≤ _
    rwa [show d2r (-heliocentric_latitude jme) = -d2r (heliocentric_latitude jme) by unfold d2r; ring, abs_neg]
  have hRne : R ≠ 0 := by have := hR.1; show heliocentric_radius_vector jme ≠ 0; linarith
  unfold aberration_correction at h
  rw [pdiv_ok hRne, Py.ok_bind] at h
  have hcb : 0 < cos (d2r beta) := by
    have := abs_le.1 hbe
    have hp := pi_gt_d4
    exact cos_pos_of_mem_Ioo ⟨by linarith [this.1], by linarith [this.2]⟩
  obtain ⟨d, hd', -, -, e1, e2, e3⟩ := C123_equatorial (apparent_sun_longitude theta nut.1 (-0.005691611111111111 / R)) eps beta hcb
  dsimp only at h
  rw [hd', Py.ok_bind] at h
  obtain rfl := Except.ok.inj h
  refine ⟨_, beta, ⟨-⌊(heliocentric_longitude jme + 180) / 360⌋, ?_⟩, rfl, e1, e2, e3⟩
  show pmod (heliocentric_longitude jme + 180) 360 + nut.1 + -0.005691611111111111 / R = _
  unfold pmod
  push_cast
  ring

theorem parallax_small {R : ℝ} (h : 0.982 < R) : |sin (d2r (8.794 / (3600 * R)))| ≤ 5e-5 := by
  have hp := pi_lt_d4
  have hp0 := pi_pos
  have hx : 8.794 / (3600 * R) ≤ 0.0025 := by
    rw [div_le_iff₀ (by linarith)]; nlinarith
  have hx0 : 0 ≤ 8.794 / (3600 * R) := by
    have : 0 < R := by linarith
    positivity
  refine (abs_sin_le_abs).trans ?_
  unfold d2r
  rw [abs_of_nonneg (by positivity)]
  nlinarith

theorem xterm_small (u lat elev : ℝ) (h : |elev| ≤ 10 ^ 8) : |xterm u lat elev| ≤ 17 := by
  unfold xterm
  refine (abs_add_le _ _).trans ?_
  have h1 := abs_cos_le_one u
  have h2 : |elev * 1.5678552054360676e-07 * cos (d2r lat)| ≤ 16 := by
    rw [abs_mul]
    refine (mul_le_of_le_one_right (abs_nonneg _) (abs_cos_le_one _)).trans ?_
    rw [abs_mul]; norm_num at *; linarith
  linarith

theorem cos_decl {d : ℝ} (h : |d| < 23.61) : 1 / 2 < cos (d2r d) := by
  have hp := pi_pos
  rw [← cos_pi_div_three, ← cos_abs (d2r d)]
  apply cos_lt_cos_of_nonneg_of_le_pi (abs_nonneg _) (by linarith)
  unfold d2r
  rw [abs_mul, abs_of_pos (by positivity)]
  nlinarith

/-- C123: within 950 years of 1970 and up to 100 000 km from sea level, `solar_position` computes an elevation and an azimuth (from north through east) of the direction from the observer to the sun.  That
direction is, in the system of hour angle and declination, the direction of the sun from the centre of the Earth minus the observer's position times the sine of the parallax, rotated by the latitude.  The
zeniths are the complements of the elevations, the apparent elevation is the elevation plus the refraction correction, and an error occurs exactly when the correction is in error. -/
theorem C123_solar_position (u lat lon elev p t dt refr : ℝ) (hu : |u| ≤ 3 * 10 ^ 10) (hd : |dt| ≤ 10 ^ 5) (hel : |elev| ≤ 10 ^ 8) :
    ∃ (g : Geo) (e0 az eot k : ℝ), geo u dt = .ok g ∧ 0 < k ∧ -90 ≤ e0 ∧ e0 ≤ 90 ∧ 0 ≤ az ∧ az < 360 ∧ -1420 < eot ∧ eot ≤ 20 ∧
      k * (cos (d2r e0) * cos (d2r az)) =
        cos (d2r lat) * (sin (d2r g.delta) - yterm (uterm lat) lat elev * sin (d2r (8.794 / (3600 * g.R)))) -
        sin (d2r lat) * (cos (d2r g.delta) * cos (d2r (g.v + lon - g.alpha)) - xterm (uterm lat) lat elev * sin (d2r (8.794 / (3600 * g.R)))) ∧
      k * (cos (d2r e0) * sin (d2r az)) = -(cos (d2r g.delta) * sin (d2r (g.v + lon - g.alpha))) ∧
      k * sin (d2r e0) =
        sin (d2r lat) * (sin (d2r g.delta) - yterm (uterm lat) lat elev * sin (d2r (8.794 / (3600 * g.R)))) +
        cos (d2r lat) * (cos (d2r g.delta) * cos (d2r (g.v + lon - g.alpha)) - xterm (uterm lat) lat elev * sin (d2r (8.794 / (3600 * g.R)))) ∧
      (∀ de, atmospheric_refraction_correction p t e0 refr = .ok de → solar_position u lat lon elev p t dt refr = .ok ⟨90 - (e0 + de), 90 - e0, e0 + de, e0, az, eot⟩) ∧
      (∀ err, atmospheric_refraction_correction p t e0 refr = .error err → solar_position u lat lon elev p t dt refr = .error err) := by
  obtain ⟨g, hg, -, hR1, hR2, ha1, ha2, hdel, -⟩ := C123_geocentric u dt hu hd
  have hRne : 3600 * g.R ≠ 0 := by linarith
  have hxi : equatorial_horizontal_parallax g.R = .ok (8.794 / (3600 * g.R)) := pdiv_ok hRne
  set xi := 8.794 / (3600 * g.R) with hxidef
  set X := xterm (uterm lat) lat elev with hX
  set Yt := yterm (uterm lat) lat elev with hYt
  set H := local_hour_angle g.v lon g.alpha with hHdef
  have hHr := (C123_ranges g.v lon g.alpha).2.2.2.2.1
  have hD : 0 < cos (d2r g.delta) - X * sin (d2r xi) * cos (d2r H) := by
    have h1 := parallax_small hR1
    have h2 := xterm_small (uterm lat) lat elev hel
    have h3 : |X * sin (d2r xi) * cos (d2r H)| ≤ 17 * 5e-5 := by
      rw [abs_mul]
      refine (mul_le_of_le_one_right (abs_nonneg _) (abs_cos_le_one _)).trans ?_
      rw [abs_mul]
      exact mul_le_mul h2 h1 (abs_nonneg _) (by norm_num)
    have h4 := (abs_le.1 h3).2
    have h5 := cos_decl hdel
    norm_num at h4 ⊢
    linarith
  obtain ⟨⟨p1, p2⟩, k, hk, q1, q2, q3⟩ := C123_parallax g.delta X Yt xi H hD
  set da := parallax_sun_right_ascension X xi H g.delta with hda
  set d' := topocentric_sun_declination g.delta X Yt xi da H with hd'
  set H' := topocentric_local_hour_angle H da with hH'
  obtain ⟨e0, he0, r1, r2, r3, r4, r5⟩ := C123_horizontal lat d' H' (cos_pos_deg p1 p2)
  set gam := topocentric_astronomers_azimuth H' d' lat with hgam
  have haz := (C123_ranges gam 0 0).2.2.2.2.2.2
  have heot := C123_equation_of_time (sun_mean_longitude g.jme) g.alpha g.psi g.eps
  have hc : cos (d2r (topocentric_azimuth_angle gam)) = -cos (d2r gam) := by
    unfold topocentric_azimuth_angle
    rw [cos_pmod, show d2r (gam + 180) = d2r gam + π by unfold d2r; ring, cos_add_pi]
  have hs : sin (d2r (topocentric_azimuth_angle gam)) = -sin (d2r gam) := by
    unfold topocentric_azimuth_angle
    rw [sin_pmod, show d2r (gam + 180) = d2r gam + π by unfold d2r; ring, sin_add_pi]
  have hsol : solar_position u lat lon elev p t dt refr = (do
      let de ← atmospheric_refraction_correction p t e0 refr
      return ⟨90 - (e0 + de), 90 - e0, e0 + de, e0, topocentric_azimuth_angle gam, equation_of_time (sun_mean_longitude g.jme) g.alpha g.psi g.eps⟩) := by
    unfold solar_position
    rw [hg, Py.ok_bind]
    dsimp only
    rw [hxi, Py.ok_bind, he0, Py.ok_bind]
    rfl
  refine ⟨g, e0, topocentric_azimuth_angle gam, equation_of_time (sun_mean_longitude g.jme) g.alpha g.psi g.eps, k, hg, hk, r1, r2, haz.1, haz.2, heot.1, heot.2.1, ?_, ?_, ?_, ?_, ?_⟩
  · rw [hc, ← hHr.2.2.1, ← q1, ← q3]
    linear_combination (-k) * r3
  · rw [hs, ← hHr.2.2.2, ← q2]
    linear_combination (-k) * r4
  · rw [← hHr.2.2.1, ← q1, ← q3]
    linear_combination k * r5
  · intro de hde
    rw [hsol, hde]; rfl
  · intro err hde
    rw [hsol, hde]; rfl

/-- C123: in SI units (`fluids.atmosphere.solar_position`): pressure in Pa, temperature in K, equation of time in seconds -/
theorem C123_solar_position_SI (u lat lon Z T P dt refr : ℝ) (r : Position) (h : solar_position u lat lon Z (P / 100) (T - 273.15) dt refr = .ok r) :
    solar_position_SI u dt lat lon Z T P refr = .ok { r with eot := 60 * r.eot } := by
  unfold solar_position_SI
  rw [show P * (1 / 100) = P / 100 by ring, h, Py.ok_bind, mul_comm]
  rfl

/-- C123: hence no error while the sun is above -5°, for temperatures above -273 °C. -/
theorem C123_no_error (u lat lon elev p t dt refr : ℝ) (hu : |u| ≤ 3 * 10 ^ 10) (hd : |dt| ≤ 10 ^ 5) (hel : |elev| ≤ 10 ^ 8) (ht : -273 < t) :
    (∃ r, solar_position u lat lon elev p t dt refr = .ok r ∧ r.zenith = 90 - r.elevation ∧ r.apparent_zenith = 90 - r.apparent_elevation ∧ -90 ≤ r.elevation ∧ r.elevation ≤ 90 ∧
      0 ≤ r.azimuth ∧ r.azimuth < 360) ∨
    (∃ e0 err, e0 < -5 ∧ atmospheric_refraction_correction p t e0 refr = .error err ∧ solar_position u lat lon elev p t dt refr = .error err) := by
  obtain ⟨g, e0, az, eot, k, -, -, h1, h2, h3, h4, -, -, -, -, -, hok, herr⟩ := C123_solar_position u lat lon elev p t dt refr hu hd hel
  rcases hc : atmospheric_refraction_correction p t e0 refr with err | de
  · right
    refine ⟨e0, err, ?_, hc, herr err hc⟩
    by_contra h
    rw [refraction_eq p t e0 refr ht (not_lt.1 h) h2] at hc
    cases hc
  · left
    exact ⟨_, hok de hc, rfl, rfl, h1, h2, h3, h4⟩

/-! ### Sunrise and sunset -/

theorem hourAngle_range (v m lon alpha : ℝ) : -180 ≤ hourAngle v m lon alpha ∧ hourAngle v m lon alpha < 180 := by
  unfold hourAngle
  extract_lets H
  have h := pmod_range (x := v + 360.985647 * m + lon - alpha) (by norm_num : (0 : ℝ) < 360)
  have h1 : 0 ≤ H := h.1
  have h2 : H < 360 := h.2
  split_ifs with hc
  · constructor <;> linarith
  · exact ⟨by linarith, not_le.1 hc⟩

theorem cosArg_iff {lat delta : ℝ} (hl : |lat| < 90) (hd : |delta| < 90) :
    ∃ c, cosArg lat delta = .ok c ∧ (|c| ≤ 1 ↔ ∃ H, sin (d2r lat) * sin (d2r delta) + cos (d2r lat) * cos (d2r delta) * cos H = -0.014543315936696236) := by
  have hl' := abs_lt.1 hl
  have hd' := abs_lt.1 hd
  have h1 := cos_pos_deg hl'.1 hl'.2
  have h2 := cos_pos_deg hd'.1 hd'.2
  have h3 := mul_pos h1 h2
  refine ⟨_, pdiv_ok h3.ne', ?_⟩
  constructor
  · intro h
    have h' := abs_le.1 h
    refine ⟨arccos ((-0.014543315936696236 - sin (d2r lat) * sin (d2r delta)) / (cos (d2r lat) * cos (d2r delta))), ?_⟩
    rw [cos_arccos h'.1 h'.2, mul_div_cancel₀ _ h3.ne']
    ring
  · rintro ⟨H, hH⟩
    have : (-0.014543315936696236 - sin (d2r lat) * sin (d2r delta)) / (cos (d2r lat) * cos (d2r delta)) = cos H := by
      rw [div_eq_iff h3.ne']; linarith
    rw [this]
    exact abs_cos_le_one H

/-- C123: the interpolation takes the values of the day before, the day and the day after, and a jump of the right ascension from 360 to 0 in between is removed. -/
theorem C123_interpolation (x y z d : ℝ) (h1 : 0 ≤ d) (h2 : d < 1) :
    dayInterp y (y - x) (z - y) (-1) = x ∧ dayInterp y (y - x) (z - y) 0 = y ∧ dayInterp y (y - x) (z - y) 1 = z ∧ dayDiff d = d ∧ dayDiff (d - 360) = d := by
  refine ⟨by unfold dayInterp; ring, by unfold dayInterp; ring, by unfold dayInterp; ring, ?_, ?_⟩
  · unfold dayDiff
    rw [if_neg]
    rw [abs_of_nonneg h1]; linarith
  · unfold dayDiff
    rw [if_pos (by rw [abs_of_neg (by linarith)]; linarith)]
    unfold pmod
    have : ⌊(d - 360) / 1⌋ = -360 := by
      rw [Int.floor_eq_iff]; push_cast
      constructor <;> linarith
    rw [this]; push_cast; ring

/-- C123: `transit_sunrise_sunset` refuses times other than midnight UTC.  Otherwise, below latitudes of 90°, the transit lies within half a day of the day in question; where the sun, with its declination at
midnight, passes at no hour angle through the altitude (-0.8333°, given by its sine) of sunrise, the sunrise and sunset are NaN, and there is no error; where it does, either both are numbers or a division by
zero occurs. -/
theorem C123_transit (dates lat lon dt : ℝ) (hu : |dates| ≤ 29 * 10 ^ 9) (hd : |dt| ≤ 10 ^ 5) (hl : |lat| < 90) :
    ((∀ n : ℤ, dates ≠ n * 86400) → transit_sunrise_sunset dates lat lon dt = .error .valueError) ∧
    ((∃ n : ℤ, dates = n * 86400) → ∃ g T, geo (dates - dt) dt = .ok g ∧ dates - 43200 < T ∧ T < dates + 129600 ∧
      (¬ (∃ H, sin (d2r lat) * sin (d2r g.delta) + cos (d2r lat) * cos (d2r g.delta) * cos H = -0.014543315936696236) → transit_sunrise_sunset dates lat lon dt = .ok (T, none)) ∧
      ((∃ H, sin (d2r lat) * sin (d2r g.delta) + cos (d2r lat) * cos (d2r g.delta) * cos H = -0.014543315936696236) →
        (∃ R S, transit_sunrise_sunset dates lat lon dt = .ok (T, some (R, S))) ∨ transit_sunrise_sunset dates lat lon dt = .error .zeroDivisionError)) := by
  constructor
  · intro h
    have hne : pmod dates 86400 ≠ 0 := by
      intro h0
      apply h ⌊dates / 86400⌋
      unfold pmod at h0
      linarith
    unfold transit_sunrise_sunset
    rw [if_pos hne]
    rfl
  · rintro ⟨n, hn⟩
    have hfl : ⌊dates / 86400⌋ = n := by
      rw [hn, mul_div_assoc, div_self (by norm_num), mul_one, Int.floor_intCast]
    have hut : (⌊dates / 86400⌋ : ℝ) * 86400 = dates := by rw [hfl, hn]
    have h0 : pmod dates 86400 = 0 := by unfold pmod; rw [hfl, hn]; ring
    have hu' := abs_le.1 hu
    have hd' := abs_le.1 hd
    norm_num at hu' hd'
    obtain ⟨g, hg, -⟩ := C123_geocentric dates dt (hu.trans (by norm_num)) hd
    obtain ⟨g0, hg0, -, -, -, -, -, hdel, -⟩ := C123_geocentric (dates - dt) dt (abs_le.2 ⟨by norm_num; linarith, by norm_num; linarith⟩) hd
    obtain ⟨gn, hgn, -⟩ := C123_geocentric (dates - dt - 86400) dt (abs_le.2 ⟨by norm_num; linarith, by norm_num; linarith⟩) hd
    obtain ⟨gp, hgp, -⟩ := C123_geocentric (dates - dt + 86400) dt (abs_le.2 ⟨by norm_num; linarith, by norm_num; linarith⟩) hd
    obtain ⟨c, hc, hciff⟩ := cosArg_iff hl (hdel.trans (by norm_num))
    have key : ∃ (m0 H : ℝ) (al de : ℝ → ℝ), 0 ≤ m0 ∧ m0 < 1 ∧ -180 ≤ H ∧ H < 180 ∧ transit_sunrise_sunset dates lat lon dt = (do
        let rs ← riseSet? lat lon g.v dt m0 c al de
        return ((m0 - H / 360) * 86400 + dates, rs.map fun p => (p.1 + dates, p.2 + dates))) := by
      refine ⟨pmod ((g0.alpha - lon - g.v) / 360) 1,
        hourAngle g.v (pmod ((g0.alpha - lon - g.v) / 360) 1) lon
          (dayInterp g0.alpha (dayDiff (g0.alpha - gn.alpha)) (dayDiff (gp.alpha - g0.alpha)) (pmod ((g0.alpha - lon - g.v) / 360) 1 + dt / 86400)),
        dayInterp g0.alpha (dayDiff (g0.alpha - gn.alpha)) (dayDiff (gp.alpha - g0.alpha)),
        dayInterp g0.delta (dayDiff (g0.delta - gn.delta)) (dayDiff (gp.delta - g0.delta)),
        (pmod_range one_pos).1, (pmod_range one_pos).2, (hourAngle_range _ _ _ _).1, (hourAngle_range _ _ _ _).2, ?_⟩
      · unfold transit_sunrise_sunset
        rw [if_neg (not_not.2 h0)]
        dsimp only
        simp only [Py.pure_eq, Py.ok_bind, hut]
        rw [hg, Py.ok_bind, hg0, Py.ok_bind, hgn, Py.ok_bind, hgp, Py.ok_bind, hc, Py.ok_bind]
    obtain ⟨m0, H, al, de, m1, m2, H1, H2, key⟩ := key
    refine ⟨g0, (m0 - H / 360) * 86400 + dates, hg0, by linarith, by linarith, ?_, ?_⟩
    · intro hno
      have hc1 : |c| > 1 := not_le.1 fun h => hno (hciff.1 h)
      rw [key]
      unfold riseSet?
      rw [if_pos hc1]
      rfl
    · intro hyes
      have hc1 := hciff.2 hyes
      have hc2 := abs_le.1 hc1
      rw [key]
      unfold riseSet?
      rw [if_neg (not_lt.2 hc1), pacos_ok hc2.1 hc2.2, Py.ok_bind]
      have hcross : ∀ m d Hp, (∃ v, crossing lat m d Hp = .ok v) ∨ crossing lat m d Hp = .error .zeroDivisionError := by
        intro m d Hp
        unfold crossing
        have hb := dot_bound (d2r lat) (d2r d) (d2r Hp)
        rw [pasin_ok hb.1 hb.2, Py.ok_bind]
        rcases eq_or_ne (360 * cos (d2r d) * cos (d2r lat) * sin (d2r Hp)) 0 with h | h
        · right; rw [h, pdiv_zero]; rfl
        · left; rw [pdiv_ok h]; exact ⟨_, rfl⟩
      generalize pmod (r2d (arccos c)) 180 = H0
      unfold riseSet
      extract_lets a1 a2 n1 n2
      rcases hcross a1 (de n1) (hourAngle g.v a1 lon (al n1)) with ⟨R, hR⟩ | hR
      · rcases hcross a2 (de n2) (hourAngle g.v a2 lon (al n2)) with ⟨S, hS⟩ | hS
        · left
          rw [hR, Py.ok_bind, hS]
          exact ⟨_, _, rfl⟩
        · right; rw [hR, Py.ok_bind, hS]; rfl
      · right; rw [hR]; rfl

example : ∃ n : ℤ, (1591401600 : ℝ) = n * 86400 := ⟨18419, by norm_num⟩

/-- C123: the distance to the sun in metres is positive and between 0.982 and 1.0183 astronomical units, whatever the unit is taken to be -/
theorem C123_distance_metres {au : ℝ} (ha : 0 < au) (u dt : ℝ) (hu : |u| ≤ 3 * 10 ^ 10) (hd : |dt| ≤ 10 ^ 5) :
    0.982 * au < earthsun_distance_m au u dt ∧ earthsun_distance_m au u dt < 1.0183 * au ∧
    ∃ g, geo u dt = .ok g ∧ earthsun_distance_m au u dt = g.R * au := by
  obtain ⟨g, hg, hR, h1, h2, -⟩ := C123_geocentric u dt hu hd
  unfold earthsun_distance_m
  rw [← hR]
  exact ⟨by nlinarith, by nlinarith, g, hg, rfl⟩

end Verif.Props.SolarPosition
