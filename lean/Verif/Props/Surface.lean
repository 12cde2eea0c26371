import Verif.Props.TankVolume

/-! C62: surface areas of heads and tanks. -/

open Real

noncomputable section

namespace Verif.Geometry

variable {D a h f k : ℝ}

/-- C62: the wetted area of a sphere is `π D h` (Archimedes); 0 below the sphere, `π D²` above it -/
theorem C62_partial_sphere (hD : 0 ≤ D) (h : ℝ) : SA_partial_sphere D h = .ok (π * D * max 0 (min h D)) := by
  have e : (if h > D then D else if h < 0 then 0 else h) = max 0 (min h D) := by
    split_ifs with g1 g2
    · rw [min_eq_right g1.le, max_eq_right hD]
    · rw [min_eq_left (not_lt.mp g1), max_eq_left g2.le]
    · rw [min_eq_left (not_lt.mp g1), max_eq_right (not_lt.mp g2)]
  have h0 : 0 ≤ max 0 (min h D) := le_max_left _ _
  have h1 : max 0 (min h D) ≤ D := max_le hD (min_le_right _ _)
  simp only [SA_partial_sphere, e]
  generalize max 0 (min h D) = x at *
  have hp : 0 ≤ x * (2 * (D * 0.5) - x) := mul_nonneg h0 (by linarith)
  rw [psqrt_ok hp, Py.ok_bind, Py.pure_eq, mul_self_sqrt hp]
  congr 1; ring

/-! ### Vertical heads -/

theorem sa_cone (D a : ℝ) : SA_conical_head D a = .ok (π * (D / 2) * √(a ^ 2 + (D / 2) ^ 2)) := by
  have : psqrt (a * a + 0.25 * D * D) = .ok √(a ^ 2 + (D / 2) ^ 2) := by
    rw [psqrt_ok (by nlinarith [mul_self_nonneg a, mul_self_nonneg D])]; congr 2; ring
  rw [SA_conical_head, this, Py.ok_bind, Py.pure_eq]
  congr 1; ring

/-- C62: a cone of depth `a` wetted to the height `h` has `(h/a)²` of the cone's lateral area: nothing when empty, the whole head when full -/
theorem C62_vertical_conical (ha : 0 < a) :
    (∀ h ≤ 0, SA_partial_vertical_conical_head D a h = .ok 0) ∧
    (∀ h > 0, ∃ s, SA_conical_head D a = .ok s ∧ SA_partial_vertical_conical_head D a h = .ok ((min h a / a) ^ 2 * s)) ∧
    (∀ h ≥ a, SA_partial_vertical_conical_head D a h = SA_conical_head D a) := by
  have key : ∀ h > 0, SA_partial_vertical_conical_head D a h = .ok ((min h a / a) ^ 2 * (π * (D / 2) * √(a ^ 2 + (D / 2) ^ 2))) := by
    intro h hh
    have e : (if h > a then a else h) = min h a := by
      split_ifs with g
      · exact (min_eq_right g.le).symm
      · exact (min_eq_left (not_lt.mp g)).symm
    have : psqrt (a * a + 0.5 * D * (0.5 * D)) = .ok √(a ^ 2 + (D / 2) ^ 2) := by
      rw [psqrt_ok (by nlinarith [mul_self_nonneg a, mul_self_nonneg D])]; congr 2; ring
    simp only [SA_partial_vertical_conical_head, if_neg ha.ne', if_neg (not_le.mpr hh), e]
    rw [this, Py.ok_bind, pdiv_ok (mul_pos ha ha).ne']
    congr 1
    field_simp
    ring
  refine ⟨fun h hh => by simp only [SA_partial_vertical_conical_head, if_neg ha.ne', if_pos hh], fun h hh => ⟨_, sa_cone D a, key h hh⟩, fun h hh => ?_⟩
  rw [key h (by linarith), sa_cone, min_eq_right hh, div_self ha.ne', one_pow, one_mul]

/-- C62: a cap wetted to the height `h`: proportional to `h`, the whole cap `π (a² + R²)` when full -/
theorem C62_vertical_spherical (ha : 0 < a) :
    (∀ h ≤ 0, SA_partial_vertical_spherical_head D a h = .ok 0) ∧
    (∀ h > 0, SA_partial_vertical_spherical_head D a h = .ok (π * (a ^ 2 + (D / 2) ^ 2) * (min h a / a))) ∧
    (∀ h ≥ a, ∀ f k, SA_partial_vertical_spherical_head D a h = SA_head D (some "spherical") a f k) := by
  have key : ∀ h > 0, SA_partial_vertical_spherical_head D a h = .ok (π * (a ^ 2 + (D / 2) ^ 2) * (min h a / a)) := by
    intro h hh
    have e : (if h > a then a else h) = min h a := by
      split_ifs with g
      · exact (min_eq_right g.le).symm
      · exact (min_eq_left (not_lt.mp g)).symm
    simp only [SA_partial_vertical_spherical_head, if_neg ha.ne', if_neg (not_le.mpr hh), e]
    rw [pdiv_ok ha.ne', Py.ok_bind, Py.pure_eq]
    congr 1
    field_simp
    ring
  refine ⟨fun h hh => by simp only [SA_partial_vertical_spherical_head, if_neg ha.ne', if_pos hh], key, fun h hh f k => ?_⟩
  rw [key h (by linarith), min_eq_right hh, div_self ha.ne', mul_one]
  simp only [SA_head, String.reduceEq, Option.some.injEq, if_false, if_true]
  congr 1; ring

theorem sa_ell_lt (ha : 0 < a) (hlt : a < D / 2) :
    SA_ellipsoidal_head D a = .ok (π * (D / 2) ^ 2 + π * a ^ 2 * (D / 2) / √((D / 2) ^ 2 - a ^ 2) * log ((√((D / 2) ^ 2 - a ^ 2) + D / 2) / a)) := by
  have hR : 0 < D / 2 := ha.trans hlt
  have hD : 0 < D := by linarith
  have hp : 0 < (D / 2) ^ 2 - a ^ 2 := by nlinarith
  have hx : 0 < √((D / 2) ^ 2 - a ^ 2) := sqrt_pos.mpr hp
  have hxx := sq_sqrt hp.le
  have hxR : √((D / 2) ^ 2 - a ^ 2) < D / 2 := by
    rw [sqrt_lt' hR]; nlinarith
  have e1 : psqrt (1 - a * a / (D / 2 * (D / 2))) = .ok (√((D / 2) ^ 2 - a ^ 2) / (D / 2)) := by
    have : 1 - a * a / (D / 2 * (D / 2)) = ((D / 2) ^ 2 - a ^ 2) / (D / 2) ^ 2 := by field_simp
    rw [this, psqrt_ok (by positivity), sqrt_div' _ (sq_nonneg _), sqrt_sq hR.le]
  unfold SA_ellipsoidal_head
  rw [if_neg (by linarith), show (0.5 : ℝ) * D = D / 2 by ring]
  simp only [if_pos hlt, min_eq_right hlt.le, max_eq_left hlt.le]
  rw [pdiv_ok (mul_pos hR hR).ne', Py.ok_bind, e1, Py.ok_bind]
  generalize √((D / 2) ^ 2 - a ^ 2) = x at *
  generalize D / 2 = R at *
  have hlt1 : x / R < 1 := by rwa [div_lt_one hR]
  have h1 : plog (1 + x / R) = .ok (log (1 + x / R)) := plog_ok (by positivity)
  have h2 : plog (1 + -(x / R)) = .ok (log (1 + -(x / R))) := plog_ok (by linarith)
  rw [if_pos hlt1.ne, h1, Py.ok_bind, h2, Py.ok_bind, Py.ok_bind, pdiv_ok (div_pos hx hR).ne', Py.ok_bind, Py.pure_eq]
  have hl : log (1 + x / R) - log (1 + -(x / R)) = 2 * log ((x + R) / a) := by
    rw [← log_div (by positivity) (by linarith), ← log_rpow (by positivity)]
    congr 1
    have : R - x ≠ 0 := by linarith
    have h3 : 1 + -(x / R) ≠ 0 := by linarith
    rw [div_eq_iff h3]
    norm_num
    field_simp
    have : R ^ 2 - x ^ 2 = a ^ 2 := by linarith
    linear_combination (-(R + x)) * this
  rw [hl]
  congr 1
  field_simp
  ring

theorem sa_ell_gt (hD : 0 < D) (hlt : D / 2 < a) :
    SA_ellipsoidal_head D a = .ok (π * (D / 2) ^ 2 + π * a ^ 2 * (D / 2) / √(a ^ 2 - (D / 2) ^ 2) * arccos (D / 2 / a)) := by
  have hR : 0 < D / 2 := by linarith
  have ha : 0 < a := hR.trans hlt
  have hp : 0 < a ^ 2 - (D / 2) ^ 2 := by nlinarith
  have e1 : psqrt (a * a - D / 2 * (D / 2)) = .ok √(a ^ 2 - (D / 2) ^ 2) := by
    rw [psqrt_ok (by nlinarith)]; congr 2; ring
  have e2 : pacos (D / 2 / a) = .ok (arccos (D / 2 / a)) := by
    refine pacos_ok ?_ ?_
    · have : 0 ≤ D / 2 / a := by positivity
      linarith
    · rw [div_le_one ha]; exact hlt.le
  unfold SA_ellipsoidal_head
  rw [if_neg (by linarith), show (0.5 : ℝ) * D = D / 2 by ring]
  simp only [if_neg (not_lt.mpr hlt.le)]
  rw [e1, Py.ok_bind, pdiv_ok (sqrt_pos.mpr hp).ne', Py.ok_bind, abs_of_pos ha, pdiv_ok ha.ne', Py.ok_bind, e2, Py.ok_bind, Py.pure_eq]
  congr 1
  ring

/-- C62: an ellipsoidal head, oblate, spherical or prolate: nothing when empty, the whole head when full -/
theorem C62_vertical_ellipsoidal (hD : 0 < D) (ha : 0 < a) :
    (∀ h ≤ 0, SA_partial_vertical_ellipsoidal_head D a h = .ok 0) ∧
    (∀ h ≥ a, SA_partial_vertical_ellipsoidal_head D a h = SA_ellipsoidal_head D a) := by
  refine ⟨fun h hh => by simp only [SA_partial_vertical_ellipsoidal_head, if_neg ha.ne', if_pos hh], fun h hh => ?_⟩
  have e : (if h > a then a else h) = a := by
    split_ifs with g
    · rfl
    · exact le_antisymm (not_lt.mp g) hh
  simp only [SA_partial_vertical_ellipsoidal_head, if_neg ha.ne', if_neg (show ¬ h ≤ 0 by linarith), e, show (0.5 : ℝ) * D = D / 2 by ring, sub_self, zero_mul, zero_add,
    sub_zero, mul_zero, add_zero]
  have s1 : psqrt (a * a * (a * a)) = .ok (a ^ 2) := by
    rw [psqrt_ok (by positivity), show a * a * (a * a) = (a ^ 2) ^ 2 by ring, sqrt_sq (sq_nonneg a)]
  rw [pdiv_ok ha.ne', Py.ok_bind, s1, Py.ok_bind]
  rcases lt_trichotomy a (D / 2) with g | g | g
  · rw [if_neg (not_lt.mpr g.le), if_neg g.ne, sa_ell_lt ha g]
    have hp : 0 < (D / 2) ^ 2 - a ^ 2 := by nlinarith
    have hx : 0 < √((D / 2) ^ 2 - a ^ 2) := sqrt_pos.mpr hp
    have e1 : psqrt (D / 2 * (D / 2) - a * a) = .ok √((D / 2) ^ 2 - a ^ 2) := by
      rw [psqrt_ok (by nlinarith)]; congr 2; ring
    have hR : 0 < D / 2 := by linarith
    rw [e1, Py.ok_bind, Py.ok_bind, pdiv_ok hx.ne', Py.ok_bind, pdiv_ok (by positivity), Py.ok_bind, plog_ok (by positivity), Py.ok_bind, Py.pure_eq]
    congr 1
    rw [show a * (√((D / 2) ^ 2 - a ^ 2) + D / 2) / a ^ 2 = (√((D / 2) ^ 2 - a ^ 2) + D / 2) / a by field_simp]
    ring
  · rw [if_neg (not_lt.mpr g.le), if_pos g, Py.pure_eq, SA_ellipsoidal_head, if_pos (by linarith)]
    congr 1
    rw [g]; ring
  · have hp : 0 < a ^ 2 - (D / 2) ^ 2 := by nlinarith
    have e1 : psqrt (a * a - D / 2 * (D / 2)) = .ok √(a ^ 2 - (D / 2) ^ 2) := by
      rw [psqrt_ok (by nlinarith)]; congr 2; ring
    have e2 : pacos (D / 2 * (1 / a)) = .ok (arccos (D / 2 / a)) := by
      rw [mul_one_div]
      refine pacos_ok ?_ ?_
      · have : 0 ≤ D / 2 / a := by positivity
        linarith
      · rw [div_le_one ha]; exact g.le
    have e3 : pasin 0 = .ok 0 := by rw [pasin_ok (by norm_num) (by norm_num), arcsin_zero]
    rw [if_pos g, sa_ell_gt hD g, e1, Py.ok_bind, pdiv_ok (sqrt_pos.mpr hp).ne', Py.ok_bind, e2, Py.ok_bind, e3, Py.ok_bind, Py.pure_eq]
    congr 1
    ring

/-- area of a torispherical head: dish and knuckle -/
def toriArea (D f k : ℝ) : ℝ := 2 * π * (f * D) * dishDepth D f k + 2 * π * (k * D) * (knuckleHeight D f k + (D / 2 - k * D) * arcsin (toriCos f k))

theorem sa_tori (hk : 0 < k ∧ k < 1 / 2) (hf : 1 / 2 ≤ f) : SA_torispheroidal D f k = .ok (toriArea D f k) := by
  have hfk : 0 < f - k := by linarith
  have hx : (0.5 - k) / (f - k) = toriSin f k := by unfold toriSin; norm_num
  have hs := tori_sq hk hf
  have hc0 := toriCos_nonneg (f := f) (k := k)
  have hc1 := toriCos_lt hk hf
  have e1 : psqrt (1 - toriSin f k * toriSin f k) = .ok (toriCos f k) := by
    rw [show 1 - toriSin f k * toriSin f k = toriCos f k ^ 2 by linarith, psqrt_ok (sq_nonneg _), sqrt_sq hc0]
  have e2 : psqrt (f * f - 2 * f * k + k - 0.25) = .ok ((f - k) * toriCos f k) := by
    have : f * f - 2 * f * k + k - 0.25 = ((f - k) * toriCos f k) ^ 2 := by
      have h1 : (f - k) * toriSin f k = 1 / 2 - k := by unfold toriSin; field_simp
      have : ((f - k) * toriCos f k) ^ 2 = (f - k) ^ 2 - ((f - k) * toriSin f k) ^ 2 := by linear_combination (f - k) ^ 2 * hs
      rw [this, h1]; ring
    rw [this, psqrt_ok (sq_nonneg _), sqrt_sq (mul_nonneg hfk.le hc0)]
  have e3 : pasin ((f - (f - k) * toriCos f k - (f - (f - k) * toriCos f k)) * (1 / k)) = .ok 0 := by
    rw [sub_self, zero_mul, pasin_ok (by norm_num) (by norm_num), arcsin_zero]
  have e4 : pasin ((f * (1 - toriCos f k) - (f - (f - k) * toriCos f k)) * (1 / k)) = .ok (- arcsin (toriCos f k)) := by
    have : (f * (1 - toriCos f k) - (f - (f - k) * toriCos f k)) * (1 / k) = - toriCos f k := by
      have := hk.1; field_simp; ring
    rw [this, pasin_ok (by linarith) (by linarith), arcsin_neg]
  simp only [SA_torispheroidal]
  rw [pdiv_ok hk.1.ne', Py.ok_bind, pdiv_ok hfk.ne', Py.ok_bind, hx, e1, Py.ok_bind, e2, Py.ok_bind, e3, Py.ok_bind, e4, Py.ok_bind, Py.pure_eq]
  congr 1
  unfold toriArea dishDepth knuckleHeight
  ring

/-- C62: a torispherical head wetted to the height `h`: the zone of the dish, then the zone of the knuckle; nothing when empty, the whole head when full -/
theorem C62_vertical_torispherical (hD : 0 < D) (hk : 0 < k ∧ k < 1 / 2) (hf : 1 / 2 ≤ f) :
    (∀ h ≤ 0, SA_partial_vertical_torispherical_head D f k h = .ok 0) ∧
    (∀ h, 0 < h → h ≤ dishDepth D f k → SA_partial_vertical_torispherical_head D f k h = .ok (2 * π * (f * D) * h)) ∧
    (∀ h ≥ dishDepth D f k + knuckleHeight D f k, SA_partial_vertical_torispherical_head D f k h = SA_torispheroidal D f k) := by
  have hd := dishDepth_pos hD hk hf
  have hkn := knuckleHeight_nonneg (f := f) hD hk
  have hkD := mul_pos hk.1 hD
  have hc0 := toriCos_nonneg (f := f) (k := k)
  have hc1 := toriCos_lt hk hf
  have ea : f * D * (1 - toriCos f k) = dishDepth D f k := rfl
  have eb : k * D * toriCos f k = knuckleHeight D f k := rfl
  have e1 : pasin (knuckleHeight D f k * (1 / (k * D))) = .ok (arcsin (toriCos f k)) := by
    rw [← eb, show k * D * toriCos f k * (1 / (k * D)) = toriCos f k by have := hk.1; field_simp, pasin_ok (by linarith) hc1.le]
  refine ⟨fun h hh => by simp only [SA_partial_vertical_torispherical_head, if_pos hh], fun h h0 h1 => ?_, fun h hh => ?_⟩
  · simp only [SA_partial_vertical_torispherical_head, if_neg (not_le.mpr h0), toriAlpha_ok hk hf, Py.ok_bind, cos_alpha, ea, eb]
    rw [if_neg (show ¬ h > dishDepth D f k + knuckleHeight D f k by linarith)]
    split_ifs with g1 g2
    · rw [Py.pure_eq]; congr 1; ring
    · have hh : h = dishDepth D f k := le_antisymm h1 g2.1
      rw [pdiv_ok hkD.ne', Py.ok_bind, e1, Py.ok_bind, hh, add_sub_cancel_left, e1, Py.ok_bind, Py.pure_eq]
      congr 1; ring
    · exact absurd ⟨not_lt.mp g1, by linarith⟩ g2
  · have e : (if h > dishDepth D f k + knuckleHeight D f k then dishDepth D f k + knuckleHeight D f k else h) = dishDepth D f k + knuckleHeight D f k := by
      split_ifs with g
      · rfl
      · exact le_antisymm (not_lt.mp g) hh
    have e3 : pasin 0 = .ok 0 := by rw [pasin_ok (by norm_num) (by norm_num), arcsin_zero]
    simp only [SA_partial_vertical_torispherical_head, if_neg (show ¬ h ≤ 0 by linarith), toriAlpha_ok hk hf, Py.ok_bind, cos_alpha, ea, eb, e]
    rw [if_neg (by linarith), if_pos ⟨by linarith, le_rfl⟩, pdiv_ok hkD.ne', Py.ok_bind, e1, Py.ok_bind, sub_self, zero_mul, e3, Py.ok_bind, Py.pure_eq, sa_tori hk hf]
    congr 1
    unfold toriArea
    ring

/-! ### Horizontal heads -/

/-- C62: a cone in a horizontal tank: the wetted area is the wetted circle times the secant of the cone's slope -/
theorem C62_horiz_conical (hD : 0 < D) :
    (∀ h ≤ 0, SA_partial_horiz_conical_head D a h = .ok 0) ∧
    (∀ h ≥ 0, SA_partial_horiz_conical_head D a h = .ok (√(a ^ 2 + (D / 2) ^ 2) / (D / 2) * segArea (D / 2) (min h D))) ∧
    (∀ h ≥ D, SA_partial_horiz_conical_head D a h = SA_conical_head D a) := by
  have hR : 0 < D / 2 := by linarith
  have key : ∀ h ≥ 0, SA_partial_horiz_conical_head D a h = .ok (√(a ^ 2 + (D / 2) ^ 2) / (D / 2) * segArea (D / 2) (min h D)) := by
    intro h hh
    have e : (if h > D then D else h) = min h D := by
      split_ifs with g
      · exact (min_eq_right g.le).symm
      · exact (min_eq_left (not_lt.mp g)).symm
    have h0 : 0 ≤ min h D := le_min hh hD.le
    have h1 := min_le_right h D
    have e1 : psqrt (a * a + D / 2 * (D / 2)) = .ok √(a ^ 2 + (D / 2) ^ 2) := by
      rw [psqrt_ok (by nlinarith [mul_self_nonneg a, mul_self_nonneg D])]; congr 2; ring
    have e2 : pacos ((D / 2 - min h D) * (1 / (D / 2))) = .ok (arccos ((D / 2 - min h D) / (D / 2))) := by
      rw [mul_one_div]
      refine pacos_ok ?_ ?_
      · rw [le_div_iff₀ hR]; linarith
      · rw [div_le_iff₀ hR]; linarith
    have e3 : psqrt (2 * (D / 2) * min h D - min h D * min h D) = .ok √(min h D * (2 * (D / 2) - min h D)) := by
      rw [psqrt_ok (by nlinarith)]; congr 2; ring
    simp only [SA_partial_horiz_conical_head, if_neg (show ¬ (¬ h > D ∧ h < 0) from fun g => absurd g.2 (not_lt.mpr hh)), e, show (0.5 : ℝ) * D = D / 2 by ring]
    rw [pdiv_ok hR.ne', Py.ok_bind, e1, Py.ok_bind, e2, Py.ok_bind, e3, Py.ok_bind, Py.pure_eq]
    congr 1
    unfold segArea
    ring
  refine ⟨fun h hh => ?_, key, fun h hh => ?_⟩
  · rcases hh.lt_or_eq with g | g
    · simp only [SA_partial_horiz_conical_head, if_pos (show ¬ h > D ∧ h < 0 from ⟨by linarith, g⟩)]
    · rw [key h g.ge, g, min_eq_left hD.le, segArea_zero hR, mul_zero]
  · have := segArea_full hR
    rw [show 2 * (D / 2) = D by ring] at this
    rw [key h (by linarith), sa_cone, min_eq_right hh, this]
    congr 1
    field_simp

/-- area element of a sphere of radius `r` over the strip of the cap at the height `y` -/
def capStrip (R r y : ℝ) : ℝ := ∫ x in (-√(y * (2 * R - y)))..√(y * (2 * R - y)), r / √(r ^ 2 - x ^ 2 - (R - y) ^ 2)

theorem integral_arcsin {ρ c r : ℝ} (hc : 0 ≤ c) (hlt : c < ρ) : ∫ x in (-c)..c, r / √(ρ ^ 2 - x ^ 2) = 2 * r * arcsin (c / ρ) := by
  have hρ : 0 < ρ := hc.trans_lt hlt
  have hin : ∀ x ∈ Set.uIcc (-c) c, 0 < ρ ^ 2 - x ^ 2 := by
    intro x hx
    rw [Set.uIcc_of_le (by linarith)] at hx
    nlinarith [hx.1, hx.2]
  have hcont : ContinuousOn (fun x => r / √(ρ ^ 2 - x ^ 2)) (Set.uIcc (-c) c) :=
    ContinuousOn.div continuousOn_const (by fun_prop) fun x hx => (sqrt_pos.mpr (hin x hx)).ne'
  rw [intervalIntegral.integral_eq_sub_of_hasDerivAt (f := fun x => r * arcsin (x / ρ)) ?_ hcont.intervalIntegrable]
  · rw [neg_div, arcsin_neg]; ring
  · intro x hx
    have hp := hin x hx
    rw [Set.uIcc_of_le (by linarith)] at hx
    have e : √(1 - (x / ρ) ^ 2) = √(ρ ^ 2 - x ^ 2) / ρ := by
      rw [show 1 - (x / ρ) ^ 2 = (ρ ^ 2 - x ^ 2) / ρ ^ 2 by field_simp, sqrt_div' _ (sq_nonneg _), sqrt_sq hρ.le]
    have h1 : x / ρ ≠ -1 := by
      have : -1 < x / ρ := by rw [lt_div_iff₀ hρ]; linarith [hx.1]
      exact this.ne'
    have h2 : x / ρ ≠ 1 := by
      have : x / ρ < 1 := by rw [div_lt_iff₀ hρ]; linarith [hx.2]
      exact this.ne
    refine (((hasDerivAt_arcsin h1 h2).comp x ((hasDerivAt_id' x).div_const ρ)).const_mul r).congr_deriv ?_
    rw [e]
    have := sqrt_pos.mpr hp
    field_simp

theorem capStrip_eq {R r z : ℝ} (hC : Cap R r z) {y : ℝ} (hy : y ∈ Set.Icc 0 (2 * R)) : capStrip R r y = 2 * r * arctan (√(y * (2 * R - y)) / z) := by
  have hlt := hC.lt
  have hR := hC.hR
  have hz := hC.hz
  have hq : 0 ≤ y * (2 * R - y) := mul_nonneg hy.1 (by linarith [hy.2])
  have hs := sqrt_nonneg (y * (2 * R - y))
  have hcc := sq_sqrt hq
  have hp : 0 < r ^ 2 - (R - y) ^ 2 := by nlinarith [hy.1, hy.2]
  have hρ : 0 < √(r ^ 2 - (R - y) ^ 2) := sqrt_pos.mpr hp
  have hρs := sq_sqrt hp.le
  have hltc : √(y * (2 * R - y)) < √(r ^ 2 - (R - y) ^ 2) := sqrt_lt_sqrt hq (by nlinarith [hC.sq, mul_pos hz hz])
  have hd := integral_arcsin (r := r) hs hltc
  rw [hρs, arcsin_arctan hz hρ (by rw [hρs, hC.sq, hcc]; ring)] at hd
  rw [← hd]
  unfold capStrip
  refine intervalIntegral.integral_congr fun x _ => ?_
  beta_reduce
  rw [sub_right_comm]

/-- antiderivative of `arctan(c/z)` -/
def capG (R r z y : ℝ) : ℝ :=
  -(R - y) * arctan (√(y * (2 * R - y)) / z) - z * arccos ((R - y) / R)
    + r / 2 * (arccos ((R ^ 2 - r * (R - y)) / (R * (R - y - r))) + arccos ((R ^ 2 + r * (R - y)) / (R * (R - y + r))))

theorem continuousOn_capG {R r z : ℝ} (hC : Cap R r z) : ContinuousOn (capG R r z) (Set.Icc 0 (2 * R)) := by
  have hlt := hC.lt
  have hR := hC.hR
  have h1 := continuous_arctan
  have h2 := continuous_arccos
  have c1 : ContinuousOn (fun y => (R ^ 2 - r * (R - y)) / (R * (R - y - r))) (Set.Icc 0 (2 * R)) := by
    refine ContinuousOn.div (by fun_prop) (by fun_prop) fun y hy => ?_
    have : R - y - r < 0 := by linarith [hy.1]
    exact mul_ne_zero hR.ne' this.ne
  have c2 : ContinuousOn (fun y => (R ^ 2 + r * (R - y)) / (R * (R - y + r))) (Set.Icc 0 (2 * R)) := by
    refine ContinuousOn.div (by fun_prop) (by fun_prop) fun y hy => ?_
    have : 0 < R - y + r := by linarith [hy.2]
    exact mul_ne_zero hR.ne' this.ne'
  have a1 := h2.comp_continuousOn c1
  have a2 := h2.comp_continuousOn c2
  unfold capG
  simp only [Function.comp_def] at a1 a2
  have c3 : Continuous (fun y => -(R - y) * arctan (√(y * (2 * R - y)) / z) - z * arccos ((R - y) / R)) := by fun_prop
  exact c3.continuousOn.add (continuousOn_const.mul (a1.add a2))

theorem hasDerivAt_capG {R r z : ℝ} (hC : Cap R r z) {y : ℝ} (h0 : 0 < y) (h1 : y < 2 * R) : HasDerivAt (capG R r z) (arctan (√(y * (2 * R - y)) / z)) y := by
  have hlt := hC.lt
  have hR := hC.hR
  have hz := hC.hz
  have hr := hC.hr
  have hq : 0 < y * (2 * R - y) := mul_pos h0 (by linarith)
  have hs : 0 < √(y * (2 * R - y)) := sqrt_pos.mpr hq
  have n1' : 0 < r - (R - y) := by linarith
  have n2' : 0 < r + (R - y) := by linarith
  obtain ⟨dA1, dA2, dat⟩ := cap_derivs hC h0 h1
  have dw : HasDerivAt (fun y : ℝ => -(R - y)) (- -1) y := ((hasDerivAt_id' y).const_sub R).neg
  have d := ((dw.mul dat).sub ((hasDerivAt_acos hR h0 h1).const_mul z)).add ((dA1.add dA2).const_mul (r / 2))
  unfold capG
  refine d.congr_deriv ?_
  generalize arctan (√(y * (2 * R - y)) / z) = θ at *
  generalize √(y * (2 * R - y)) = c at *
  rw [show r ^ 2 - (R - y) ^ 2 = (r - (R - y)) * (r + (R - y)) by ring]
  clear d dat dA1 dA2 dw hq h0 h1 hlt hR hC
  generalize R - y = w at *
  field_simp
  ring

theorem integral_cap {R r z : ℝ} (hC : Cap R r z) : ∫ y in (0 : ℝ)..(2 * R), arctan (√(y * (2 * R - y)) / z) = π * (r - z) := by
  have hR := hC.hR
  have hlt := hC.lt
  have hc : Continuous fun y => arctan (√(y * (2 * R - y)) / z) := by have := continuous_arctan; fun_prop
  rw [integral_of_deriv (p := 0) (V := capG R r z) (by linarith) hc (continuousOn_capG hC) fun y hy _ => hasDerivAt_capG hC hy.1 hy.2]
  have e1 : (R ^ 2 - r * (R - 2 * R)) / (R * (R - 2 * R - r)) = -1 := by
    have : R - 2 * R - r < 0 := by linarith
    rw [div_eq_iff (mul_ne_zero hR.ne' this.ne)]; ring
  have e2 : (R ^ 2 + r * (R - 2 * R)) / (R * (R - 2 * R + r)) = -1 := by
    have : 0 < R - 2 * R + r := by linarith
    rw [div_eq_iff (mul_ne_zero hR.ne' this.ne')]; ring
  have e3 : (R - 2 * R) / R = -1 := by field_simp; ring
  have f1 : (R ^ 2 - r * (R - 0)) / (R * (R - 0 - r)) = 1 := by
    have : R - 0 - r ≠ 0 := by have : R - 0 - r < 0 := by linarith
                               exact this.ne
    rw [div_eq_one_iff_eq (mul_ne_zero hR.ne' this)]; ring
  have f2 : (R ^ 2 + r * (R - 0)) / (R * (R - 0 + r)) = 1 := by
    have : 0 < R - 0 + r := by linarith
    rw [div_eq_one_iff_eq (mul_ne_zero hR.ne' this.ne')]; ring
  have f3 : (R - 0) / R = 1 := by rw [sub_zero, div_self hR.ne']
  unfold capG
  rw [e1, e2, e3, f1, f2, f3, arccos_one, arccos_neg_one]
  simp
  ring

/-- the cap of depth `a ≠ R` (for `a > R` the sphere's centre lies inside the head) -/
theorem cap_of_ne {R a : ℝ} (hR : 0 < R) (ha : 0 < a) (hne : a ≠ R) : Cap R ((a ^ 2 + R ^ 2) / (2 * a)) |(a ^ 2 + R ^ 2) / (2 * a) - a| := by
  refine ⟨hR, ?_, by positivity, ?_⟩
  · rw [show (a ^ 2 + R ^ 2) / (2 * a) - a = (R - a) * (R + a) / (2 * a) by field_simp; ring, abs_pos]
    have : R - a ≠ 0 := sub_ne_zero.mpr hne.symm
    positivity
  · rw [sq_abs]; field_simp; ring

theorem horiz_spherical_area (hD : 0 < D) (ha : 0 < a) (hne : a ≠ D / 2) (h0 : 0 ≤ h) :
    SA_partial_horiz_spherical_head D a h = .ok ((a ^ 2 + (D / 2) ^ 2) / a *
      ∫ y in (0 : ℝ)..(min h D), arctan (√(y * (2 * (D / 2) - y)) / |(a ^ 2 + (D / 2) ^ 2) / (2 * a) - a|)) := by
  have hR : 0 < D / 2 := by linarith
  have hC := cap_of_ne hR ha hne
  have hlt := hC.lt
  have e : (if h > D then D else h) = min h D := by
    split_ifs with g
    · exact (min_eq_right g.le).symm
    · exact (min_eq_left (not_lt.mp g)).symm
  have hm0 : 0 ≤ min h D := le_min h0 hD.le
  have hm1 := min_le_right h D
  simp only [SA_partial_horiz_spherical_head, show (0.5 : ℝ) * D = D / 2 by ring, if_neg hne, if_neg (not_lt.mpr h0), e, abs_of_pos ha, pdiv_ok ha.ne', Py.ok_bind, Py.pure_eq]
  rw [show a * a + D / 2 * (D / 2) = a ^ 2 + (D / 2) ^ 2 by ring]
  congr 2
  have := intervalIntegral.integral_comp_sub_left (a := 0) (b := min h D) (fun x => SA_horiz_spherical_toint (D / 2 * (D / 2)) ((a + a) * (a + a)) (2 * a)
    ((a ^ 2 + (D / 2) ^ 2) * (a ^ 2 + (D / 2) ^ 2)) x) (D / 2)
  rw [sub_zero] at this
  rw [← this]
  refine intervalIntegral.integral_congr fun y hy => ?_
  rw [Set.uIcc_of_le hm0] at hy
  have hq : 0 ≤ y * (2 * (D / 2) - y) := mul_nonneg hy.1 (by linarith [hy.2])
  generalize hr : (a ^ 2 + (D / 2) ^ 2) / (2 * a) = r at *
  have hra : a ^ 2 + (D / 2) ^ 2 = 2 * a * r := by rw [← hr]; field_simp
  have hp : 0 < r ^ 2 - (D / 2 - y) ^ 2 := by nlinarith [hy.1, hy.2]
  have hρ : 0 < √(r ^ 2 - (D / 2 - y) ^ 2) := sqrt_pos.mpr hp
  have hρs := sq_sqrt hp.le
  have hcc := sq_sqrt hq
  simp only [SA_horiz_spherical_toint]
  have e1 : (D / 2 * (D / 2) - (D / 2 - y) * (D / 2 - y)) / ((a ^ 2 + (D / 2) ^ 2) * (a ^ 2 + (D / 2) ^ 2) - (a + a) * (a + a) * ((D / 2 - y) * (D / 2 - y)))
      = y * (2 * (D / 2) - y) / ((2 * a) ^ 2 * (r ^ 2 - (D / 2 - y) ^ 2)) := by
    rw [hra]; congr 1 <;> ring
  have hnn : 0 ≤ y * (2 * (D / 2) - y) / ((2 * a) ^ 2 * (r ^ 2 - (D / 2 - y) ^ 2)) := by positivity
  have e2 : 2 * a * √(y * (2 * (D / 2) - y) / ((2 * a) ^ 2 * (r ^ 2 - (D / 2 - y) ^ 2))) = √(y * (2 * (D / 2) - y)) / √(r ^ 2 - (D / 2 - y) ^ 2) := by
    rw [sqrt_div' _ (mul_nonneg (sq_nonneg _) hp.le), sqrt_mul (sq_nonneg _), sqrt_sq (by positivity)]
    field_simp
  have hle : √(y * (2 * (D / 2) - y)) / √(r ^ 2 - (D / 2 - y) ^ 2) ≤ 1 := by
    rw [div_le_one hρ]
    exact sqrt_le_sqrt (by nlinarith)
  rw [e1, if_neg (not_lt.mpr hnn), e2, if_neg (not_lt.mpr hle), arcsin_arctan hC.hz hρ (by rw [hρs, hC.sq, hcc]; ring)]

/-- C62: a spherical head of a horizontal tank, less deep than a half sphere: the wetted area is the integral of the sphere's area element, and the whole
cap `π (a² + R²)` when full -/
theorem C62_horiz_spherical (hD : 0 < D) (ha : 0 < a) (hlt : a < D / 2) :
    (∀ h ≤ 0, SA_partial_horiz_spherical_head D a h = .ok 0) ∧
    (∀ h, 0 ≤ h → h ≤ D → SA_partial_horiz_spherical_head D a h = .ok (∫ y in (0 : ℝ)..h, capStrip (D / 2) ((a ^ 2 + (D / 2) ^ 2) / (2 * a)) y)) ∧
    (∀ h ≥ D, ∀ f k, SA_partial_horiz_spherical_head D a h = SA_head D (some "spherical") a f k) := by
  have hR : 0 < D / 2 := by linarith
  have hC := cap_of_ne hR ha hlt.ne
  refine ⟨fun h hh => ?_, fun h h0 h1 => ?_, fun h hh f k => ?_⟩
  · rcases hh.lt_or_eq with g | g
    · simp only [SA_partial_horiz_spherical_head, if_neg (show ¬ a = 0.5 * D by intro e; linarith), if_pos g]
    · rw [horiz_spherical_area hD ha hlt.ne g.ge, g, min_eq_left hD.le, intervalIntegral.integral_same, mul_zero]
  · rw [horiz_spherical_area hD ha hlt.ne h0, min_eq_left h1, ← intervalIntegral.integral_const_mul]
    congr 1
    refine intervalIntegral.integral_congr fun y hy => ?_
    rw [Set.uIcc_of_le h0] at hy
    beta_reduce
    rw [capStrip_eq hC ⟨hy.1, by linarith [hy.2]⟩]
    congr 1
    field_simp
  · have hi := integral_cap hC
    rw [horiz_spherical_area hD ha hlt.ne (by linarith), min_eq_right hh, show ∀ F : ℝ → ℝ, ∫ y in (0 : ℝ)..D, F y = ∫ y in (0 : ℝ)..(2 * (D / 2)), F y by
      intro F; rw [show 2 * (D / 2) = D by ring], hi, abs_of_pos (cap_of hR ha hlt).hz]
    simp only [SA_head, String.reduceEq, Option.some.injEq, if_false, if_true]
    congr 1
    field_simp
    ring

/-- C62: the half sphere -/
theorem C62_horiz_hemisphere (hD : 0 < D) :
    (∀ h, SA_partial_horiz_spherical_head D (D / 2) h = .ok (π * (D / 2) * h)) ∧
    (∀ f k, SA_partial_horiz_spherical_head D (D / 2) D = SA_head D (some "spherical") (D / 2) f k) := by
  have key : ∀ h, SA_partial_horiz_spherical_head D (D / 2) h = .ok (π * (D / 2) * h) := by
    intro h
    simp only [SA_partial_horiz_spherical_head, show (0.5 : ℝ) * D = D / 2 by ring, if_true]
  refine ⟨key, fun f k => ?_⟩
  rw [key]
  simp only [SA_head, String.reduceEq, Option.some.injEq, if_false, if_true]
  congr 1; ring

/-- C62 (finding): the half sphere is not limited to its diameter, and is negative below it -/
theorem C62_horiz_hemisphere_unclamped (hD : 0 < D) :
    SA_partial_horiz_spherical_head D (D / 2) (2 * D) = .ok (2 * (π * (D / 2) * D)) ∧
    ∃ v < 0, SA_partial_horiz_spherical_head D (D / 2) (-D) = .ok v := by
  have hp := pi_pos
  refine ⟨by rw [(C62_horiz_hemisphere hD).1]; congr 1; ring, _, ?_, (C62_horiz_hemisphere hD).1 _⟩
  have : 0 < π * (D / 2) * D := by positivity
  linarith

/-- C62 (finding): for heads deeper than a half sphere the full wetted area is that of the complementary, smaller cap: `(R/a)²` of the head's area -/
theorem C62_horiz_spherical_deep (hD : 0 < D) (hgt : D / 2 < a) :
    SA_partial_horiz_spherical_head D a D = .ok ((D / 2 / a) ^ 2 * (π * (a ^ 2 + (D / 2) ^ 2))) := by
  have hR : 0 < D / 2 := by linarith
  have ha : 0 < a := hR.trans hgt
  have hC := cap_of_ne hR ha hgt.ne'
  have hi := integral_cap hC
  have habs : |(a ^ 2 + (D / 2) ^ 2) / (2 * a) - a| = a - (a ^ 2 + (D / 2) ^ 2) / (2 * a) := by
    rw [abs_of_neg, neg_sub]
    rw [show (a ^ 2 + (D / 2) ^ 2) / (2 * a) - a = (D / 2 - a) * (D / 2 + a) / (2 * a) by field_simp; ring]
    exact div_neg_of_neg_of_pos (mul_neg_of_neg_of_pos (by linarith) (by linarith)) (by linarith)
  rw [horiz_spherical_area hD ha hgt.ne' hD.le, min_self, show ∀ F : ℝ → ℝ, ∫ y in (0 : ℝ)..D, F y = ∫ y in (0 : ℝ)..(2 * (D / 2)), F y by
      intro F; rw [show 2 * (D / 2) = D by ring], hi, habs]
  congr 1
  field_simp
  ring

/-- C62 (finding): a guppy head as deep as the tank's radius takes the half sphere's shortcut, so the full partial area is not the head's area -/
theorem C62_horiz_guppy_shortcut (hD : 0 < D) (toint : ℝ → ℝ → ℝ → ℝ) :
    ∃ v s, SA_partial_horiz_guppy_head toint D (D / 2) D = .ok v ∧ SA_guppy_head D (D / 2) = .ok s ∧ v < s := by
  have hp := pi_pos
  have h1 : psqrt (D / 2 * (D / 2) + D * D) = .ok √(D / 2 * (D / 2) + D * D) := psqrt_ok (by positivity)
  refine ⟨π * (D / 2) * D, 0.25 * π * D * √(D / 2 * (D / 2) + D * D) + 0.5 * π * D * (D / 2), ?_, ?_, ?_⟩
  · simp only [SA_partial_horiz_guppy_head, show (0.5 : ℝ) * D = D / 2 by ring, if_true]
  · rw [SA_guppy_head, h1, Py.ok_bind, Py.pure_eq]
  · have : D < √(D / 2 * (D / 2) + D * D) := lt_sqrt_of_sq_lt (by nlinarith)
    nlinarith [mul_pos hp hD]

/-- C62: ellipsoidal and guppy heads of a horizontal tank: dry when empty, and the level is limited to the diameter -/
theorem C62_horiz_elliptic (hD : 0 < D) (ellipe : ℝ → ℝ) (toint : ℝ → ℝ → ℝ → ℝ) (hne : a ≠ D / 2) :
    (∀ h ≤ 0, SA_partial_horiz_ellipsoidal_head ellipe D a h = .ok 0 ∧ SA_partial_horiz_guppy_head toint D a h = .ok 0) ∧
    (∀ h ≥ D, SA_partial_horiz_ellipsoidal_head ellipe D a h = SA_partial_horiz_ellipsoidal_head ellipe D a D ∧
      SA_partial_horiz_guppy_head toint D a h = SA_partial_horiz_guppy_head toint D a D) := by
  have hne' : ¬ a = 0.5 * D := by intro e; apply hne; linarith
  have hq : (2 : ℝ) /ₚ (0.5 * D) = .ok (2 / (0.5 * D)) := pdiv_ok (by positivity)
  refine ⟨fun h hh => ?_, fun h hh => ?_⟩
  · rcases hh.lt_or_eq with g | g
    · simp only [SA_partial_horiz_ellipsoidal_head, SA_partial_horiz_guppy_head, if_neg hne', if_pos g, and_self]
    · subst g
      simp only [SA_partial_horiz_ellipsoidal_head, SA_partial_horiz_guppy_head, if_neg hne', lt_self_iff_false, if_false, if_neg (show ¬ (0 : ℝ) > D by linarith), hq,
        Py.ok_bind, Py.pure_eq, sub_zero, zero_sub, if_true, intervalIntegral.integral_same, mul_zero, and_self]
  · have e : (if h > D then D else h) = D := by
      split_ifs with g
      · rfl
      · exact le_antisymm (not_lt.mp g) hh
    simp only [SA_partial_horiz_ellipsoidal_head, SA_partial_horiz_guppy_head, if_neg hne', if_neg (show ¬ h < 0 by linarith), if_neg (show ¬ D < 0 by linarith), e,
      lt_self_iff_false, if_false, gt_iff_lt, and_self]

/-- C62: torispherical heads of a horizontal tank: dry when empty, the whole head when full, and above the centre line the wet part is the whole head less
the dry part -/
theorem C62_horiz_torispherical (low mid : ℝ → ℝ → ℝ → ℝ → Py ℝ) (hD : 0 < D) (hk : 0 < k ∧ k < 1 / 2) (hf : 1 / 2 ≤ f) (fuel : ℕ) :
    (∀ h ≤ 0, SA_partial_horiz_torispherical_head low mid (fuel + 2) D f k h = .ok 0) ∧
    (∀ h ≥ D, SA_partial_horiz_torispherical_head low mid (fuel + 2) D f k h = SA_torispheroidal D f k) ∧
    (∀ h, D / 2 < h → h < D → ∀ v, SA_partial_horiz_torispherical_head low mid (fuel + 1) D f k (D - h) = .ok v →
      ∃ s, SA_torispheroidal D f k = .ok s ∧ SA_partial_horiz_torispherical_head low mid (fuel + 2) D f k h = .ok (s - v)) := by
  have hkD := mul_pos hk.1 hD
  have hc0 := toriCos_nonneg (f := f) (k := k)
  have hc1 := toriCos_lt hk hf
  have hlim : k * D * (1 - toriSin f k) ≤ D / 2 := by
    have := dishRim_eq (D := D) hk hf
    have := dishRim_pos hD hk hf
    nlinarith
  have e1 : pasin (k * D * toriCos f k / (k * D)) = .ok (arcsin (toriCos f k)) := by
    rw [mul_div_cancel_left₀ _ hkD.ne', pasin_ok (by linarith) hc1.le]
  have step : ∀ n h v, D / 2 < h → (h ≤ D) → SA_partial_horiz_torispherical_head low mid n D f k (D - h) = .ok v →
      SA_partial_horiz_torispherical_head low mid (n + 1) D f k h = .ok (toriArea D f k - v) := by
    intro n h v g1 g2 ev
    simp only [SA_partial_horiz_torispherical_head, if_neg (show ¬ h ≤ 0 by linarith), if_neg (not_lt.mpr g2), toriAlpha_ok hk hf, Py.ok_bind, cos_alpha, sin_alpha hk hf]
    rw [if_neg (by linarith), if_neg (fun g => by linarith [g.2]), pdiv_ok hkD.ne', Py.ok_bind, e1, Py.ok_bind, ev, Py.ok_bind, Py.pure_eq]
    congr 1
    unfold toriArea dishDepth knuckleHeight
    ring
  have zero : ∀ n, ∀ h ≤ 0, SA_partial_horiz_torispherical_head low mid (n + 1) D f k h = .ok 0 := by
    intro n h hh
    simp only [SA_partial_horiz_torispherical_head, if_pos hh]
  refine ⟨fun h hh => zero _ h hh, fun h hh => ?_, fun h h1 h2 v hv => ⟨_, sa_tori hk hf, step _ h v h1 h2.le hv⟩⟩
  rw [sa_tori hk hf]
  have hfull : SA_partial_horiz_torispherical_head low mid (fuel + 2) D f k D = .ok (toriArea D f k) := by
    have := step (fuel + 1) D 0 (by linarith) le_rfl (zero _ _ (by simp))
    rwa [sub_zero] at this
  rcases hh.lt_or_eq with g | g
  · rw [← hfull]
    simp only [SA_partial_horiz_torispherical_head, if_neg (show ¬ h ≤ 0 by linarith), if_neg (show ¬ D ≤ 0 by linarith), if_pos g, lt_self_iff_false, if_false, gt_iff_lt]
  · rw [← g]; exact hfull

/-- C62 (finding): exactly where the knuckle ends, and at its mirror image, the function calls itself for ever, whatever the recursion limit -/
theorem C62_horiz_torispherical_loops (low mid : ℝ → ℝ → ℝ → ℝ → Py ℝ) (hD : 0 < D) (hk : 0 < k ∧ k < 1 / 2) (hf : 1 / 2 < f) (fuel : ℕ) :
    SA_partial_horiz_torispherical_head low mid fuel D f k (k * D * (1 - toriSin f k)) = .error .exception ∧
    SA_partial_horiz_torispherical_head low mid fuel D f k (D - k * D * (1 - toriSin f k)) = .error .exception := by
  have hkD := mul_pos hk.1 hD
  have hc0 := toriCos_nonneg (f := f) (k := k)
  have hc1 := toriCos_lt hk hf.le
  have hs : toriSin f k < 1 := by rw [toriSin, div_lt_one (by linarith)]; linarith
  have hlim : k * D * (1 - toriSin f k) < D / 2 := by
    have := dishRim_eq (D := D) hk hf.le
    have := dishRim_pos hD hk hf.le
    nlinarith
  have hpos : 0 < k * D * (1 - toriSin f k) := mul_pos hkD (by linarith)
  have e1 : pasin (k * D * toriCos f k / (k * D)) = .ok (arcsin (toriCos f k)) := by
    rw [mul_div_cancel_left₀ _ hkD.ne', pasin_ok (by linarith) hc1.le]
  induction fuel with
  | zero => exact ⟨rfl, rfl⟩
  | succ n ih =>
    constructor
    · simp only [SA_partial_horiz_torispherical_head, if_neg (not_le.mpr hpos), if_neg (show ¬ k * D * (1 - toriSin f k) > D by linarith), toriAlpha_ok hk hf.le, Py.ok_bind,
        cos_alpha, sin_alpha hk hf.le, lt_self_iff_false, if_false, false_and, pdiv_ok hkD.ne', e1, ih.2, Py.error_bind]
    · simp only [SA_partial_horiz_torispherical_head, if_neg (show ¬ D - k * D * (1 - toriSin f k) ≤ 0 by linarith),
        if_neg (show ¬ D - k * D * (1 - toriSin f k) > D by linarith), toriAlpha_ok hk hf.le, Py.ok_bind,
        cos_alpha, sin_alpha hk hf.le, if_neg (show ¬ D - k * D * (1 - toriSin f k) < k * D * (1 - toriSin f k) by linarith)]
      rw [if_neg (fun g => by linarith [g.2]), pdiv_ok hkD.ne', Py.ok_bind, e1, Py.ok_bind, sub_sub_cancel, ih.1, Py.error_bind]

/-! ### Tanks -/

/-- C62: the area of a tank is the sum of its parts: each head by its own formula, the flat end where there is no head, and the shell -/
theorem C62_tank (D L : ℝ) (sideA sideB : Option String) (aA aB : ℝ) (fA kA fB kB : Option ℝ) {sA sB : ℝ}
    (hA : SA_head D sideA aA fA kA = .ok sA) (hB : SA_head D sideB aB fB kB = .ok sB) :
    SA_tank D L sideA sideB aA aB fA kA fB kB = .ok (sA + sB + π * D * L, sA, sB, π * D * L) := by
  simp only [SA_tank, hA, Py.ok_bind]
  split_ifs with g
  · obtain ⟨g1, g2, g3, g4⟩ := g
    rw [g1, g2, g3, g4, hB] at hA
    rw [Py.ok_bind, Py.pure_eq, Except.ok.inj hA]
  · rw [hB, Py.ok_bind, Py.pure_eq]

/-- the heads whose full partial area is claimed to be the head's area; a side without a head has depth 0, a torispherical head its own depth -/
def AreaOK (D : ℝ) (X : Side) : Prop :=
  (X.head = none ∧ X.a = 0) ∨ (X.head = some "conical" ∧ 0 < X.a) ∨ (X.head = some "ellipsoidal" ∧ 0 < X.a) ∨ (X.head = some "spherical" ∧ 0 < X.a) ∨
  (X.head = some "torispherical" ∧ ∃ f k, X.f = some f ∧ X.k = some k ∧ (0 < k ∧ k < 1 / 2) ∧ 1 / 2 ≤ f ∧ X.a = dishDepth D f k + knuckleHeight D f k)

theorem area_side (hD : 0 < D) {X : Side} (hX : AreaOK D X) : ∃ s, SA_head D X.head X.a X.f X.k = .ok s ∧ 0 ≤ X.a ∧ checkSide X.head = .ok () ∧
    (∀ h ≥ X.a, SA_bottom D h X = .ok s) ∧ (∀ (p : Prop) [Decidable p], (X.a = 0 → p) → SA_top D 0 X p = .ok s) := by
  rcases hX with ⟨h, ha⟩ | ⟨h, ha⟩ | ⟨h, ha⟩ | ⟨h, ha⟩ | ⟨h, f, k, hf, hk, hk', hf', ha⟩
  · refine ⟨0.25 * π * D * D, by simp [SA_head, h], ha.ge, by simp [checkSide, h], fun x _ => by simp [SA_bottom, h], fun p _ hp => by simp [SA_top, h, hp ha]⟩
  · obtain ⟨c1, -, c3⟩ := C62_vertical_conical (D := D) ha
    refine ⟨_, by simpa [SA_head, h] using sa_cone D X.a, ha.le, by simp [checkSide, h, headNames], fun x hx => ?_, fun p _ hp => ?_⟩
    · simp only [SA_bottom, h, if_true, min_eq_left hx, c3 X.a le_rfl, sa_cone]
    · simp only [SA_top, h, if_true, SA_topPart, if_neg ha.ne', c3 X.a le_rfl, c1 0 le_rfl, sa_cone, Py.ok_bind, Py.pure_eq, sub_zero]
  · obtain ⟨c1, c3⟩ := C62_vertical_ellipsoidal (D := D) hD ha
    have : ∃ s, SA_ellipsoidal_head D X.a = .ok s := by
      rcases lt_trichotomy X.a (D / 2) with g | g | g
      · exact ⟨_, sa_ell_lt ha g⟩
      · exact ⟨_, by rw [SA_ellipsoidal_head, if_pos (by linarith)]⟩
      · exact ⟨_, sa_ell_gt hD g⟩
    obtain ⟨s, hs⟩ := this
    refine ⟨s, by simpa [SA_head, h] using hs, ha.le, by simp [checkSide, h, headNames], fun x hx => ?_, fun p _ hp => ?_⟩
    · simp only [SA_bottom, h, if_true, String.reduceEq, Option.some.injEq, if_false, min_eq_left hx, c3 X.a le_rfl, hs]
    · simp only [SA_top, h, if_true, String.reduceEq, Option.some.injEq, if_false, SA_topPart, if_neg ha.ne', c3 X.a le_rfl, c1 0 le_rfl, hs, Py.ok_bind, Py.pure_eq, sub_zero]
  · obtain ⟨c1, -, c3⟩ := C62_vertical_spherical (D := D) ha
    have hs : SA_head D (some "spherical") X.a X.f X.k = .ok (π * (X.a * X.a + 0.25 * D * D)) := by simp [SA_head]
    refine ⟨_, by rw [h]; exact hs, ha.le, by simp [checkSide, h, headNames], fun x hx => ?_, fun p _ hp => ?_⟩
    · simp only [SA_bottom, h, if_true, String.reduceEq, Option.some.injEq, if_false, min_eq_left hx, c3 X.a le_rfl X.f X.k, hs]
    · simp only [SA_top, h, if_true, String.reduceEq, Option.some.injEq, if_false, SA_topPart, if_neg ha.ne', c3 X.a le_rfl X.f X.k, c1 0 le_rfl, hs, Py.ok_bind, Py.pure_eq, sub_zero]
  · obtain ⟨c1, -, c3⟩ := C62_vertical_torispherical (D := D) hD hk' hf'
    have ha' : 0 < X.a := by rw [ha]; linarith [dishDepth_pos hD hk' hf', knuckleHeight_nonneg (f := f) hD hk']
    refine ⟨toriArea D f k, by simpa [SA_head, h, hf, hk] using sa_tori hk' hf', ha'.le, by simp [checkSide, h, headNames], fun x hx => ?_, fun p _ hp => ?_⟩
    · simp only [SA_bottom, h, if_true, String.reduceEq, Option.some.injEq, if_false, min_eq_left hx, hf, hk, c3 X.a ha.ge, sa_tori hk' hf']
    · simp only [SA_top, h, if_true, String.reduceEq, Option.some.injEq, if_false, SA_topTori, if_neg ha'.ne', hf, hk, c3 X.a ha.ge, sa_tori hk' hf', c1 0 le_rfl, Py.ok_bind,
        Py.pure_eq, max_self, sub_zero]

/-- C62: the wetted area of a full vertical tank is the area of the tank -/
theorem C62_from_h_vertical (S : Surfaces) {L : ℝ} (hD : 0 < D) (hL : 0 ≤ L) {A B : Side} (hA : AreaOK D A) (hB : AreaOK D B) :
    ∃ s sA sB lat, SA_tank D L A.head B.head A.a B.a A.f A.k B.f B.k = .ok (s, sA, sB, lat) ∧
      ∀ h ≥ L + A.a + B.a, SA_from_h S h D L false A B = .ok s := by
  obtain ⟨sA, a1, a2, a3, a4, -⟩ := area_side hD hA
  obtain ⟨sB, b1, b2, b3, -, b5⟩ := area_side hD hB
  refine ⟨_, _, _, _, C62_tank D L _ _ _ _ _ _ _ _ a1 b1, fun h hh => ?_⟩
  have e : (if h > L + A.a + B.a then L + A.a + B.a else h) = L + A.a + B.a := by
    split_ifs with g
    · rfl
    · exact le_antisymm (not_lt.mp g) hh
  simp only [SA_from_h, a3, b3, Py.ok_bind, Bool.false_eq_true, if_false, SA_from_h_vertical, e]
  rw [a4 _ (by linarith), Py.ok_bind, if_pos (by linarith), if_pos (by linarith), show B.a - (L + A.a + B.a - A.a - L) = 0 by ring,
    b5 _ (fun g => by rw [g]; ring), Py.ok_bind, Py.pure_eq]
  congr 1; ring

example : AreaOK 2 ⟨some "conical", 0.4, none, none⟩ ∧ AreaOK 2 ⟨none, 0, none, none⟩ ∧
    AreaOK 2 ⟨some "torispherical", dishDepth 2 1 0.06 + knuckleHeight 2 1 0.06, some 1, some 0.06⟩ := by
  refine ⟨?_, ?_, ?_⟩
  · exact Or.inr (Or.inl ⟨rfl, by norm_num⟩)
  · exact Or.inl ⟨rfl, rfl⟩
  · exact Or.inr (Or.inr (Or.inr (Or.inr ⟨rfl, 1, 0.06, rfl, rfl, by norm_num, by norm_num, rfl⟩)))

end Verif.Geometry
