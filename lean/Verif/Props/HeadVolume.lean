import Verif.Model.Geometry
import Verif.Lemmas.Fill
import Verif.Lemmas.Tactic
import Verif.Props.Segment

/-! C59: vertical heads and partial spheres. -/

open Real

noncomputable section

namespace Verif.Geometry

/-! Radius of each convex head at the height `y` above its lowest point, with the cylindrical shell of radius `D/2` above the head. -/

/-- cone of depth `a` -/
def coneRadius (D a y : ℝ) : ℝ := if y ≤ a then D / 2 * (y / a) else D / 2
/-- half ellipsoid of depth `a` -/
def ellipsoidRadius (D a y : ℝ) : ℝ := if y ≤ a then D / 2 * √(1 - ((a - y) / a) ^ 2) else D / 2
/-- cap of depth `a` of the sphere through the rim: its radius is `(a^2 + D^2/4)/(2a)` -/
def capRadius (D a y : ℝ) : ℝ := if y ≤ a then √(y * (2 * ((a ^ 2 + D ^ 2 / 4) / (2 * a)) - y)) else D / 2

theorem continuous_cone {D a : ℝ} (ha : 0 < a) : Continuous (fun y => π * coneRadius D a y ^ 2) := by
  unfold coneRadius
  refine continuous_const.mul (Continuous.pow (Continuous.if_le (by fun_prop) (by fun_prop) (by fun_prop) (by fun_prop) ?_) 2)
  rintro y rfl
  rw [div_self ha.ne', mul_one]

theorem continuous_ellipsoid {D a : ℝ} : Continuous (fun y => π * ellipsoidRadius D a y ^ 2) := by
  unfold ellipsoidRadius
  refine continuous_const.mul (Continuous.pow (Continuous.if_le (by fun_prop) (by fun_prop) (by fun_prop) (by fun_prop) ?_) 2)
  rintro y rfl
  simp

theorem continuous_cap {D a : ℝ} (hD : 0 < D) (ha : 0 < a) : Continuous (fun y => π * capRadius D a y ^ 2) := by
  unfold capRadius
  refine continuous_const.mul (Continuous.pow (Continuous.if_le (by fun_prop) (by fun_prop) (by fun_prop) (by fun_prop) ?_) 2)
  rintro y rfl
  rw [show y * (2 * ((y ^ 2 + D ^ 2 / 4) / (2 * y)) - y) = (D / 2) ^ 2 by field_simp; ring, sqrt_sq (by linarith)]

theorem hasDerivAt_cubic (p q r s y : ℝ) : HasDerivAt (fun y : ℝ => p * y ^ 3 + q * y ^ 2 + r * y + s) (3 * p * y ^ 2 + 2 * q * y + r) y := by
  have h1 := ((hasDerivAt_pow 3 y).const_mul p)
  have h2 := ((hasDerivAt_pow 2 y).const_mul q)
  have h3 := ((hasDerivAt_id' y).const_mul r)
  refine (((h1.add h2).add h3).add_const s).congr_deriv ?_
  norm_num; ring

theorem vertical_conical_eq {D a h : ℝ} (ha : 0 < a) (hh : 0 < h) :
    V_vertical_conical D a h = .ok (if h < a then π * D ^ 2 / (12 * a ^ 2) * h ^ 3 + 0 * h ^ 2 + 0 * h + 0 else
      0 * h ^ 3 + 0 * h ^ 2 + π * D ^ 2 / 4 * h + (- (π * D ^ 2 * a / 6))) := by
  simp only [V_vertical_conical, if_neg (not_le.mpr hh)]
  split_ifs with h1
  · rw [pdiv_ok ha.ne', Py.ok_bind, Py.pure_eq]
    congr 1; field_simp; ring
  · congr 1; ring

theorem vertical_ellipsoidal_eq {D a h : ℝ} (ha : 0 < a) (hh : 0 < h) :
    V_vertical_ellipsoidal D a h = .ok (if h < a then (- (π * D ^ 2 / (12 * a ^ 2))) * h ^ 3 + π * D ^ 2 / (4 * a) * h ^ 2 + 0 * h + 0 else
      0 * h ^ 3 + 0 * h ^ 2 + π * D ^ 2 / 4 * h + (- (π * D ^ 2 * a / 12))) := by
  simp only [V_vertical_ellipsoidal, if_neg (not_le.mpr hh)]
  split_ifs with h1
  · rw [pdiv_ok ha.ne', Py.ok_bind, Py.pure_eq]
    congr 1; field_simp; ring
  · congr 1; ring

theorem vertical_spherical_eq {D a h : ℝ} (ha : 0 < a) (hh : 0 < h) :
    V_vertical_spherical D a h = .ok (if h < a then (- (π / 3)) * h ^ 3 + π * ((a ^ 2 + D ^ 2 / 4) / (2 * a)) * h ^ 2 + 0 * h + 0 else
      0 * h ^ 3 + 0 * h ^ 2 + π * D ^ 2 / 4 * h + (π / 4 * (2 / 3 * a ^ 3 - a * D ^ 2 / 2))) := by
  simp only [V_vertical_spherical, if_neg (not_le.mpr hh)]
  split_ifs with h1
  · rw [pdiv_ok ha.ne', Py.ok_bind, Py.pure_eq]
    congr 1; field_simp; ring
  · congr 1; ring

/-- C59: liquid in a vertical conical head (and the shell above it) -/
theorem C59_vertical_conical {D a : ℝ} (ha : 0 < a) : IsFillVolume (V_vertical_conical D a) (fun y => π * coneRadius D a y ^ 2) := by
  refine isFillVolume_of (continuous_cone ha) (fun y _ => by positivity) (fun h hh => by simp only [V_vertical_conical, if_pos hh]) ?_
  intro h hh
  rw [vertical_conical_eq ha hh, integral_two ha.le (continuous_cone ha) (V₁ := fun h => π * D ^ 2 / (12 * a ^ 2) * h ^ 3 + 0 * h ^ 2 + 0 * h + 0)
    (V₂ := fun h => 0 * h ^ 3 + 0 * h ^ 2 + π * D ^ 2 / 4 * h + (- (π * D ^ 2 * a / 6))) (by fun_prop) (by fun_prop) ?_ ?_ (by simp) ?_ hh.le]
  · rintro y ⟨h0, h1⟩
    refine (hasDerivAt_cubic _ _ _ _ _).congr_deriv ?_
    simp only [coneRadius, if_pos h1.le]
    field_simp; ring
  · intro y hy
    refine (hasDerivAt_cubic _ _ _ _ _).congr_deriv ?_
    simp only [coneRadius, if_neg (not_le.mpr hy)]
    ring
  · field_simp; ring

/-- C59: liquid in a vertical ellipsoidal head (and the shell above it) -/
theorem C59_vertical_ellipsoidal {D a : ℝ} (ha : 0 < a) : IsFillVolume (V_vertical_ellipsoidal D a) (fun y => π * ellipsoidRadius D a y ^ 2) := by
  refine isFillVolume_of continuous_ellipsoid (fun y _ => by positivity) (fun h hh => by simp only [V_vertical_ellipsoidal, if_pos hh]) ?_
  intro h hh
  rw [vertical_ellipsoidal_eq ha hh, integral_two ha.le continuous_ellipsoid
    (V₁ := fun h => (- (π * D ^ 2 / (12 * a ^ 2))) * h ^ 3 + π * D ^ 2 / (4 * a) * h ^ 2 + 0 * h + 0)
    (V₂ := fun h => 0 * h ^ 3 + 0 * h ^ 2 + π * D ^ 2 / 4 * h + (- (π * D ^ 2 * a / 12))) (by fun_prop) (by fun_prop) ?_ ?_ (by simp) ?_ hh.le]
  · rintro y ⟨h0, h1⟩
    refine (hasDerivAt_cubic _ _ _ _ _).congr_deriv ?_
    simp only [ellipsoidRadius, if_pos h1.le]
    have : 0 ≤ 1 - ((a - y) / a) ^ 2 := by
      rw [show 1 - ((a - y) / a) ^ 2 = y * (2 * a - y) / a ^ 2 by field_simp; ring]
      have : 0 ≤ y * (2 * a - y) := mul_nonneg h0.le (by linarith)
      positivity
    rw [mul_pow, sq_sqrt this]
    field_simp; ring
  · intro y hy
    refine (hasDerivAt_cubic _ _ _ _ _).congr_deriv ?_
    simp only [ellipsoidRadius, if_neg (not_le.mpr hy)]
    ring
  · field_simp; ring

/-- C59: liquid in a vertical spherical head (and the shell above it) -/
theorem C59_vertical_spherical {D a : ℝ} (hD : 0 < D) (ha : 0 < a) : IsFillVolume (V_vertical_spherical D a) (fun y => π * capRadius D a y ^ 2) := by
  refine isFillVolume_of (continuous_cap hD ha) (fun y _ => by positivity) (fun h hh => by simp only [V_vertical_spherical, if_pos hh]) ?_
  intro h hh
  rw [vertical_spherical_eq ha hh, integral_two ha.le (continuous_cap hD ha)
    (V₁ := fun h => (- (π / 3)) * h ^ 3 + π * ((a ^ 2 + D ^ 2 / 4) / (2 * a)) * h ^ 2 + 0 * h + 0)
    (V₂ := fun h => 0 * h ^ 3 + 0 * h ^ 2 + π * D ^ 2 / 4 * h + (π / 4 * (2 / 3 * a ^ 3 - a * D ^ 2 / 2))) (by fun_prop) (by fun_prop) ?_ ?_ (by simp) ?_ hh.le]
  · rintro y ⟨h0, h1⟩
    refine (hasDerivAt_cubic _ _ _ _ _).congr_deriv ?_
    simp only [capRadius, if_pos h1.le]
    have : 0 ≤ y * (2 * ((a ^ 2 + D ^ 2 / 4) / (2 * a)) - y) := by
      have : a < 2 * ((a ^ 2 + D ^ 2 / 4) / (2 * a)) := by
        rw [show 2 * ((a ^ 2 + D ^ 2 / 4) / (2 * a)) = a + D ^ 2 / (4 * a) by field_simp]
        have : 0 < D ^ 2 / (4 * a) := by positivity
        linarith
      exact mul_nonneg h0.le (by linarith)
    rw [sq_sqrt this]
    ring
  · intro y hy
    refine (hasDerivAt_cubic _ _ _ _ _).congr_deriv ?_
    simp only [capRadius, if_neg (not_le.mpr hy)]
    ring
  · field_simp; ring

example : ∃ v, V_vertical_spherical 2 0.5 0.25 = .ok v ∧ v = ∫ y in (0 : ℝ)..0.25, π * capRadius 2 0.5 y ^ 2 := by
  obtain ⟨V, h1, -, h2, -, -⟩ := C59_vertical_spherical (D := 2) (a := 0.5) (by norm_num) (by norm_num)
  exact ⟨_, h1 _, h2 _ (by norm_num)⟩

/-- C59: liquid in a sphere: the free surface at the height `y` is a circle of radius `sqrt(y (D - y))` (0 above the sphere) -/
theorem C59_partial_sphere {D : ℝ} (hD : 0 < D) : IsFillVolume (V_partial_sphere D) (fun y => π * √(y * (D - y)) ^ 2) := by
  have hc : Continuous (fun y => π * √(y * (D - y)) ^ 2) := by fun_prop
  refine isFillVolume_of hc (fun y _ => by positivity) (fun h hh => by simp only [V_partial_sphere, if_pos hh]) ?_
  intro h hh
  have key : V_partial_sphere D h = .ok (if h < D then (- (π / 3)) * h ^ 3 + π * (D / 2) * h ^ 2 + 0 * h + 0 else 0 * h ^ 3 + 0 * h ^ 2 + 0 * h + π / 6 * D ^ 3) := by
    simp only [V_partial_sphere, if_neg (not_le.mpr hh)]
    by_cases h1 : h < D
    · rw [if_neg (by linarith : ¬ h > D), if_pos h1]
      have hp : 0 ≤ h * (2 * (0.5 * D) - h) := mul_nonneg hh.le (by linarith)
      rw [psqrt_ok hp, Py.ok_bind, Py.pure_eq, mul_assoc 3, mul_self_sqrt hp]
      congr 1; ring
    · rw [if_neg h1]
      have : (if h > D then D else h) = D := by
        split_ifs with h2
        · rfl
        · exact le_antisymm (not_lt.mp h2) (not_lt.mp h1)
      rw [this]
      rw [psqrt_ok (by ring_nf; exact le_rfl), Py.ok_bind, Py.pure_eq, mul_assoc 3, mul_self_sqrt (by ring_nf; exact le_rfl)]
      congr 1; ring
  rw [key, integral_two hD.le hc (V₁ := fun h => (- (π / 3)) * h ^ 3 + π * (D / 2) * h ^ 2 + 0 * h + 0)
    (V₂ := fun h => 0 * h ^ 3 + 0 * h ^ 2 + 0 * h + π / 6 * D ^ 3) (by fun_prop) (by fun_prop) ?_ ?_ (by simp) ?_ hh.le]
  · rintro y ⟨h0, h1⟩
    refine (hasDerivAt_cubic _ _ _ _ _).congr_deriv ?_
    beta_reduce
    rw [sq_sqrt (mul_nonneg h0.le (by linarith))]
    ring
  · intro y hy
    refine (hasDerivAt_cubic _ _ _ _ _).congr_deriv ?_
    beta_reduce
    rw [sqrt_eq_zero_of_nonpos (by nlinarith)]
    ring
  · ring

/-! Concave heads: the head of depth `|a|` bulges up into the shell, so at the height `y < |a|` the liquid fills the ring between the shell and the
head, whose radius is that of the convex head at the distance `|a| - y` below its apex. -/

def ringArea (D : ℝ) (r : ℝ → ℝ) (b y : ℝ) : ℝ := if y ≤ b then π * (D / 2) ^ 2 - π * r (b - y) ^ 2 else π * (D / 2) ^ 2

theorem continuous_ring {D b : ℝ} {r : ℝ → ℝ} (hr : Continuous (fun y => π * r y ^ 2)) (h0 : r 0 = 0) : Continuous (ringArea D r b) := by
  unfold ringArea
  refine Continuous.if_le (continuous_const.sub (hr.comp (continuous_const.sub continuous_id))) (by fun_prop) (by fun_prop) (by fun_prop) ?_
  rintro y rfl
  simp [h0]

/-- C59: concave conical head -/
theorem C59_vertical_conical_concave {D a : ℝ} (hD : 0 < D) (ha : a < 0) :
    IsFillVolume (V_vertical_conical_concave D a) (ringArea D (coneRadius D (-a)) (-a)) := by
  have hb : 0 < -a := by linarith
  have hne : a ≠ 0 := ha.ne
  have hc : Continuous (ringArea D (coneRadius D (-a)) (-a)) := continuous_ring (continuous_cone hb) (by simp [coneRadius, ha.le])
  refine isFillVolume_of hc ?_ (fun h hh => by simp only [V_vertical_conical_concave, if_pos hh]) ?_
  · intro y hy
    simp only [ringArea]
    split_ifs with h1
    · simp only [coneRadius, if_pos (show -a - y ≤ -a by linarith)]
      have h2 : (-a - y) / (-a) ≤ 1 := by rw [div_le_one hb]; linarith
      have h3 : 0 ≤ (-a - y) / (-a) := div_nonneg (by linarith) hb.le
      have : (D / 2 * ((-a - y) / (-a))) ^ 2 ≤ (D / 2) ^ 2 := by
        refine pow_le_pow_left₀ (by positivity) ?_ 2
        have := mul_le_mul_of_nonneg_left h2 (show 0 ≤ D / 2 by linarith)
        linarith
      nlinarith [pi_pos]
    · positivity
  intro h hh
  have key : V_vertical_conical_concave D a h = .ok (if h < -a then (- (π * D ^ 2 / (12 * a ^ 2))) * h ^ 3 + (- (π * D ^ 2 / (4 * a))) * h ^ 2 + 0 * h + 0
      else 0 * h ^ 3 + 0 * h ^ 2 + π * D ^ 2 / 4 * h + π * D ^ 2 * a / 12) := by
    simp only [V_vertical_conical_concave, if_neg (not_le.mpr hh), abs_of_neg ha]
    split_ifs with h1
    · rw [pdiv_ok (mul_ne_zero ha.ne ha.ne), Py.ok_bind, Py.pure_eq]
      congr 1; field_simp; ring
    · congr 1; ring
  rw [key, integral_two hb.le hc (V₁ := fun h => (- (π * D ^ 2 / (12 * a ^ 2))) * h ^ 3 + (- (π * D ^ 2 / (4 * a))) * h ^ 2 + 0 * h + 0)
    (V₂ := fun h => 0 * h ^ 3 + 0 * h ^ 2 + π * D ^ 2 / 4 * h + π * D ^ 2 * a / 12) (by fun_prop) (by fun_prop) ?_ ?_ (by simp) ?_ hh.le]
  · rintro y ⟨h0, h1⟩
    refine (hasDerivAt_cubic _ _ _ _ _).congr_deriv ?_
    simp only [ringArea, if_pos h1.le, coneRadius, if_pos (show -a - y ≤ -a by linarith)]
    field_simp; ring
  · intro y hy
    refine (hasDerivAt_cubic _ _ _ _ _).congr_deriv ?_
    simp only [ringArea, if_neg (not_le.mpr hy)]
    ring
  · field_simp; ring

/-- C59: concave ellipsoidal head -/
theorem C59_vertical_ellipsoidal_concave {D a : ℝ} (ha : a < 0) :
    IsFillVolume (V_vertical_ellipsoidal_concave D a) (ringArea D (ellipsoidRadius D (-a)) (-a)) := by
  have hb : 0 < -a := by linarith
  have hne : a ≠ 0 := ha.ne
  have hc : Continuous (ringArea D (ellipsoidRadius D (-a)) (-a)) :=
    continuous_ring continuous_ellipsoid (by simp [ellipsoidRadius, ha.le, hb.ne', div_self ha.ne])
  have area : ∀ y ∈ Set.Icc 0 (-a), ringArea D (ellipsoidRadius D (-a)) (-a) y = π * D ^ 2 / 4 * (y ^ 2 / a ^ 2) := by
    rintro y ⟨h0, h1⟩
    simp only [ringArea, if_pos h1, ellipsoidRadius, if_pos (show -a - y ≤ -a by linarith)]
    have : 0 ≤ 1 - ((-a - (-a - y)) / -a) ^ 2 := by
      rw [show (-a - (-a - y)) / -a = y / -a by ring]
      have h2 : y / -a ≤ 1 := by rw [div_le_one hb]; linarith
      have h3 : 0 ≤ y / -a := div_nonneg h0 hb.le
      nlinarith
    rw [mul_pow, sq_sqrt this]
    field_simp; ring
  refine isFillVolume_of hc ?_ (fun h hh => by simp only [V_vertical_ellipsoidal_concave, if_pos hh]) ?_
  · intro y hy
    rcases le_or_gt y (-a) with h1 | h1
    · rw [area y ⟨hy, h1⟩]; positivity
    · simp only [ringArea, if_neg (not_le.mpr h1)]; positivity
  intro h hh
  have key : V_vertical_ellipsoidal_concave D a h = .ok (if h < -a then (π * D ^ 2 / (12 * a ^ 2)) * h ^ 3 + 0 * h ^ 2 + 0 * h + 0
      else 0 * h ^ 3 + 0 * h ^ 2 + π * D ^ 2 / 4 * h + π * D ^ 2 * a / 6) := by
    simp only [V_vertical_ellipsoidal_concave, if_neg (not_le.mpr hh), abs_of_neg ha]
    split_ifs with h1
    · rw [pdiv_ok (mul_ne_zero ha.ne ha.ne), Py.ok_bind, Py.pure_eq]
      congr 1; field_simp; ring
    · congr 1; ring
  rw [key, integral_two hb.le hc (V₁ := fun h => (π * D ^ 2 / (12 * a ^ 2)) * h ^ 3 + 0 * h ^ 2 + 0 * h + 0)
    (V₂ := fun h => 0 * h ^ 3 + 0 * h ^ 2 + π * D ^ 2 / 4 * h + π * D ^ 2 * a / 6) (by fun_prop) (by fun_prop) ?_ ?_ (by simp) ?_ hh.le]
  · rintro y ⟨h0, h1⟩
    refine (hasDerivAt_cubic _ _ _ _ _).congr_deriv ?_
    rw [area y ⟨h0.le, h1.le⟩]
    field_simp; ring
  · intro y hy
    refine (hasDerivAt_cubic _ _ _ _ _).congr_deriv ?_
    simp only [ringArea, if_neg (not_le.mpr hy)]
    ring
  · field_simp; ring

/-- C59: concave spherical head, no deeper than a half sphere -/
theorem C59_vertical_spherical_concave {D a : ℝ} (hD : 0 < D) (ha : a < 0) (hs : -a ≤ D / 2) :
    IsFillVolume (V_vertical_spherical_concave D a) (ringArea D (capRadius D (-a)) (-a)) := by
  have hb : 0 < -a := by linarith
  have hne : a ≠ 0 := ha.ne
  have hc : Continuous (ringArea D (capRadius D (-a)) (-a)) := continuous_ring (continuous_cap hD hb) (by simp [capRadius, ha.le])
  have area : ∀ y ∈ Set.Icc 0 (-a), ringArea D (capRadius D (-a)) (-a) y = π * (y * (y + D ^ 2 / (4 * -a) - -a)) := by
    rintro y ⟨h0, h1⟩
    simp only [ringArea, if_pos h1, capRadius, if_pos (show -a - y ≤ -a by linarith)]
    have e : 2 * (((-a) ^ 2 + D ^ 2 / 4) / (2 * -a)) = -a + D ^ 2 / (4 * -a) := by field_simp; ring
    rw [e]
    have hp : 0 < D ^ 2 / (4 * -a) := by positivity
    have : 0 ≤ (-a - y) * (-a + D ^ 2 / (4 * -a) - (-a - y)) := mul_nonneg (by linarith) (by linarith)
    rw [sq_sqrt this]
    field_simp; ring
  have hd : -a ≤ D ^ 2 / (4 * -a) := by rw [le_div_iff₀ (by linarith)]; nlinarith
  refine isFillVolume_of hc ?_ (fun h hh => by simp only [V_vertical_spherical_concave, if_pos hh]) ?_
  · intro y hy
    rcases le_or_gt y (-a) with h1 | h1
    · rw [area y ⟨hy, h1⟩]
      exact mul_nonneg pi_pos.le (mul_nonneg hy (by linarith))
    · simp only [ringArea, if_neg (not_le.mpr h1)]; positivity
  intro h hh
  have key : V_vertical_spherical_concave D a h = .ok (if h < -a then (π / 3) * h ^ 3 + (π / 2 * (D ^ 2 / (4 * -a) - -a)) * h ^ 2 + 0 * h + 0
      else 0 * h ^ 3 + 0 * h ^ 2 + π * D ^ 2 / 4 * h + π / 12 * (a / 2 * (3 * D ^ 2 + 4 * a ^ 2))) := by
    simp only [V_vertical_spherical_concave, if_neg (not_le.mpr hh), abs_of_neg ha]
    split_ifs with h1
    · have hne' : a + h ≠ 0 := by linarith
      rw [pdiv_ok (by simp [hne, hne']), Py.ok_bind, Py.pure_eq]
      congr 1; field_simp; ring
    · congr 1; ring
  rw [key, integral_two hb.le hc (V₁ := fun h => (π / 3) * h ^ 3 + (π / 2 * (D ^ 2 / (4 * -a) - -a)) * h ^ 2 + 0 * h + 0)
    (V₂ := fun h => 0 * h ^ 3 + 0 * h ^ 2 + π * D ^ 2 / 4 * h + π / 12 * (a / 2 * (3 * D ^ 2 + 4 * a ^ 2))) (by fun_prop) (by fun_prop) ?_ ?_ (by simp) ?_ hh.le]
  · rintro y ⟨h0, h1⟩
    refine (hasDerivAt_cubic _ _ _ _ _).congr_deriv ?_
    rw [area y ⟨h0.le, h1.le⟩]
    ring
  · intro y hy
    refine (hasDerivAt_cubic _ _ _ _ _).congr_deriv ?_
    simp only [ringArea, if_neg (not_le.mpr hy)]
    ring
  · field_simp; ring

end Verif.Geometry
