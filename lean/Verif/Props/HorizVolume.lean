import Verif.Props.HeadVolume
import Mathlib.Analysis.SpecialFunctions.Arsinh
import Mathlib.Analysis.SpecialFunctions.Integrals.Basic
import Mathlib.Analysis.SpecialFunctions.Log.NegMulLog
import Mathlib.Analysis.SpecialFunctions.Trigonometric.ArctanDeriv

/-! C59: heads of horizontal tanks. -/

open Real

noncomputable section

namespace Verif.Geometry

/-! The level rises along the vertical diameter of the tank.  At the height `y` above the bottom the free surface inside a head spans the horizontal offsets
`|x| ≤ sqrt(y (2R - y))`, and at each offset it reaches as deep as the head does.  The wetted area is the integral of the depths. -/

def slice (depth : ℝ → ℝ → ℝ) (R y : ℝ) : ℝ := ∫ x in (-√(y * (2 * R - y)))..√(y * (2 * R - y)), depth x y

/-- cone of depth `a` -/
def coneDepth (R a x y : ℝ) : ℝ := a * (1 - √(x ^ 2 + (R - y) ^ 2) / R)
/-- half ellipsoid of depth `a` -/
def ellipsoidDepth (R a x y : ℝ) : ℝ := a * √(1 - (x ^ 2 + (R - y) ^ 2) / R ^ 2)
/-- guppy head of depth `a` at the top (the surface whose area element the code integrates, geometry.py:2239-2243) -/
def guppyDepth (R a x y : ℝ) : ℝ := a / (2 * R) * (y - x ^ 2 / (2 * R - y))
/-- cap of depth `a` of a sphere of radius `(a^2 + R^2)/(2a)` -/
def capDepth (R a x y : ℝ) : ℝ := √(((a ^ 2 + R ^ 2) / (2 * a)) ^ 2 - x ^ 2 - (R - y) ^ 2) - ((a ^ 2 + R ^ 2) / (2 * a) - a)

theorem slice_out {z : ℝ → ℝ → ℝ} {R y : ℝ} (h : y * (2 * R - y) ≤ 0) : slice z R y = 0 := by
  unfold slice
  rw [sqrt_eq_zero_of_nonpos h, neg_zero, intervalIntegral.integral_same]

theorem slice_continuous {z : ℝ → ℝ → ℝ} {R : ℝ} {g : ℝ → ℝ} (hR : 0 < R) (hg : ContinuousOn g (Set.Icc 0 (2 * R)))
    (h : ∀ y ∈ Set.Icc 0 (2 * R), slice z R y = g y) : Continuous (slice z R) := by
  have hm : ∀ y, max 0 (min y (2 * R)) ∈ Set.Icc 0 (2 * R) := fun y => ⟨le_max_left _ _, max_le (by linarith) (min_le_right _ _)⟩
  have e : slice z R = fun y => g (max 0 (min y (2 * R))) := by
    funext y
    rcases le_or_gt y 0 with h0 | h0
    · rw [max_eq_left ((min_le_left _ _).trans h0), ← h 0 ⟨le_rfl, by linarith⟩, slice_out (by nlinarith), slice_out (by simp)]
    rcases le_or_gt (2 * R) y with h1 | h1
    · rw [min_eq_right h1, max_eq_right (by linarith), ← h (2 * R) ⟨by linarith, le_rfl⟩, slice_out (by nlinarith), slice_out (by simp)]
    · rw [min_eq_left h1.le, max_eq_right h0.le, h y ⟨h0.le, h1.le⟩]
  rw [e]
  exact hg.comp_continuous (by fun_prop) hm

/-- how the pieces of every `V_horiz_*` function fit together -/
theorem horiz_of {F : Bool → ℝ → Py ℝ} {S : ℝ → ℝ} {D L : ℝ} (hD : 0 < D) (hL : 0 ≤ L) (hc : Continuous S) (hn : ∀ y, 0 ≤ y → 0 ≤ S y) (ho : ∀ y, D ≤ y → S y = 0)
    (h0 : ∀ b, ∀ h ≤ 0, F b h = .ok 0)
    (h1 : ∀ b, ∀ h > 0, F b h = .ok (finish b (2 * ∫ y in (0 : ℝ)..(min h D), S y) (segArea (D / 2) (min h D)) L)) :
    IsFillVolume (F true) S ∧ IsFillVolume (F false) (fun y => 2 * S y + L * (2 * √(y * (D - y)))) := by
  have clip : ∀ {T : ℝ → ℝ}, Continuous T → (∀ y, D ≤ y → T y = 0) → ∀ h, ∫ y in (0 : ℝ)..h, T y = ∫ y in (0 : ℝ)..(min h D), T y := by
    intro T hT hz h
    rcases le_or_gt h D with g | g
    · rw [min_eq_left g]
    · rw [min_eq_right g.le, ← intervalIntegral.integral_add_adjacent_intervals (hT.intervalIntegrable 0 D) (hT.intervalIntegrable D h)]
      have : ∫ y in D..h, T y = 0 := by
        refine intervalIntegral.integral_zero_ae ?_
        refine Filter.Eventually.of_forall fun y hy => ?_
        rw [Set.uIoc_of_le g.le] at hy
        exact hz y hy.1.le
      rw [this, add_zero]
  have hchord : Continuous (fun y => 2 * √(y * (D - y))) := by fun_prop
  refine ⟨isFillVolume_of hc hn (h0 true) ?_, isFillVolume_of ?_ ?_ (h0 false) ?_⟩
  · intro h hh
    rw [h1 true h hh, clip hc ho h]
    simp only [finish, if_true]
    congr 1; ring
  · fun_prop
  · intro y hy
    have := hn y hy
    positivity
  · intro h hh
    have hm : 0 ≤ min h D := le_min hh.le hD.le
    have i1 : IntervalIntegrable (fun y => 2 * S y) MeasureTheory.volume 0 h := (continuous_const.mul hc).intervalIntegrable _ _
    have i2 : IntervalIntegrable (fun y => L * (2 * √(y * (D - y)))) MeasureTheory.volume 0 h := (continuous_const.mul hchord).intervalIntegrable _ _
    rw [h1 false h hh, intervalIntegral.integral_add i1 i2,
      intervalIntegral.integral_const_mul, intervalIntegral.integral_const_mul, clip hc ho h, clip hchord (fun y hy => by
        rw [sqrt_eq_zero_of_nonpos (by nlinarith)]; ring) h, ← integral_chord (by linarith) hm (by linarith [min_le_right h D])]
    simp only [finish, chord, show 2 * (D / 2) = D by ring]
    simp only [Bool.false_eq_true, if_false]
    congr 1; ring

variable {R a : ℝ}

/-- the strip of a disc of radius `ρ` within the offset `c` -/
theorem integral_disc {ρ c : ℝ} (hρ : 0 < ρ) (h0 : 0 ≤ c) (h1 : c ≤ ρ) :
    ∫ x in (-c)..c, √(ρ ^ 2 - x ^ 2) = ρ ^ 2 * arcsin (c / ρ) + c * √(ρ ^ 2 - c ^ 2) := by
  have e : ∫ x in (-c)..c, √(ρ ^ 2 - x ^ 2) = ∫ x in (-c)..c, (fun y => 1 / 2 * chord ρ y) (x + ρ) := by
    refine intervalIntegral.integral_congr fun x _ => ?_
    simp only [chord]
    rw [show (x + ρ) * (2 * ρ - (x + ρ)) = ρ ^ 2 - x ^ 2 by ring]
    ring
  have hc := continuous_chord ρ
  rw [e, intervalIntegral.integral_comp_add_right (fun y => 1 / 2 * chord ρ y) ρ, intervalIntegral.integral_const_mul]
  have h2 := intervalIntegral.integral_add_adjacent_intervals (μ := MeasureTheory.volume) (hc.intervalIntegrable 0 (-c + ρ)) (hc.intervalIntegrable (-c + ρ) (c + ρ))
  rw [integral_chord hρ (by linarith) (by linarith), integral_chord hρ (by linarith) (by linarith)] at h2
  have h3 := segArea_compl (h := ρ - c) hρ
  rw [show 2 * ρ - (ρ - c) = c + ρ by ring] at h3
  rw [show -c + ρ = ρ - c by ring] at h2 ⊢
  have h4 : segArea ρ (ρ - c) = ρ ^ 2 * arccos (c / ρ) - c * √(ρ ^ 2 - c ^ 2) := by
    unfold segArea
    rw [show ρ - (ρ - c) = c by ring, show (ρ - c) * (2 * ρ - (ρ - c)) = ρ ^ 2 - c ^ 2 by ring]
  rw [arcsin_eq_pi_div_two_sub_arccos]
  linear_combination 1 / 2 * h2 + 1 / 2 * h3 - h4

/-! ### Ellipsoidal heads -/

theorem slice_ellipsoid (hR : 0 < R) {y : ℝ} (hy : y ∈ Set.Icc 0 (2 * R)) : slice (ellipsoidDepth R a) R y = π * a / (2 * R) * (y * (2 * R - y)) := by
  have hq : 0 ≤ y * (2 * R - y) := mul_nonneg hy.1 (by linarith [hy.2])
  rcases hq.eq_or_lt with h0 | h0
  · rw [slice_out h0.symm.le, ← h0, mul_zero]
  have hc : 0 < √(y * (2 * R - y)) := sqrt_pos.mpr h0
  have hcc := sq_sqrt hq
  unfold slice
  generalize √(y * (2 * R - y)) = c at *
  have e : ∫ x in (-c)..c, ellipsoidDepth R a x y = ∫ x in (-c)..c, a / R * √(c ^ 2 - x ^ 2) := by
    refine intervalIntegral.integral_congr fun x _ => ?_
    simp only [ellipsoidDepth]
    rw [hcc, show 1 - (x ^ 2 + (R - y) ^ 2) / R ^ 2 = (y * (2 * R - y) - x ^ 2) / R ^ 2 by field_simp; ring, sqrt_div' _ (by positivity), sqrt_sq hR.le]
    ring
  rw [e, intervalIntegral.integral_const_mul, integral_disc hc hc.le le_rfl, div_self hc.ne', arcsin_one, sub_self, sqrt_zero, ← hcc]
  field_simp; ring

/-- C59: ellipsoidal heads of a horizontal tank: one head (`headonly=True`), or the whole tank with two such heads -/
theorem C59_horiz_ellipsoidal {D L a : ℝ} (hD : 0 < D) (hL : 0 ≤ L) (ha : 0 ≤ a) :
    IsFillVolume (fun h => V_horiz_ellipsoidal D L a h true) (slice (ellipsoidDepth (D / 2) a) (D / 2)) ∧
    IsFillVolume (fun h => V_horiz_ellipsoidal D L a h false) (fun y => 2 * slice (ellipsoidDepth (D / 2) a) (D / 2) y + L * (2 * √(y * (D - y)))) := by
  have hR : 0 < D / 2 := by linarith
  have hS := fun y hy => slice_ellipsoid (R := D / 2) (a := a) (y := y) hR hy
  have hc : Continuous (slice (ellipsoidDepth (D / 2) a) (D / 2)) := slice_continuous hR (by fun_prop) hS
  refine horiz_of (F := fun b h => V_horiz_ellipsoidal D L a h b) hD hL hc ?_ ?_ ?_ ?_
  · intro y hy
    rcases le_or_gt y (2 * (D / 2)) with h1 | h1
    · rw [hS y ⟨hy, h1⟩]
      have : 0 ≤ y * (2 * (D / 2) - y) := mul_nonneg hy (by linarith)
      positivity
    · rw [slice_out (by nlinarith)]
  · intro y hy
    exact slice_out (by nlinarith)
  · intro b h hh
    simp only [V_horiz_ellipsoidal, if_pos hh]
  · intro b h hh
    have hm : 0 ≤ min h D := le_min hh.le hD.le
    have hm' := min_le_right h D
    have emin : (if h > D then D else h) = min h D := by
      split_ifs with g
      · rw [min_eq_right (le_of_lt g)]
      · rw [min_eq_left (not_lt.mp g)]
    simp only [V_horiz_ellipsoidal, if_neg (not_le.mpr hh), emin]
    rw [show (0.5 : ℝ) * D = D / 2 by ring, segment_ok hR hm (by linarith), Py.ok_bind, pdiv_ok (by linarith), Py.ok_bind, Py.pure_eq]
    have hi : ∫ y in (0 : ℝ)..(min h D), slice (ellipsoidDepth (D / 2) a) (D / 2) y
        = ((- (π * a / (3 * D))) * min h D ^ 3 + (π * a / 2) * min h D ^ 2 + 0 * min h D + 0) - ((- (π * a / (3 * D))) * 0 ^ 3 + (π * a / 2) * 0 ^ 2 + 0 * 0 + 0) := by
      refine integral_of_deriv (p := 0) (V := fun y => (- (π * a / (3 * D))) * y ^ 3 + (π * a / 2) * y ^ 2 + 0 * y + 0) hm hc (by fun_prop) ?_
      rintro y ⟨g0, g1⟩ -
      refine (hasDerivAt_cubic _ _ _ _ _).congr_deriv ?_
      rw [hS y ⟨g0.le, by linarith⟩]
      field_simp; ring
    rw [hi]
    congr 2
    field_simp; ring

/-! ### Guppy heads -/

theorem slice_guppy (hR : 0 < R) {y : ℝ} (hy : y ∈ Set.Icc 0 (2 * R)) : slice (guppyDepth R a) R y = 2 * a / (3 * R) * (y * √(y * (2 * R - y))) := by
  have hq : 0 ≤ y * (2 * R - y) := mul_nonneg hy.1 (by linarith [hy.2])
  rcases hq.eq_or_lt with h0 | h0
  · rw [slice_out h0.symm.le, ← h0, sqrt_zero, mul_zero, mul_zero]
  have hy1 : 0 < 2 * R - y := by
    rcases (show 0 ≤ 2 * R - y by linarith [hy.2]).eq_or_lt with g | g
    · rw [← g, mul_zero] at h0; exact absurd h0 (lt_irrefl _)
    · exact g
  have hcc := sq_sqrt hq
  unfold slice
  generalize √(y * (2 * R - y)) = c at *
  have e : ∫ x in (-c)..c, guppyDepth R a x y = ∫ x in (-c)..c, (a / (2 * R) * y - a / (2 * R) / (2 * R - y) * x ^ 2) := by
    refine intervalIntegral.integral_congr fun x _ => ?_
    simp only [guppyDepth]; ring
  rw [e, intervalIntegral.integral_sub (by simp) ((by fun_prop : Continuous fun x : ℝ => a / (2 * R) / (2 * R - y) * x ^ 2).intervalIntegrable _ _),
    intervalIntegral.integral_const, intervalIntegral.integral_const_mul, integral_pow]
  have hc3 : c ^ 3 = c * (y * (2 * R - y)) := by rw [← hcc]; ring
  simp only [smul_eq_mul]
  norm_num
  rw [Odd.neg_pow (by decide), hc3]
  field_simp; ring

/-- volume of one guppy head below `y` -/
def guppyW (R a y : ℝ) : ℝ := (1 / 3) * a * R ^ 2 * arccos ((R - y) / R) + (1 / 9) * a / R * √(y * (2 * R - y)) * (2 * y - 3 * R) * (y + R)

theorem hasDerivAt_acos (hR : 0 < R) {y : ℝ} (h0 : 0 < y) (h1 : y < 2 * R) : HasDerivAt (fun y => arccos ((R - y) / R)) (1 / √(y * (2 * R - y))) y := by
  have hq : 0 < y * (2 * R - y) := mul_pos h0 (by linarith)
  have hs : 0 < √(y * (2 * R - y)) := sqrt_pos.mpr hq
  have e1 : √(1 - ((R - y) / R) ^ 2) = √(y * (2 * R - y)) / R := by
    rw [show 1 - ((R - y) / R) ^ 2 = y * (2 * R - y) / R ^ 2 by field_simp; ring, sqrt_div hq.le, sqrt_sq hR.le]
  have d1 : HasDerivAt (fun y => (R - y) / R) (-1 / R) y := by
    simpa using ((hasDerivAt_id y).const_sub R).div_const R
  have d2 := (hasDerivAt_arccos (x := (R - y) / R) (by
      intro h; rw [div_eq_iff hR.ne'] at h; linarith) (by
      intro h; rw [div_eq_iff hR.ne'] at h; linarith)).comp y d1
  refine d2.congr_deriv ?_
  rw [e1]
  field_simp

theorem hasDerivAt_halfchord {y : ℝ} (hq : 0 < y * (2 * R - y)) : HasDerivAt (fun y => √(y * (2 * R - y))) ((R - y) / √(y * (2 * R - y))) y := by
  have d3 : HasDerivAt (fun y => y * (2 * R - y)) (1 * (2 * R - y) + y * (-1)) y := (hasDerivAt_id' y).mul ((hasDerivAt_id' y).const_sub (2 * R))
  refine (d3.sqrt hq.ne').congr_deriv ?_
  have hs : 0 < √(y * (2 * R - y)) := sqrt_pos.mpr hq
  field_simp; ring

theorem hasDerivAt_guppyW (hR : 0 < R) {y : ℝ} (h0 : 0 < y) (h1 : y < 2 * R) :
    HasDerivAt (guppyW R a) (2 * a / (3 * R) * (y * √(y * (2 * R - y)))) y := by
  have hq : 0 < y * (2 * R - y) := mul_pos h0 (by linarith)
  have hs : 0 < √(y * (2 * R - y)) := sqrt_pos.mpr hq
  have hss := sq_sqrt hq.le
  have dl1 : HasDerivAt (fun y : ℝ => 2 * y - 3 * R) 2 y := by simpa using ((hasDerivAt_id' y).const_mul (2 : ℝ)).sub_const (3 * R)
  have dl2 : HasDerivAt (fun y : ℝ => y + R) 1 y := (hasDerivAt_id' y).add_const R
  have d := ((hasDerivAt_acos hR h0 h1).const_mul ((1 / 3) * a * R ^ 2)).add ((((hasDerivAt_halfchord hq).const_mul ((1 / 9) * a / R)).mul dl1).mul dl2)
  unfold guppyW
  refine d.congr_deriv ?_
  simp only [Pi.mul_apply]
  generalize √(y * (2 * R - y)) = c at *
  field_simp
  rw [hss]; ring

/-- C59: guppy heads of a horizontal tank -/
theorem C59_horiz_guppy {D L a : ℝ} (hD : 0 < D) (hL : 0 ≤ L) (ha : 0 ≤ a) :
    IsFillVolume (fun h => V_horiz_guppy D L a h true) (slice (guppyDepth (D / 2) a) (D / 2)) ∧
    IsFillVolume (fun h => V_horiz_guppy D L a h false) (fun y => 2 * slice (guppyDepth (D / 2) a) (D / 2) y + L * (2 * √(y * (D - y)))) := by
  have hR : 0 < D / 2 := by linarith
  have hS := fun y hy => slice_guppy (R := D / 2) (a := a) (y := y) hR hy
  have hc : Continuous (slice (guppyDepth (D / 2) a) (D / 2)) := slice_continuous hR (by fun_prop) hS
  refine horiz_of (F := fun b h => V_horiz_guppy D L a h b) hD hL hc ?_ ?_ ?_ ?_
  · intro y hy
    rcases le_or_gt y (2 * (D / 2)) with h1 | h1
    · rw [hS y ⟨hy, h1⟩]; positivity
    · rw [slice_out (by nlinarith)]
  · intro y hy
    exact slice_out (by nlinarith)
  · intro b h hh
    simp only [V_horiz_guppy, if_pos hh]
  · intro b h hh
    have hm : 0 ≤ min h D := le_min hh.le hD.le
    have hm' := min_le_right h D
    have emin : (if h > D then D else h) = min h D := by
      split_ifs with g
      · rw [min_eq_right (le_of_lt g)]
      · rw [min_eq_left (not_lt.mp g)]
    have e1 : psqrt (2 * (D / 2) * min h D - min h D * min h D) = .ok √(min h D * (2 * (D / 2) - min h D)) := by
      rw [psqrt_ok (by nlinarith)]; ring_nf
    have e2 : pacos (1 - min h D / (D / 2)) = .ok (arccos ((D / 2 - min h D) / (D / 2))) := by
      have e : 1 - min h D / (D / 2) = (D / 2 - min h D) / (D / 2) := by field_simp
      rw [e]
      refine pacos_ok ?_ ?_
      · rw [le_div_iff₀ hR]; linarith
      · rw [div_le_iff₀ hR]; linarith
    simp only [V_horiz_guppy, if_neg (not_le.mpr hh), emin]
    rw [show (0.5 : ℝ) * D = D / 2 by ring, e1, Py.ok_bind, segment_ok hR hm (by linarith), Py.ok_bind, pdiv_ok hR.ne', Py.ok_bind, e2, Py.ok_bind,
      pdiv_ok hR.ne', Py.ok_bind, Py.pure_eq]
    have hcw : Continuous (guppyW (D / 2) a) := by
      have := continuous_arccos
      unfold guppyW; fun_prop
    have hi : ∫ y in (0 : ℝ)..(min h D), slice (guppyDepth (D / 2) a) (D / 2) y = guppyW (D / 2) a (min h D) - guppyW (D / 2) a 0 := by
      refine integral_of_deriv (p := 0) hm hc hcw.continuousOn ?_
      rintro y ⟨g0, g1⟩ -
      refine (hasDerivAt_guppyW hR g0 (by linarith)).congr_deriv ?_
      rw [hS y ⟨g0.le, by linarith⟩]
    have h00 : guppyW (D / 2) a 0 = 0 := by simp [guppyW, div_self hR.ne']
    rw [hi, h00]
    congr 2
    unfold guppyW
    ring

end Verif.Geometry
