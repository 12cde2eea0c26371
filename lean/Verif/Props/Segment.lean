import Verif.Model.Geometry
import Verif.Lemmas.Circle
import Verif.Lemmas.Tactic

/-! C61: circular segments. -/

open Real

noncomputable section

namespace Verif.Geometry

theorem segment_ok {R h : ℝ} (hR : 0 < R) (h0 : 0 ≤ h) (h1 : h ≤ 2 * R) : segment R h = .ok (segArea R h) := by
  have e1 : (R - h) /ₚ R = .ok ((R - h) / R) := pdiv_ok hR.ne'
  have e2 : pacos ((R - h) / R) = .ok (arccos ((R - h) / R)) := by
    refine pacos_ok ?_ ?_
    · rw [le_div_iff₀ hR]; linarith
    · rw [div_le_iff₀ hR]; linarith
  have e3 : psqrt (2 * R * h - h * h) = .ok (√(2 * R * h - h * h)) := psqrt_ok (by nlinarith)
  simp only [segment, e1, e2, e3, Py.ok_bind, segArea]
  rw [show 2 * R * h - h * h = h * (2 * R - h) by ring]
  simp [Py.pure_eq, sq]

theorem segment_neg {R h : ℝ} (hR : 0 < R) (h0 : h < 0) : segment R h = .error .valueError := by
  have e1 : (R - h) /ₚ R = .ok ((R - h) / R) := pdiv_ok hR.ne'
  have e2 : pacos ((R - h) / R) = .error .valueError := by
    have : 1 < (R - h) / R := by rw [lt_div_iff₀ hR]; linarith
    simp only [pacos]
    rw [if_pos]
    right; exact this
  simp only [segment, e1, e2, Py.ok_bind, Py.error_bind]

theorem segArea_nonneg {R h : ℝ} (hR : 0 < R) (h0 : 0 ≤ h) (h1 : h ≤ 2 * R) : 0 ≤ segArea R h := by
  have := (segArea_strictMono hR).monotoneOn (Set.left_mem_Icc.mpr (by linarith)) ⟨h0, h1⟩ h0
  rwa [segArea_zero hR] at this

theorem A_partial_circle_eq {D h : ℝ} (hD : 0 < D) (h0 : 0 ≤ h) (h1 : h ≤ D) : A_partial_circle D h = .ok (segArea (D / 2) h) := by
  have hn : 0 ≤ segArea (D / 2) h := segArea_nonneg (by linarith) h0 (by linarith)
  simp only [A_partial_circle, if_neg (show ¬ (¬ h > D ∧ h < 0) by simp [not_lt.mpr h0]), if_neg (not_lt.mpr h1)]
  rw [show (0.5 : ℝ) * D = D / 2 by ring, segment_ok (by linarith) h0 (by linarith)]
  simp [Py.ok_bind, not_lt.mpr hn, Py.pure_eq]

/-- C61: `A_partial_circle(D, h)` is the integral of the chord widths `2 sqrt(y (D - y))` below the level `h`; it is 0 when empty, `pi D^2/4` when full,
complementary segments add up to the circle, and it is strictly increasing in the level.  Outside `[0, D]` the level is clamped. -/
theorem C61_area {D : ℝ} (hD : 0 < D) :
    ∃ A : ℝ → ℝ, (∀ h, A_partial_circle D h = .ok (A h)) ∧
      (∀ h ∈ Set.Icc 0 D, A h = ∫ y in (0 : ℝ)..h, 2 * √(y * (D - y))) ∧
      (∀ h ≤ 0, A h = 0) ∧ (∀ h ≥ D, A h = π * D ^ 2 / 4) ∧
      (∀ h ∈ Set.Icc 0 D, A (D - h) = π * D ^ 2 / 4 - A h) ∧
      A (D / 2) = π * D ^ 2 / 8 ∧
      StrictMonoOn A (Set.Icc 0 D) ∧ ContinuousOn A (Set.Icc 0 D) := by
  have hR : 0 < D / 2 := by linarith
  have full : segArea (D / 2) D = π * D ^ 2 / 4 := by
    have := segArea_full hR
    rw [show 2 * (D / 2) = D by ring] at this
    rw [this]; ring
  have over : ∀ h, h > D → A_partial_circle D h = .ok (segArea (D / 2) D) := by
    intro h hh
    have e := A_partial_circle_eq hD hD.le le_rfl
    simp only [A_partial_circle, if_neg (show ¬ (¬ h > D ∧ h < 0) by tauto), if_pos hh] at e ⊢
    simp only [if_neg (show ¬ (¬ D > D ∧ D < 0) by simp [not_lt.mpr hD.le]), if_neg (lt_irrefl D)] at e
    exact e
  have under : ∀ h, h < 0 → A_partial_circle D h = .ok 0 := by
    intro h hh
    simp only [A_partial_circle, if_pos (show (¬ h > D ∧ h < 0) from ⟨by linarith, hh⟩)]
  refine ⟨fun h => segArea (D / 2) (max 0 (min h D)), ?_, ?_, ?_, ?_, ?_, ?_, ?_, ?_⟩
  · intro h
    beta_reduce
    rcases lt_or_ge h 0 with hh | hh
    · rw [under h hh, max_eq_left (by exact (min_le_left _ _).trans hh.le), segArea_zero hR]
    rcases lt_or_ge D h with hh' | hh'
    · rw [over h hh', min_eq_right hh'.le, max_eq_right hD.le]
    · rw [A_partial_circle_eq hD hh hh', min_eq_left hh', max_eq_right hh]
  · rintro h ⟨h0, h1⟩
    simp only [min_eq_left h1, max_eq_right h0]
    rw [← integral_chord hR h0 (by linarith)]
    refine intervalIntegral.integral_congr fun y _ => ?_
    simp only [chord]
    rw [show 2 * (D / 2) = D by ring]
  · intro h hh
    simp only [max_eq_left ((min_le_left h D).trans hh), segArea_zero hR]
  · intro h hh
    simp only [min_eq_right hh, max_eq_right hD.le, full]
  · rintro h ⟨h0, h1⟩
    simp only [min_eq_left h1, max_eq_right h0, min_eq_left (show D - h ≤ D by linarith), max_eq_right (show 0 ≤ D - h by linarith)]
    have := segArea_compl (h := h) hR
    rw [show 2 * (D / 2) = D by ring] at this
    rw [this]; ring
  · simp only [min_eq_left (show D / 2 ≤ D by linarith), max_eq_right (show 0 ≤ D / 2 by linarith)]
    have := segArea_compl (h := D / 2) hR
    rw [show 2 * (D / 2) - D / 2 = D / 2 by ring] at this
    linarith
  · intro x hx y hy hxy
    simp only [min_eq_left hx.2, max_eq_right hx.1, min_eq_left hy.2, max_eq_right hy.1]
    exact segArea_strictMono hR ⟨hx.1, by linarith [hx.2]⟩ ⟨hy.1, by linarith [hy.2]⟩ hxy
  · exact ((continuous_segArea (D / 2)).comp (by fun_prop)).continuousOn

example : ∃ a b, A_partial_circle 2 0.5 = .ok a ∧ A_partial_circle 2 1.5 = .ok b ∧ a < b := by
  obtain ⟨A, h, -, -, -, -, -, hm, -⟩ := C61_area (D := 2) (by norm_num)
  exact ⟨_, _, h _, h _, hm ⟨by norm_num, by norm_num⟩ ⟨by norm_num, by norm_num⟩ (by norm_num)⟩

/-- what a root finder bounded to `[lo, hi]` promises when it returns: a root of the residual inside the bounds -/
def FindsRoot (newton : (ℝ → Py ℝ) → ℝ → ℝ → Py ℝ) : Prop :=
  ∀ f lo hi x, newton f lo hi = .ok x → lo ≤ x ∧ x ≤ hi ∧ f x = .ok 0

theorem residual_eq {R A h : ℝ} (hR : 0 < R) (h0 : 0 ≤ h) (h1 : h ≤ 2 * R) : circle_segment_residual R A h = .ok (segArea R h - A) := by
  have e1 : (R + -h) /ₚ R = .ok ((R - h) / R) := by rw [pdiv_ok hR.ne']; ring_nf
  have e2 : pacos ((R - h) / R) = .ok (arccos ((R - h) / R)) := by
    refine pacos_ok ?_ ?_
    · rw [le_div_iff₀ hR]; linarith
    · rw [div_le_iff₀ hR]; linarith
  have e3 : psqrt (h * (2 * R + -h)) = .ok (√(h * (2 * R - h))) := by
    rw [psqrt_ok (by nlinarith)]; ring_nf
  simp only [circle_segment_residual, e1, e2, e3, Py.ok_bind, segArea, Py.pure_eq]
  ring_nf

/-- C61: `circle_segment_h_from_A` inverts the area: whenever it returns, its value is a level in `[0, D/2]` whose segment has area `A`, it is the
only level in `[0, D]` with that area, and from the area of a level in `[0, D/2]` it can only return that level.  (Finding: the
search is bounded to the lower half of the circle, so for a segment larger than a half circle no root exists in the interval searched and no value
the root finder may return is correct.) -/
theorem C61_inverse {newton : (ℝ → Py ℝ) → ℝ → ℝ → Py ℝ} (hn : FindsRoot newton) {D : ℝ} (hD : 0 < D) :
    (∀ A h, circle_segment_h_from_A newton A D = .ok h →
      (0 ≤ h ∧ h ≤ D / 2) ∧ A_partial_circle D h = .ok A ∧ ∀ h' ∈ Set.Icc 0 D, A_partial_circle D h' = .ok A → h' = h) ∧
    (∀ h₀ ∈ Set.Icc 0 (D / 2), ∀ A h, A_partial_circle D h₀ = .ok A → circle_segment_h_from_A newton A D = .ok h → h = h₀) ∧
    (∀ h₀ ∈ Set.Ioc (D / 2) D, ∀ A, A_partial_circle D h₀ = .ok A → ∀ h, circle_segment_h_from_A newton A D ≠ .ok h) := by
  have hR : 0 < D / 2 := by linarith
  have main : ∀ A h, circle_segment_h_from_A newton A D = .ok h →
      (0 ≤ h ∧ h ≤ D / 2) ∧ A_partial_circle D h = .ok A ∧ ∀ h' ∈ Set.Icc 0 D, A_partial_circle D h' = .ok A → h' = h := by
    intro A h hh
    have key : (0 ≤ h ∧ h ≤ D / 2) ∧ segArea (D / 2) h = A := by
      simp only [circle_segment_h_from_A] at hh
      split_ifs at hh with hA
      · rw [Except.ok.injEq] at hh
        subst hh; subst hA
        exact ⟨⟨le_rfl, hR.le⟩, segArea_zero hR⟩
      · obtain ⟨a, b, c⟩ := hn _ _ _ _ hh
        rw [show (0.5 : ℝ) * D = D / 2 by ring] at b c
        rw [residual_eq hR a (by linarith), Except.ok.injEq] at c
        exact ⟨⟨a, b⟩, by linarith⟩
    refine ⟨key.1, ?_, ?_⟩
    · rw [A_partial_circle_eq hD key.1.1 (by linarith [key.1.2]), key.2]
    · intro h' hh' e
      rw [A_partial_circle_eq hD hh'.1 hh'.2, Except.ok.injEq, ← key.2] at e
      exact (segArea_strictMono hR).injOn ⟨hh'.1, by linarith [hh'.2]⟩ ⟨key.1.1, by linarith [key.1.2]⟩ e
  refine ⟨main, ?_, ?_⟩
  · intro h₀ hh A h hA e
    exact ((main A h e).2.2 h₀ ⟨hh.1, by linarith [hh.2]⟩ hA).symm
  · intro h₀ hh A hA h e
    have := (main A h e).2.2 h₀ ⟨by linarith [hh.1], hh.2⟩ hA
    linarith [hh.1, (main A h e).1.2]

/-- a root finder with the contract that does return roots exists, and inverts the area of the level 1/2 of a circle of diameter 4 -/
example : ∃ newton, FindsRoot newton ∧ ∃ A, A_partial_circle 4 0.5 = .ok A ∧ circle_segment_h_from_A newton A 4 = .ok 0.5 := by
  classical
  refine ⟨fun f lo hi => if h : ∃ x, lo ≤ x ∧ x ≤ hi ∧ f x = .ok 0 then .ok h.choose else .error .unconvergedError, ?_, ?_⟩
  · intro f lo hi x hx
    simp only at hx
    split_ifs at hx with h
    rw [Except.ok.injEq] at hx
    rw [← hx]
    exact h.choose_spec
  · have hA := A_partial_circle_eq (D := 4) (h := 0.5) (by norm_num) (by norm_num) (by norm_num)
    refine ⟨_, hA, ?_⟩
    have hpos : segArea (4 / 2) 0.5 ≠ 0 := by
      have := segArea_strictMono (R := 4 / 2) (by norm_num) ⟨le_rfl, by norm_num⟩ (b := 0.5) ⟨by norm_num, by norm_num⟩ (by norm_num)
      rw [segArea_zero (by norm_num)] at this
      exact this.ne'
    have hex : ∃ x, (0 : ℝ) ≤ x ∧ x ≤ 0.5 * 4 ∧ circle_segment_residual (0.5 * 4) (segArea (4 / 2) 0.5) x = .ok 0 :=
      ⟨0.5, by norm_num, by norm_num, by
        rw [show (0.5 : ℝ) * 4 = 4 / 2 by norm_num, residual_eq (by norm_num) (by norm_num) (by norm_num), sub_self]⟩
    simp only [circle_segment_h_from_A, if_neg hpos]
    rw [dif_pos hex]
    obtain ⟨a, b, c⟩ := hex.choose_spec
    generalize hex.choose = x at a b c
    rw [show (0.5 : ℝ) * 4 = 4 / 2 by norm_num] at b c
    rw [residual_eq (by norm_num) a (by linarith), Except.ok.injEq] at c
    rw [(segArea_strictMono (R := 4 / 2) (by norm_num)).injOn ⟨a, by linarith⟩ (⟨by norm_num, by norm_num⟩ : (0.5 : ℝ) ∈ Set.Icc 0 (2 * (4 / 2)))
      (by linarith)]

end Verif.Geometry
