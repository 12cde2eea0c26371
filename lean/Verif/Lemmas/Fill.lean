import Verif.Py
import Mathlib.MeasureTheory.Integral.DivergenceTheorem
import Mathlib.MeasureTheory.Integral.DominatedConvergence

/-! Fill volumes as integrals of wetted areas. -/

open MeasureTheory

namespace Verif

/-- `F` is the volume of liquid below the level `h` in a vessel whose free surface at height `y` has the area `A y`: it never raises, is 0 for levels
at or below 0, is the integral of the areas below the level, never decreases with the level and has no jump. -/
def IsFillVolume (F : ℝ → Py ℝ) (A : ℝ → ℝ) : Prop :=
  ∃ V : ℝ → ℝ, (∀ h, F h = .ok (V h)) ∧ (∀ h ≤ 0, V h = 0) ∧ (∀ h ≥ 0, V h = ∫ y in (0 : ℝ)..h, A y) ∧ Monotone V ∧ Continuous V

theorem isFillVolume_of {F : ℝ → Py ℝ} {A : ℝ → ℝ} (hc : Continuous A) (hn : ∀ y, 0 ≤ y → 0 ≤ A y)
    (h0 : ∀ h ≤ 0, F h = .ok 0) (h1 : ∀ h > 0, F h = .ok (∫ y in (0 : ℝ)..h, A y)) : IsFillVolume F A := by
  refine ⟨fun h => ∫ y in (0 : ℝ)..(max h 0), A y, ?_, ?_, ?_, ?_, ?_⟩
  · intro h
    beta_reduce
    rcases le_or_gt h 0 with hh | hh
    · rw [h0 h hh, max_eq_right hh, intervalIntegral.integral_same]
    · rw [h1 h hh, max_eq_left hh.le]
  · intro h hh
    simp only [max_eq_right hh, intervalIntegral.integral_same]
  · intro h hh
    simp only [max_eq_left hh]
  · intro a b hab
    have hm : max a 0 ≤ max b 0 := max_le_max hab le_rfl
    have := intervalIntegral.integral_add_adjacent_intervals (μ := volume) (hc.intervalIntegrable 0 (max a 0)) (hc.intervalIntegrable (max a 0) (max b 0))
    have hpos : 0 ≤ ∫ y in (max a 0)..(max b 0), A y :=
      intervalIntegral.integral_nonneg hm fun y hy => hn y ((le_max_right _ _).trans hy.1)
    beta_reduce
    linarith
  · exact (intervalIntegral.continuous_primitive (fun a b => hc.intervalIntegrable a b) 0).comp (continuous_id.max continuous_const)

/-- fundamental theorem with one exceptional point -/
theorem integral_of_deriv {A V : ℝ → ℝ} {a b p : ℝ} (hab : a ≤ b) (hA : Continuous A) (hV : ContinuousOn V (Set.Icc a b))
    (hd : ∀ y ∈ Set.Ioo a b, y ≠ p → HasDerivAt V (A y) y) : ∫ y in a..b, A y = V b - V a :=
  integral_eq_of_hasDerivAt_off_countable_of_le V A hab (Set.countable_singleton p) hV (fun y hy => hd y hy.1 hy.2) (hA.intervalIntegrable _ _)

/-- two pieces: `V₁` below `a`, `V₂` above -/
theorem integral_two {A V₁ V₂ : ℝ → ℝ} {a h : ℝ} (ha : 0 ≤ a) (hA : Continuous A) (hV₁ : Continuous V₁) (hV₂ : Continuous V₂)
    (hd₁ : ∀ y ∈ Set.Ioo 0 a, HasDerivAt V₁ (A y) y) (hd₂ : ∀ y > a, HasDerivAt V₂ (A y) y) (h0 : V₁ 0 = 0) (hj : V₁ a = V₂ a) (hh : 0 ≤ h) :
    ∫ y in (0 : ℝ)..h, A y = if h < a then V₁ h else V₂ h := by
  split_ifs with hlt
  · rw [integral_of_deriv (p := a) hh hA hV₁.continuousOn fun y hy _ => hd₁ y ⟨hy.1, hy.2.trans hlt⟩, h0, sub_zero]
  · push Not at hlt
    rw [← intervalIntegral.integral_add_adjacent_intervals (hA.intervalIntegrable 0 a) (hA.intervalIntegrable a h),
      integral_of_deriv (p := a) ha hA hV₁.continuousOn fun y hy _ => hd₁ y hy,
      integral_of_deriv (p := a) hlt hA hV₂.continuousOn fun y hy _ => hd₂ y hy.1, h0, hj]
    ring

/-- three pieces: `V₁` below `a`, `V₂` between `a` and `b`, `V₃` above -/
theorem integral_three {A V₁ V₂ V₃ : ℝ → ℝ} {a b h : ℝ} (ha : 0 ≤ a) (hab : a ≤ b) (hA : Continuous A) (hV₁ : Continuous V₁) (hV₂ : Continuous V₂)
    (hV₃ : Continuous V₃) (hd₁ : ∀ y ∈ Set.Ioo 0 a, HasDerivAt V₁ (A y) y) (hd₂ : ∀ y ∈ Set.Ioo a b, HasDerivAt V₂ (A y) y)
    (hd₃ : ∀ y > b, HasDerivAt V₃ (A y) y) (h0 : V₁ 0 = 0) (hj : V₁ a = V₂ a) (hj' : V₂ b = V₃ b) (hh : 0 ≤ h) :
    (h ≤ a → ∫ y in (0 : ℝ)..h, A y = V₁ h) ∧ (a ≤ h → h ≤ b → ∫ y in (0 : ℝ)..h, A y = V₂ h) ∧ (b ≤ h → ∫ y in (0 : ℝ)..h, A y = V₃ h) := by
  have i1 : ∀ h, 0 ≤ h → h ≤ a → ∫ y in (0 : ℝ)..h, A y = V₁ h := by
    intro h hh ha
    rw [integral_of_deriv (p := a) hh hA hV₁.continuousOn fun y hy _ => hd₁ y ⟨hy.1, hy.2.trans_le ha⟩, h0, sub_zero]
  have i2 : ∀ h, a ≤ h → h ≤ b → ∫ y in (0 : ℝ)..h, A y = V₂ h := by
    intro h h1 h2
    rw [← intervalIntegral.integral_add_adjacent_intervals (hA.intervalIntegrable 0 a) (hA.intervalIntegrable a h), i1 a ha le_rfl,
      integral_of_deriv (p := a) h1 hA hV₂.continuousOn fun y hy _ => hd₂ y ⟨hy.1, hy.2.trans_le h2⟩, hj]
    ring
  refine ⟨i1 h hh, i2 h, fun h3 => ?_⟩
  rw [← intervalIntegral.integral_add_adjacent_intervals (hA.intervalIntegrable 0 b) (hA.intervalIntegrable b h), i2 b hab le_rfl,
    integral_of_deriv (p := a) h3 hA hV₃.continuousOn fun y hy _ => hd₃ y hy.1, hj']
  ring

end Verif
