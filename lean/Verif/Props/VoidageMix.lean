import Verif.Props.Voidage

/-! C72: inversion of the two-phase density and bounds on mixture viscosities. -/

open Real

noncomputable section

namespace Verif.Voidage

/-- C72: void fraction and mixture density determine each other -/
theorem C72_inverse {rhol rhog : ℝ} (h : rhol ≠ rhog) :
    (∀ alpha, two_phase_voidage_experimental (density_two_phase alpha rhol rhog) rhol rhog = .ok alpha) ∧
    (∀ rho, ∃ alpha, two_phase_voidage_experimental rho rhol rhog = .ok alpha ∧ density_two_phase alpha rhol rhog = rho) := by
  have hd : rhog - rhol ≠ 0 := sub_ne_zero.mpr h.symm
  unfold two_phase_voidage_experimental density_two_phase
  refine ⟨fun alpha => ?_, fun rho => ⟨_, pdiv_ok hd, ?_⟩⟩
  · rw [pdiv_ok hd]; exact ok_congr (by field_simp; ring)
  · field_simp; ring

/-- with equal phase densities the mixture density says nothing about the void fraction: division by zero -/
theorem C72_inverse_equal (rho rhol : ℝ) : two_phase_voidage_experimental rho rhol rhol = .error .zeroDivisionError := by
  unfold two_phase_voidage_experimental; simp

/-- C72: the mixture density lies between the phase densities, and at the homogeneous void fraction it is the mass over the summed volumes -/
theorem C72_density {x alpha rhol rhog : ℝ} (hg : 0 < rhog) (hl : 0 < rhol) :
    (0 ≤ alpha → alpha ≤ 1 → min rhol rhog ≤ density_two_phase alpha rhol rhog ∧ density_two_phase alpha rhol rhog ≤ max rhol rhog) ∧
    (0 ≤ x → x ≤ 1 → ∃ a, homogeneous x rhol rhog = .ok a ∧ density_two_phase a rhol rhog = 1 / (x / rhog + (1 - x) / rhol)) := by
  refine ⟨fun h0 h1 => ?_, fun h0 h1 => ⟨_, (C70_homogeneous hg hl h0 h1).1, ?_⟩⟩
  · have hm1 := min_le_left rhol rhog; have hm2 := min_le_right rhol rhog
    have hM1 := le_max_left rhol rhog; have hM2 := le_max_right rhol rhog
    unfold density_two_phase
    constructor <;> nlinarith
  · have h1' : 0 ≤ 1 - x := by linarith
    have hpos : 0 < x * rhol + rhog * (1 - x) := by
      rcases h0.eq_or_lt with rfl | h
      · simpa using hg
      · have := mul_pos h hl; have := mul_nonneg hg.le h1'; linarith
    unfold density_two_phase
    rw [show x / rhog + (1 - x) / rhol = (x * rhol + rhog * (1 - x)) / (rhog * rhol) by field_simp]
    field_simp
    ring

/-! ### Mixture viscosities -/

/-- the call returns a viscosity between those of the phases -/
def Between (mul mug : ℝ) (r : Py ℝ) : Prop := ∃ mu, r = .ok mu ∧ min mul mug ≤ mu ∧ mu ≤ max mul mug

/-- C72: with only liquid the liquid viscosity, with only gas the gas viscosity -/
theorem C72_endpoints {mul mug rhol rhog : ℝ} (hml : 0 < mul) (hmg : 0 < mug) (hl : 0 < rhol) (hg : 0 < rhog) :
    (McAdams 0 mul mug = .ok mul ∧ McAdams 1 mul mug = .ok mug) ∧
    (Cicchitti 0 mul mug = mul ∧ Cicchitti 1 mul mug = mug) ∧
    (Lin_Kwok 0 mul mug = .ok mul ∧ Lin_Kwok 1 mul mug = .ok mug) ∧
    (Duckler 0 mul mug rhol rhog = .ok mul ∧ Duckler 1 mul mug rhol rhog = .ok mug) ∧
    (Beattie_Whalley 0 mul mug rhol rhog = .ok mul ∧ Beattie_Whalley 1 mul mug rhol rhog = .ok mug) ∧
    (Fourar_Bories 0 mul mug rhol rhog = .ok mul ∧ Fourar_Bories 1 mul mug rhol rhog = .ok mug) := by
  have a1 : (1 : ℝ) / mul ≠ 0 := by positivity
  have a2 : (1 : ℝ) / mug ≠ 0 := by positivity
  have a3 : (1 : ℝ) / rhol ≠ 0 := by positivity
  have a4 : (1 : ℝ) / rhog ≠ 0 := by positivity
  have s1 : √(mul / rhol) * √(mul / rhol) = mul / rhol := mul_self_sqrt (by positivity)
  have s2 : √(mug / rhog) * √(mug / rhog) = mug / rhog := mul_self_sqrt (by positivity)
  refine ⟨⟨?_, ?_⟩, ⟨by simp [Cicchitti], by simp [Cicchitti]⟩, ⟨?_, ?_⟩, ⟨?_, ?_⟩, ⟨?_, ?_⟩, ⟨?_, ?_⟩⟩
  · unfold McAdams; py_eval [zero_div, sub_zero, zero_add]; simp
  · unfold McAdams; py_eval [zero_div, sub_self, add_zero]; simp
  · unfold Lin_Kwok
    rw [ppow_ok' le_rfl (by norm_num), zero_rpow (by norm_num)]
    py_eval [zero_mul, add_zero]; exact ok_congr (by field_simp)
  · unfold Lin_Kwok
    have e : mug + 1 * (mul - mug) = mul := by ring
    py_eval [one_rpow, e]; exact ok_congr (by field_simp)
  · unfold Duckler; py_eval [zero_div, sub_zero, zero_add, zero_mul, one_mul]; exact ok_congr (by field_simp)
  · unfold Duckler; py_eval [zero_div, sub_self, add_zero, zero_mul, one_mul]; exact ok_congr (by field_simp)
  · simp [Beattie_Whalley, homogeneous, Py.ok_bind, Py.pure_eq]
  · simp [Beattie_Whalley, homogeneous, Py.ok_bind, Py.pure_eq]
  · unfold Fourar_Bories
    have : (0 : ℝ) ≤ 0 := le_rfl
    py_eval [zero_div, sub_zero, zero_add, zero_mul, one_mul, sqrt_zero]
    refine ok_congr ?_
    rw [mul_assoc, s1]; field_simp
  · unfold Fourar_Bories
    have : (0 : ℝ) ≤ 0 := le_rfl
    py_eval [zero_div, sub_self, add_zero, zero_mul, one_mul, sqrt_zero]
    refine ok_congr ?_
    rw [mul_assoc, s2]; field_simp

/-- a weighted mean lies between the smallest and the largest value -/
theorem mean_between {w v a b : ℝ} (hw : 0 ≤ w) (hv : 0 ≤ v) (hs : 0 < w + v) :
    min a b ≤ (w * b + v * a) / (w + v) ∧ (w * b + v * a) / (w + v) ≤ max a b := by
  have hm1 := min_le_left a b; have hm2 := min_le_right a b
  have hM1 := le_max_left a b; have hM2 := le_max_right a b
  constructor
  · rw [le_div_iff₀ hs]; nlinarith
  · rw [div_le_iff₀ hs]; nlinarith

variable {x mul mug rhol rhog : ℝ}

/-- C72: mass weighted mean of the reciprocals -/
theorem C72_McAdams (h0 : 0 ≤ x) (h1 : x ≤ 1) (hml : 0 < mul) (hmg : 0 < mug) : Between mul mug (McAdams x mul mug) := by
  have h1' : 0 ≤ 1 - x := by linarith
  have hs : 0 < x / mug + (1 - x) / mul := by
    rcases h0.eq_or_lt with rfl | h
    · simpa using hml
    · have : 0 < x / mug := by positivity
      have : 0 ≤ (1 - x) / mul := by positivity
      linarith
  have hs' := hs.ne'
  unfold McAdams; py_eval []
  refine ⟨_, rfl, ?_⟩
  have := mean_between (w := x / mug) (v := (1 - x) / mul) (a := mul) (b := mug) (by positivity) (by positivity) hs
  rwa [div_mul_cancel₀ _ hmg.ne', div_mul_cancel₀ _ hml.ne', add_sub_cancel] at this

theorem C72_Cicchitti (h0 : 0 ≤ x) (h1 : x ≤ 1) : Between mul mug (.ok (Cicchitti x mul mug)) := by
  refine ⟨_, rfl, ?_⟩
  have := mean_between (w := x) (v := 1 - x) (a := mul) (b := mug) h0 (by linarith) (by norm_num)
  unfold Cicchitti; simpa using this

theorem C72_Lin_Kwok (h0 : 0 ≤ x) (h1 : x ≤ 1) (hml : 0 < mul) (hmg : 0 < mug) : Between mul mug (Lin_Kwok x mul mug) := by
  have hw0 : 0 ≤ x ^ (1.4 : ℝ) := rpow_nonneg h0 _
  have hw1 : x ^ (1.4 : ℝ) ≤ 1 := rpow_le_one h0 h1 (by norm_num)
  unfold Lin_Kwok
  rw [ppow_ok' h0 (by norm_num)]
  generalize x ^ (1.4 : ℝ) = w at *
  have hw1' : 0 ≤ 1 - w := by linarith
  have hd : 0 < mug + w * (mul - mug) := by
    have : mug + w * (mul - mug) = w * mul + (1 - w) * mug := by ring
    rw [this]
    rcases hw0.eq_or_lt with rfl | h
    · simpa using hmg
    · have := mul_pos h hml; have := mul_nonneg hw1' hmg.le; linarith
  have hd' := hd.ne'
  py_eval []
  refine ⟨_, rfl, ?_⟩
  have := mean_between (w := w * mul) (v := (1 - w) * mug) (a := mul) (b := mug) (by positivity) (by positivity) (by linarith)
  rwa [show w * mul * mug + (1 - w) * mug * mul = mul * mug by ring, show w * mul + (1 - w) * mug = mug + w * (mul - mug) by ring] at this

theorem volume_pos (h0 : 0 ≤ x) (h1 : x ≤ 1) (hl : 0 < rhol) (hg : 0 < rhog) : 0 < x / rhog + (1 - x) / rhol := by
  rcases h0.eq_or_lt with rfl | h
  · simpa using hl
  · have : 0 < x / rhog := by positivity
    have : 0 ≤ (1 - x) / rhol := div_nonneg (by linarith) hl.le
    linarith

/-- C72: volume weighted mean -/
theorem C72_Duckler (h0 : 0 ≤ x) (h1 : x ≤ 1) (hl : 0 < rhol) (hg : 0 < rhog) : Between mul mug (Duckler x mul mug rhol rhog) := by
  have h1' : 0 ≤ 1 - x := by linarith
  have hs := volume_pos h0 h1 hl hg
  have hs' := hs.ne'
  unfold Duckler; py_eval []
  refine ⟨_, rfl, ?_⟩
  have := mean_between (w := x / rhog) (v := (1 - x) / rhol) (a := mul) (b := mug) (by positivity) (by positivity) hs
  rwa [show x / rhog * mug + (1 - x) / rhol * mul = x * mug / rhog + (1 - x) * mul / rhol by ring] at this

/-- C72: Beattie and Whalley's viscosity is not below the smaller phase viscosity and at most 1.625 times the larger … -/
theorem C72_Beattie_Whalley (h0 : 0 ≤ x) (h1 : x ≤ 1) (hl : 0 < rhol) (hg : 0 < rhog) (hml : 0 < mul) (hmg : 0 < mug) :
    ∃ mu, Beattie_Whalley x mul mug rhol rhog = .ok mu ∧ min mul mug ≤ mu ∧ mu ≤ 1.625 * max mul mug := by
  obtain ⟨e, a0, a1, _⟩ := C70_homogeneous hg hl h0 h1
  unfold Beattie_Whalley; rw [e]
  generalize x / rhog / (x / rhog + (1 - x) / rhol) = a at *
  have hm1 := min_le_left mul mug; have hm2 := min_le_right mul mug
  have hM1 := le_max_left mul mug; have hM2 := le_max_right mul mug
  have hM : 0 < max mul mug := hml.trans_le hM1
  have h1' : 0 ≤ 1 - a := by linarith
  refine ⟨_, rfl, ?_, ?_⟩
  · have : 0 ≤ mul * (1 - a) * (2.5 * a) := by positivity
    nlinarith
  · have e1 : mul * (1 - a) * (1 + 2.5 * a) ≤ max mul mug * ((1 - a) * (1 + 2.5 * a)) := by
      rw [mul_assoc]; exact mul_le_mul_of_nonneg_right hM1 (by positivity)
    have e2 : mug * a ≤ max mul mug * a := mul_le_mul_of_nonneg_right hM2 a0
    have e3 : (1 - a) * (1 + 2.5 * a) + a ≤ 1.625 := by nlinarith [sq_nonneg (a - 1 / 2)]
    have := mul_le_mul_of_nonneg_left e3 hM.le
    linarith

/-- … and the factor is reached: two phases with the same properties get a mixture viscosity 62.5 % above both -/
theorem C72_Beattie_Whalley_above : Beattie_Whalley (1 / 2) 1 1 1 1 = .ok 1.625 := by
  unfold Beattie_Whalley homogeneous
  norm_num [pdiv_ok, Py.ok_bind, Py.pure_eq]

/-- C72: Fourar and Bories' viscosity is not below the smaller phase viscosity and at most twice the larger … -/
theorem C72_Fourar_Bories (h0 : 0 ≤ x) (h1 : x ≤ 1) (hl : 0 < rhol) (hg : 0 < rhog) (hml : 0 < mul) (hmg : 0 < mug) :
    ∃ mu, Fourar_Bories x mul mug rhol rhog = .ok mu ∧ min mul mug ≤ mu ∧ mu ≤ 2 * max mul mug := by
  have h1' : 0 ≤ 1 - x := by linarith
  have hs := volume_pos h0 h1 hl hg
  have hs' := hs.ne'
  have q1 : 0 ≤ x * (mug / rhog) := by positivity
  have q2 : 0 ≤ (1 - x) * (mul / rhol) := by positivity
  unfold Fourar_Bories; py_eval []
  refine ⟨_, rfl, ?_⟩
  have hm := mean_between (w := x / rhog) (v := (1 - x) / rhol) (a := mul) (b := mug) (by positivity) (by positivity) hs
  rw [show x / rhog * mug + (1 - x) / rhol * mul = x * (mug / rhog) + (1 - x) * (mul / rhol) by ring] at hm
  have s1 := sq_sqrt q1; have s2 := sq_sqrt q2
  have n1 := sqrt_nonneg (x * (mug / rhog)); have n2 := sqrt_nonneg ((1 - x) * (mul / rhol))
  generalize x * (mug / rhog) = p at *
  generalize (1 - x) * (mul / rhol) = q at *
  generalize x / rhog + (1 - x) / rhol = v at *
  have e : 1 / v * (√p + √q) * (√p + √q) = (√p + √q) ^ 2 / v := by ring
  rw [e]
  constructor
  · refine hm.1.trans ?_
    gcongr
    nlinarith [mul_nonneg n1 n2]
  · have : (√p + √q) ^ 2 / v ≤ 2 * ((p + q) / v) := by
      rw [← mul_div_assoc]; gcongr; nlinarith [sq_nonneg (√p - √q)]
    linarith [hm.2]

/-- … and the factor is reached: two phases with the same properties get twice their viscosity -/
theorem C72_Fourar_Bories_above : Fourar_Bories (1 / 2) 1 1 1 1 = .ok 2 := by
  have q : (0 : ℝ) ≤ 1 / 2 * 1 := by norm_num
  have s := mul_self_sqrt (show (0 : ℝ) ≤ 1 / 2 by norm_num)
  unfold Fourar_Bories
  py_eval [div_one]
  norm_num [pdiv_ok, psqrt_ok, Py.ok_bind, Py.pure_eq] at *
  nlinarith

/-- water and steam at one atmosphere meet the hypotheses -/
example : Between 2.8e-4 1.2e-5 (McAdams 0.4 2.8e-4 1.2e-5) := C72_McAdams (by norm_num) (by norm_num) (by norm_num) (by norm_num)

end Verif.Voidage
