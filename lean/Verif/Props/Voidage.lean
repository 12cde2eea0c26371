import Verif.Model.Voidage
import Verif.Lemmas.Tactic
import Mathlib.Analysis.Complex.ExponentialBounds

/-! C70: void fraction correlations return a fraction. -/

open Real

noncomputable section

namespace Verif.Voidage

/-! ### Specification -/

/-- void fraction of a flow of quality `x` whose gas moves `S` times as fast as its liquid:
gas area over total area, with areas `x/(ρg S)` and `(1-x)/ρl` per unit mass flow and liquid velocity -/
def slipVoid (S x rhol rhog : ℝ) : ℝ := (x / (rhog * S)) / (x / (rhog * S) + (1 - x) / rhol)

/-- a strictly two-phase flow of a light gas and a denser liquid -/
structure TwoPhase (x rhol rhog : ℝ) : Prop where
  x0 : 0 < x
  x1 : x < 1
  g0 : 0 < rhog
  gl : rhog ≤ rhol

/-- the call returns a void fraction strictly between 0 and 1 -/
def Fraction (r : Py ℝ) : Prop := ∃ a, r = .ok a ∧ 0 < a ∧ a < 1

/-- the call returns a void fraction strictly between 0 and 1 that is not above that of the flow without slip -/
def Below (x rhol rhog : ℝ) (r : Py ℝ) : Prop := ∃ a, r = .ok a ∧ 0 < a ∧ a < 1 ∧ a ≤ slipVoid 1 x rhol rhog

theorem Below.fraction {x rhol rhog : ℝ} {r : Py ℝ} (h : Below x rhol rhog r) : Fraction r := by
  obtain ⟨a, h1, h2, h3, _⟩ := h; exact ⟨a, h1, h2, h3⟩

variable {x rhol rhog : ℝ}

theorem TwoPhase.l0 (h : TwoPhase x rhol rhog) : 0 < rhol := h.g0.trans_le h.gl

theorem slipVoid_eq {S : ℝ} (hS : 0 < S) (h : TwoPhase x rhol rhog) : slipVoid S x rhol rhog = 1 / (1 + (1 - x) / x * (rhog / rhol) * S) := by
  obtain ⟨h0, h1, hg, _⟩ := id h; have hl := h.l0
  have h1' : 0 < 1 - x := by linarith
  unfold slipVoid; field_simp

theorem slipVoid_pos {S : ℝ} (hS : 0 < S) (h : TwoPhase x rhol rhog) : 0 < slipVoid S x rhol rhog := by
  obtain ⟨h0, h1, hg, _⟩ := id h; have hl := h.l0
  have h1' : 0 < 1 - x := by linarith
  unfold slipVoid; positivity

theorem slipVoid_lt {S : ℝ} (hS : 0 < S) (h : TwoPhase x rhol rhog) : slipVoid S x rhol rhog < 1 := by
  obtain ⟨h0, h1, hg, _⟩ := id h; have hl := h.l0
  have h1' : 0 < 1 - x := by linarith
  unfold slipVoid; rw [div_lt_one (by positivity)]
  have : 0 < (1 - x) / rhol := by positivity
  linarith

theorem slipVoid_anti {S T : ℝ} (hS : 0 < S) (hT : S ≤ T) (h : TwoPhase x rhol rhog) : slipVoid T x rhol rhog ≤ slipVoid S x rhol rhog := by
  rw [slipVoid_eq hS h, slipVoid_eq (hS.trans_le hT) h]
  obtain ⟨h0, h1, hg, _⟩ := id h; have hl := h.l0
  have h1' : 0 < 1 - x := by linarith
  gcongr

theorem slip_fraction {S : ℝ} (hS : 0 < S) (h : TwoPhase x rhol rhog) {r : Py ℝ} (e : r = .ok (slipVoid S x rhol rhog)) : Fraction r :=
  ⟨_, e, slipVoid_pos hS h, slipVoid_lt hS h⟩

theorem slip_below {S : ℝ} (hS : 1 ≤ S) (h : TwoPhase x rhol rhog) {r : Py ℝ} (e : r = .ok (slipVoid S x rhol rhog)) : Below x rhol rhog r :=
  ⟨_, e, slipVoid_pos (by linarith) h, slipVoid_lt (by linarith) h, slipVoid_anti (by norm_num) hS h⟩

/-! ### Homogeneous flow -/

theorem homogeneous_eval (h : TwoPhase x rhol rhog) : homogeneous x rhol rhog = .ok (slipVoid 1 x rhol rhog) := by
  have e := slipVoid_eq one_pos h
  obtain ⟨h0, h1, hg, _⟩ := id h; have hl := h.l0
  have h1' : 0 < 1 - x := by linarith
  unfold homogeneous
  rw [if_neg (by linarith), if_neg (by linarith)]
  py_eval []
  rw [e, mul_one]

/-- C70: the homogeneous model returns the gas volume fraction of equal phase velocities, and exactly 0 and 1 for a single phase -/
theorem C70_homogeneous (hg : 0 < rhog) (hl : 0 < rhol) (h0 : 0 ≤ x) (h1 : x ≤ 1) :
    homogeneous x rhol rhog = .ok ((x / rhog) / (x / rhog + (1 - x) / rhol)) ∧
      0 ≤ (x / rhog) / (x / rhog + (1 - x) / rhol) ∧ (x / rhog) / (x / rhog + (1 - x) / rhol) ≤ 1 ∧
      homogeneous 0 rhol rhog = .ok 0 ∧ homogeneous 1 rhol rhog = .ok 1 := by
  have h1' : 0 ≤ 1 - x := by linarith
  refine ⟨?_, by positivity, ?_, by simp [homogeneous], by simp [homogeneous]⟩
  · unfold homogeneous
    split_ifs with e1 e0
    · subst e1; have : (1 : ℝ) / rhog ≠ 0 := by positivity
      simp [hg.ne']
    · subst e0; simp
    · have h0' : 0 < x := lt_of_le_of_ne h0 (Ne.symm e0)
      have h1'' : 0 < 1 - x := by have := lt_of_le_of_ne h1 e1; linarith
      py_eval []
      exact ok_congr (by field_simp)
  · exact div_le_one_of_le₀ (le_add_of_nonneg_right (by positivity)) (by positivity)

/-! ### Slip ratio correlations -/

theorem ratio_one_le (h : TwoPhase x rhol rhog) : 1 ≤ rhol / rhog := by rw [le_div_iff₀ h.g0]; linarith [h.gl]

theorem rat_pow (hg : 0 < rhog) (hl : 0 < rhol) (a b : ℝ) (hab : a + b = 1) : (rhog / rhol) ^ a = rhog / rhol * (rhol / rhog) ^ b := by
  have e : rhol / rhog = (rhog / rhol)⁻¹ := by rw [inv_div]
  have hp : 0 < rhog / rhol := by positivity
  rw [e, inv_rpow hp.le, ← rpow_neg hp.le]
  nth_rw 2 [← rpow_one (rhog / rhol)]
  rw [← rpow_add hp]; congr 1; linarith

/-- C70: Zivi's model is a slip ratio equal to the cube root of the density ratio -/
theorem C70_Zivi (h : TwoPhase x rhol rhog) :
    Zivi x rhol rhog = .ok (slipVoid ((rhol / rhog) ^ (1 / 3 : ℝ)) x rhol rhog) ∧ Below x rhol rhog (Zivi x rhol rhog) := by
  have hr := ratio_one_le h
  have hS := one_le_rpow hr (by norm_num : (0 : ℝ) ≤ 1 / 3)
  have : Zivi x rhol rhog = .ok (slipVoid ((rhol / rhog) ^ (1 / 3 : ℝ)) x rhol rhog) := by
    rw [slipVoid_eq (by linarith) h]
    obtain ⟨h0, h1, hg, _⟩ := id h; have hl := h.l0
    have h1' : 0 < 1 - x := by linarith
    unfold Zivi; py_eval []
    rw [rat_pow hg hl (2 / 3) (1 / 3) (by norm_num), mul_assoc]
  exact ⟨this, slip_below hS h this⟩

/-- C70: Fauske's model is a slip ratio equal to the square root of the density ratio -/
theorem C70_Fauske (h : TwoPhase x rhol rhog) :
    Fauske x rhol rhog = .ok (slipVoid (√(rhol / rhog)) x rhol rhog) ∧ Below x rhol rhog (Fauske x rhol rhog) := by
  have hr := ratio_one_le h
  have hS : 1 ≤ √(rhol / rhog) := one_le_sqrt.mpr hr
  have : Fauske x rhol rhog = .ok (slipVoid (√(rhol / rhog)) x rhol rhog) := by
    rw [slipVoid_eq (by linarith) h]
    obtain ⟨h0, h1, hg, _⟩ := id h; have hl := h.l0
    have h1' : 0 < 1 - x := by linarith
    have hq : 0 ≤ rhog / rhol := by positivity
    unfold Fauske; py_eval []
    rw [sqrt_eq_rpow, sqrt_eq_rpow, rat_pow hg hl (1 / 2) (1 / 2) (by norm_num), mul_assoc]
  exact ⟨this, slip_below hS h this⟩

/-- C70: Chisholm's slip ratio is the square root of liquid density over homogeneous density -/
theorem C70_Chisholm_voidage (h : TwoPhase x rhol rhog) :
    Chisholm_voidage x rhol rhog = .ok (slipVoid (√(rhol * (x / rhog + (1 - x) / rhol))) x rhol rhog) ∧
      Below x rhol rhog (Chisholm_voidage x rhol rhog) := by
  have hr := ratio_one_le h
  have e : rhol * (x / rhog + (1 - x) / rhol) = 1 - x * (1 - rhol / rhog) := by
    have := h.l0; have := h.g0; field_simp; ring
  have hge : 1 ≤ 1 - x * (1 - rhol / rhog) := by nlinarith [h.x0]
  have hS : 1 ≤ √(rhol * (x / rhog + (1 - x) / rhol)) := one_le_sqrt.mpr (e ▸ hge)
  have : Chisholm_voidage x rhol rhog = .ok (slipVoid (√(rhol * (x / rhog + (1 - x) / rhol))) x rhol rhog) := by
    rw [slipVoid_eq (by linarith) h, e]
    obtain ⟨h0, h1, hg, _⟩ := id h; have hl := h.l0
    have h1' : 0 < 1 - x := by linarith
    have hq : 0 ≤ 1 - x * (1 - rhol / rhog) := by linarith
    unfold Chisholm_voidage; py_eval []
    rw [mul_div_assoc]
  exact ⟨this, slip_below hS h this⟩

/-- C70: Smith's slip ratio, from equal velocity heads of the core and the liquid film with entrainment 0.4 -/
theorem C70_Smith (h : TwoPhase x rhol rhog) :
    Smith x rhol rhog = .ok (slipVoid (0.4 + 0.6 * √((rhol / rhog + 0.4 * ((1 - x) / x)) / (1 + 0.4 * ((1 - x) / x)))) x rhol rhog) ∧
      Below x rhol rhog (Smith x rhol rhog) := by
  have hr := ratio_one_le h
  have hq : 0 < (1 - x) / x := div_pos (by linarith [h.x1]) h.x0
  have hge : 1 ≤ (rhol / rhog + 0.4 * ((1 - x) / x)) / (1 + 0.4 * ((1 - x) / x)) := by rw [le_div_iff₀ (by positivity)]; linarith
  have hs := one_le_sqrt.mpr hge
  have hS : 1 ≤ 0.4 + 0.6 * √((rhol / rhog + 0.4 * ((1 - x) / x)) / (1 + 0.4 * ((1 - x) / x))) := by linarith
  have : Smith x rhol rhog = .ok (slipVoid (0.4 + 0.6 * √((rhol / rhog + 0.4 * ((1 - x) / x)) / (1 + 0.4 * ((1 - x) / x)))) x rhol rhog) := by
    rw [slipVoid_eq (by linarith) h]
    obtain ⟨h0, h1, hg, _⟩ := id h; have hl := h.l0
    have h1' : 0 < 1 - x := by linarith
    have hq' : 0 ≤ (rhol / rhog + 0.4 * ((1 - x) / x)) / (1 + 0.4 * ((1 - x) / x)) := by linarith
    unfold Smith; py_eval []
    norm_num
  exact ⟨this, slip_below hS h this⟩

/-- C70: Thom's correlation; it does not exceed the homogeneous value when the gas is the less viscous phase -/
theorem C70_Thom {mul mug : ℝ} (h : TwoPhase x rhol rhog) (hl' : 0 < mul) (hg' : 0 < mug) :
    Thom x rhol rhog mul mug = .ok (slipVoid ((rhol / rhog) ^ (0.11 : ℝ) * (mul / mug) ^ (0.18 : ℝ)) x rhol rhog) ∧
      Fraction (Thom x rhol rhog mul mug) ∧ (mug ≤ mul → Below x rhol rhog (Thom x rhol rhog mul mug)) := by
  have hr := ratio_one_le h
  have hp : 0 < (rhol / rhog) ^ (0.11 : ℝ) * (mul / mug) ^ (0.18 : ℝ) := mul_pos (rpow_pos_of_pos (by linarith) _) (rpow_pos_of_pos (by positivity) _)
  have : Thom x rhol rhog mul mug = .ok (slipVoid ((rhol / rhog) ^ (0.11 : ℝ) * (mul / mug) ^ (0.18 : ℝ)) x rhol rhog) := by
    rw [slipVoid_eq hp h]
    obtain ⟨h0, h1, hg, _⟩ := id h; have hl := h.l0
    have h1' : 0 < 1 - x := by linarith
    unfold Thom; py_eval []
    rw [rat_pow hg hl 0.89 0.11 (by norm_num)]
    simp only [mul_assoc]
  refine ⟨this, slip_fraction hp h this, fun hm => slip_below ?_ h this⟩
  exact one_le_mul_of_one_le_of_one_le (one_le_rpow hr (by norm_num)) (one_le_rpow (by rw [le_div_iff₀ hg']; linarith) (by norm_num))

theorem one_div_fraction {t : ℝ} (ht : 0 < t) : 0 < 1 / (1 + t) ∧ 1 / (1 + t) < 1 :=
  ⟨by positivity, by rw [div_lt_one (by positivity)]; linarith⟩

/-- C70: Turner and Wallis -/
theorem C70_Turner_Wallis {mul mug : ℝ} (h : TwoPhase x rhol rhog) (hl' : 0 < mul) (hg' : 0 < mug) :
    Fraction (Turner_Wallis x rhol rhog mul mug) := by
  obtain ⟨h0, h1, hg, _⟩ := id h; have hl := h.l0
  have h1' : 0 < 1 - x := by linarith
  unfold Turner_Wallis; py_eval []
  exact ⟨_, rfl, one_div_fraction (by positivity)⟩

/-! ### Fractions of the homogeneous value -/

theorem C70_Armand (h : TwoPhase x rhol rhog) :
    Armand x rhol rhog = .ok (0.833 * slipVoid 1 x rhol rhog) ∧ Below x rhol rhog (Armand x rhol rhog) := by
  have e : Armand x rhol rhog = .ok (0.833 * slipVoid 1 x rhol rhog) := by
    unfold Armand; rw [homogeneous_eval h]; py_eval []
  have := slipVoid_pos one_pos h; have := slipVoid_lt one_pos h
  exact ⟨e, _, e, by positivity, by linarith, by linarith⟩

theorem C70_Chisholm_Armand (h : TwoPhase x rhol rhog) : Below x rhol rhog (Chisholm_Armand x rhol rhog) := by
  have h0 := slipVoid_pos one_pos h; have h1 := slipVoid_lt one_pos h
  unfold Chisholm_Armand; rw [homogeneous_eval h]
  unfold Below
  generalize slipVoid 1 x rhol rhog = a at *
  have hq : 0 < 1 - a := by linarith
  have hs : 0 < √(1 - a) := sqrt_pos.mpr hq
  have hs1 : √(1 - a) ≤ 1 := sqrt_le_one.mpr (by linarith)
  have hss := mul_self_sqrt hq.le
  py_eval []
  refine ⟨_, rfl, by positivity, ?_, ?_⟩
  · rw [div_lt_one (by positivity)]; linarith
  · rw [div_le_iff₀ (by positivity)]
    have : 1 ≤ a + √(1 - a) := by nlinarith
    nlinarith

theorem C70_Nishino_Yamazaki (h : TwoPhase x rhol rhog) :
    Nishino_Yamazaki x rhol rhog = .ok (1 - √(1 - slipVoid 1 x rhol rhog)) ∧ Below x rhol rhog (Nishino_Yamazaki x rhol rhog) := by
  have h0 := slipVoid_pos one_pos h; have h1 := slipVoid_lt one_pos h
  have e : Nishino_Yamazaki x rhol rhog = .ok (1 - √(1 - slipVoid 1 x rhol rhog)) := by
    unfold Nishino_Yamazaki; rw [homogeneous_eval h]
    obtain ⟨x0, x1, hg, _⟩ := id h; have hl := h.l0
    have h1' : 0 < 1 - x := by linarith
    have hq : 0 ≤ (1 - x) * rhog / (x * rhol) := by positivity
    have h0' := h0.le
    py_eval []
    refine ok_congr ?_
    rw [← sqrt_mul hq]
    congr 2
    rw [slipVoid_eq one_pos h]; field_simp; ring
  refine ⟨e, _, e, ?_⟩
  generalize slipVoid 1 x rhol rhog = a at *
  have hq : 0 < 1 - a := by linarith
  have hs : 0 < √(1 - a) := sqrt_pos.mpr hq
  have hs1 : √(1 - a) < 1 := (sqrt_lt' one_pos).mpr (by linarith)
  have hss := mul_self_sqrt hq.le
  exact ⟨by linarith, by linarith, by nlinarith⟩

theorem C70_Guzhov {m D : ℝ} (h : TwoPhase x rhol rhog) (hm : 0 < m) (hD : 0 < D) : Below x rhol rhog (Guzhov x rhol rhog m D) := by
  have h0 := slipVoid_pos one_pos h; have h1 := slipVoid_lt one_pos h
  have hh := homogeneous_eval h
  obtain ⟨x0, x1, hg, _⟩ := id h; have hl := h.l0
  have h1' : 0 < 1 - x := by linarith
  have hp := pi_pos
  have hg0 : 0 < g0 := by norm_num [g0]
  unfold Guzhov Core.Froude
  rw [hh]
  have hgD : 0 ≤ g0 * D := by positivity
  have hgD' : √(g0 * D) ≠ 0 := (sqrt_pos.mpr (by positivity)).ne'
  simp only [mul_comm D g0]
  py_eval [if_true]
  unfold Below
  generalize slipVoid 1 x rhol rhog = a at *
  generalize hv : m / (0.25 * π * D * D) / (1 / ((1 - x) / rhol + x / rhog)) = V
  have hV : 0 < V := by rw [← hv]; positivity
  have hs : 0 < √(g0 * D) := sqrt_pos.mpr (by positivity)
  have hF : 0 < √(V / √(g0 * D) * (V / √(g0 * D))) := sqrt_pos.mpr (by positivity)
  have e1 := exp_pos (-2.2 * √(V / √(g0 * D) * (V / √(g0 * D))))
  have e2 : exp (-2.2 * √(V / √(g0 * D) * (V / √(g0 * D)))) < 1 := (exp_lt_exp.mpr (by linarith)).trans_eq exp_zero
  refine ⟨_, rfl, ?_, ?_, ?_⟩
  · have : 0 < 1 - exp (-2.2 * √(V / √(g0 * D) * (V / √(g0 * D)))) := by linarith
    positivity
  · nlinarith
  · nlinarith

theorem Kawahara_narrow_fraction {C1 C2 : ℝ} (h : TwoPhase x rhol rhog) (hC1 : 0 < C1) (hC2 : 0 < C2) (hC : C1 + C2 = 1) :
    Fraction (Kawahara_narrow x rhol rhog C1 C2) := by
  have h0 := slipVoid_pos one_pos h; have h1 := slipVoid_lt one_pos h
  unfold Kawahara_narrow; rw [homogeneous_eval h]
  generalize slipVoid 1 x rhol rhog = a at *
  have hs : 0 < √a := sqrt_pos.mpr h0
  have hs1 : √a < 1 := (sqrt_lt' one_pos).mpr (by linarith)
  have hd : 0 < 1 - C2 * √a := by nlinarith
  have h0' := h0.le
  have hd' := hd.ne'
  py_eval []
  exact ⟨_, rfl, by positivity, by rw [div_lt_one hd]; nlinarith⟩

theorem C70_Kawahara {D : ℝ} (h : TwoPhase x rhol rhog) : Fraction (Kawahara x rhol rhog D) := by
  unfold Kawahara
  split_ifs
  · exact (C70_Armand h).2.fraction
  · exact Kawahara_narrow_fraction h (by norm_num) (by norm_num) (by norm_num)
  · exact Kawahara_narrow_fraction h (by norm_num) (by norm_num) (by norm_num)

/-! ### Lockhart–Martinelli based correlations -/

theorem Xtt_pos {mul mug : ℝ} (h : TwoPhase x rhol rhog) (hl' : 0 < mul) (hg' : 0 < mug) (a b c : ℝ) (n : Option ℝ) :
    ∃ X, Lockhart_Martinelli_Xtt x rhol rhog mul mug a b c n = .ok X ∧ 0 < X := by
  obtain ⟨x0, x1, hg, _⟩ := id h; have hl := h.l0
  have h1' : 0 < 1 - x := by linarith
  unfold Lockhart_Martinelli_Xtt
  py_eval []
  exact ⟨_, rfl, by positivity⟩

/-- the turbulent-turbulent parameter with its documented default exponents -/
theorem Xtt_eval {mul mug : ℝ} (h : TwoPhase x rhol rhog) (hl' : 0 < mul) (hg' : 0 < mug) :
    Lockhart_Martinelli_Xtt x rhol rhog mul mug = .ok (((1 - x) / x) ^ (0.9 : ℝ) * (rhog / rhol) ^ (0.5 : ℝ) * (mul / mug) ^ (0.1 : ℝ)) := by
  obtain ⟨x0, x1, hg, _⟩ := id h; have hl := h.l0
  have h1' : 0 < 1 - x := by linarith
  unfold Lockhart_Martinelli_Xtt
  py_eval []

theorem C70_Baroczy {mul mug : ℝ} (h : TwoPhase x rhol rhog) (hl' : 0 < mul) (hg' : 0 < mug) : Fraction (Baroczy x rhol rhog mul mug) := by
  unfold Baroczy
  obtain ⟨X, e, hX⟩ := Xtt_pos h hl' hg' 0.74 0.65 0.13 none
  rw [e]; py_eval []
  exact ⟨_, rfl, one_div_fraction hX⟩

/-- C70: Graham's correlation, 0 in its low-Froude branch -/
theorem C70_Graham {mul mug m D g : ℝ} (h : TwoPhase x rhol rhog) (hm : 0 < m) (hD : 0 < D) (hG : 0 < g) :
    ∃ a, Graham x rhol rhog mul mug m D g = .ok a ∧ 0 ≤ a ∧ a < 1 := by
  obtain ⟨x0, x1, hg, _⟩ := id h; have hl := h.l0
  have h1' : 0 < 1 - x := by linarith
  have hp := pi_pos
  unfold Graham
  have hq : 0 ≤ m / (0.25 * π * D * D) * (m / (0.25 * π * D * D)) * x * x * x / ((1 - x) * rhog * rhog * g * D) := by positivity
  py_eval []
  generalize √(m / (0.25 * π * D * D) * (m / (0.25 * π * D * D)) * x * x * x / ((1 - x) * rhog * rhog * g * D)) = F
  split_ifs with hF
  · exact ⟨0, rfl, le_rfl, one_pos⟩
  · refine ⟨_, rfl, ?_, by linarith [exp_pos (-1 - 0.3 * log F - 0.0328 * log F * log F)]⟩
    have : exp (-1 - 0.3 * log F - 0.0328 * log F * log F) ≤ 1 := exp_le_one_iff.mpr (by nlinarith [sq_nonneg (log F + 4.573)])
    linarith

theorem C70_Yashar {mul mug m D g : ℝ} (h : TwoPhase x rhol rhog) (hl' : 0 < mul) (hg' : 0 < mug) (hm : 0 < m) (hD : 0 < D) (hG : 0 < g) :
    Fraction (Yashar x rhol rhog mul mug m D g) := by
  obtain ⟨X, e, hX⟩ := Xtt_pos h hl' hg' 0.9 0.5 0.1 none
  obtain ⟨x0, x1, hg, _⟩ := id h; have hl := h.l0
  have h1' : 0 < 1 - x := by linarith
  have hp := pi_pos
  unfold Yashar
  rw [e]
  have hq : 0 < m / (0.25 * π * D * D) * (m / (0.25 * π * D * D)) * x * x * x / ((1 - x) * rhog * rhog * g * D) := by positivity
  have hq' := hq.le
  have hs := sqrt_pos.mpr hq
  py_eval []
  refine ⟨_, rfl, by positivity, rpow_lt_one_of_one_lt_of_neg ?_ (by norm_num)⟩
  have : 0 < 1 / √(m / (0.25 * π * D * D) * (m / (0.25 * π * D * D)) * x * x * x / ((1 - x) * rhog * rhog * g * D)) := by positivity
  linarith

theorem C70_Huq_Loth (h : TwoPhase x rhol rhog) : ∃ a, Huq_Loth x rhol rhog = .ok a ∧ x ≤ a ∧ a < 1 := by
  have hr := ratio_one_le h
  obtain ⟨x0, x1, hg, _⟩ := id h; have hl := h.l0
  have h1' : 0 < 1 - x := by linarith
  have hge : 1 ≤ 1 + 2 * (2 * x * (1 - x)) * (rhol / rhog - 1) := by
    have : 0 ≤ 2 * (2 * x * (1 - x)) * (rhol / rhog - 1) := mul_nonneg (by positivity) (by linarith)
    linarith
  have hs := one_le_sqrt.mpr hge
  have hd : 0 < 1 - 2 * x + √(1 + 2 * (2 * x * (1 - x)) * (rhol / rhog - 1)) := by linarith
  have hge' : 0 ≤ 1 + 2 * (2 * x * (1 - x)) * (rhol / rhog - 1) := by linarith
  have hd' := hd.ne'
  unfold Huq_Loth
  py_eval []
  refine ⟨_, rfl, ?_, ?_⟩
  · rw [le_sub_comm, div_le_iff₀ hd]; nlinarith
  · have : 0 < 2 * (1 - x) * (1 - x) / (1 - 2 * x + √(1 + 2 * (2 * x * (1 - x)) * (rhol / rhog - 1))) := by positivity
    linarith

/-! ### Drift flux correlations -/

/-- a drift flux model with distribution parameter at least 1 stays below the homogeneous value -/
theorem drift_below {C0 w : ℝ} (h : TwoPhase x rhol rhog) (hC : 1 ≤ C0) (hw : 0 ≤ w) {r : Py ℝ}
    (e : r = .ok (x / (rhog * (C0 * (x / rhog + (1 - x) / rhol) + w)))) : Below x rhol rhog r := by
  obtain ⟨x0, x1, hg, _⟩ := id h; have hl := h.l0
  have h1' : 0 < 1 - x := by linarith
  have hd : 0 < C0 * (x / rhog + (1 - x) / rhol) + w := by positivity
  have hs : 0 < (1 - x) / rhol := by positivity
  have hx : 0 < x / rhog := by positivity
  refine ⟨_, e, by positivity, ?_, ?_⟩
  · rw [← div_div, div_lt_one hd]; nlinarith
  · rw [← div_div]; unfold slipVoid; rw [mul_one]
    refine div_le_div_of_nonneg_left hx.le (by positivity) ?_
    nlinarith

theorem C70_Steiner {sigma m D g : ℝ} (h : TwoPhase x rhol rhog) (hs : 0 < sigma) (hm : 0 < m) (hD : 0 < D) (hG : 0 < g) :
    Below x rhol rhog (Steiner x rhol rhog sigma m D g) := by
  have h' := h
  obtain ⟨x0, x1, hg, hgl⟩ := h; have hl := h'.l0
  have h1' : 0 < 1 - x := by linarith
  have hp := pi_pos
  have hdl : 0 ≤ rhol - rhog := by linarith
  have hl'' := hl.le
  unfold Steiner
  py_eval []
  exact drift_below h' (by linarith) (by positivity) rfl

theorem C70_Rouhani_1 {sigma m D g : ℝ} (h : TwoPhase x rhol rhog) (hs : 0 < sigma) (hm : 0 < m) (hD : 0 < D) (hG : 0 < g) :
    Below x rhol rhog (Rouhani_1 x rhol rhog sigma m D g) := by
  have h' := h
  obtain ⟨x0, x1, hg, hgl⟩ := h; have hl := h'.l0
  have h1' : 0 < 1 - x := by linarith
  have hp := pi_pos
  have hdl : 0 ≤ rhol - rhog := by linarith
  have hl'' := hl.le
  unfold Rouhani_1
  py_eval []
  exact drift_below h' (by linarith) (by positivity) rfl

theorem C70_Rouhani_2 {sigma m D g : ℝ} (h : TwoPhase x rhol rhog) (hs : 0 < sigma) (hm : 0 < m) (hD : 0 < D) (hG : 0 < g) :
    Below x rhol rhog (Rouhani_2 x rhol rhog sigma m D g) := by
  have h' := h
  obtain ⟨x0, x1, hg, hgl⟩ := h; have hl := h'.l0
  have h1' : 0 < 1 - x := by linarith
  have hp := pi_pos
  have hdl : 0 ≤ rhol - rhog := by linarith
  have hl'' := hl.le
  unfold Rouhani_2
  py_eval []
  refine drift_below h' ?_ (by positivity) rfl
  exact le_add_of_nonneg_right (by positivity)

theorem C70_Nicklin_Wilkes_Davidson {m D g : ℝ} (h : TwoPhase x rhol rhog) (hm : 0 < m) (hD : 0 < D) (hG : 0 < g) :
    Below x rhol rhog (Nicklin_Wilkes_Davidson x rhol rhog m D g) := by
  have h' := h
  obtain ⟨x0, x1, hg, hgl⟩ := h; have hl := h'.l0
  have h1' : 0 < 1 - x := by linarith
  have hp := pi_pos
  unfold Nicklin_Wilkes_Davidson
  py_eval []
  exact drift_below h' (by norm_num) (by positivity) rfl

theorem C70_Gregory_Scott (h : TwoPhase x rhol rhog) : Below x rhol rhog (Gregory_Scott x rhol rhog) := by
  have h' := h
  obtain ⟨x0, x1, hg, hgl⟩ := h; have hl := h'.l0
  have h1' : 0 < 1 - x := by linarith
  unfold Gregory_Scott
  py_eval []
  exact drift_below (C0 := 1.19) (w := 0) h' (by norm_num) le_rfl (by rw [add_zero])

theorem C70_Dix {sigma m D g : ℝ} (h : TwoPhase x rhol rhog) (hs : 0 < sigma) (hm : 0 < m) (hD : 0 < D) (hG : 0 < g) :
    Fraction (Dix x rhol rhog sigma m D g) := by
  have h' := h
  obtain ⟨x0, x1, hg, hgl⟩ := h; have hl := h'.l0
  have h1' : 0 < 1 - x := by linarith
  have hp := pi_pos
  have hdl : 0 ≤ rhol - rhog := by linarith
  unfold Dix
  py_eval []
  have hb := rpow_pos_of_pos (show 0 < m * (1 - x) / (rhol * (0.25 * π * D * D)) / (m * x / (rhog * (0.25 * π * D * D))) by positivity) ((rhog / rhol) ^ (0.1 : ℝ))
  generalize (m * (1 - x) / (rhol * (0.25 * π * D * D)) / (m * x / (rhog * (0.25 * π * D * D)))) ^ ((rhog / rhol) ^ (0.1 : ℝ)) = b at *
  have e : m * x / (rhog * (0.25 * π * D * D)) / (m * (1 - x) / (rhol * (0.25 * π * D * D)) + m * x / (rhog * (0.25 * π * D * D))) * (1 + b) * (x / rhog + (1 - x) / rhol) = x / rhog * (1 + b) := by
    field_simp
    ring
  rw [e]
  have hw : 0 ≤ 2.9 * √(√(g * sigma * (rhol - rhog) / (rhol * rhol))) / (m / (0.25 * π * D * D)) := by positivity
  generalize 2.9 * √(√(g * sigma * (rhol - rhog) / (rhol * rhol))) / (m / (0.25 * π * D * D)) = w at *
  have hx : 0 < x / rhog := by positivity
  refine ⟨_, rfl, by positivity, ?_⟩
  rw [← div_div, div_lt_one (by positivity)]
  nlinarith

/-- C70: Sun, Duffey and Peng, below the critical pressure or without one -/
theorem C70_Sun_Duffey_Peng {sigma m D P g : ℝ} {Pc : Option ℝ} (h : TwoPhase x rhol rhog) (hs : 0 < sigma) (hm : 0 < m) (hD : 0 < D) (hG : 0 < g)
    (hP : 0 < P) (hPc : ∀ p ∈ Pc, P ≤ p) : Below x rhol rhog (Sun_Duffey_Peng x rhol rhog sigma m D P Pc g) := by
  have h' := h
  obtain ⟨x0, x1, hg, hgl⟩ := h; have hl := h'.l0
  have h1' : 0 < 1 - x := by linarith
  have hp := pi_pos
  have hdl : 0 ≤ rhol - rhog := by linarith
  unfold Sun_Duffey_Peng
  have key : ∃ Pr, reducedPressure P Pc = .ok Pr ∧ 0 < Pr ∧ Pr ≤ 1 := by
    cases Pc with
    | none => exact ⟨0.5, rfl, by norm_num, by norm_num⟩
    | some p =>
      have := hPc p rfl
      have hp0 : 0 < p := by linarith
      exact ⟨P / p, pdiv_ok hp0.ne', by positivity, by rw [div_le_one hp0]; exact this⟩
  obtain ⟨Pr, e, p0, p1⟩ := key
  rw [e]
  py_eval []
  refine drift_below h' ?_ (by positivity) rfl
  rw [le_div_iff₀ (by positivity)]; linarith

theorem C70_Xu_Fang_voidage {m D g : ℝ} (h : TwoPhase x rhol rhog) (hm : 0 < m) (hD : 0 < D) (hG : 0 < g) :
    Below x rhol rhog (Xu_Fang_voidage x rhol rhog m D g) := by
  have h' := h
  have h0 := slipVoid_pos one_pos h
  have hh := homogeneous_eval h
  obtain ⟨x0, x1, hg, hgl⟩ := h; have hl := h'.l0
  have h1' : 0 < 1 - x := by linarith
  have hp := pi_pos
  unfold Xu_Fang_voidage
  rw [hh]
  py_eval []
  have hF := rpow_pos_of_pos (show 0 < m / (0.25 * π * D * D) * (m / (0.25 * π * D * D)) / (g * D * rhol * rhol) by positivity) (-0.2)
  have ha := rpow_pos_of_pos h0 3.5
  refine slip_below (S := 1 + 2 * (m / (0.25 * π * D * D) * (m / (0.25 * π * D * D)) / (g * D * rhol * rhol)) ^ (-0.2 : ℝ) * slipVoid 1 x rhol rhog ^ (3.5 : ℝ)) (le_add_of_nonneg_right (by positivity)) h' ?_
  generalize slipVoid 1 x rhol rhog ^ (3.5 : ℝ) = u at *
  rw [slipVoid_eq (by positivity) h']
  exact ok_congr (by congr 1; ring)

theorem C70_Woldesemayat_Ghajar {sigma m D angle g : ℝ} {P : Option ℝ} (h : TwoPhase x rhol rhog) (hs : 0 < sigma) (hm : 0 < m) (hD : 0 < D)
    (hG : 0 < g) (hP : ∀ p ∈ P, 0 < p) : Fraction (Woldesemayat_Ghajar x rhol rhog sigma m D P angle g) := by
  have h' := h
  obtain ⟨x0, x1, hg, hgl⟩ := h; have hl := h'.l0
  have h1' : 0 < 1 - x := by linarith
  have hp := pi_pos
  have hdl : 0 ≤ rhol - rhog := by linarith
  have hc : 0 ≤ 1 + cos (angle * (π / 180)) := by linarith [neg_one_le_cos (angle * (π / 180))]
  have hsn : 0 ≤ 1.22 + 1.22 * sin (angle * (π / 180)) := by linarith [neg_one_le_sin (angle * (π / 180))]
  have hPp : 0 < P.getD 101325 := by
    cases P with
    | none => norm_num
    | some p => exact hP p rfl
  unfold Woldesemayat_Ghajar
  have hvg : 0 < m * x / (rhog * (0.25 * π * D * D)) := by positivity
  py_eval []
  rw [ppow_ok' hsn (by positivity)]
  generalize hv : m * x / (rhog * (0.25 * π * D * D)) = v at *
  have hb : 0 < (m * (1 - x) / (rhol * (0.25 * π * D * D)) / v) ^ ((rhog / rhol) ^ (0.1 : ℝ)) := by positivity
  have hw : 0 ≤ 2.9 * √(√(g * D * sigma * (1 + cos (angle * (π / 180))) * (rhol - rhog) / (rhol * rhol))) * (1.22 + 1.22 * sin (angle * (π / 180))) ^ (101325 / P.getD 101325) := by positivity
  have hd : 0 < v * (1 + (m * (1 - x) / (rhol * (0.25 * π * D * D)) / v) ^ ((rhog / rhol) ^ (0.1 : ℝ))) + 2.9 * √(√(g * D * sigma * (1 + cos (angle * (π / 180))) * (rhol - rhog) / (rhol * rhol))) * (1.22 + 1.22 * sin (angle * (π / 180))) ^ (101325 / P.getD 101325) := by positivity
  have hd' := hd.ne'
  py_eval []
  refine ⟨_, rfl, by positivity, ?_⟩
  rw [div_lt_one hd]; nlinarith

/-! ### Correlations that leave [0,1] -/

/-- C70: Domanski and Didion's fit is a fraction while the Lockhart–Martinelli parameter is below `e^5.24 ≈ 188` … -/
theorem C70_Domanski_Didion {mul mug : ℝ} (h : TwoPhase x rhol rhog) (hl' : 0 < mul) (hg' : 0 < mug)
    (hX : ((1 - x) / x) ^ (0.9 : ℝ) * (rhog / rhol) ^ (0.5 : ℝ) * (mul / mug) ^ (0.1 : ℝ) ≤ exp 5.24) :
    Fraction (Domanski_Didion x rhol rhog mul mug) := by
  have hp : 0 < ((1 - x) / x) ^ (0.9 : ℝ) * (rhog / rhol) ^ (0.5 : ℝ) * (mul / mug) ^ (0.1 : ℝ) := by
    have := h.l0; have := h.g0; have := h.x0; have h1' : 0 < 1 - x := by linarith [h.x1]
    positivity
  unfold Domanski_Didion; rw [Xtt_eval h hl' hg']
  generalize ((1 - x) / x) ^ (0.9 : ℝ) * (rhog / rhol) ^ (0.5 : ℝ) * (mul / mug) ^ (0.1 : ℝ) = X at *
  py_eval []
  split_ifs with hlt
  · have h8 : 0 < X ^ (0.8 : ℝ) := by positivity
    exact ⟨_, rfl, by positivity, rpow_lt_one_of_one_lt_of_neg (by linarith) (by norm_num)⟩
  · have h1 : log X ≤ 5.24 := (log_le_iff_le_exp hp).mpr hX
    have h2 : 0 ≤ log X := log_nonneg (by linarith)
    exact ⟨_, rfl, by linarith, by linarith⟩

/-- … and negative beyond: a flow of equal densities and viscosities with quality `1/(1+e^10)` -/
theorem C70_Domanski_Didion_negative : ∃ x a, TwoPhase x 1 1 ∧ Domanski_Didion x 1 1 1 1 = .ok a ∧ a < 0 := by
  have he := exp_pos 10
  have h : TwoPhase (1 / (1 + exp 10)) 1 1 := ⟨by positivity, by rw [div_lt_one (by positivity)]; linarith, by norm_num, le_rfl⟩
  have e1 : (1 - 1 / (1 + exp 10)) / (1 / (1 + exp 10)) = exp 10 := by field_simp; ring
  have e2 : (exp 10) ^ (0.9 : ℝ) = exp 9 := by rw [← exp_mul]; norm_num
  have hX : 10 ≤ exp 9 := by linarith [add_one_le_exp (9 : ℝ)]
  refine ⟨_, 0.823 - 0.157 * 9, h, ?_, by norm_num⟩
  unfold Domanski_Didion; rw [Xtt_eval h one_pos one_pos, e1, e2]
  have h9 : 0 < exp 9 := exp_pos 9
  simp only [div_one, one_rpow, mul_one, Py.ok_bind, not_lt.mpr hX, if_false]
  py_eval [log_exp]

/-- C70: Tandon, Varma and Gupta's fit never returns zero or less … -/
theorem C70_Tandon_Varma_Gupta {mul mug m D : ℝ} (h : TwoPhase x rhol rhog) (hl' : 0 < mul) (hg' : 0 < mug) (hm : 0 < m) (hD : 0 < D) :
    ∃ a, Tandon_Varma_Gupta x rhol rhog mul mug m D = .ok a ∧ 0 ≤ a := by
  obtain ⟨X, e, hX⟩ := Xtt_pos h hl' hg' 0.9 0.5 0.1 none
  have hp := pi_pos
  unfold Tandon_Varma_Gupta
  rw [e]
  have hF : 0 < 0.15 * (1 / X + 2.85 * X ^ (-0.476 : ℝ)) := by positivity
  have hR : 0 < m / (0.25 * π * D * D) * D / mul := by positivity
  py_eval []
  generalize 0.15 * (1 / X + 2.85 * X ^ (-0.476 : ℝ)) = F at *
  generalize m / (0.25 * π * D * D) * D / mul = R at *
  split_ifs
  · refine ⟨_, rfl, ?_⟩
    rw [show (-0.63 : ℝ) = -0.315 + -0.315 by norm_num, rpow_add hR]
    generalize R ^ (-0.315 : ℝ) = r
    rw [show 1 - 1.928 * r / F + 0.9293 * (r * r) / (F * F) = 1 - 1.928 * (r / F) + 0.9293 * (r / F) ^ 2 by field_simp]
    nlinarith [sq_nonneg (r / F - 1.0373)]
  · refine ⟨_, rfl, ?_⟩
    rw [show (-0.176 : ℝ) = -0.088 + -0.088 by norm_num, rpow_add hR]
    generalize R ^ (-0.088 : ℝ) = r
    rw [show 1 - 0.38 * r / F + 0.0361 * (r * r) / (F * F) = (1 - 0.19 * (r / F)) ^ 2 by field_simp; ring]
    positivity

/-- … but exceeds 1 at small Reynolds numbers -/
theorem C70_Tandon_Varma_Gupta_above_one : ∃ m a, 0 < m ∧ TwoPhase (1 / 2) 1 1 ∧ Tandon_Varma_Gupta (1 / 2) 1 1 1 1 m 1 = .ok a ∧ 1 < a := by
  have h : TwoPhase (1 / 2) 1 1 := ⟨by norm_num, by norm_num, by norm_num, le_rfl⟩
  have hp := pi_pos
  have he := exp_pos (-20)
  have hX : Lockhart_Martinelli_Xtt (1 / 2) 1 1 1 1 = .ok 1 := by rw [Xtt_eval h one_pos one_pos]; norm_num
  have e1 : 0.25 * π * exp (-20) / (0.25 * π * 1 * 1) * 1 / 1 = exp (-20) := by field_simp
  refine ⟨0.25 * π * exp (-20), ?_⟩
  have hlt : exp (-20) < 1125 := by have : exp (-20) < exp 0 := exp_lt_exp.mpr (by norm_num); rw [exp_zero] at this; linarith
  unfold Tandon_Varma_Gupta
  rw [hX]
  py_eval []
  rw [e1]
  simp only [hlt, if_true, one_rpow]
  refine ⟨_, by positivity, h, rfl, ?_⟩
  rw [← exp_mul, ← exp_mul, show (-20 * -0.63 : ℝ) = 6.3 + 6.3 by norm_num, show (-20 * -0.315 : ℝ) = 6.3 by norm_num, exp_add]
  have := add_one_le_exp (6.3 : ℝ)
  generalize exp 6.3 = r at *
  norm_num at *
  nlinarith

/-- C70: Harms' fit is a square … -/
theorem C70_Harms {mul mug m D : ℝ} (h : TwoPhase x rhol rhog) (hl' : 0 < mul) (hg' : 0 < mug) (hm : 0 < m) (hD : 0 < D) :
    ∃ a, Harms x rhol rhog mul mug m D = .ok a ∧ 0 ≤ a := by
  obtain ⟨X, e, hX⟩ := Xtt_pos h hl' hg' 0.9 0.5 0.1 none
  have hp := pi_pos
  have h1' : 0 < 1 - x := by linarith [h.x1]
  unfold Harms
  rw [e]
  have hR : 0 < m / (0.25 * π * D * D) * D * (1 - x) / mul := by positivity
  have hR' := hR.le
  py_eval []
  exact ⟨_, rfl, sq_nonneg _⟩

/-- … which exceeds 1 at small Reynolds numbers -/
theorem C70_Harms_above_one : ∃ m a, 0 < m ∧ TwoPhase (1 / 2) 1 1 ∧ Harms (1 / 2) 1 1 1 1 m 1 = .ok a ∧ 1 < a := by
  have h : TwoPhase (1 / 2) 1 1 := ⟨by norm_num, by norm_num, by norm_num, le_rfl⟩
  have hp := pi_pos
  have he := exp_pos (-8)
  have hX : Lockhart_Martinelli_Xtt (1 / 2) 1 1 1 1 = .ok 1 := by rw [Xtt_eval h one_pos one_pos]; norm_num
  have e1 : 0.5 * π * exp (-8) / (0.25 * π * 1 * 1) * 1 * (1 - 1 / 2) / 1 = exp (-8) := by field_simp; norm_num
  refine ⟨0.5 * π * exp (-8), ?_⟩
  unfold Harms
  rw [hX]
  py_eval []
  rw [e1]
  have he' := he.le
  simp only [one_rpow]
  refine ⟨_, by positivity, h, rfl, ?_⟩
  rw [← exp_mul, show (-8 * -0.875 : ℝ) = 7 by norm_num]
  have h7 := add_one_le_exp (7 : ℝ)
  have hs : √(1.376 + 7.242 * 1) ≤ 3 := by rw [sqrt_le_left (by norm_num)]; norm_num
  have hs0 : 0 < √(1.376 + 7.242 * 1 : ℝ) := sqrt_pos.mpr (by norm_num)
  have hq := sqrt_nonneg (exp (-8))
  have key : 2 < 10.06 * exp 7 * (1.74 + 0.104 * √(exp (-8))) * (1.74 + 0.104 * √(exp (-8))) * 1 / √(1.376 + 7.242 * 1) := by
    rw [lt_div_iff₀ hs0]
    generalize √(exp (-8)) = q at *
    have : 1.74 * 1.74 ≤ (1.74 + 0.104 * q) * (1.74 + 0.104 * q) := by nlinarith
    nlinarith
  nlinarith

/-- C70: Kopte, Newell and Chato's fit never exceeds 1 … -/
theorem C70_Kopte_Newell_Chato {m D g : ℝ} (h : TwoPhase x rhol rhog) (hm : 0 < m) (hD : 0 < D) (hG : 0 < g) :
    ∃ a, Kopte_Newell_Chato x rhol rhog m D g = .ok a ∧ a ≤ 1 := by
  have hh := homogeneous_eval h
  obtain ⟨x0, x1, hg, _⟩ := id h; have hl := h.l0
  have h1' : 0 < 1 - x := by linarith
  have hp := pi_pos
  unfold Kopte_Newell_Chato
  have hq : 0 < m / (0.25 * π * D * D) * (m / (0.25 * π * D * D)) * x * x * x / ((1 - x) * rhog * rhog * g * D) := by positivity
  have hq' := hq.le
  have hs := sqrt_pos.mpr hq
  py_eval []
  generalize √(m / (0.25 * π * D * D) * (m / (0.25 * π * D * D)) * x * x * x / ((1 - x) * rhog * rhog * g * D)) = F at *
  split_ifs with hF
  · exact ⟨_, hh, (slipVoid_lt one_pos h).le⟩
  · refine ⟨_, rfl, ?_⟩
    have h3 : 0.044 ≤ F := not_lt.mp hF
    have e3 : exp (-3.5) ≤ 0.044 := by
      have : (30 : ℝ) ≤ exp 3.5 := by
        rw [show (3.5 : ℝ) = 1 + 1 + 1 + 0.5 by norm_num, exp_add, exp_add, exp_add]
        have := exp_one_gt_d9; have := add_one_le_exp (0.5 : ℝ)
        have h2 : 7.38 ≤ exp 1 * exp 1 := by nlinarith
        have h3 : 20 ≤ exp 1 * exp 1 * exp 1 := by nlinarith
        nlinarith
      rw [exp_neg, inv_le_comm₀ (exp_pos _) (by norm_num)]
      norm_num; linarith
    have hL : -3.5 ≤ log F := (le_log_iff_exp_le hs).mpr (e3.trans h3)
    generalize log F = L at *
    have hc : -3.05 ≤ -1 - 0.342 * L - 0.0268 * L * L + 0.00597 * L * L * L := by
      nlinarith [mul_nonneg (show 0 ≤ L + 3.5 by linarith) (sq_nonneg (L - 6.115)), sq_nonneg (L - 6.115)]
    have he : 0.045 ≤ exp (-3.05) := by
      have : exp 3.05 ≤ 22 := by
        rw [show (3.05 : ℝ) = 1 + 1 + 1 + 0.05 by norm_num, exp_add, exp_add, exp_add]
        have h1 := exp_one_lt_d9
        have h0 := exp_pos 1
        have hs' : exp 0.05 ≤ 1.06 := by
          have := add_one_le_exp (-0.05 : ℝ)
          have h5 : exp (0.05 : ℝ) * exp (-0.05) = 1 := by rw [← exp_add]; norm_num
          nlinarith [exp_pos (0.05 : ℝ)]
        have h2 : exp 1 * exp 1 ≤ 7.39 := by nlinarith
        have h3 : exp 1 * exp 1 * exp 1 ≤ 20.1 := by nlinarith
        have : 0 < exp 1 * exp 1 * exp 1 := by positivity
        nlinarith
      rw [exp_neg, le_inv_comm₀ (by norm_num) (exp_pos _)]
      norm_num; linarith
    have := exp_le_exp.mpr hc
    linarith

/-- … but is negative at large Froude rates -/
theorem C70_Kopte_Newell_Chato_negative : ∃ m a, 0 < m ∧ TwoPhase (1 / 2) 1 1 ∧ Kopte_Newell_Chato (1 / 2) 1 1 m 1 1 = .ok a ∧ a < 0 := by
  have h : TwoPhase (1 / 2) 1 1 := ⟨by norm_num, by norm_num, by norm_num, le_rfl⟩
  have hp := pi_pos
  have he := exp_pos 20
  have e1 : 0.5 * π * exp 20 / (0.25 * π * 1 * 1) * (0.5 * π * exp 20 / (0.25 * π * 1 * 1)) * (1 / 2) * (1 / 2) * (1 / 2) / ((1 - 1 / 2) * 1 * 1 * 1 * 1) = exp 20 ^ 2 := by
    field_simp; norm_num
  refine ⟨0.5 * π * exp 20, ?_⟩
  unfold Kopte_Newell_Chato
  have hnl : ¬ exp 20 < 0.044 := by have := add_one_le_exp (20 : ℝ); norm_num; linarith
  py_eval []
  rw [e1]
  have he2 : (0 : ℝ) ≤ exp 20 ^ 2 := by positivity
  py_eval [sqrt_sq he.le, hnl, if_false, log_exp]
  refine ⟨_, by positivity, h, rfl, ?_⟩
  have := add_one_le_exp (-1 - 0.342 * 20 - 0.0268 * 20 * 20 + 0.00597 * 20 * 20 * 20 : ℝ)
  norm_num at *
  linarith

/-- C70: above the critical pressure Sun, Duffey and Peng's fit exceeds 1 -/
theorem C70_Sun_Duffey_Peng_above_one : TwoPhase (1 / 2) 1 1 ∧ Sun_Duffey_Peng (1 / 2) 1 1 1 1 1 10 (some 1) 1 = .ok 1.31 := by
  have hp := pi_pos
  refine ⟨⟨by norm_num, by norm_num, by norm_num, le_rfl⟩, ?_⟩
  unfold Sun_Duffey_Peng reducedPressure
  have : (0 : ℝ) ≤ 1 * 1 * (1 - 1) / (1 * 1) := by norm_num
  py_eval []
  simp
  norm_num

/-- the hypotheses are met by steam and water at atmospheric pressure -/
example : TwoPhase 0.4 958 0.597 := ⟨by norm_num, by norm_num, by norm_num, by norm_num⟩

end Verif.Voidage
