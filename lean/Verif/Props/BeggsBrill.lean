import Verif.Model.TwoPhaseRegime
import Verif.Lemmas.TwoPhase
import Mathlib.Analysis.Complex.ExponentialBounds

/-! C105: the Beggs-Brill pressure drop. -/

open Real

noncomputable section

namespace Verif.TwoPhase

open Spec.TwoPhase

variable {lam Fr L1 L2 L3 L4 angle LV : ℝ}

/-! ### regime -/

/-- C105: the regime decision always succeeds (its ValueError is unreachable) and is the documented map: 0 segregated, 1 transition, 2 intermittent, 3 distributed. -/
theorem C105_regime (lam Fr L1 L2 L3 L4 : ℝ) : Beggs_Brill_regime lam Fr L1 L2 L3 L4 = .ok (
    if lam < 0.01 then (if Fr < L1 then 0 else 3)
    else if Fr < L2 then 0
    else if Fr ≤ L3 then 1
    else if lam < 0.4 then (if Fr ≤ L1 then 2 else 3)
    else if Fr ≤ L4 then 2 else 3) := by
  unfold Beggs_Brill_regime
  by_cases a : lam < 0.01
  · have a' : ¬ (0.01 : ℝ) ≤ lam := not_le.2 a
    have a4 : lam < 0.4 := by linarith
    by_cases b : Fr < L1
    · simp only [a, b, and_self, true_or, if_true]
    · simp only [a, a', b, a4, not_le.2 a4, not_lt.1 b, ge_iff_le, and_false, false_and, or_self, if_false, and_self, true_or, if_true]
  · have a' := not_lt.1 a
    by_cases b : Fr < L2
    · simp only [a, a', b, ge_iff_le, false_and, and_self, or_true, if_true, if_false]
    · by_cases c : Fr ≤ L3
      · simp only [a, a', b, c, not_lt.1 b, ge_iff_le, false_and, and_false, and_self, or_self, if_true, if_false]
      · by_cases d : lam < 0.4
        · by_cases e : Fr ≤ L1
          · simp only [a, a', b, c, d, e, not_lt.1 b, not_le.1 c, ge_iff_le, false_and, and_false, and_self, or_self, if_true, if_false, true_or]
          · simp only [a, a', b, c, d, e, not_lt.1 b, not_le.1 c, not_le.2 d, (not_le.1 e).le, ge_iff_le, false_and, and_false, and_self, or_self, if_true, if_false, true_or]
        · by_cases e : Fr ≤ L4
          · simp only [a, a', b, c, d, e, not_lt.1 b, not_le.1 c, not_lt.1 d, ge_iff_le, false_and, and_false, and_self, or_self, if_true, if_false, or_true]
          · simp only [a, a', b, c, d, e, not_lt.1 b, not_le.1 c, not_lt.1 d, not_le.1 e, gt_iff_lt, ge_iff_le, false_and, and_false, and_self, or_self, if_true, if_false, or_true]

/-- The boundaries of the transition regime, as functions of the no-slip holdup. -/
def bound2 (lam : ℝ) : ℝ := 0.0009252 * lam ^ (-2.4684 : ℝ)
def bound3 (lam : ℝ) : ℝ := 0.1 * lam ^ (-1.4516 : ℝ)

/-- The transition band is never empty where it is used. -/
theorem bound_lt (h : 0.01 ≤ lam) : bound2 lam < bound3 lam := by
  have l0 : 0 < lam := by linarith
  unfold bound2 bound3
  have e : lam ^ (-1.4516 : ℝ) = lam ^ (-2.4684 : ℝ) * lam ^ (1.0168 : ℝ) := by rw [← Real.rpow_add l0]; norm_num
  have p : 0 < lam ^ (-2.4684 : ℝ) := by positivity
  have k : (0.009252 : ℝ) < lam ^ (1.0168 : ℝ) := by
    have h1 : (0.01 : ℝ) ^ (1.0168 : ℝ) ≤ lam ^ (1.0168 : ℝ) := Real.rpow_le_rpow (by norm_num) h (by norm_num)
    have h2 : (0.01 : ℝ) ^ (121 / 119 : ℝ) ≤ 0.01 ^ (1.0168 : ℝ) := Real.rpow_le_rpow_of_exponent_ge (by norm_num) (by norm_num) (by norm_num)
    have h3 : (0.009252 : ℝ) < 0.01 ^ (121 / 119 : ℝ) := by
      rw [div_eq_mul_inv, Real.rpow_mul (by norm_num), Real.lt_rpow_inv_iff_of_pos (by norm_num) (by positivity) (by norm_num)]
      norm_num
    linarith
  rw [e]
  nlinarith

/-! ### liquid holdup -/

/-- Published horizontal coefficients of regime 0, 2 and 3. -/
def coefA (r : ℕ) : ℝ := if r = 0 then 0.98 else if r = 2 then 0.845 else 1.065
def coefB (r : ℕ) : ℝ := if r = 0 then 0.4846 else if r = 2 then 0.5351 else 0.5824
def coefC (r : ℕ) : ℝ := if r = 0 then 0.0868 else if r = 2 then 0.0173 else 0.0609

/-- Horizontal holdup: the correlation `a λ^b / Fr^c`, but not less than the no-slip holdup. -/
def level (r : ℕ) (lam Fr : ℝ) : ℝ := max lam (coefA r * lam ^ coefB r / Fr ^ coefC r)

/-- The logarithm's argument in the inclination correction. -/
def inclArg (r : ℕ) (lam Fr angle LV : ℝ) : ℝ :=
  if 0 < angle then (if r = 0 then 0.011 * LV ^ (3.539 : ℝ) / (lam ^ (3.768 : ℝ) * Fr ^ (1.614 : ℝ)) else 2.96 * lam ^ (0.305 : ℝ) * Fr ^ (0.0978 : ℝ) / LV ^ (0.4473 : ℝ))
  else 4.70 * LV ^ (0.1244 : ℝ) / (lam ^ (0.3692 : ℝ) * Fr ^ (0.5056 : ℝ))

/-- The inclination correction `1 + C (sin 1.8θ - sin³ 1.8θ/3)` with `C` not negative; none for a horizontal pipe nor for distributed flow uphill. -/
def inclination (r : ℕ) (lam Fr angle LV : ℝ) : ℝ :=
  if angle = 0 ∨ (0 < angle ∧ r = 3) then 1
  else 1 + max 0 ((1 - lam) * log (inclArg r lam Fr angle LV)) * (sin (1.8 * angle) - sin (1.8 * angle) ^ 3 / 3)

/-- C105: the liquid holdup in a segregated (0), intermittent (2) or distributed (3) regime. -/
theorem C105_holdup {r : ℕ} (hr : r = 0 ∨ r = 2 ∨ r = 3) (hl : 0 < lam) (hF : 0 < Fr) (hL : 0 < LV) :
    Beggs_Brill_holdup r lam Fr angle LV = .ok (level r lam Fr * inclination r lam Fr angle LV) := by
  have abc : Beggs_Brill_abc r = .ok (coefA r, coefB r, coefC r) := by
    rcases hr with rfl | rfl | rfl <;> simp [Beggs_Brill_abc, coefA, coefB, coefC]
  obtain ⟨d, e, f, k, hd, hk⟩ : ∃ d e f k : ℝ, 0 < d ∧ Beggs_Brill_defh r angle = (d, e, f, k) := by
    unfold Beggs_Brill_defh; split_ifs <;> exact ⟨_, _, _, _, by norm_num, rfl⟩
  have harg : d * lam ^ e * LV ^ f * Fr ^ k = inclArg r lam Fr angle LV := by
    unfold Beggs_Brill_defh at hk
    unfold inclArg
    by_cases h1 : 0 < angle
    · by_cases h2 : r = 0
      · rw [if_pos h1, if_pos h2] at hk ⊢
        simp only [Prod.mk.injEq] at hk
        obtain ⟨rfl, rfl, rfl, rfl⟩ := hk
        rw [Real.rpow_neg hl.le, Real.rpow_neg hF.le]; field_simp
      · rw [if_pos h1, if_neg h2] at hk ⊢
        simp only [Prod.mk.injEq] at hk
        obtain ⟨rfl, rfl, rfl, rfl⟩ := hk
        rw [Real.rpow_neg hL.le]; field_simp
    · rw [if_neg h1] at hk ⊢
      simp only [Prod.mk.injEq] at hk
      obtain ⟨rfl, rfl, rfl, rfl⟩ := hk
      rw [Real.rpow_neg hl.le, Real.rpow_neg hF.le]; field_simp
  have argpos : 0 < d * lam ^ e * LV ^ f * Fr ^ k := by positivity
  unfold Beggs_Brill_holdup
  rw [abc, Py.ok_bind, ppow_ok hl, Py.ok_bind, ppow_ok hF, Py.ok_bind]
  extract_lets H0 H k' x1
  have hk' : k' = (d, e, f, k) := hk
  rw [hk']
  rw [ppow_ok hl, Py.ok_bind, ppow_ok hL, Py.ok_bind, ppow_ok hF, Py.ok_bind, plog_ok argpos, Py.ok_bind, harg]
  extract_lets C0 C P0 P
  have hH : H = level r lam Fr := by
    simp only [H, H0, level, Real.rpow_neg hF.le, ← div_eq_mul_inv]
    by_cases h : coefA r * lam ^ coefB r / Fr ^ coefC r < lam
    · rw [if_pos h, max_eq_left h.le]
    · rw [if_neg h, max_eq_right (not_lt.1 h)]
  have hC : C = max 0 ((1 - lam) * log (inclArg r lam Fr angle LV)) := by
    simp only [C, C0]
    by_cases h : (1 - lam) * log (inclArg r lam Fr angle LV) < 0
    · rw [if_pos h, max_eq_left h.le]
    · rw [if_neg h, max_eq_right (not_lt.1 h)]
  have hP : P = inclination r lam Fr angle LV := by
    simp only [P, P0, inclination, hC, x1, gt_iff_lt]
    by_cases h : angle = 0 ∨ (0 < angle ∧ r = 3)
    · rw [if_pos h.symm, if_pos h]
    · rw [if_neg (fun q => h q.symm), if_neg h]; ring
  rw [hH, hP]
  rfl

theorem shape_nonneg {s : ℝ} (h0 : 0 ≤ s) (h1 : s ≤ 1) : 0 ≤ s - s ^ 3 / 3 := by
  have : s ^ 3 ≤ s := by nlinarith [sq_nonneg s, mul_nonneg h0 (sub_nonneg.2 h1)]
  linarith

/-- C105: the holdup of a horizontal pipe is never below the no-slip holdup; between horizontal and vertically up the inclination only raises it, between horizontal and
vertically down it only lowers it. -/
theorem C105_holdup_inclined {r : ℕ} (hl : 0 < lam) :
    lam ≤ level r lam Fr ∧ inclination r lam Fr 0 LV = 1 ∧
    (0 < angle → angle ≤ π / 2 → level r lam Fr ≤ level r lam Fr * inclination r lam Fr angle LV) ∧
    (angle < 0 → -(π / 2) ≤ angle → level r lam Fr * inclination r lam Fr angle LV ≤ level r lam Fr) := by
  have h0 : 0 < level r lam Fr := lt_of_lt_of_le hl (le_max_left _ _)
  refine ⟨le_max_left _ _, by simp [inclination], fun a b => ?_, fun a b => ?_⟩
  · refine le_mul_of_one_le_right h0.le ?_
    unfold inclination
    by_cases h : angle = 0 ∨ (0 < angle ∧ r = 3)
    · rw [if_pos h]
    · rw [if_neg h]
      have : 0 ≤ sin (1.8 * angle) := sin_nonneg_of_nonneg_of_le_pi (by positivity) (by linarith [pi_pos])
      have := mul_nonneg (le_max_left 0 ((1 - lam) * log (inclArg r lam Fr angle LV))) (shape_nonneg this (sin_le_one _))
      linarith
  · refine mul_le_of_le_one_right h0.le ?_
    unfold inclination
    rw [if_neg (by rintro (h | h) <;> linarith [h])]
    have : sin (1.8 * angle) ≤ 0 := sin_nonpos_of_nonpos_of_neg_pi_le (by linarith) (by linarith [pi_pos])
    have := mul_nonneg (le_max_left 0 ((1 - lam) * log (inclArg r lam Fr angle LV)))
      (shape_nonneg (s := -sin (1.8 * angle)) (by linarith) (by linarith [neg_one_le_sin (1.8 * angle)]))
    nlinarith

/-- C105: in the transition regime the holdup lies between the segregated and the intermittent one and joins them continuously at the two boundaries. -/
theorem C105_transition (hl : 0.01 ≤ lam) (hF : 0 < Fr) (hL : 0 < LV) :
    ∃ h0 h2 h, Beggs_Brill_holdup 0 lam Fr angle LV = .ok h0 ∧ Beggs_Brill_holdup 2 lam Fr angle LV = .ok h2 ∧
      Beggs_Brill_Hl 1 lam Fr angle LV (bound2 lam) (bound3 lam) = .ok h ∧
      (bound2 lam ≤ Fr → Fr ≤ bound3 lam → min h0 h2 ≤ h ∧ h ≤ max h0 h2) ∧ (Fr = bound2 lam → h = h0) ∧ (Fr = bound3 lam → h = h2) := by
  have l0 : 0 < lam := by linarith
  have d : 0 < bound3 lam - bound2 lam := by linarith [bound_lt hl]
  have e0 := C105_holdup (r := 0) (angle := angle) (Or.inl rfl) l0 hF hL
  have e2 := C105_holdup (r := 2) (angle := angle) (Or.inr (Or.inl rfl)) l0 hF hL
  refine ⟨_, _, (bound3 lam - Fr) / (bound3 lam - bound2 lam) * (level 0 lam Fr * inclination 0 lam Fr angle LV) +
      (1 - (bound3 lam - Fr) / (bound3 lam - bound2 lam)) * (level 2 lam Fr * inclination 2 lam Fr angle LV), e0, e2, ?_, ?_, ?_, ?_⟩
  · unfold Beggs_Brill_Hl
    rw [if_neg (by simp), pdiv_ok d.ne', Py.ok_bind, e0, Py.ok_bind, e2, Py.ok_bind]; rfl
  · intro a b
    have A0 : 0 ≤ (bound3 lam - Fr) / (bound3 lam - bound2 lam) := div_nonneg (by linarith) d.le
    have A1 : (bound3 lam - Fr) / (bound3 lam - bound2 lam) ≤ 1 := by rw [div_le_one d]; linarith
    generalize (bound3 lam - Fr) / (bound3 lam - bound2 lam) = A at *
    generalize level 0 lam Fr * inclination 0 lam Fr angle LV = u
    generalize level 2 lam Fr * inclination 2 lam Fr angle LV = v
    constructor
    · nlinarith [min_le_left u v, min_le_right u v]
    · nlinarith [le_max_left u v, le_max_right u v]
  · rintro rfl
    rw [div_self d.ne']; ring
  · rintro rfl
    rw [sub_self, zero_div]; ring

/-- C105 (finding): steep downhill flow can be given a negative liquid holdup: 1 % liquid at Froude number 1, 50° down. -/
theorem C105_negative_holdup : (∀ L1 L4 : ℝ, Beggs_Brill_regime 0.01 1 L1 (bound2 0.01) (bound3 0.01) L4 = .ok 0) ∧
    ∃ h < 0, Beggs_Brill_holdup 0 0.01 1 (-50 * π / 180) 1 = .ok h := by
  constructor
  · intro L1 L4
    rw [C105_regime, if_neg (by norm_num), if_pos]
    unfold bound2
    have : (0.01 : ℝ) ^ (-2 : ℝ) ≤ 0.01 ^ (-2.4684 : ℝ) := Real.rpow_le_rpow_of_exponent_ge (by norm_num) (by norm_num) (by norm_num)
    have e : (0.01 : ℝ) ^ (-2 : ℝ) = 10000 := by rw [Real.rpow_neg (by norm_num)]; norm_num
    linarith
  · refine ⟨_, ?_, C105_holdup (Or.inl rfl) (by norm_num) (by norm_num) (by norm_num)⟩
    have hs : sin (1.8 * (-50 * π / 180)) = -1 := by
      rw [show (1.8 : ℝ) * (-50 * π / 180) = -(π / 2) by ring, sin_neg, sin_pi_div_two]
    have ha : ¬ (0 : ℝ) < -50 * π / 180 := by linarith [pi_pos]
    have ha' : ¬ (-50 * π / 180 : ℝ) = 0 := by linarith [pi_pos]
    have p : (0.01 : ℝ) ^ (0.3692 : ℝ) ≤ 0.01 ^ (1 / 4 : ℝ) := Real.rpow_le_rpow_of_exponent_ge (by norm_num) (by norm_num) (by norm_num)
    have q : (0.01 : ℝ) ^ (1 / 4 : ℝ) ≤ 0.4 := by
      have : (0.01 : ℝ) ^ (1 / 4 : ℝ) ≤ (0.4 ^ (4 : ℝ)) ^ (1 / 4 : ℝ) := Real.rpow_le_rpow (by norm_num) (by norm_num) (by norm_num)
      rwa [← Real.rpow_mul (by norm_num), show (4 : ℝ) * (1 / 4) = 1 by norm_num, Real.rpow_one] at this
    have big : (exp 1) ^ 2 ≤ inclArg 0 0.01 1 (-50 * π / 180) 1 := by
      unfold inclArg
      rw [if_neg ha, Real.one_rpow, Real.one_rpow, mul_one, mul_one, le_div_iff₀ (by positivity)]
      have := Real.exp_one_lt_three
      have : exp 1 ^ 2 ≤ 9 := by nlinarith [Real.exp_pos 1]
      nlinarith [Real.exp_pos 1]
    have hlog : 2 ≤ log (inclArg 0 0.01 1 (-50 * π / 180) 1) := by
      rw [Real.le_log_iff_exp_le (lt_of_lt_of_le (by positivity) big)]
      calc exp 2 = exp 1 ^ 2 := by rw [← Real.exp_nat_mul]; norm_num
        _ ≤ _ := big
    have h0 : (0 : ℝ) < level 0 0.01 1 := lt_of_lt_of_le (by norm_num) (le_max_left _ _)
    refine mul_neg_of_pos_of_neg h0 ?_
    unfold inclination
    rw [if_neg (by rintro (h | h) <;> [exact ha' h; exact ha h.1]), hs]
    have := le_max_right 0 ((1 - 0.01) * log (inclArg 0 0.01 1 (-50 * π / 180) 1))
    nlinarith

/-- C105 (finding): pure liquid at Froude number 1 is given a holdup of 1.065, more liquid than the pipe holds, at every inclination. -/
theorem C105_overfull (hL : 0 < LV) : (∀ L1 : ℝ, Beggs_Brill_regime 1 1 L1 (bound2 1) (bound3 1) 0.5 = .ok 3) ∧
    Beggs_Brill_Hl 3 1 1 angle LV L2 L3 = .ok 1.065 := by
  constructor
  · intro L1
    rw [C105_regime]
    norm_num [bound2, bound3]
  · unfold Beggs_Brill_Hl
    rw [if_pos (by norm_num), C105_holdup (Or.inr (Or.inr rfl)) one_pos one_pos hL]
    have : level 3 1 1 = 1.065 := by norm_num [level, coefA]
    rw [this]
    have : inclination 3 1 1 angle LV = 1 := by simp [inclination]
    rw [this, mul_one]

/-! ### the pressure drop -/

/-- Mixture velocity, no-slip liquid holdup, Froude number, no-slip density and viscosity, and liquid velocity number. -/
def mixV (m x rhol rhog D : ℝ) : ℝ := velocity (x * m) rhog D + velocity ((1 - x) * m) rhol D
def noslip (m x rhol rhog D : ℝ) : ℝ := velocity ((1 - x) * m) rhol D / mixV m x rhol rhog D
def mixFr (m x rhol rhog D grav : ℝ) : ℝ := mixV m x rhol rhog D ^ 2 / (grav * D)
def blend (lam a b : ℝ) : ℝ := a * lam + b * (1 - lam)
def velNumber (m x rhol sigma D grav : ℝ) : ℝ := velocity ((1 - x) * m) rhol D * (rhol / (grav * sigma)) ^ (1 / 4 : ℝ)
def bound1 (lam : ℝ) : ℝ := 316 * lam ^ (0.302 : ℝ)
def bound4 (lam : ℝ) : ℝ := 0.5 * lam ^ (-6.738 : ℝ)

/-- The drop without acceleration: static head of the mixture at the actual holdup plus friction of the no-slip mixture, its friction factor multiplied by `e^S`. -/
def beggsBrill (fd rhoS rhoN V grav θ S D L : ℝ) : ℝ := rhoS * grav * (L * sin θ) + fd * exp S * (L / D) * (rhoN * V ^ 2 / 2)

variable {ff : ℝ → ℝ → Py ℝ} {f : ℝ → ℝ} {m x rhol rhog mul mug sigma D roughness L grav : ℝ}

theorem quarter {a : ℝ} (h : 0 ≤ a) : √(√a) = a ^ (1 / 4 : ℝ) := by
  rw [Real.sqrt_eq_rpow, Real.sqrt_eq_rpow, ← Real.rpow_mul h]; norm_num

/-- C105: the pressure drop in terms of the regime, the holdup and the friction exponent; with acceleration it is divided by `1 - V_sg V ρ_s/P` (P defaulting to 1 atm). -/
theorem C105_form (h : Flow ff f m rhol rhog mul mug D roughness) (x0 : 0 ≤ x) (x1 : x < 1) (hs : 0 < sigma) (hg : 0 < grav) {lam Fr Hl S : ℝ} {r : ℕ} {deg : ℝ}
    (P : Option ℝ) (hlam : lam = noslip m x rhol rhog D) (hFr : Fr = mixFr m x rhol rhog D grav)
    (hr : Beggs_Brill_regime lam Fr (bound1 lam) (bound2 lam) (bound3 lam) (bound4 lam) = .ok r)
    (hH : Beggs_Brill_Hl r lam Fr (deg * π / 180) (velNumber m x rhol sigma D grav) (bound2 lam) (bound3 lam) = .ok Hl) (hH0 : Hl ≠ 0)
    (hS : Beggs_Brill_S (lam / Hl ^ 2) = .ok S) :
    let V := mixV m x rhol rhog D
    let dP := beggsBrill (f (blend lam rhol rhog * V * D / blend lam mul mug)) (blend Hl rhol rhog) (blend lam rhol rhog) V grav (deg * π / 180) S D L
    Beggs_Brill ff m x rhol rhog mul mug sigma P D (some deg) roughness L grav false = .ok dP ∧
    (P.getD 101325 ≠ 0 → 1 - velocity (x * m) rhog D * V * blend Hl rhol rhog / P.getD 101325 ≠ 0 →
      Beggs_Brill ff m x rhol rhog mul mug sigma P D (some deg) roughness L grav true =
        .ok (dP / (1 - velocity (x * m) rhog D * V * blend Hl rhol rhog / P.getD 101325))) ∧
    (deg = 0 → Beggs_Brill ff m x rhol rhog mul mug sigma P D none roughness L grav false = .ok dP) := by
  obtain ⟨m0, l0, g0, ml0, mg0, D0, val, pos⟩ := h
  have hy : 0 < 1 - x := by linarith
  have wl : 0 < (1 - x) * m := by positivity
  have vl := velocity_pos wl l0 D0
  have vg : 0 ≤ velocity (x * m) rhog D := by unfold velocity; have := pi_pos; positivity
  have V0 : 0 < mixV m x rhol rhog D := by unfold mixV; linarith
  have lam0 : 0 < lam := by rw [hlam, noslip]; positivity
  have lam1 : lam ≤ 1 := by rw [hlam, noslip, div_le_one V0, mixV]; linarith
  have A0 : 0 < 0.25 * π * D * D := by have := pi_pos; positivity
  have rn : 0 < blend lam rhol rhog := by
    unfold blend
    have := mul_pos l0 lam0
    have := mul_nonneg g0.le (sub_nonneg.2 lam1)
    linarith
  have mn : 0 < blend lam mul mug := by
    unfold blend
    have := mul_pos ml0 lam0
    have := mul_nonneg mg0.le (sub_nonneg.2 lam1)
    linarith
  have eg : pdiv (x * m) rhog >>= (fun q => pdiv q (0.25 * π * D * D)) = .ok (velocity (x * m) rhog D) := by
    rw [pdiv_ok g0.ne', Py.ok_bind, pdiv_ok A0.ne', velocity, area_eq, div_div]
  have vgE : x * m / rhog / (0.25 * π * D * D) = velocity (x * m) rhog D := by rw [velocity, area_eq, div_div]
  have vlE : (1 - x) * m / rhol / (0.25 * π * D * D) = velocity ((1 - x) * m) rhol D := by rw [velocity, area_eq, div_div]
  have core : ∀ (angle : Option ℝ) (acc : Bool), angle.getD 0 = deg →
      Beggs_Brill ff m x rhol rhog mul mug sigma P D angle roughness L grav acc =
        Beggs_Brill_total (grav * sin (deg * π / 180) * blend Hl rhol rhog * L)
          (f (blend lam rhol rhog * mixV m x rhol rhog D * D / blend lam mul mug) * exp S * L / D * 0.5 * blend lam rhol rhog * mixV m x rhol rhog D * mixV m x rhol rhog D)
          (velocity (x * m) rhog D) (mixV m x rhol rhog D) (blend Hl rhol rhog) P acc := by
    intro angle acc ha
    unfold Beggs_Brill
    rw [pdiv_ok g0.ne', Py.ok_bind, pdiv_ok l0.ne', Py.ok_bind]
    extract_lets A θ
    have vgA : x * m / rhog / A = velocity (x * m) rhog D := vgE
    have vlA : (1 - x) * m / rhol / A = velocity ((1 - x) * m) rhol D := vlE
    have A0' : A ≠ 0 := A0.ne'
    rw [pdiv_ok A0', Py.ok_bind, pdiv_ok A0', Py.ok_bind, vgA, vlA]
    extract_lets V
    have hV : V = mixV m x rhol rhog D := rfl
    clear_value V
    subst hV
    rw [pdiv_ok (by positivity), Py.ok_bind, pdiv_ok V0.ne', Py.ok_bind]
    have eL : velocity ((1 - x) * m) rhol D / mixV m x rhol rhog D = lam := hlam.symm
    have eF : mixV m x rhol rhog D * mixV m x rhol rhog D / (grav * D) = Fr := by rw [hFr, mixFr, sq]
    rw [eL, eF, ppow_ok lam0, Py.ok_bind]
    extract_lets B1 mm rm
    rw [ppow_ok lam0, Py.ok_bind]
    extract_lets B2
    rw [ppow_ok lam0, Py.ok_bind]
    extract_lets B3
    rw [ppow_ok lam0, Py.ok_bind]
    extract_lets B4
    have hr' : Beggs_Brill_regime lam Fr B1 B2 B3 B4 = .ok r := hr
    rw [hr', Py.ok_bind, pdiv_ok (by positivity), Py.ok_bind, psqrt_ok (by positivity), Py.ok_bind, psqrt_ok (by positivity), Py.ok_bind]
    extract_lets LV
    have hLV : LV = velNumber m x rhol sigma D grav := by simp only [LV, velNumber]; rw [quarter (by positivity)]
    have hθ : θ = deg * π / 180 := by simp only [θ, ha]; ring
    have hH' : Beggs_Brill_Hl r lam Fr θ LV B2 B3 = .ok Hl := by rw [hLV, hθ]; exact hH
    rw [hH', Py.ok_bind]
    extract_lets rs ele
    have hrs : rs = blend Hl rhol rhog := rfl
    have hmm : mm = blend lam mul mug := rfl
    have hrm : rm = blend lam rhol rhog := rfl
    rw [hrs, hmm, hrm, pdiv_ok mn.ne', Py.ok_bind]
    extract_lets Rem
    have hRem : Rem = blend lam rhol rhog * mixV m x rhol rhog D * D / blend lam mul mug := by simp only [Rem]; ring
    rw [pdiv_ok D0.ne', Py.ok_bind, hRem, val _ (by positivity), Py.ok_bind, pdiv_ok (mul_ne_zero hH0 hH0), Py.ok_bind, ← sq, hS, Py.ok_bind]
    extract_lets ftp
    rw [pdiv_ok D0.ne', Py.ok_bind]
    simp only [ele, ftp, hθ, hrs]
  extract_lets V dP
  have hdP : grav * sin (deg * π / 180) * blend Hl rhol rhog * L + f (blend lam rhol rhog * mixV m x rhol rhog D * D / blend lam mul mug) * exp S * L / D * 0.5 *
      blend lam rhol rhog * mixV m x rhol rhog D * mixV m x rhol rhog D = dP := by
    simp only [dP, V, beggsBrill]; ring
  refine ⟨?_, fun hP hne => ?_, fun h0 => ?_⟩
  · rw [core _ _ rfl]
    simp only [Beggs_Brill_total, Bool.false_eq_true, not_false_eq_true, if_true, Py.pure_eq, hdP]
  · rw [core _ _ rfl]
    simp only [Beggs_Brill_total, not_true_eq_false, if_false, pdiv_ok hP, Py.ok_bind]
    rw [pdiv_ok hne, hdP]
  · rw [core none _ h0.symm]
    simp only [Beggs_Brill_total, Bool.false_eq_true, not_false_eq_true, if_true, Py.pure_eq, hdP]

/-- C105: the friction exponent: `ln(2.2 y - 1.2)` for `1 < y < 1.2`, the published rational expression otherwise, never above 7, and 0 at `y = 1`. -/
theorem C105_S {y S : ℝ} (hS : Beggs_Brill_S y = .ok S) : S ≤ 7 ∧ (1 < y → y < 1.2 → S = log (2.2 * y - 1.2)) ∧ (y = 1 → S = 0) ∧
    (0 < y → ¬ (1 < y ∧ y < 1.2) → S = min 7 (log y / (-0.0523 + 3.182 * log y - 0.8725 * log y ^ 2 + 0.01853 * log y ^ 4))) := by
  unfold Beggs_Brill_S at hS
  by_cases h : 1 < y ∧ y < 1.2
  · rw [if_pos h, plog_ok (by linarith [h.1]), Py.ok_bind] at hS
    have e := (Except.ok.inj hS).symm
    have : log (2.2 * y - 1.2) ≤ 7 := by
      have : log (2.2 * y - 1.2) ≤ 2.2 * y - 1.2 - 1 := Real.log_le_sub_one_of_pos (by linarith [h.1])
      linarith [h.2]
    rw [if_neg (not_lt.2 this)] at e
    exact ⟨e ▸ this, fun _ _ => e, fun h1 => absurd h.1 (by rw [h1]; exact lt_irrefl _), fun _ hn => absurd h hn⟩
  · rw [if_neg h] at hS
    by_cases y0 : 0 < y
    · rw [plog_ok y0, Py.ok_bind] at hS
      by_cases hd : log y * (log y * (0.01853 * log y * log y - 0.8725) + 3.182) - 0.0523 = 0
      · rw [hd, pdiv_zero] at hS; exact absurd hS (by simp)
      · rw [pdiv_ok hd, Py.ok_bind] at hS
        have e := (Except.ok.inj hS).symm
        have ed : log y * (log y * (0.01853 * log y * log y - 0.8725) + 3.182) - 0.0523 = -0.0523 + 3.182 * log y - 0.8725 * log y ^ 2 + 0.01853 * log y ^ 4 := by ring
        rw [ed] at e
        have e' : S = min 7 (log y / (-0.0523 + 3.182 * log y - 0.8725 * log y ^ 2 + 0.01853 * log y ^ 4)) := by
          rw [e]
          by_cases h7 : log y / (-0.0523 + 3.182 * log y - 0.8725 * log y ^ 2 + 0.01853 * log y ^ 4) > 7
          · rw [if_pos h7, min_eq_left (le_of_lt h7)]
          · rw [if_neg h7, min_eq_right (not_lt.1 h7)]
        refine ⟨e' ▸ min_le_left _ _, fun a b => absurd ⟨a, b⟩ h, ?_, fun _ _ => e'⟩
        rintro rfl
        rw [e', Real.log_one]; norm_num
    · have : plog y = .error .valueError := by simp [plog, y0]
      rw [this] at hS; exact absurd hS (by simp)

/-- C105: fast all-liquid flow (Froude number at least 3) gets the ordinary single-phase pressure drop plus the static head. -/
theorem C105_liquid (h : Flow ff f m rhol rhog mul mug D roughness) (hs : 0 < sigma) (hg : 0 < grav) (hF : 3 ≤ velocity m rhol D ^ 2 / (grav * D)) (deg : ℝ) (P : Option ℝ) :
    Beggs_Brill ff m 0 rhol rhog mul mug sigma P D (some deg) roughness L grav false =
      .ok (rhol * grav * (L * sin (deg * π / 180)) + drop f m rhol mul D L) := by
  have h' := h
  obtain ⟨m0, l0, g0, ml0, mg0, D0, val, pos⟩ := h
  have v0 := velocity_pos m0 l0 D0
  have eV : mixV m 0 rhol rhog D = velocity m rhol D := by simp [mixV, velocity]
  have elam : noslip m 0 rhol rhog D = 1 := by rw [noslip, eV, sub_zero, one_mul, div_self v0.ne']
  have eF : mixFr m 0 rhol rhog D grav = velocity m rhol D ^ 2 / (grav * D) := by rw [mixFr, eV]
  set Fr := velocity m rhol D ^ 2 / (grav * D) with hFr
  have hr : Beggs_Brill_regime 1 Fr (bound1 1) (bound2 1) (bound3 1) (bound4 1) = .ok 3 := by
    rw [C105_regime, bound1, bound2, bound3, bound4]
    simp only [Real.one_rpow]
    rw [if_neg (by norm_num), if_neg (by linarith), if_neg (by linarith), if_neg (by norm_num), if_neg (by linarith)]
  have LV0 : 0 < velNumber m 0 rhol sigma D grav := by
    unfold velNumber; rw [sub_zero, one_mul]; positivity
  have hlev : level 3 1 Fr = 1 := by
    unfold level
    have a : (3 : ℝ) ^ (0.0609 : ℝ) ≤ Fr ^ (0.0609 : ℝ) := Real.rpow_le_rpow (by norm_num) hF (by norm_num)
    have b : (3 : ℝ) ^ (3 / 50 : ℝ) ≤ 3 ^ (0.0609 : ℝ) := Real.rpow_le_rpow_of_exponent_le (by norm_num) (by norm_num)
    have c : (1.065 : ℝ) ≤ 3 ^ (3 / 50 : ℝ) := by
      rw [div_eq_mul_inv, Real.rpow_mul (by norm_num), Real.le_rpow_inv_iff_of_pos (by norm_num) (by positivity) (by norm_num)]
      norm_num
    refine max_eq_left ?_
    have e3 : coefC 3 = 0.0609 := by norm_num [coefC]
    have e1 : coefA 3 = 1.065 := by norm_num [coefA]
    rw [Real.one_rpow, e3, e1, mul_one, div_le_one (by positivity)]
    linarith
  have hH : Beggs_Brill_Hl 3 1 Fr (deg * π / 180) (velNumber m 0 rhol sigma D grav) (bound2 1) (bound3 1) = .ok 1 := by
    unfold Beggs_Brill_Hl
    rw [if_pos (by norm_num), C105_holdup (Or.inr (Or.inr rfl)) one_pos (by linarith) LV0, hlev]
    have : inclination 3 1 Fr (deg * π / 180) (velNumber m 0 rhol sigma D grav) = 1 := by simp [inclination]
    rw [this, mul_one]
  have hS : Beggs_Brill_S (1 / 1 ^ 2) = .ok 0 := by
    norm_num [Beggs_Brill_S, plog, pdiv]
  have key := (C105_form (L := L) h' le_rfl one_pos hs hg P elam.symm eF.symm hr hH one_ne_zero hS).1
  rw [key]
  congr 1
  simp only [beggsBrill, blend, eV, Real.exp_zero, drop, Re]
  ring_nf

/-- C105: the pressure drop is proportional to the length, errors included. -/
theorem C105_length (ff : ℝ → ℝ → Py ℝ) (m x rhol rhog mul mug sigma : ℝ) (P : Option ℝ) (D : ℝ) (angle : Option ℝ) (roughness L grav : ℝ) (acc : Bool) (k : ℝ) :
    Beggs_Brill ff m x rhol rhog mul mug sigma P D angle roughness (k * L) grav acc =
      (Beggs_Brill ff m x rhol rhog mul mug sigma P D angle roughness L grav acc).map (k * ·) := by
  have mb : ∀ {α : Type} (y : Py α) (c : α → Py ℝ), (y >>= c).map (k * ·) = y >>= fun a => (c a).map (k * ·) := by
    intro α y c; cases y <;> rfl
  have hp : ∀ a b : ℝ, pdiv (k * a) b = (pdiv a b).map (k * ·) := by
    intro a b
    by_cases h : b = 0
    · simp [h, Except.map]
    · rw [pdiv_ok h, pdiv_ok h]; simp [Except.map, mul_div_assoc]
  have ht : ∀ e q Vs V r, Beggs_Brill_total (k * e) (k * q) Vs V r P acc = (Beggs_Brill_total e q Vs V r P acc).map (k * ·) := by
    intro e q Vs V r
    unfold Beggs_Brill_total
    by_cases h : acc
    · simp only [h, not_true_eq_false, if_false, mb, ← mul_add, hp]
    · rw [if_pos h, if_pos h, ← mul_add]; rfl
  have last : ∀ ele ftp a Vs V r, (pdiv (ftp * (k * L)) D >>= fun t => Beggs_Brill_total (ele * (k * L)) (t * 0.5 * a * V * V) Vs V r P acc) =
      pdiv (ftp * L) D >>= fun t => (Beggs_Brill_total (ele * L) (t * 0.5 * a * V * V) Vs V r P acc).map (k * ·) := by
    intro ele ftp a Vs V r
    rw [show ftp * (k * L) = k * (ftp * L) by ring, hp]
    cases pdiv (ftp * L) D with
    | error e => rfl
    | ok t =>
      rw [show Except.map (fun x => k * x) (Except.ok t : Py ℝ) = .ok (k * t) from rfl, Py.ok_bind, Py.ok_bind, ← ht]
      congr 1 <;> ring
  unfold Beggs_Brill
  simp only [mb, last]

-- water at 2 m/s in a 50 mm pipe meets the hypotheses of the all-liquid case
example : 3 ≤ velocity (1000 * 2 * (π / 4 * 0.05 ^ 2)) 1000 0.05 ^ 2 / (9.80665 * (0.05 : ℝ)) := by
  have : velocity (1000 * 2 * (π / 4 * 0.05 ^ 2)) 1000 0.05 = 2 := by
    unfold velocity; have := pi_pos; field_simp
  rw [this]; norm_num
-- a 20 % liquid flow at Froude number 10 is intermittent and has a holdup
example : ∃ h, Beggs_Brill_regime 0.2 10 (bound1 0.2) (bound2 0.2) (bound3 0.2) (bound4 0.2) = .ok 2 ∧ Beggs_Brill_Hl 2 0.2 10 0.1 3 (bound2 0.2) (bound3 0.2) = .ok h := by
  have a : (0.2 : ℝ) ^ (-2.4684 : ℝ) ≤ 0.2 ^ (-3 : ℝ) := Real.rpow_le_rpow_of_exponent_ge (by norm_num) (by norm_num) (by norm_num)
  have b : (0.2 : ℝ) ^ (-1.4516 : ℝ) ≤ 0.2 ^ (-2 : ℝ) := Real.rpow_le_rpow_of_exponent_ge (by norm_num) (by norm_num) (by norm_num)
  have c : (0.2 : ℝ) ^ (1 : ℝ) ≤ 0.2 ^ (0.302 : ℝ) := Real.rpow_le_rpow_of_exponent_ge (by norm_num) (by norm_num) (by norm_num)
  have a' : (0.2 : ℝ) ^ (-3 : ℝ) = 125 := by rw [Real.rpow_neg (by norm_num)]; norm_num
  have b' : (0.2 : ℝ) ^ (-2 : ℝ) = 25 := by rw [Real.rpow_neg (by norm_num)]; norm_num
  rw [Real.rpow_one] at c
  have hH : Beggs_Brill_Hl 2 0.2 10 0.1 3 (bound2 0.2) (bound3 0.2) = .ok (level 2 0.2 10 * inclination 2 0.2 10 0.1 3) := by
    unfold Beggs_Brill_Hl
    rw [if_pos (by norm_num)]
    exact C105_holdup (Or.inr (Or.inl rfl)) (by norm_num) (by norm_num) (by norm_num)
  refine ⟨_, ?_, hH⟩
  · rw [C105_regime, if_neg (by norm_num), if_neg (by unfold bound2; linarith), if_neg (by unfold bound3; linarith), if_pos (by norm_num),
      if_pos (by unfold bound1; linarith)]

end Verif.TwoPhase
