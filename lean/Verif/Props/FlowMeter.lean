import Verif.Model.FlowMeter
import Verif.Lemmas.Tactic
import Verif.Lemmas.Circle
import Verif.Props.SafetyValve
import Mathlib.Analysis.SpecialFunctions.Pow.Deriv

/-!
# Flow meters: conversions, expansibility and diameter ratios (C55, C56, C58)
-/

open Real
open Verif.FlowMeter

namespace Verif

/-- diameter ratio of an admissible geometry -/
theorem ratio_mem {D Do : ℝ} (h0 : 0 < Do) (h1 : Do < D) : 0 < Do / D ∧ Do / D < 1 := by
  have hD : 0 < D := by linarith
  exact ⟨by positivity, by rw [div_lt_one hD]; exact h1⟩

theorem dck_eq {D Do C : ℝ} (hD : D ≠ 0) (h0 : C * (Do / D * (Do / D)) ≠ 0)
    (h1 : 0 ≤ 1 - (Do / D) ^ 4 * (1 - C ^ 2)) :
    discharge_coefficient_to_K D Do C =
      .ok ((√(1 - (Do / D) ^ 4 * (1 - C ^ 2)) / (C * (Do / D) ^ 2) - 1) ^ 2) := by
  have e : 1 - Do / D * (Do / D) * (Do / D * (Do / D)) * (1 - C * C) = 1 - (Do / D) ^ 4 * (1 - C ^ 2) := by ring
  simp only [discharge_coefficient_to_K, pdiv_ok hD, Py.ok_bind, e, psqrt_ok h1, pdiv_ok h0, Py.pure_eq]
  rw [show Do / D * (Do / D) = (Do / D) ^ 2 by ring]
  ring_nf

theorem one_sub_pos {b C : ℝ} (h0 : 0 < b) (h1 : b < 1) (hC : 0 < C) : 0 < 1 - b ^ 4 * (1 - C ^ 2) := by
  have : b ^ 4 < 1 := pow_lt_one₀ h0.le h1 (by norm_num)
  have : 0 < b ^ 4 * C ^ 2 := by positivity
  nlinarith

/-- C55 (round trip from `C`): converting a positive discharge coefficient to a loss coefficient gives a positive `K`, and converting that
`K` back gives the same discharge coefficient. -/
theorem C55_C_K_C {D Do C : ℝ} (h0 : 0 < Do) (h1 : Do < D) (hC : 0 < C) :
    ∃ K, discharge_coefficient_to_K D Do C = .ok K ∧ 0 < K ∧ K_to_discharge_coefficient D Do K = .ok C := by
  obtain ⟨b0, b1⟩ := ratio_mem h0 h1
  have hD : D ≠ 0 := by linarith
  have hS := one_sub_pos b0 b1 hC
  refine ⟨_, dck_eq hD (by positivity) hS.le, ?_⟩
  generalize hb : Do / D = b at *
  have hb4 : b ^ 4 < 1 := pow_lt_one₀ b0.le b1 (by norm_num)
  obtain ⟨S, hSd⟩ : ∃ S, S = √(1 - b ^ 4 * (1 - C ^ 2)) := ⟨_, rfl⟩
  have S0 : 0 < S := by rw [hSd]; exact sqrt_pos.mpr hS
  have S2 : S ^ 2 = 1 - b ^ 4 * (1 - C ^ 2) := by rw [hSd]; exact sq_sqrt hS.le
  rw [← hSd]
  have hlt : C * b ^ 2 < S := by
    refine lt_of_pow_lt_pow_left₀ 2 S0.le ?_
    rw [S2]; nlinarith
  have hu : 0 < S / (C * b ^ 2) - 1 := by
    rw [sub_pos, one_lt_div (by positivity)]; exact hlt
  refine ⟨by positivity, ?_⟩
  have hr : √((S / (C * b ^ 2) - 1) ^ 2) = S / (C * b ^ 2) - 1 := sqrt_sq hu.le
  have hden : (2 * (S / (C * b ^ 2) - 1) + (S / (C * b ^ 2) - 1) ^ 2) * (b * b * (b * b)) = (1 - b ^ 4) / C ^ 2 := by
    field_simp
    nlinarith [S2]
  have hpos : 0 < (1 - b ^ 4) / C ^ 2 := div_pos (by linarith) (by positivity)
  simp only [K_to_discharge_coefficient, pdiv_ok hD, Py.ok_bind, hb, psqrt_ok (sq_nonneg _), hr, hden, pdiv_ok hpos.ne']
  have e : (1 - b * b * (b * b)) / ((1 - b ^ 4) / C ^ 2) = C ^ 2 := by
    have : 1 - b ^ 4 ≠ 0 := by linarith
    rw [show b * b * (b * b) = b ^ 4 by ring]; field_simp
  rw [e, psqrt_ok (sq_nonneg C), sqrt_sq hC.le]

/-- C55 (round trip from `K`): converting a positive loss coefficient to a discharge coefficient gives a positive `C`, and converting that `C`
back gives the same loss coefficient. -/
theorem C55_K_C_K {D Do K : ℝ} (h0 : 0 < Do) (h1 : Do < D) (hK : 0 < K) :
    ∃ C, K_to_discharge_coefficient D Do K = .ok C ∧ 0 < C ∧ discharge_coefficient_to_K D Do C = .ok K := by
  obtain ⟨b0, b1⟩ := ratio_mem h0 h1
  have hD : D ≠ 0 := by linarith
  have hb4 : (Do / D) ^ 4 < 1 := pow_lt_one₀ b0.le b1 (by norm_num)
  obtain ⟨r, hr⟩ : ∃ r, r = √K := ⟨_, rfl⟩
  have r0 : 0 < r := by rw [hr]; exact sqrt_pos.mpr hK
  have r2 : K = r ^ 2 := by rw [hr, sq_sqrt hK.le]
  have hq : 0 < (1 - (Do / D) ^ 4) / ((2 * r + r ^ 2) * (Do / D) ^ 4) := div_pos (by linarith) (by positivity)
  obtain ⟨C, hCd⟩ : ∃ C, C = √((1 - (Do / D) ^ 4) / ((2 * r + r ^ 2) * (Do / D) ^ 4)) := ⟨_, rfl⟩
  have C0 : 0 < C := by rw [hCd]; exact sqrt_pos.mpr hq
  have C2 : C ^ 2 = (1 - (Do / D) ^ 4) / ((2 * r + r ^ 2) * (Do / D) ^ 4) := by rw [hCd]; exact sq_sqrt hq.le
  have hS := one_sub_pos b0 b1 C0
  refine ⟨C, ?_, C0, ?_⟩
  · have hden : (2 * r + K) * (Do / D * (Do / D) * (Do / D * (Do / D))) = (2 * r + r ^ 2) * (Do / D) ^ 4 := by rw [r2]; ring
    have hne : (2 * r + r ^ 2) * (Do / D) ^ 4 ≠ 0 := by positivity
    simp only [K_to_discharge_coefficient, pdiv_ok hD, Py.ok_bind, psqrt_ok hK.le, ← hr, hden, pdiv_ok hne]
    rw [show Do / D * (Do / D) * (Do / D * (Do / D)) = (Do / D) ^ 4 by ring, psqrt_ok hq.le, ← hCd]
  · rw [dck_eq hD (by positivity) hS.le]
    generalize Do / D = b at *
    have e : 1 - b ^ 4 * (1 - C ^ 2) = (C * b ^ 2 * (1 + r)) ^ 2 := by
      have : C ^ 2 * ((2 * r + r ^ 2) * b ^ 4) = 1 - b ^ 4 := by rw [C2]; field_simp
      nlinarith
    rw [e, sqrt_sq (by positivity), r2]
    congr 1
    field_simp
    ring

/-- C55 (consistency): for every meter type whose diameter ratio is `Do/D`, the loss coefficient of `discharge_coefficient_to_K` times the
velocity head in the pipe, at the incompressible flow that `flow_meter_discharge` computes, is the permanent pressure loss `dP_orifice`. -/
theorem C55_consistent {D Do C P1 P2 rho : ℝ} (h0 : 0 < Do) (h1 : Do < D) (hC : 0 < C) (hP : P2 ≤ P1) (hrho : 0 < rho)
    {meter : String} (hm : meter ∈ beta_simple_meters) :
    ∃ m K dP, flow_meter_discharge D Do P1 P2 rho C 1 meter = .ok m ∧ discharge_coefficient_to_K D Do C = .ok K ∧
      dP_orifice D Do P1 P2 C = .ok dP ∧ K * (rho * (m / (rho * (π / 4 * D ^ 2))) ^ 2 / 2) = dP := by
  obtain ⟨b0, b1⟩ := ratio_mem h0 h1
  have hD0 : 0 < D := by linarith
  have hD : D ≠ 0 := hD0.ne'
  have hS := one_sub_pos b0 b1 hC
  have hb4 : (Do / D) ^ 4 < 1 := pow_lt_one₀ b0.le b1 (by norm_num)
  have hbeta : differential_pressure_meter_beta D Do meter = .ok (Do / D) := by
    unfold differential_pressure_meter_beta
    rw [if_pos hm, pdiv_ok hD]
  have hne : 1 - Do / D * (Do / D) * (Do / D * (Do / D)) ≠ 0 := by
    rw [show Do / D * (Do / D) * (Do / D * (Do / D)) = (Do / D) ^ 4 by ring]; linarith
  have hq : 0 ≤ 2 * rho * (P1 - P2) / (1 - (Do / D) ^ 4) := by
    apply div_nonneg _ (by linarith)
    have : 0 ≤ P1 - P2 := by linarith
    positivity
  refine ⟨0.25 * π * (D * (Do / D)) * (D * (Do / D)) * C * 1 * √(2 * rho * (P1 - P2) / (1 - (Do / D) ^ 4)), _,
    (√(1 - (Do / D) ^ 4 * (1 - C ^ 2)) - C * (Do / D) ^ 2) / (√(1 - (Do / D) ^ 4 * (1 - C ^ 2)) + C * (Do / D) ^ 2) * (P1 - P2),
    ?_, dck_eq hD (by positivity) hS.le, ?_, ?_⟩
  · simp only [flow_meter_discharge, hbeta, Py.ok_bind, pdiv_ok hne, Py.pure_eq]
    rw [show Do / D * (Do / D) * (Do / D * (Do / D)) = (Do / D) ^ 4 by ring, psqrt_ok hq]
    rfl
  · have e : 1 - Do / D * (Do / D) * (Do / D * (Do / D)) * (1 - C * C) = 1 - (Do / D) ^ 4 * (1 - C ^ 2) := by ring
    have e2 : √(1 - (Do / D) ^ 4 * (1 - C ^ 2)) + C * (Do / D * (Do / D)) ≠ 0 := by positivity
    simp only [dP_orifice, pdiv_ok hD, Py.ok_bind, e, psqrt_ok hS.le, pdiv_ok e2, Py.pure_eq]
    rw [show Do / D * (Do / D) = (Do / D) ^ 2 by ring]
  · generalize Do / D = b at *
    have S2 := sq_sqrt hS.le
    have Q2 := sq_sqrt hq
    have S0 := sqrt_pos.mpr hS
    generalize √(1 - b ^ 4 * (1 - C ^ 2)) = S at *
    generalize √(2 * rho * (P1 - P2) / (1 - b ^ 4)) = Q at *
    have hb : 1 - b ^ 4 ≠ 0 := by linarith
    have e1 : (0.25 * π * (D * b) * (D * b) * C * 1 * Q / (rho * (π / 4 * D ^ 2))) ^ 2 = b ^ 4 * C ^ 2 * Q ^ 2 / rho ^ 2 := by
      have : π ≠ 0 := pi_ne_zero
      rw [show (0.25 : ℝ) = 1 / 4 by norm_num]
      field_simp
    rw [e1, Q2]
    have e2 : 1 - b ^ 4 = (S - C * b ^ 2) * (S + C * b ^ 2) := by nlinarith
    have hne2 : S + C * b ^ 2 ≠ 0 := by positivity
    have hne1 : S - C * b ^ 2 ≠ 0 := by
      intro h; rw [h, zero_mul] at e2; exact hb e2
    rw [e2]
    field_simp

/-- the hypotheses are met by the orifice of the documentation -/
example : ∃ K, discharge_coefficient_to_K 0.07366 0.05 0.61512 = .ok K ∧ 0 < K ∧
    K_to_discharge_coefficient 0.07366 0.05 K = .ok 0.61512 := C55_C_K_C (by norm_num) (by norm_num) (by norm_num)
example : ∃ m K dP, flow_meter_discharge 0.07366 0.05 200000 183000 1.1645 0.5988 1 ISO_5167_ORIFICE = .ok m ∧
    discharge_coefficient_to_K 0.07366 0.05 0.5988 = .ok K ∧ dP_orifice 0.07366 0.05 200000 183000 0.5988 = .ok dP ∧
    K * (1.1645 * (m / (1.1645 * (π / 4 * 0.07366 ^ 2))) ^ 2 / 2) = dP :=
  C55_consistent (by norm_num) (by norm_num) (by norm_num) (by norm_num) (by norm_num) (by simp)

/-! ## C56 -/

/-- C56: `orifice_expansibility` is 1 at zero pressure drop, at most 1 for every pressure drop, and positive for diameter ratios up to 0.9
(beyond every range of the standard). -/
theorem C56_orifice {D Do P1 P2 k : ℝ} (h0 : 0 < Do) (h1 : Do ≤ D) (hk : 0 < k) (hP2 : 0 < P2) (hP : P2 ≤ P1) :
    ∃ e, orifice_expansibility D Do P1 P2 k = .ok e ∧ e ≤ 1 ∧ (e = 1 ↔ P1 = P2) ∧ (Do / D ≤ 0.9 → 0 < e) := by
  have hD0 : 0 < D := by linarith
  have hP1 : 0 < P1 := by linarith
  have b0 : 0 < Do / D := by positivity
  have r0 : 0 < P2 / P1 := by positivity
  have r1 : P2 / P1 ≤ 1 := by rw [div_le_one hP1]; exact hP
  refine ⟨_, by simp only [orifice_expansibility, pdiv_ok hD0.ne', pdiv_ok hP1.ne', pdiv_ok hk.ne', Py.ok_bind, ppow_ok r0, Py.pure_eq]; rfl, ?_⟩
  have p1 : (P2 / P1) ^ (1 / k) ≤ 1 := rpow_le_one r0.le r1 (by positivity)
  have p0 : 0 < (P2 / P1) ^ (1 / k) := rpow_pos_of_pos r0 _
  have hiff : (P2 / P1) ^ (1 / k) = 1 ↔ P1 = P2 := by
    constructor
    · intro h
      by_contra hne
      have r1' : P2 / P1 < 1 := by rw [div_lt_one hP1]; exact lt_of_le_of_ne hP (Ne.symm hne)
      exact (rpow_lt_one r0.le r1' (by positivity : 0 < 1 / k)).ne h
    · intro h; rw [h, div_self hP2.ne', one_rpow]
  generalize (P2 / P1) ^ (1 / k) = p at *
  generalize Do / D = b at *
  have c0 : 0 < 0.351 + b * b * (b * b) * (0.93 * (b * b * (b * b)) + 0.256) := by positivity
  refine ⟨by nlinarith, ?_, ?_⟩
  · rw [← hiff]
    constructor
    · intro h
      have : (0.351 + b * b * (b * b) * (0.93 * (b * b * (b * b)) + 0.256)) * (1 - p) = 0 := by linarith
      rcases mul_eq_zero.mp this with h | h <;> linarith
    · intro h; rw [h]; ring
  · intro hb
    have hb4 : b * b * (b * b) ≤ 0.6561 := by
      calc b * b * (b * b) = b ^ 4 := by ring
        _ ≤ 0.9 ^ 4 := by gcongr
        _ = 0.6561 := by norm_num
    have hb40 : 0 ≤ b * b * (b * b) := by positivity
    generalize b * b * (b * b) = q at *
    have : 0.351 + q * (0.93 * q + 0.256) < 1 := by nlinarith
    nlinarith

/-- C56: `orifice_expansibility_1989` is 1 exactly at zero pressure drop, at most 1, and positive for `k ≥ 1` and every diameter ratio up to 1. -/
theorem C56_orifice_1989 {D Do P1 P2 k : ℝ} (h0 : 0 < Do) (h1 : Do ≤ D) (hk : 1 ≤ k) (hP2 : 0 < P2) (hP : P2 ≤ P1) :
    ∃ e, orifice_expansibility_1989 D Do P1 P2 k = .ok e ∧ 0 < e ∧ e ≤ 1 ∧ (e = 1 ↔ P1 = P2) := by
  have hD0 : 0 < D := by linarith
  have hP1 : 0 < P1 := by linarith
  have hk0 : 0 < k := by linarith
  have b0 : 0 < Do / D := by positivity
  have b1 : Do / D ≤ 1 := by rw [div_le_one hD0]; exact h1
  have hkP : k * P1 ≠ 0 := by positivity
  refine ⟨_, by simp only [orifice_expansibility_1989, pdiv_ok hD0.ne', pdiv_ok hkP, Py.ok_bind, Py.pure_eq]; rfl, ?_⟩
  generalize Do / D = b at *
  have hb4 : b * b * (b * b) ≤ 1 := by
    calc b * b * (b * b) = b ^ 4 := by ring
      _ ≤ 1 := pow_le_one₀ b0.le b1
  have hb40 : 0 < b * b * (b * b) := by positivity
  generalize b * b * (b * b) = q at *
  refine ⟨?_, ?_, ?_⟩
  · rw [sub_pos, div_lt_one (by positivity)]
    have : k * P1 ≥ P1 := by nlinarith
    nlinarith
  · rw [sub_le_self_iff]
    have : 0 ≤ P1 - P2 := by linarith
    positivity
  · rw [sub_eq_self, div_eq_zero_iff, mul_eq_zero]
    constructor
    · rintro ((h | h) | h)
      · linarith
      · linarith
      · exact absurd h hkP
    · intro h; left; right; linarith

/-- C56: the cone meter expansibility of Stewart is 1 exactly at zero pressure drop and at most 1. -/
theorem C56_cone {D Dc P1 P2 k : ℝ} (h0 : 0 < Dc) (h1 : Dc < D) (hk : 0 < k) (hP2 : 0 < P2) (hP : P2 ≤ P1) :
    ∃ e, cone_meter_expansibility_Stewart D Dc P1 P2 k = .ok e ∧ e ≤ 1 ∧ (e = 1 ↔ P1 = P2) := by
  have hD0 : 0 < D := by linarith
  have hP1 : 0 < P1 := by linarith
  obtain ⟨b0, b1⟩ := ratio_mem h0 h1
  have hkP : k * P1 ≠ 0 := by positivity
  have hs : 0 ≤ 1 - Dc / D * (Dc / D) := by nlinarith
  refine ⟨_, by simp only [cone_meter_expansibility_Stewart, diameter_ratio_cone_meter, pdiv_ok hD0.ne', pdiv_ok hkP, Py.ok_bind,
    psqrt_ok hs, Py.pure_eq]; rfl, ?_⟩
  have hq : 0 ≤ √(1 - Dc / D * (Dc / D)) * √(1 - Dc / D * (Dc / D)) * (√(1 - Dc / D * (Dc / D)) * √(1 - Dc / D * (Dc / D))) := by positivity
  generalize √(1 - Dc / D * (Dc / D)) * √(1 - Dc / D * (Dc / D)) * (√(1 - Dc / D * (Dc / D)) * √(1 - Dc / D * (Dc / D))) = q at *
  constructor
  · rw [sub_le_self_iff]
    have : 0 ≤ P1 - P2 := by linarith
    positivity
  · rw [sub_eq_self, div_eq_zero_iff, mul_eq_zero]
    constructor
    · rintro ((h | h) | h)
      · linarith
      · linarith
      · exact absurd h hkP
    · intro h; left; right; linarith

/-- the textbook expression under the root of the nozzle expansibility, as a function of the diameter ratio, pressure ratio and isentropic
exponent (`k ≠ 1`, pressure ratio other than 1) -/
noncomputable def nozzleSq (b t k : ℝ) : ℝ :=
  k * t ^ (2 / k) / (k - 1) * ((1 - b ^ 4) / (1 - b ^ 4 * t ^ (2 / k))) * ((1 - t ^ ((k - 1) / k)) / (1 - t))

/-- its value for `k = 1` -/
noncomputable def nozzleSq1 (b t : ℝ) : ℝ := t ^ 2 * (1 - b ^ 4) * (-log t) / ((1 - t) * (1 - b ^ 4 * t ^ 2))

/-- the pressure-ratio part is at most 1 and positive (the same expression as API 520's subcritical coefficient, C53) -/
theorem nozzle_core {t k : ℝ} (hk : 1 < k) (t0 : 0 < t) (t1 : t < 1) :
    0 < k / (k - 1) * t ^ (2 / k) * ((1 - t ^ ((k - 1) / k)) / (1 - t)) ∧
      k / (k - 1) * t ^ (2 / k) * ((1 - t ^ ((k - 1) / k)) / (1 - t)) ≤ 1 := by
  obtain ⟨f, -, f0, f1, f2⟩ := Safety.C53_F2 (P1 := 1) hk t0 t1
  rw [div_one] at f2
  rw [← f2]
  exact ⟨by positivity, by nlinarith⟩

theorem nozzleSq_mem {b t k : ℝ} (b0 : 0 < b) (b1 : b < 1) (hk : 1 < k) (t0 : 0 < t) (t1 : t < 1) :
    0 < nozzleSq b t k ∧ nozzleSq b t k ≤ 1 := by
  obtain ⟨c0, c1⟩ := nozzle_core hk t0 t1
  have hb4 : b ^ 4 < 1 := pow_lt_one₀ b0.le b1 (by norm_num)
  have p0 : 0 < t ^ (2 / k) := rpow_pos_of_pos t0 _
  have p1 : t ^ (2 / k) < 1 := rpow_lt_one t0.le t1 (by positivity)
  have hb40 : 0 < b ^ 4 := by positivity
  have hden : 0 < 1 - b ^ 4 * t ^ (2 / k) := by nlinarith
  have m0 : 0 < (1 - b ^ 4) / (1 - b ^ 4 * t ^ (2 / k)) := div_pos (by linarith) hden
  have m1 : (1 - b ^ 4) / (1 - b ^ 4 * t ^ (2 / k)) ≤ 1 := by rw [div_le_one hden]; nlinarith
  have e : nozzleSq b t k = k / (k - 1) * t ^ (2 / k) * ((1 - t ^ ((k - 1) / k)) / (1 - t)) *
      ((1 - b ^ 4) / (1 - b ^ 4 * t ^ (2 / k))) := by unfold nozzleSq; ring
  rw [e]
  exact ⟨mul_pos c0 m0, mul_le_one₀ c1 m0.le m1⟩

theorem pick_beta {D Do b : ℝ} (beta : Option ℝ) (hD : D ≠ 0) (h : beta.getD (Do / D) = b) :
    nozzleBeta D Do beta = .ok b := by
  cases beta with
  | none => simp only [Option.getD_none] at h; simp only [nozzleBeta, pdiv_ok hD, h]
  | some x => simp only [Option.getD_some] at h; simp only [nozzleBeta, h]

/-- `nozzle_expansibility` computes the textbook formula when `k ≠ 1` and there is a pressure drop -/
theorem nozzle_eq {D Do P1 P2 k b : ℝ} {beta : Option ℝ} (hD : D ≠ 0) (hb : beta.getD (Do / D) = b) (b0 : 0 < b) (b1 : b < 1)
    (hk : 1 < k) (hP2 : 0 < P2) (hP : P2 < P1) :
    nozzle_expansibility D Do P1 P2 k beta = .ok (√(nozzleSq b (P2 / P1) k)) := by
  have hP1 : 0 < P1 := by linarith
  have t0 : 0 < P2 / P1 := by positivity
  have t1 : P2 / P1 < 1 := by rw [div_lt_one hP1]; exact hP
  have hb4 : b ^ 4 < 1 := pow_lt_one₀ b0.le b1 (by norm_num)
  have p0 : 0 < (P2 / P1) ^ (2 / k) := rpow_pos_of_pos t0 _
  have p1 : (P2 / P1) ^ (2 / k) < 1 := rpow_lt_one t0.le t1 (by positivity)
  have hk0 : k ≠ 0 := by linarith
  have hk1 : k - 1 ≠ 0 := by intro h; linarith
  have hden : 1 - b * b * (b * b) * (P2 / P1) ^ (2 / k) ≠ 0 := by
    have : b * b * (b * b) = b ^ 4 := by ring
    rw [this]; have : 0 < b ^ 4 := by positivity
    nlinarith
  have hdP : P1 - P2 ≠ 0 := by linarith
  have hmem := nozzleSq_mem b0 b1 hk t0 t1
  have e : k * (P2 / P1) ^ (2 / k) / (k - 1) * ((1 - b * b * (b * b)) / (1 - b * b * (b * b) * (P2 / P1) ^ (2 / k))) *
      ((P1 - P2 * (P2 / P1) ^ (-1 / k)) / (P1 - P2)) = nozzleSq b (P2 / P1) k := by
    unfold nozzleSq
    have e1 : (P1 - P2 * (P2 / P1) ^ (-1 / k)) / (P1 - P2) = (1 - (P2 / P1) ^ ((k - 1) / k)) / (1 - P2 / P1) := by
      rw [show (k - 1) / k = 1 + -1 / k by field_simp; ring, rpow_add t0, rpow_one]
      generalize (P2 / P1) ^ (-1 / k) = y
      have : 1 - P2 / P1 ≠ 0 := by linarith
      rw [div_eq_div_iff hdP this]
      field_simp
    rw [e1, show b * b * (b * b) = b ^ 4 by ring]
  simp only [nozzle_expansibility, pick_beta beta hD hb, Py.ok_bind, pdiv_ok hP1.ne', if_neg hk.ne', pdiv_ok hk0, ppow_ok t0, pdiv_ok hk1,
    pdiv_ok hden, if_neg t1.ne, pdiv_ok hdP, e, psqrt_ok hmem.1.le]

/-- C56: `nozzle_expansibility` is in (0, 1] for every `k > 1`, every pressure drop and every diameter ratio below one (the geometric one or an
explicit one), and it is exactly 1 at zero pressure drop. -/
theorem C56_nozzle {D Do P1 P2 k : ℝ} (beta : Option ℝ) (hD : D ≠ 0) (b0 : 0 < beta.getD (Do / D)) (b1 : beta.getD (Do / D) < 1) (hk : 1 < k)
    (hP2 : 0 < P2) (hP : P2 ≤ P1) :
    ∃ e, nozzle_expansibility D Do P1 P2 k beta = .ok e ∧ 0 < e ∧ e ≤ 1 ∧ (P1 = P2 → e = 1) := by
  have hP1 : 0 < P1 := by linarith
  obtain ⟨b, hb⟩ : ∃ b, beta.getD (Do / D) = b := ⟨_, rfl⟩
  rw [hb] at b0 b1
  rcases hP.lt_or_eq with hlt | heq
  · refine ⟨_, nozzle_eq hD hb b0 b1 hk hP2 hlt, ?_⟩
    obtain ⟨c0, c1⟩ := nozzleSq_mem b0 b1 hk (t := P2 / P1) (by positivity) (by rw [div_lt_one hP1]; exact hlt)
    exact ⟨sqrt_pos.mpr c0, by rw [sqrt_le_one]; exact c1, fun h => absurd h hlt.ne'⟩
  · subst heq
    have hk0 : k ≠ 0 := by linarith
    have hk1 : k - 1 ≠ 0 := by intro h; linarith
    have hb4 : b ^ 4 < 1 := pow_lt_one₀ b0.le b1 (by norm_num)
    have hden : 1 - b * b * (b * b) * 1 ≠ 0 := by
      rw [show b * b * (b * b) * 1 = b ^ 4 by ring]; linarith
    refine ⟨1, ?_, one_pos, le_refl _, fun _ => rfl⟩
    have e : k * 1 / (k - 1) * ((1 - b * b * (b * b)) / (1 - b * b * (b * b) * 1)) * ((k - 1) / k) = 1 := by
      rw [mul_one] at hden
      rw [mul_one, mul_one, div_self hden]; field_simp
    simp only [nozzle_expansibility, pick_beta beta hD hb, Py.ok_bind, pdiv_ok hP1.ne', div_self hP1.ne', if_neg hk.ne', pdiv_ok hk0,
      ppow_ok one_pos, one_rpow, pdiv_ok hk1, pdiv_ok hden, if_true, e, psqrt_ok zero_le_one, sqrt_one]

/-- the `k = 1` branch computes the documented limit -/
theorem nozzle_one_eq {D Do P1 P2 : ℝ} {beta : Option ℝ} (h0 : 0 < Do) (h1 : Do < D) (hP2 : 0 < P2) (hP : P2 < P1) :
    nozzle_expansibility D Do P1 P2 1 beta = .ok (√(nozzleSq1 (Do / D) (P2 / P1))) ∧ 0 < nozzleSq1 (Do / D) (P2 / P1) := by
  have hP1 : 0 < P1 := by linarith
  have hD : 0 < D := by linarith
  have t0 : 0 < P2 / P1 := by positivity
  have t1 : P2 / P1 < 1 := by rw [div_lt_one hP1]; exact hP
  obtain ⟨b0, b1⟩ := ratio_mem h0 h1
  have hb4 : (Do / D) ^ 4 < 1 := pow_lt_one₀ b0.le b1 (by norm_num)
  have t2 : (P2 / P1) ^ 2 < 1 := pow_lt_one₀ t0.le t1 (by norm_num)
  have hl : log (P2 / P1) < 0 := log_neg t0 t1
  have hd2 : 0 < 1 - (Do / D) ^ 4 * (P2 / P1) ^ 2 := by
    have : 0 < (Do / D) ^ 4 := by positivity
    nlinarith
  have hpos : 0 < nozzleSq1 (Do / D) (P2 / P1) := by
    unfold nozzleSq1
    have h3 : 0 < 1 - P2 / P1 := by linarith
    have h4 : 0 < 1 - (Do / D) ^ 4 := by linarith
    have h5 : 0 < -log (P2 / P1) := by linarith
    positivity
  refine ⟨?_, hpos⟩
  have hP0 : P1 - P2 ≠ 0 := by linarith
  have hfac : D ^ 4 * P1 ^ 3 - D ^ 4 * P1 ^ 2 * P2 - Do ^ 4 * P1 * P2 ^ 2 + Do ^ 4 * P2 ^ 3 =
      D ^ 4 * P1 ^ 3 * ((1 - P2 / P1) * (1 - (Do / D) ^ 4 * (P2 / P1) ^ 2)) := by field_simp; ring
  have hne : D ^ 4 * P1 ^ 3 - D ^ 4 * P1 ^ 2 * P2 - Do ^ 4 * P1 * P2 ^ 2 + Do ^ 4 * P2 ^ 3 ≠ 0 := by
    rw [hfac]
    have : 0 < 1 - P2 / P1 := by linarith
    positivity
  have e : P1 * P2 ^ 2 * (-(D ^ 4) + Do ^ 4) * log (P2 / P1) /
      (D ^ 4 * P1 ^ 3 - D ^ 4 * P1 ^ 2 * P2 - Do ^ 4 * P1 * P2 ^ 2 + Do ^ 4 * P2 ^ 3) = nozzleSq1 (Do / D) (P2 / P1) := by
    rw [hfac]
    unfold nozzleSq1
    have h3 : (1 - P2 / P1) * (1 - (Do / D) ^ 4 * (P2 / P1) ^ 2) ≠ 0 := by
      have : 0 < 1 - P2 / P1 := by linarith
      positivity
    rw [div_eq_div_iff (by positivity) h3]
    generalize log (P2 / P1) = l
    field_simp
    ring
  have hb : ∃ b, beta.getD (Do / D) = b := ⟨_, rfl⟩
  obtain ⟨b, hb⟩ := hb
  simp only [nozzle_expansibility, pick_beta beta hD.ne' hb, Py.ok_bind, pdiv_ok hP1.ne', if_true, plog_ok t0, pdiv_ok hne, e, psqrt_ok hpos.le]

open Filter Topology in
/-- C56: the `k = 1` branch is the limit of the general formula as `k → 1`, and the zero-pressure-drop branch is the limit as `P2 → P1`:
`nozzle_expansibility` (with the geometric diameter ratio) tends to its `k = 1` value when `k` tends to 1 from above. -/
theorem C56_nozzle_limit {D Do P1 P2 : ℝ} (h0 : 0 < Do) (h1 : Do < D) (hP2 : 0 < P2) (hP : P2 < P1) :
    ∃ (e : ℝ → ℝ) (e1 : ℝ), (∀ k, 1 < k → nozzle_expansibility D Do P1 P2 k none = .ok (e k)) ∧
      nozzle_expansibility D Do P1 P2 1 none = .ok e1 ∧ Tendsto e (𝓝[>] 1) (𝓝 e1) ∧ 0 < e1 ∧ e1 ≤ 1 := by
  have hP1 : 0 < P1 := by linarith
  have hD : 0 < D := by linarith
  have t0 : 0 < P2 / P1 := by positivity
  have t1 : P2 / P1 < 1 := by rw [div_lt_one hP1]; exact hP
  obtain ⟨b0, b1⟩ := ratio_mem h0 h1
  obtain ⟨he, hpos⟩ := nozzle_one_eq (beta := none) h0 h1 hP2 hP
  have hlim : Tendsto (fun k => √(nozzleSq (Do / D) (P2 / P1) k)) (𝓝[>] 1) (𝓝 (√(nozzleSq1 (Do / D) (P2 / P1)))) := by
    refine (continuous_sqrt.tendsto _).comp ?_
    generalize Do / D = b at *
    generalize P2 / P1 = t at *
    have hb4 : b ^ 4 < 1 := pow_lt_one₀ b0.le b1 (by norm_num)
    have t2 : t ^ 2 < 1 := pow_lt_one₀ t0.le t1 (by norm_num)
    have hd2 : 1 - b ^ 4 * t ^ 2 ≠ 0 := by
      have : 0 < b ^ 4 := by positivity
      nlinarith
    -- the exponential slope
    have hs : Tendsto (fun k : ℝ => (k - 1) / k) (𝓝[>] 1) (𝓝[≠] 0) := by
      refine tendsto_nhdsWithin_iff.mpr ⟨?_, ?_⟩
      · have : Tendsto (fun k : ℝ => (k - 1) / k) (𝓝 1) (𝓝 ((1 - 1) / 1)) :=
          (tendsto_id.sub_const 1).div tendsto_id one_ne_zero
        simpa using this.mono_left nhdsWithin_le_nhds
      · filter_upwards [self_mem_nhdsWithin] with k hk
        have hk : (1 : ℝ) < k := hk
        exact (div_pos (by linarith) (by linarith)).ne'
    have hd : HasDerivAt (fun s : ℝ => t ^ s) (log t) 0 := by
      simpa using (hasDerivAt_id' (0 : ℝ)).const_rpow t0
    have hsl := (hasDerivAt_iff_tendsto_slope_zero.mp hd).comp hs
    have hp : Tendsto (fun k : ℝ => t ^ (2 / k)) (𝓝[>] 1) (𝓝 (t ^ 2)) := by
      have : Tendsto (fun k : ℝ => t ^ (2 / k)) (𝓝 1) (𝓝 (t ^ ((2 : ℝ) / 1))) := by
        refine (Real.continuousAt_const_rpow t0.ne').tendsto.comp ?_
        exact tendsto_const_nhds.div tendsto_id one_ne_zero
      rw [div_one, rpow_two] at this
      exact this.mono_left nhdsWithin_le_nhds
    have hall : Tendsto (fun k : ℝ => t ^ (2 / k) * ((1 - b ^ 4) / (1 - b ^ 4 * t ^ (2 / k))) *
        (-(((k - 1) / k)⁻¹ • (t ^ (0 + (k - 1) / k) - t ^ (0 : ℝ))) / (1 - t))) (𝓝[>] 1)
        (𝓝 (t ^ 2 * ((1 - b ^ 4) / (1 - b ^ 4 * t ^ 2)) * (-(log t) / (1 - t)))) :=
      (hp.mul (tendsto_const_nhds.div (tendsto_const_nhds.sub (hp.const_mul _)) hd2)).mul (hsl.neg.div_const _)
    have hval : t ^ 2 * ((1 - b ^ 4) / (1 - b ^ 4 * t ^ 2)) * (-(log t) / (1 - t)) = nozzleSq1 b t := by
      unfold nozzleSq1
      have : 1 - t ≠ 0 := by linarith
      generalize log t = l
      field_simp
    rw [hval] at hall
    refine hall.congr' ?_
    filter_upwards [self_mem_nhdsWithin] with k hk
    have hk : (1 : ℝ) < k := hk
    have hk0 : k ≠ 0 := by linarith
    have hk1 : k - 1 ≠ 0 := by intro h; linarith
    unfold nozzleSq
    rw [rpow_zero, zero_add, smul_eq_mul, inv_div]
    generalize t ^ (2 / k) = p
    generalize t ^ ((k - 1) / k) = q
    have e1 : -(k / (k - 1) * (q - 1)) / (1 - t) = k / (k - 1) * ((1 - q) / (1 - t)) := by ring
    rw [e1]
    ring
  refine ⟨_, _, fun k hk => nozzle_eq hD.ne' rfl b0 b1 hk hP2 hP, he, hlim, sqrt_pos.mpr hpos, ?_⟩
  refine le_of_tendsto hlim ?_
  filter_upwards [self_mem_nhdsWithin] with k hk
  rw [sqrt_le_one]
  exact (nozzleSq_mem b0 b1 hk t0 t1).2

open Filter Topology in
/-- C56: the zero-pressure-drop branch is the limit of the general formula: as `P2` rises to `P1` the expansibility tends to 1. -/
theorem C56_nozzle_zero_dP {D Do P1 k : ℝ} (h0 : 0 < Do) (h1 : Do < D) (hk : 1 < k) (hP1 : 0 < P1) :
    ∃ e : ℝ → ℝ, (∀ P2, 0 < P2 → P2 < P1 → nozzle_expansibility D Do P1 P2 k none = .ok (e P2)) ∧
      nozzle_expansibility D Do P1 P1 k none = .ok 1 ∧ Tendsto e (𝓝[<] P1) (𝓝 1) := by
  have hD : 0 < D := by linarith
  obtain ⟨b0, b1⟩ := ratio_mem h0 h1
  obtain ⟨e', he', -, -, he1⟩ := C56_nozzle (Do := Do) (P1 := P1) none hD.ne' b0 b1 hk hP1 le_rfl
  rw [he1 rfl] at he'
  refine ⟨fun P2 => √(nozzleSq (Do / D) (P2 / P1) k), fun P2 hP2 hP => nozzle_eq hD.ne' rfl b0 b1 hk hP2 hP, he', ?_⟩
  rw [show (1 : ℝ) = √1 by simp]
  refine (continuous_sqrt.tendsto _).comp ?_
  generalize Do / D = b at *
  have hk0 : k ≠ 0 := by linarith
  have hk1 : k - 1 ≠ 0 := by intro h; linarith
  have hb4 : b ^ 4 < 1 := pow_lt_one₀ b0.le b1 (by norm_num)
  have ht : Tendsto (fun P2 : ℝ => P2 / P1) (𝓝[<] P1) (𝓝[≠] 1) := by
    refine tendsto_nhdsWithin_iff.mpr ⟨?_, ?_⟩
    · have : Tendsto (fun P2 : ℝ => P2 / P1) (𝓝 P1) (𝓝 (P1 / P1)) := tendsto_id.div_const P1
      rw [div_self hP1.ne'] at this
      exact this.mono_left nhdsWithin_le_nhds
    · filter_upwards [self_mem_nhdsWithin] with x hx
      have hx : x < P1 := hx
      exact ((div_lt_one hP1).mpr hx).ne
  suffices h : Tendsto (fun t => nozzleSq b t k) (𝓝[≠] 1) (𝓝 1) from h.comp ht
  have hp : Tendsto (fun t : ℝ => t ^ (2 / k)) (𝓝[≠] 1) (𝓝 1) := by
    have := (Real.continuousAt_rpow_const 1 (2 / k) (Or.inl one_ne_zero)).tendsto
    rw [one_rpow] at this
    exact this.mono_left nhdsWithin_le_nhds
  have hd : HasDerivAt (fun t : ℝ => t ^ ((k - 1) / k)) ((k - 1) / k) 1 := by
    have := Real.hasDerivAt_rpow_const (x := 1) (p := (k - 1) / k) (Or.inl one_ne_zero)
    simpa using this
  have hsl := hasDerivAt_iff_tendsto_slope.mp hd
  have hd2 : 1 - b ^ 4 * 1 ≠ 0 := by linarith
  have hall : Tendsto (fun t : ℝ => k * t ^ (2 / k) / (k - 1) * ((1 - b ^ 4) / (1 - b ^ 4 * t ^ (2 / k))) *
      slope (fun t : ℝ => t ^ ((k - 1) / k)) 1 t) (𝓝[≠] 1) (𝓝 (k * 1 / (k - 1) * ((1 - b ^ 4) / (1 - b ^ 4 * 1)) * ((k - 1) / k))) :=
    (((hp.const_mul k).div_const _).mul (tendsto_const_nhds.div (tendsto_const_nhds.sub (hp.const_mul _)) hd2)).mul hsl
  have hv : k * 1 / (k - 1) * ((1 - b ^ 4) / (1 - b ^ 4 * 1)) * ((k - 1) / k) = 1 := by
    rw [mul_one] at hd2
    rw [mul_one, mul_one, div_self hd2]; field_simp
  rw [hv] at hall
  refine hall.congr' ?_
  filter_upwards [self_mem_nhdsWithin] with t ht
  have ht : t ≠ 1 := ht
  unfold nozzleSq
  congr 1
  rw [slope_def_field, one_rpow]
  have h2 : t - 1 ≠ 0 := sub_ne_zero.mpr ht
  have h3 : 1 - t ≠ 0 := fun h => h2 (by linarith)
  rw [div_eq_div_iff h2 h3]; ring

/-- C56 (finding): with `k = 1` and no pressure drop `nozzle_expansibility` raises `ZeroDivisionError` instead of returning 1. -/
theorem C56_nozzle_k1_zero_dP {D Do P : ℝ} (hD : D ≠ 0) (hP : 0 < P) (beta : Option ℝ) :
    nozzle_expansibility D Do P P 1 beta = .error .zeroDivisionError := by
  obtain ⟨b, hb⟩ : ∃ b, beta.getD (Do / D) = b := ⟨_, rfl⟩
  have e : D ^ 4 * P ^ 3 - D ^ 4 * P ^ 2 * P - Do ^ 4 * P * P ^ 2 + Do ^ 4 * P ^ 3 = 0 := by ring
  simp only [nozzle_expansibility, pick_beta beta hD hb, Py.ok_bind, pdiv_ok hP.ne', div_self hP.ne', if_true, plog_ok one_pos, e, pdiv_zero,
    Py.error_bind]

/-- C56 (finding): with `k = 1` an explicitly supplied diameter ratio (as the wedge meters pass) is ignored: the value is always the one for
the ratio `Do/D`, although the limit of the formula for the supplied ratio is different. -/
theorem C56_nozzle_k1_ignores_beta {D Do P1 P2 : ℝ} (h0 : 0 < Do) (h1 : Do < D) (hP2 : 0 < P2) (hP : P2 < P1) {b : ℝ} (b0 : 0 < b) (b1 : b < 1)
    (hb : b ≠ Do / D) :
    nozzle_expansibility D Do P1 P2 1 (some b) = nozzle_expansibility D Do P1 P2 1 none ∧
      nozzleSq1 b (P2 / P1) ≠ nozzleSq1 (Do / D) (P2 / P1) := by
  refine ⟨by rw [(nozzle_one_eq h0 h1 hP2 hP).1, (nozzle_one_eq h0 h1 hP2 hP).1], ?_⟩
  obtain ⟨c0, c1⟩ := ratio_mem h0 h1
  have hP1 : 0 < P1 := by linarith
  have t0 : 0 < P2 / P1 := by positivity
  have t1 : P2 / P1 < 1 := by rw [div_lt_one hP1]; exact hP
  generalize Do / D = c at *
  generalize P2 / P1 = t at *
  have hl : log t < 0 := log_neg t0 t1
  have t2 : t ^ 2 < 1 := pow_lt_one₀ t0.le t1 (by norm_num)
  have hc4 : c ^ 4 < 1 := pow_lt_one₀ c0.le c1 (by norm_num)
  have hb4 : b ^ 4 < 1 := pow_lt_one₀ b0.le b1 (by norm_num)
  have hbc : b ^ 4 ≠ c ^ 4 := fun h => hb ((pow_left_inj₀ b0.le c0.le (by norm_num)).mp h)
  have t20 : 0 < t ^ 2 := by positivity
  have hd1 : 1 - b ^ 4 * t ^ 2 ≠ 0 := by
    have : 0 < b ^ 4 := by positivity
    nlinarith
  have hd2 : 1 - c ^ 4 * t ^ 2 ≠ 0 := by
    have : 0 < c ^ 4 := by positivity
    nlinarith
  have h1t : 1 - t ≠ 0 := by linarith
  unfold nozzleSq1
  intro h
  rw [div_eq_div_iff (mul_ne_zero h1t hd1) (mul_ne_zero h1t hd2)] at h
  have hk : t ^ 2 * (-log t) * (1 - t) ≠ 0 := by
    have : -log t ≠ 0 := by linarith
    positivity
  have h' : (1 - b ^ 4) * (1 - c ^ 4 * t ^ 2) = (1 - c ^ 4) * (1 - b ^ 4 * t ^ 2) := by
    apply mul_left_cancel₀ hk; linarith
  have : (b ^ 4 - c ^ 4) * (t ^ 2 - 1) = 0 := by linarith
  rcases mul_eq_zero.mp this with h | h
  · exact hbc (by linarith)
  · linarith

/-- concrete cases -/
example : ∃ e, nozzle_expansibility 0.0739 0.0222 1e5 9.9e4 1.4 none = .ok e ∧ 0 < e ∧ e ≤ 1 ∧ ((1e5 : ℝ) = 9.9e4 → e = 1) :=
  C56_nozzle none (by norm_num) (by norm_num) (by norm_num) (by norm_num) (by norm_num) (by norm_num)
example : ∃ e, orifice_expansibility 0.0739 0.0222 1e5 9.9e4 1.4 = .ok e ∧ e ≤ 1 ∧ (e = 1 ↔ (1e5 : ℝ) = 9.9e4) ∧ ((0.0222 : ℝ) / 0.0739 ≤ 0.9 → 0 < e) :=
  C56_orifice (by norm_num) (by norm_num) (by norm_num) (by norm_num) (by norm_num)

/-! ## C58 -/

/-- Specification: area of the part of a circle of diameter `D` lying within `H` of its lowest point (integral of the chord). -/
noncomputable def openSegment (D H : ℝ) : ℝ := ∫ y in (0 : ℝ)..H, 2 * √(y * (D - y))

/-- C58: the cone meter's diameter ratio squared is the annulus area divided by the pipe area. -/
theorem C58_cone {D Dc : ℝ} (h0 : 0 ≤ Dc) (h1 : Dc ≤ D) (hD : 0 < D) :
    ∃ b, diameter_ratio_cone_meter D Dc = .ok b ∧ 0 ≤ b ∧ b ≤ 1 ∧
      b ^ 2 = (π / 4 * D ^ 2 - π / 4 * Dc ^ 2) / (π / 4 * D ^ 2) := by
  have r0 : 0 ≤ Dc / D := by positivity
  have r1 : Dc / D ≤ 1 := by rw [div_le_one hD]; exact h1
  have hs : 0 ≤ 1 - Dc / D * (Dc / D) := by nlinarith
  refine ⟨_, by simp only [diameter_ratio_cone_meter, pdiv_ok hD.ne', Py.ok_bind, psqrt_ok hs]; rfl, sqrt_nonneg _, ?_, ?_⟩
  · rw [sqrt_le_one]; nlinarith
  · rw [sq_sqrt hs]
    have := pi_pos.ne'
    field_simp

/-- C58: the wedge meter's diameter ratio squared is the area of the open segment of height `H` divided by the pipe area. -/
theorem C58_wedge {D H : ℝ} (h0 : 0 ≤ H) (h1 : H ≤ D) (hD : 0 < D) :
    ∃ b, diameter_ratio_wedge_meter D H = .ok b ∧ 0 ≤ b ∧ b ≤ 1 ∧ b ^ 2 = openSegment D H / (π / 4 * D ^ 2) := by
  have hR : 0 < D / 2 := by linarith
  have hseg : openSegment D H = segArea (D / 2) H := by
    rw [← integral_chord hR h0 (by linarith)]
    unfold openSegment chord
    rw [show 2 * (D / 2) = D by ring]
  have r0 : 0 ≤ H / D := by positivity
  have r1 : H / D ≤ 1 := by rw [div_le_one hD]; exact h1
  have hs : 0 ≤ H / D - H / D * (H / D) := by nlinarith
  have e : 1 / π * (arccos (1 - 2 * (H / D)) - (1 - 2 * (H / D) + (1 - 2 * (H / D))) * √(H / D - H / D * (H / D))) =
      openSegment D H / (π / 4 * D ^ 2) := by
    rw [hseg, segArea, show (D / 2 - H) / (D / 2) = 1 - 2 * (H / D) by field_simp,
      show H * (2 * (D / 2) - H) = D ^ 2 * (H / D - H / D * (H / D)) by field_simp,
      sqrt_mul (by positivity), sqrt_sq hD.le]
    generalize √(H / D - H / D * (H / D)) = u
    generalize arccos (1 - 2 * (H / D)) = a
    have := pi_pos.ne'
    field_simp
    ring
  have hmono := (segArea_strictMono hR).monotoneOn
  have hnn : 0 ≤ openSegment D H := by
    rw [hseg, ← segArea_zero hR]; exact hmono ⟨le_rfl, by linarith⟩ ⟨h0, by linarith⟩ h0
  have hle : openSegment D H ≤ π / 4 * D ^ 2 := by
    rw [hseg]
    have := hmono (a := H) (b := 2 * (D / 2)) ⟨h0, by linarith⟩ ⟨by linarith, le_rfl⟩ (by linarith)
    rw [segArea_full hR] at this
    nlinarith
  have hq : 0 ≤ openSegment D H / (π / 4 * D ^ 2) := by have := pi_pos; positivity
  refine ⟨√(openSegment D H / (π / 4 * D ^ 2)), ?_, sqrt_nonneg _, ?_, sq_sqrt hq⟩
  · simp only [diameter_ratio_wedge_meter, pdiv_ok hD.ne', Py.ok_bind, psqrt_ok hs,
      pacos_ok (x := 1 - 2 * (H / D)) (by linarith) (by linarith), e, psqrt_ok hq]
  · rw [sqrt_le_one, div_le_one (by have := pi_pos; positivity)]; exact hle

/-- C58: a larger gap means a larger diameter ratio, so the gap is determined by the ratio. -/
theorem C58_wedge_strictMono {D H H' : ℝ} (hD : 0 < D) (h0 : 0 ≤ H) (h1 : H < H') (h2 : H' ≤ D) :
    ∃ b b', diameter_ratio_wedge_meter D H = .ok b ∧ diameter_ratio_wedge_meter D H' = .ok b' ∧ b < b' := by
  obtain ⟨b, hb, b0, -, bq⟩ := C58_wedge h0 (by linarith : H ≤ D) hD
  obtain ⟨b', hb', b0', -, bq'⟩ := C58_wedge (by linarith : 0 ≤ H') h2 hD
  refine ⟨b, b', hb, hb', lt_of_pow_lt_pow_left₀ 2 b0' ?_⟩
  have hR : 0 < D / 2 := by linarith
  rw [bq, bq', div_lt_div_iff_of_pos_right (by have := pi_pos; positivity)]
  have hseg : ∀ H, 0 ≤ H → H ≤ D → openSegment D H = segArea (D / 2) H := by
    intro H h0 h1
    rw [← integral_chord hR h0 (by linarith)]
    unfold openSegment chord
    rw [show 2 * (D / 2) = D by ring]
  rw [hseg _ h0 (by linarith), hseg _ (by linarith) h2]
  exact segArea_strictMono hR ⟨h0, by linarith⟩ ⟨by linarith, by linarith⟩ h1

/-- C58: an obstruction outside the pipe is rejected. -/
theorem C58_reject {D X : ℝ} (hD : 0 < D) :
    (D < X → diameter_ratio_cone_meter D X = .error .valueError) ∧
      (X < 0 ∨ D < X → diameter_ratio_wedge_meter D X = .error .valueError) := by
  constructor
  · intro h
    have : 1 < X / D := by rw [one_lt_div hD]; exact h
    have h2 : 1 - X / D * (X / D) < 0 := by nlinarith
    simp only [diameter_ratio_cone_meter, pdiv_ok hD.ne', Py.ok_bind, psqrt, if_pos h2]
  · intro h
    have h2 : 1 - 2 * (X / D) < -1 ∨ 1 < 1 - 2 * (X / D) := by
      rcases h with h | h
      · right; have : X / D < 0 := div_neg_of_neg_of_pos h hD; linarith
      · left; have : 1 < X / D := by rw [one_lt_div hD]; exact h
        linarith
    simp only [diameter_ratio_wedge_meter, pdiv_ok hD.ne', Py.ok_bind, pacos, if_pos h2, Py.error_bind]

example : ∃ b, diameter_ratio_cone_meter 0.2575 0.184 = .ok b ∧ 0 ≤ b ∧ b ≤ 1 ∧
    b ^ 2 = (π / 4 * 0.2575 ^ 2 - π / 4 * 0.184 ^ 2) / (π / 4 * 0.2575 ^ 2) := C58_cone (by norm_num) (by norm_num) (by norm_num)
example : ∃ b, diameter_ratio_wedge_meter 0.2027 0.0608 = .ok b ∧ 0 ≤ b ∧ b ≤ 1 ∧ b ^ 2 = openSegment 0.2027 0.0608 / (π / 4 * 0.2027 ^ 2) :=
  C58_wedge (by norm_num) (by norm_num) (by norm_num)

end Verif
