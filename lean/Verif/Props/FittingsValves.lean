import Verif.Model.Fittings
import Verif.Spec.Fittings
import Verif.Lemmas.FrictionDefined2
import Verif.Model.Constants

/-! # C46, C47, C49: basis changes, flow coefficients and Crane valves -/

namespace Verif.Fittings
open Real
open Verif.Friction
open Verif.Spec.Fittings

/-! ### C46 -/

theorem change_ok {K D1 D2 : ℝ} (h1 : 0 < D1) : change_K_basis K D1 D2 = .ok (K * (D2 / D1) ^ 4) := by
  simp only [change_K_basis, pdiv_ok h1.ne', Py.ok_bind, Py.pure_eq]; congr 1; ring

/-- C46: changing the basis to the same diameter changes nothing, and going through an intermediate diameter is going directly. -/
theorem C46_group {K D1 D2 D3 : ℝ} (h1 : 0 < D1) (h2 : 0 < D2) :
    change_K_basis K D1 D1 = .ok K ∧
      (change_K_basis K D1 D2 >>= fun K2 => change_K_basis K2 D2 D3) = change_K_basis K D1 D3 := by
  refine ⟨?_, ?_⟩
  · rw [change_ok h1, div_self h1.ne', one_pow, mul_one]
  · simp only [change_ok h1, Py.ok_bind, change_ok h2]
    congr 1; field_simp

/-- C46: there and back again. -/
theorem C46_inverse {K D1 D2 : ℝ} (h1 : 0 < D1) (h2 : 0 < D2) :
    (change_K_basis K D1 D2 >>= fun K2 => change_K_basis K2 D2 D1) = .ok K := by
  rw [(C46_group h1 h2).2, (C46_group (D2 := D1) (D3 := D1) h1 h1).1]

/-- C46: the converted coefficient gives the same pressure drop in the new pipe, and is the only one that does for a flow. -/
theorem C46_pressure_drop {K D1 D2 K2 : ℝ} (h1 : 0 < D1) (h2 : 0 < D2) {rho Q : ℝ} (hr : 0 < rho) (hQ : Q ≠ 0) :
    change_K_basis K D1 D2 = .ok K2 ↔ pressureDrop K2 rho Q D2 = pressureDrop K rho Q D1 := by
  have hp := pi_pos
  rw [change_ok h1, ok_eq_ok]
  simp only [pressureDrop, velocity]
  have e : ∀ k d : ℝ, 0 < d → k * (rho * (Q / (π * d ^ 2 / 4)) ^ 2 / 2) = (k / d ^ 4) * (8 * rho * Q ^ 2 / π ^ 2) := by
    intro k d hd; field_simp; ring
  rw [e _ _ h1, e _ _ h2]
  have hc : (8 * rho * Q ^ 2 / π ^ 2) ≠ 0 := by positivity
  rw [mul_left_inj' hc]
  constructor
  · rintro rfl; field_simp
  · intro h; field_simp at h ⊢; linarith

example : change_K_basis 32.68875692997804 0.01 0.02 = .ok (32.68875692997804 * (0.02 / 0.01) ^ 4) := change_ok (by norm_num)

/-! ### C47 -/

/-- C47: `Cv = 1.156…·Kv`, each direction undoing the other. -/
theorem C47_Kv_Cv (x : ℝ) : Cv_to_Kv (Kv_to_Cv x) = x ∧ Kv_to_Cv (Cv_to_Kv x) = x ∧ Kv_to_Cv x = 1.1560992283536566 * x := by
  refine ⟨?_, ?_, rfl⟩ <;> simp only [Cv_to_Kv, Kv_to_Cv] <;> norm_num <;> ring

theorem Kv_to_K_ok {Kv D : ℝ} (h : 0 < Kv) : Kv_to_K Kv D = .ok (1.6e9 * D ^ 4 / Kv ^ 2) := by
  simp only [Kv_to_K, pdiv_ok (pow_ne_zero 2 h.ne'), Py.ok_bind, Py.pure_eq]; congr 1; ring
theorem K_to_Kv_ok {K D : ℝ} (h : 0 < K) : K_to_Kv K D = .ok (D * D * √(1.6e9 / K)) := by
  have h2 : (0 : ℝ) ≤ 1.6e9 / K := by positivity
  simp only [K_to_Kv, pdiv_ok h.ne', Py.ok_bind, psqrt_ok h2, Py.pure_eq]
theorem K_to_Cv_ok {K D : ℝ} (h : 0 < K) : K_to_Cv K D = .ok (Kv_to_Cv (D * D * √(1.6e9 / K))) := by
  have h2 : (0 : ℝ) ≤ 1.6e9 / K := by positivity
  simp only [K_to_Cv, pdiv_ok h.ne', Py.ok_bind, psqrt_ok h2, Py.pure_eq, Kv_to_Cv]; congr 1; ring
theorem Cv_to_K_ok {Cv D : ℝ} (h : 0 < Cv) : Cv_to_K Cv D = Kv_to_K (Cv_to_Kv Cv) D := by
  have h1 : 0 < Cv_to_Kv Cv := by unfold Cv_to_Kv; positivity
  rw [Kv_to_K_ok h1]
  simp only [Cv_to_K]
  rw [pdiv_ok (by positivity)]
  congr 1; unfold Cv_to_Kv; field_simp

/-- C47: `Kv ↔ K` are inverse bijections on the positive reals, and `K·Kv² = 1.6·10⁹·D⁴`. -/
theorem C47_Kv_K {x D : ℝ} (h : 0 < x) (hD : 0 < D) :
    (Kv_to_K x D >>= fun K => K_to_Kv K D) = .ok x ∧ (K_to_Kv x D >>= fun Kv => Kv_to_K Kv D) = .ok x ∧
      ∃ K > 0, Kv_to_K x D = .ok K ∧ K * x ^ 2 = 1.6e9 * D ^ 4 := by
  have e : (0 : ℝ) < 1.6e9 := by norm_num
  refine ⟨?_, ?_, 1.6e9 * D ^ 4 / x ^ 2, by positivity, Kv_to_K_ok h, by field_simp⟩
  · rw [Kv_to_K_ok h, Py.ok_bind, K_to_Kv_ok (by positivity)]
    rw [show (1.6e9 : ℝ) / (1.6e9 * D ^ 4 / x ^ 2) = (x / (D * D)) ^ 2 by field_simp, sqrt_sq (by positivity)]
    congr 1; field_simp
  · rw [K_to_Kv_ok h, Py.ok_bind, Kv_to_K_ok (by positivity), mul_pow, sq_sqrt (by positivity)]
    congr 1; field_simp

/-- C47: likewise `Cv ↔ K`. -/
theorem C47_Cv_K {x D : ℝ} (h : 0 < x) (hD : 0 < D) :
    (Cv_to_K x D >>= fun K => K_to_Cv K D) = .ok x ∧ (K_to_Cv x D >>= fun Cv => Cv_to_K Cv D) = .ok x := by
  have h1 : 0 < Cv_to_Kv x := by unfold Cv_to_Kv; positivity
  constructor
  · rw [Cv_to_K_ok h]
    have a := (C47_Kv_K h1 hD).1
    rw [Kv_to_K_ok h1, Py.ok_bind] at a ⊢
    rw [K_to_Kv_ok (by positivity), ok_eq_ok] at a
    have b := (C47_Kv_Cv x).2.1
    rw [a] at b
    rw [K_to_Cv_ok (by positivity), b]
  · have a := (C47_Kv_K h hD).2.1
    rw [K_to_Kv_ok h, Py.ok_bind] at a
    rw [K_to_Cv_ok h, Py.ok_bind, Cv_to_K_ok (by unfold Kv_to_Cv; positivity), (C47_Kv_Cv _).1, a]

/-- C47: the triangle `K – Kv – Cv` commutes in both directions. -/
theorem C47_triangle {x D : ℝ} (h : 0 < x) :
    (K_to_Cv x D = do let Kv ← K_to_Kv x D; return Kv_to_Cv Kv) ∧ Cv_to_K x D = Kv_to_K (Cv_to_Kv x) D :=
  ⟨by rw [K_to_Cv_ok h, K_to_Kv_ok h]; rfl, Cv_to_K_ok h⟩

/-- the factor between `Av` and `Cv`: `sqrt(rho0/psi)*gallon/minute` (control_valve.py:89, 1079) -/
noncomputable def avFactor : ℝ := √(999.10329075702327 / 6894.757293168361) * 0.003785411784 / 60

theorem avFactor_pos : 0 < avFactor := by unfold avFactor; positivity

/-- the same quantity on the three scales, relative to `Kv` -/
noncomputable def scale : String → Option ℝ
  | "Kv" => some 1
  | "Cv" => some 1.1560992283536566
  | "Av" => some (1.1560992283536566 * avFactor)
  | _ => none

/-- C47: `convert_flow_coefficient` multiplies by the ratio of the two scales… -/
theorem C47_convert {x c d : ℝ} {a b : String} (ha : scale a = some c) (hb : scale b = some d) :
    convert_flow_coefficient avFactor x a b = .ok (x * d / c) := by
  have hp := avFactor_pos.ne'
  have h : ∀ s e, scale s = some e → (s = "Kv" ∧ e = 1) ∨ (s = "Cv" ∧ e = 1.1560992283536566) ∨
      (s = "Av" ∧ e = 1.1560992283536566 * avFactor) := by
    intro s e h
    unfold scale at h
    split at h <;> simp_all
  rcases h a c ha with ⟨rfl, rfl⟩ | ⟨rfl, rfl⟩ | ⟨rfl, rfl⟩ <;> rcases h b d hb with ⟨rfl, rfl⟩ | ⟨rfl, rfl⟩ | ⟨rfl, rfl⟩ <;>
    simp only [convert_flow_coefficient, String.reduceEq, if_true, if_false, Py.ok_bind, Py.pure_eq, pdiv_ok hp, Cv_to_Kv, Kv_to_Cv] <;>
    congr 1 <;> field_simp

/-- C47: …so it is inverted by the reverse conversion, composes, and agrees with the two-scale functions. -/
theorem C47_convert_laws {x : ℝ} {a b c : String} (ha : (scale a).isSome) (hb : (scale b).isSome) (hc : (scale c).isSome) :
    (convert_flow_coefficient avFactor x a b >>= fun y => convert_flow_coefficient avFactor y b a) = .ok x ∧
      (convert_flow_coefficient avFactor x a b >>= fun y => convert_flow_coefficient avFactor y b c) =
        convert_flow_coefficient avFactor x a c ∧
      convert_flow_coefficient avFactor x "Kv" "Cv" = .ok (Kv_to_Cv x) ∧
      convert_flow_coefficient avFactor x "Cv" "Kv" = .ok (Cv_to_Kv x) := by
  obtain ⟨ka, ha⟩ := Option.isSome_iff_exists.mp ha
  obtain ⟨kb, hb⟩ := Option.isSome_iff_exists.mp hb
  obtain ⟨kc, hc⟩ := Option.isSome_iff_exists.mp hc
  have nz : ∀ s e, scale s = some e → e ≠ 0 := by
    intro s e h
    have := avFactor_pos.ne'
    unfold scale at h
    split at h <;> simp at h <;> rw [← h] <;> norm_num [this]
  have na := nz _ _ ha
  have nb := nz _ _ hb
  refine ⟨?_, ?_, ?_, ?_⟩
  · rw [C47_convert ha hb, Py.ok_bind, C47_convert hb ha]; congr 1; field_simp
  · rw [C47_convert ha hb, Py.ok_bind, C47_convert hb hc, C47_convert ha hc]; congr 1; field_simp
  · simp only [convert_flow_coefficient, String.reduceEq, if_true, if_false, Py.ok_bind, Py.pure_eq]
  · simp only [convert_flow_coefficient, String.reduceEq, if_true, if_false, Py.ok_bind, Py.pure_eq]

/-- C47: any other scale name, old or new, raises NotImplementedError. -/
theorem C47_convert_unknown {x : ℝ} {a b : String} (h : scale a = none ∨ ((scale a).isSome ∧ scale b = none)) :
    convert_flow_coefficient avFactor x a b = .error .notImplementedError := by
  have un : ∀ s, scale s = none → s ≠ "Cv" ∧ s ≠ "Kv" ∧ s ≠ "Av" := by
    intro s hs
    refine ⟨?_, ?_, ?_⟩ <;> rintro rfl <;> simp [scale] at hs
  rcases h with h | ⟨h, hb⟩
  · obtain ⟨h1, h2, h3⟩ := un a h
    simp only [convert_flow_coefficient, h1, h2, h3, if_false, Py.error_bind]
  · obtain ⟨h1, h2, h3⟩ := un b hb
    obtain ⟨c, hc⟩ := Option.isSome_iff_exists.mp h
    have : a = "Kv" ∨ a = "Cv" ∨ a = "Av" := by
      unfold scale at hc; split at hc <;> simp_all
    rcases this with rfl | rfl | rfl <;>
      simp only [convert_flow_coefficient, String.reduceEq, if_true, if_false, Py.ok_bind, Py.pure_eq, h1, h2, h3,
        pdiv_ok avFactor_pos.ne']

example : (scale "Av").isSome ∧ scale "Kd" = none := by simp [scale]

/-! ### C49 -/

/-- the friction factor a valve uses: the one given, or Crane's fully turbulent one at the pipe diameter -/
def Uses (fd : Option ℝ) (D f : ℝ) : Prop := fd = some f ∨ fd = none ∧ ft_Crane D = .ok f

theorem Uses.ftOr {fd : Option ℝ} {D f : ℝ} (h : Uses fd D f) : ftOr fd D = .ok f := by
  rcases h with rfl | ⟨rfl, h⟩
  · rfl
  · exact h

theorem Uses.ftOpt {fd : Option ℝ} {D f : ℝ} (h : Uses fd D f) : ftOpt fd (some D) = .ok f := by
  rcases h with rfl | ⟨rfl, h⟩
  · rfl
  · exact h

/-- C49: with no friction factor given every valve still has one, for every pipe of at least one millimetre. -/
theorem C49_friction_defined {D : ℝ} (h : 1e-3 ≤ D) : ∃ f, Uses none D f := by
  have hD : 0 < D := lt_of_lt_of_le (by norm_num) h
  have hp : D ^ (-1.0112 : ℝ) ≤ 1420 := by
    have h1 : D ^ (-1.0112 : ℝ) ≤ (1e-3 : ℝ) ^ (-1.0112 : ℝ) :=
      rpow_le_rpow_of_nonpos (by norm_num) h (by norm_num)
    have h2 : (1e-3 : ℝ) ^ (-1.0112 : ℝ) = 1000 ^ (1.0112 : ℝ) := by
      rw [show (1e-3 : ℝ) = 1000⁻¹ by norm_num, inv_rpow (by norm_num), rpow_neg (by norm_num), inv_inv]
    have h3 : (1000 : ℝ) ^ (1.0112 : ℝ) ≤ 1000 ^ (1.05 : ℝ) := rpow_le_rpow_of_exponent_le (by norm_num) (by norm_num)
    have h4 : (1000 : ℝ) ^ (1.05 : ℝ) = 1000 * 1000 ^ (1 / 20 : ℝ) := by
      rw [show (1.05 : ℝ) = 1 + 1 / 20 by norm_num, rpow_add (by norm_num), rpow_one]
    have h5 : (1000 : ℝ) ^ (1 / 20 : ℝ) ≤ 1.42 := by
      have : (1000 : ℝ) ≤ 1.42 ^ (20 : ℕ) := by norm_num
      calc (1000 : ℝ) ^ (1 / 20 : ℝ) ≤ ((1.42 : ℝ) ^ (20 : ℕ)) ^ (1 / 20 : ℝ) := rpow_le_rpow (by norm_num) this (by norm_num)
        _ = 1.42 := by
            rw [← rpow_natCast, ← rpow_mul (by norm_num)]; norm_num
    rw [h2] at h1
    linarith
  have hp0 : 0 < D ^ (-1.0112 : ℝ) := rpow_pos_of_pos hD _
  obtain ⟨f, hf⟩ := ok_Clamond (Re := 7.5e6 * D) (e := 3.4126825352925e-5 * D ^ (-1.0112 : ℝ))
    ⟨by norm_num at h ⊢; linarith, by positivity, by norm_num at hp ⊢; linarith⟩ (!decide (D < 1e-2))
  exact ⟨f, .inr ⟨rfl, by simp only [ft_Crane, ppow_ok hD, Py.ok_bind, hf]⟩⟩

section valves
variable {fd : Option ℝ} {D1 D2 f : ℝ}

/-- C49: globe and angle valves, documented formula for every bore ratio (at `β = 1` it is `c·ft`). -/
theorem C49_globe_angle (h1 : 0 < D1) (h2 : 0 < D2) (hf : Uses fd D2 f) :
    K_globe_valve_Crane D1 D2 fd = .ok (crane7' (340 * f) (D1 / D2)) ∧
      K_angle_valve_Crane D1 D2 fd 0 = .ok (crane7' (55 * f) (D1 / D2)) ∧
      K_angle_valve_Crane D1 D2 fd 1 = .ok (crane7' (150 * f) (D1 / D2)) ∧
      K_angle_valve_Crane D1 D2 fd 2 = .ok (crane7' (55 * f) (D1 / D2)) := by
  have hb : D1 / D2 ≠ 0 := by positivity
  have hb4 : D1 / D2 * (D1 / D2) * (D1 / D2 * (D1 / D2)) ≠ 0 := by positivity
  have hb4' : (D1 / D2) ^ 4 ≠ 0 := by positivity
  refine ⟨?_, ?_, ?_, ?_⟩
  · simp only [K_globe_valve_Crane, pdiv_ok h2.ne', Py.ok_bind, hf.ftOr, crane7', Py.pure_eq]
    split_ifs with hh
    · rw [hh]; norm_num
    · rw [pdiv_ok hb4]; congr 1; ring
  all_goals
    simp only [K_angle_valve_Crane, pdiv_ok h2.ne', Py.ok_bind, hf.ftOr, crane7', Py.pure_eq]
    norm_num only [if_true, if_false, not_true, not_false_iff, or_true, true_or, or_false, false_or]
    split_ifs with hh
    · rw [hh]; norm_num
    · rw [pdiv_ok hb4']

/-- C49: lift check and stop check valves. -/
theorem C49_check (h1 : 0 < D1) (h2 : 0 < D2) (hf : Uses fd D2 f) :
    K_lift_check_valve_Crane D1 D2 fd true = .ok (crane7 (55 * f) (D1 / D2)) ∧
      K_lift_check_valve_Crane D1 D2 fd false = .ok (crane7 (600 * f) (D1 / D2)) ∧
      K_globe_stop_check_valve_Crane D1 D2 fd 0 = .ok (crane7 (400 * f) (D1 / D2)) ∧
      K_globe_stop_check_valve_Crane D1 D2 fd 1 = .ok (crane7 (300 * f) (D1 / D2)) ∧
      K_globe_stop_check_valve_Crane D1 D2 fd 2 = .ok (crane7 (55 * f) (D1 / D2)) ∧
      K_angle_stop_check_valve_Crane D1 D2 fd 0 = .ok (crane7 (200 * f) (D1 / D2)) ∧
      K_angle_stop_check_valve_Crane D1 D2 fd 1 = .ok (crane7 (350 * f) (D1 / D2)) ∧
      K_angle_stop_check_valve_Crane D1 D2 fd 2 = .ok (crane7 (55 * f) (D1 / D2)) := by
  have hb4' : (D1 / D2) ^ 4 ≠ 0 := by positivity
  have key : ∀ K : ℝ, (if D1 / D2 = 1 then (.ok K : Py ℝ) else
      (K + D1 / D2 * (0.5 * (1 - (D1 / D2) ^ 2) + (1 - (D1 / D2) ^ 2) ^ 2)) /ₚ (D1 / D2) ^ 4) = .ok (crane7 K (D1 / D2)) := by
    intro K
    split_ifs with hh
    · rw [hh, crane7]; norm_num
    · rw [pdiv_ok hb4', crane7]
  refine ⟨?_, ?_, ?_, ?_, ?_, ?_, ?_, ?_⟩
  · simp only [K_lift_check_valve_Crane, pdiv_ok h2.ne', Py.ok_bind, hf.ftOr, Py.pure_eq, if_true, key]
  · simp only [K_lift_check_valve_Crane, pdiv_ok h2.ne', Py.ok_bind, hf.ftOr, Py.pure_eq, Bool.false_eq_true, if_false, key]
  all_goals
    simp (config := { decide := true }) only [K_globe_stop_check_valve_Crane, K_angle_stop_check_valve_Crane, pdiv_ok h2.ne', Py.ok_bind, hf.ftOr, Py.pure_eq,
      if_true, if_false, key]

/-- C49: ball and plug valves, with the cone angle in degrees. -/
theorem C49_ball_plug {angle : ℝ} (h1 : 0 < D1) (h2 : 0 < D2) (hf : Uses fd D2 f) (ha : 0 ≤ angle) (ha' : angle ≤ 360) :
    K_ball_valve_Crane D1 D2 angle fd = .ok (if angle ≤ 45 then crane5 (3 * f) (angle * (π / 180)) (D1 / D2)
        else crane6 (3 * f) (angle * (π / 180)) (D1 / D2)) ∧
      K_plug_valve_Crane D1 D2 angle fd 0 = .ok (crane6 (18 * f) (angle * (π / 180)) (D1 / D2)) ∧
      K_plug_valve_Crane D1 D2 angle fd 1 = .ok (crane6 (30 * f) (angle * (π / 180)) (D1 / D2)) ∧
      K_plug_valve_Crane D1 D2 angle fd 2 = .ok (crane6 (90 * f) (angle * (π / 180)) (D1 / D2)) := by
  have hp := pi_pos
  have hb4' : (D1 / D2) ^ 4 ≠ 0 := by positivity
  have hs : 0 ≤ sin (angle * (π / 180) / 2) := sin_nonneg_of_nonneg_of_le_pi (by positivity) (by nlinarith)
  have h45 : angle * (π / 180) ≤ π / 4 ↔ angle ≤ 45 := by
    constructor <;> intro h <;> nlinarith
  refine ⟨?_, ?_, ?_, ?_⟩
  · simp only [K_ball_valve_Crane, pdiv_ok h2.ne', Py.ok_bind, hf.ftOr, Py.pure_eq, h45, psqrt_ok hs, pdiv_ok hb4']
    by_cases hh : D1 / D2 = 1
    · rw [if_pos hh, hh]
      split_ifs <;> simp only [crane5, crane6] <;> norm_num
    · rw [if_neg hh]
      split_ifs <;> simp only [crane5, crane6]
  all_goals
    simp (config := { decide := true }) only [K_plug_valve_Crane, pdiv_ok h2.ne', Py.ok_bind, hf.ftOr, Py.pure_eq, psqrt_ok hs, pdiv_ok hb4', if_true, if_false]
    by_cases hh : D1 / D2 = 1
    · rw [if_pos hh, hh, crane6]; norm_num
    · rw [if_neg hh, crane6]

/-- C49: gate valves, for a cone angle above 0. -/
theorem C49_gate {angle : ℝ} (h1 : 0 < D1) (h2 : 0 < D2) (hf : Uses fd D2 f) (ha : 0 < angle) (ha' : angle ≤ 360) :
    K_gate_valve_Crane D1 D2 angle fd = .ok (if angle ≤ 45 then crane5 (8 * f) (angle * (π / 180)) (D1 / D2)
        else crane6 (8 * f) (angle * (π / 180)) (D1 / D2)) := by
  have hp := pi_pos
  have hb4' : D1 / D2 * (D1 / D2) * (D1 / D2 * (D1 / D2)) ≠ 0 := by positivity
  have he : 0.5 * (angle * (π / 180)) = angle * (π / 180) / 2 := by ring
  have hs : 0 ≤ sin (angle * (π / 180) / 2) := sin_nonneg_of_nonneg_of_le_pi (by positivity) (by nlinarith)
  have h45 : angle * (π / 180) ≤ π / 4 ↔ angle ≤ 45 := by
    constructor <;> intro h <;> nlinarith
  have hz : angle * (π / 180) ≠ 0 := by positivity
  simp only [K_gate_valve_Crane, pdiv_ok h2.ne', Py.ok_bind, hf.ftOr, Py.pure_eq, h45, he, psqrt_ok hs, pdiv_ok hb4', hz, or_false]
  by_cases hh : D1 / D2 = 1
  · rw [if_pos hh, hh]
    split_ifs <;> simp only [crane5, crane6] <;> norm_num
  · rw [if_neg hh]
    split_ifs <;> simp only [crane5, crane6] <;> congr 1 <;> ring

/-- C49 (finding): at angle 0 the gate valve coefficient is `8·ft` whatever the bore, while for every angle in `(0°, 45°]` it is at
least `8·ft/β⁴`: for a reduced bore the two are apart by a factor `1/β⁴`. -/
theorem C49_gate_angle_zero (h2 : 0 < D2) (hf : Uses fd D2 f) :
    K_gate_valve_Crane D1 D2 0 fd = .ok (8 * f) ∧
      (0 < D1 → D1 < D2 → ∀ angle, 0 < angle → angle ≤ 45 → ∃ K, K_gate_valve_Crane D1 D2 angle fd = .ok K ∧ 8 * f / (D1 / D2) ^ 4 ≤ K) := by
  refine ⟨?_, fun h1 h12 angle ha ha' => ?_⟩
  · simp only [K_gate_valve_Crane, pdiv_ok h2.ne', Py.ok_bind, hf.ftOr, Py.pure_eq, zero_mul, or_true, if_true]
  · have hp := pi_pos
    refine ⟨_, C49_gate h1 h2 hf ha (by linarith), ?_⟩
    rw [if_pos ha', crane5]
    have hb : (D1 / D2) ^ 2 ≤ 1 := by
      have : D1 / D2 ≤ 1 := by rw [div_le_one h2]; exact h12.le
      exact pow_le_one₀ (by positivity) this
    have hs : 0 ≤ sin (angle * (π / 180) / 2) := sin_nonneg_of_nonneg_of_le_pi (by positivity) (by nlinarith)
    gcongr
    have : 0 ≤ 1 - (D1 / D2) ^ 2 := by linarith
    have : 0 ≤ sin (angle * (π / 180) / 2) * (0.8 * (1 - (D1 / D2) ^ 2) + 2.6 * (1 - (D1 / D2) ^ 2) ^ 2) := by positivity
    linarith

example : K_gate_valve_Crane 0.1 0.146 0 (some 0.015) = .ok (8 * 0.015) := (C49_gate_angle_zero (by norm_num) (.inl rfl)).1

/-- the valves whose coefficient depends on the bore ratio, as functions of the bore, with the full-bore constant -/
noncomputable def boreValves (D2 angle : ℝ) (fd : Option ℝ) : List (ℝ × (ℝ → Py ℝ)) :=
  [(340, fun D1 => K_globe_valve_Crane D1 D2 fd), (55, fun D1 => K_angle_valve_Crane D1 D2 fd 0),
   (150, fun D1 => K_angle_valve_Crane D1 D2 fd 1), (55, fun D1 => K_angle_valve_Crane D1 D2 fd 2),
   (55, fun D1 => K_lift_check_valve_Crane D1 D2 fd true), (600, fun D1 => K_lift_check_valve_Crane D1 D2 fd false),
   (400, fun D1 => K_globe_stop_check_valve_Crane D1 D2 fd 0), (300, fun D1 => K_globe_stop_check_valve_Crane D1 D2 fd 1),
   (55, fun D1 => K_globe_stop_check_valve_Crane D1 D2 fd 2), (200, fun D1 => K_angle_stop_check_valve_Crane D1 D2 fd 0),
   (350, fun D1 => K_angle_stop_check_valve_Crane D1 D2 fd 1), (55, fun D1 => K_angle_stop_check_valve_Crane D1 D2 fd 2),
   (3, fun D1 => K_ball_valve_Crane D1 D2 angle fd), (18, fun D1 => K_plug_valve_Crane D1 D2 angle fd 0),
   (30, fun D1 => K_plug_valve_Crane D1 D2 angle fd 1), (90, fun D1 => K_plug_valve_Crane D1 D2 angle fd 2),
   (8, fun D1 => K_gate_valve_Crane D1 D2 angle fd)]

theorem cont7 (K : ℝ) (h2 : 0 < D2) : ContinuousAt (fun D1 => crane7 K (D1 / D2)) D2 := by
  have : (D2 / D2) ^ 4 ≠ 0 := by positivity
  unfold crane7
  fun_prop (disch := assumption)
theorem cont7' (K : ℝ) (h2 : 0 < D2) : ContinuousAt (fun D1 => crane7' K (D1 / D2)) D2 := by
  have : (D2 / D2) ^ 4 ≠ 0 := by positivity
  unfold crane7'
  fun_prop (disch := assumption)
theorem cont5 (K a : ℝ) (h2 : 0 < D2) : ContinuousAt (fun D1 => crane5 K a (D1 / D2)) D2 := by
  have : (D2 / D2) ^ 4 ≠ 0 := by positivity
  unfold crane5
  fun_prop (disch := assumption)
theorem cont6 (K a : ℝ) (h2 : 0 < D2) : ContinuousAt (fun D1 => crane6 K a (D1 / D2)) D2 := by
  have : (D2 / D2) ^ 4 ≠ 0 := by positivity
  unfold crane6
  fun_prop (disch := assumption)

/-- C49: for every valve with a bore, the coefficient is defined for every positive bore, equals the full-bore constant times `ft` at
full bore, and tends to that value as the bore tends to the pipe diameter. -/
theorem C49_full_bore {angle : ℝ} (h2 : 0 < D2) (hf : Uses fd D2 f) (ha : 0 < angle) (ha' : angle ≤ 360) :
    ∀ p ∈ boreValves D2 angle fd, ∃ g : ℝ → ℝ, (∀ D1 > 0, p.2 D1 = .ok (g D1)) ∧ p.2 D2 = .ok (p.1 * f) ∧
      Filter.Tendsto g (nhds D2) (nhds (p.1 * f)) := by
  have e : D2 / D2 = 1 := div_self h2.ne'
  have fin : ∀ (c : ℝ) (F : ℝ → Py ℝ) (g : ℝ → ℝ), (∀ D1 > 0, F D1 = .ok (g D1)) → g D2 = c * f → ContinuousAt g D2 →
      ∃ g : ℝ → ℝ, (∀ D1 > 0, F D1 = .ok (g D1)) ∧ F D2 = .ok (c * f) ∧ Filter.Tendsto g (nhds D2) (nhds (c * f)) := by
    intro c F g h1 h3 h4
    refine ⟨g, h1, by rw [h1 D2 h2, h3], ?_⟩
    rw [← h3]; exact h4
  have s7 : ∀ K, crane7 K 1 = K := by intro K; unfold crane7; norm_num
  have s7' : ∀ K, crane7' K 1 = K := by intro K; unfold crane7'; norm_num
  have s5 : ∀ K a, crane5 K a 1 = K := by intro K a; unfold crane5; norm_num
  have s6 : ∀ K a, crane6 K a 1 = K := by intro K a; unfold crane6; norm_num
  simp only [boreValves, List.forall_mem_cons, List.not_mem_nil, false_implies, implies_true, and_true]
  refine ⟨fin _ _ _ (fun D1 h => (C49_globe_angle h h2 hf).1) (by rw [e, s7']) (cont7' _ h2),
    fin _ _ _ (fun D1 h => (C49_globe_angle h h2 hf).2.1) (by rw [e, s7']) (cont7' _ h2),
    fin _ _ _ (fun D1 h => (C49_globe_angle h h2 hf).2.2.1) (by rw [e, s7']) (cont7' _ h2),
    fin _ _ _ (fun D1 h => (C49_globe_angle h h2 hf).2.2.2) (by rw [e, s7']) (cont7' _ h2),
    fin _ _ _ (fun D1 h => (C49_check h h2 hf).1) (by rw [e, s7]) (cont7 _ h2),
    fin _ _ _ (fun D1 h => (C49_check h h2 hf).2.1) (by rw [e, s7]) (cont7 _ h2),
    fin _ _ _ (fun D1 h => (C49_check h h2 hf).2.2.1) (by rw [e, s7]) (cont7 _ h2),
    fin _ _ _ (fun D1 h => (C49_check h h2 hf).2.2.2.1) (by rw [e, s7]) (cont7 _ h2),
    fin _ _ _ (fun D1 h => (C49_check h h2 hf).2.2.2.2.1) (by rw [e, s7]) (cont7 _ h2),
    fin _ _ _ (fun D1 h => (C49_check h h2 hf).2.2.2.2.2.1) (by rw [e, s7]) (cont7 _ h2),
    fin _ _ _ (fun D1 h => (C49_check h h2 hf).2.2.2.2.2.2.1) (by rw [e, s7]) (cont7 _ h2),
    fin _ _ _ (fun D1 h => (C49_check h h2 hf).2.2.2.2.2.2.2) (by rw [e, s7]) (cont7 _ h2),
    fin _ _ _ (fun D1 h => (C49_ball_plug h h2 hf ha.le ha').1) ?_ ?_,
    fin _ _ _ (fun D1 h => (C49_ball_plug h h2 hf ha.le ha').2.1) (by rw [e, s6]) (cont6 _ _ h2),
    fin _ _ _ (fun D1 h => (C49_ball_plug h h2 hf ha.le ha').2.2.1) (by rw [e, s6]) (cont6 _ _ h2),
    fin _ _ _ (fun D1 h => (C49_ball_plug h h2 hf ha.le ha').2.2.2) (by rw [e, s6]) (cont6 _ _ h2),
    fin _ _ _ (fun D1 h => C49_gate h h2 hf ha ha') ?_ ?_⟩
  · simp only [e, s5, s6, ite_self]
  · split_ifs
    · exact cont5 _ _ h2
    · exact cont6 _ _ h2
  · simp only [e, s5, s6, ite_self]
  · split_ifs
    · exact cont5 _ _ h2
    · exact cont6 _ _ h2

/-- C49: the valves without a bore are a constant times `ft`; the size classes of tilting-disk and butterfly valves. -/
theorem C49_fixed {D : ℝ} (hf : Uses fd D f) :
    K_swing_check_valve_Crane (some D) fd true = .ok (100 * f) ∧ K_swing_check_valve_Crane (some D) fd false = .ok (50 * f) ∧
      K_diaphragm_valve_Crane (some D) fd 0 = .ok (149 * f) ∧ K_diaphragm_valve_Crane (some D) fd 1 = .ok (39 * f) ∧
      K_foot_valve_Crane (some D) fd 0 = .ok (420 * f) ∧ K_foot_valve_Crane (some D) fd 1 = .ok (75 * f) ∧
      K_butterfly_valve_Crane D fd 0 = .ok ((if D ≤ 0.2286 then 45 else if D ≤ 0.381 then 35 else 25) * f) ∧
      K_butterfly_valve_Crane D fd 1 = .ok ((if D ≤ 0.2286 then 74 else if D ≤ 0.381 then 52 else 43) * f) ∧
      K_butterfly_valve_Crane D fd 2 = .ok ((if D ≤ 0.2286 then 218 else if D ≤ 0.381 then 96 else 55) * f) ∧
      (∀ angle < 10, K_tilting_disk_check_valve_Crane D angle fd =
        .ok ((if D ≤ 0.2286 then 40 else if D ≤ 0.381 then 30 else 20) * f)) ∧
      (∀ angle ≥ 10, K_tilting_disk_check_valve_Crane D angle fd =
        .ok ((if D < 0.2286 then 120 else if D < 0.381 then 90 else 60) * f)) := by
  have hm := hf.ftOpt
  refine ⟨?_, ?_, ?_, ?_, ?_, ?_, ?_, ?_, ?_, fun a ha => ?_, fun a ha => ?_⟩
  · simp only [K_swing_check_valve_Crane, hm, Py.ok_bind, Py.pure_eq, if_true]
  · simp only [K_swing_check_valve_Crane, hm, Py.ok_bind, Py.pure_eq, Bool.false_eq_true, if_false]
  · simp only [K_diaphragm_valve_Crane, hm, Py.ok_bind, Py.pure_eq, if_true]
  · simp (config := { decide := true }) only [K_diaphragm_valve_Crane, hm, Py.ok_bind, Py.pure_eq, if_false, if_true]
  · simp only [K_foot_valve_Crane, hm, Py.ok_bind, Py.pure_eq, if_true]
  · simp (config := { decide := true }) only [K_foot_valve_Crane, hm, Py.ok_bind, Py.pure_eq, if_false, if_true]
  · simp (config := { decide := true }) only [K_butterfly_valve_Crane, hf.ftOr, Py.ok_bind, Py.pure_eq, if_false, if_true]
    split_ifs <;> rfl
  · simp (config := { decide := true }) only [K_butterfly_valve_Crane, hf.ftOr, Py.ok_bind, Py.pure_eq, if_false, if_true]
    split_ifs <;> rfl
  · simp (config := { decide := true }) only [K_butterfly_valve_Crane, hf.ftOr, Py.ok_bind, Py.pure_eq, if_false, if_true]
    split_ifs <;> rfl
  · simp only [K_tilting_disk_check_valve_Crane, hf.ftOr, Py.ok_bind, Py.pure_eq, ha, if_true]
    split_ifs <;> rfl
  · simp only [K_tilting_disk_check_valve_Crane, hf.ftOr, Py.ok_bind, Py.pure_eq, not_lt.mpr ha, if_false]
    split_ifs <;> rfl

/-- C49: an unsupported style raises ValueError (for a valve whose friction factor is defined). -/
theorem C49_styles {style : ℤ} (h2 : 0 < D2) (hf : Uses fd D2 f) (angle : ℝ) :
    (style ∉ [0, 1, 2] → K_angle_valve_Crane D1 D2 fd style = .error .valueError ∧
      K_globe_stop_check_valve_Crane D1 D2 fd style = .error .valueError ∧
      K_angle_stop_check_valve_Crane D1 D2 fd style = .error .valueError ∧
      K_butterfly_valve_Crane D2 fd style = .error .valueError ∧
      K_plug_valve_Crane D1 D2 angle fd style = .error .valueError) ∧
    (style ∉ [0, 1] → K_diaphragm_valve_Crane (some D2) fd style = .error .valueError ∧
      K_foot_valve_Crane (some D2) fd style = .error .valueError) := by
  have hm := hf.ftOpt
  simp only [List.mem_cons, List.not_mem_nil, or_false, not_or]
  refine ⟨fun ⟨a, b, c⟩ => ?_, fun ⟨a, b⟩ => ?_⟩
  · simp only [K_angle_valve_Crane, K_globe_stop_check_valve_Crane, K_angle_stop_check_valve_Crane, K_butterfly_valve_Crane,
      K_plug_valve_Crane, pdiv_ok h2.ne', Py.ok_bind, hf.ftOr, a, b, c, or_false, not_false_iff, if_true, if_false, Py.error_bind, and_self]
  · simp only [K_diaphragm_valve_Crane, K_foot_valve_Crane, hm, Py.ok_bind, a, b, if_false, and_self]

/-- C49: without a diameter and a friction factor the size-free valves raise ValueError. -/
theorem C49_missing (style : ℤ) (angled : Bool) :
    K_swing_check_valve_Crane none none angled = .error .valueError ∧ K_diaphragm_valve_Crane none none style = .error .valueError ∧
      K_foot_valve_Crane none none style = .error .valueError := ⟨rfl, rfl, rfl⟩

/-- C49: `Crane_loss_coefficient` knows exactly the names of `CRANE_VALVES`; any other raises ValueError. -/
theorem C49_dispatch {angle : ℝ} (h1 : 0 < D1) (h2 : 0 < D2) (hf : Uses fd D2 f) (ha : 0 < angle) (ha' : angle ≤ 360) (name : String) :
    (name ∈ CRANE_VALVES → ∃ K, Crane_loss_coefficient D1 D2 angle name fd = .ok K) ∧
      (name ∉ CRANE_VALVES → Crane_loss_coefficient D1 D2 angle name fd = .error .valueError) := by
  have fx := C49_fixed hf
  have ck := C49_check h1 h2 hf
  have ga := C49_globe_angle h1 h2 hf
  have bp := C49_ball_plug h1 h2 hf ha.le ha'
  constructor
  · revert name
    simp only [CRANE_VALVES, List.forall_mem_cons, List.not_mem_nil, false_implies, implies_true, and_true]
    simp only [Crane_loss_coefficient, String.reduceEq, if_true, if_false]
    exact ⟨⟨_, C49_gate h1 h2 hf ha ha'⟩, ⟨_, ga.1⟩, ⟨_, ga.2.1⟩, ⟨_, ga.2.2.1⟩, ⟨_, ga.2.2.2⟩, ⟨_, fx.2.1⟩, ⟨_, fx.1⟩,
      ⟨_, ck.2.1⟩, ⟨_, ck.1⟩, ⟨_, fx.2.2.2.2.2.2.2.2.2.1 5 (by norm_num)⟩, ⟨_, fx.2.2.2.2.2.2.2.2.2.2 15 (by norm_num)⟩,
      ⟨_, ck.2.2.1⟩, ⟨_, ck.2.2.2.1⟩, ⟨_, ck.2.2.2.2.1⟩, ⟨_, ck.2.2.2.2.2.1⟩, ⟨_, ck.2.2.2.2.2.2.1⟩, ⟨_, ck.2.2.2.2.2.2.2⟩,
      ⟨_, bp.1⟩, ⟨_, fx.2.2.1⟩, ⟨_, fx.2.2.2.1⟩, ⟨_, fx.2.2.2.2.1⟩, ⟨_, fx.2.2.2.2.2.1⟩, ⟨_, fx.2.2.2.2.2.2.1⟩,
      ⟨_, fx.2.2.2.2.2.2.2.1⟩, ⟨_, fx.2.2.2.2.2.2.2.2.1⟩, ⟨_, bp.2.1⟩, ⟨_, bp.2.2.1⟩, ⟨_, bp.2.2.2⟩⟩
  · intro hn
    simp only [CRANE_VALVES, List.mem_cons, List.not_mem_nil, or_false, not_or] at hn
    simp only [Crane_loss_coefficient, hn, if_false]

/-- C49: and each name computes its own valve: the full-bore value identifies it. -/
theorem C49_dispatch_values {angle : ℝ} (h2 : 0 < D2) (hf : Uses fd D2 f) (ha : 0 < angle) (ha' : angle ≤ 360) :
    ∀ p ∈ [("CRANE_GATE_VALVE", (8 : ℝ)), ("CRANE_GLOBE_VALVE", 340), ("CRANE_ANGLE_VALVE_0", 55), ("CRANE_ANGLE_VALVE_1", 150),
      ("CRANE_ANGLE_VALVE_2", 55), ("CRANE_SWING_CHECK_VALVE", 50), ("CRANE_SWING_CHECK_VALVE_ANGLED", 100),
      ("CRANE_LIFT_CHECK_VALVE", 600), ("CRANE_LIFT_CHECK_VALVE_ANGLED", 55),
      ("CRANE_TILTING_CHECK_VALVE_5DEG", if D2 ≤ 0.2286 then 40 else if D2 ≤ 0.381 then 30 else 20),
      ("CRANE_TILTING_CHECK_VALVE_15DEG", if D2 < 0.2286 then 120 else if D2 < 0.381 then 90 else 60),
      ("CRANE_GLOBE_STOP_CHECK_VALVE_0", 400), ("CRANE_GLOBE_STOP_CHECK_VALVE_1", 300), ("CRANE_GLOBE_STOP_CHECK_VALVE_2", 55),
      ("CRANE_ANGLE_STOP_CHECK_VALVE_0", 200), ("CRANE_ANGLE_STOP_CHECK_VALVE_1", 350), ("CRANE_ANGLE_STOP_CHECK_VALVE_2", 55),
      ("CRANE_BALL_VALVE", 3), ("CRANE_DIAPHRAGM_VALVE_WEIR", 149), ("CRANE_DIAPHRAGM_VALVE_STRAIGHT_THROUGH_WEIR", 39),
      ("CRANE_FOOT_VALVE_POPPET_DISK", 420), ("CRANE_FOOT_VALVE_HINGED_DISK", 75),
      ("CRANE_BUTTERFLY_VALVE_CENTRIC", if D2 ≤ 0.2286 then 45 else if D2 ≤ 0.381 then 35 else 25),
      ("CRANE_BUTTERFLY_VALVE_DOUBLE_OFFSET", if D2 ≤ 0.2286 then 74 else if D2 ≤ 0.381 then 52 else 43),
      ("CRANE_BUTTERFLY_VALVE_TRIPLE_OFFSET", if D2 ≤ 0.2286 then 218 else if D2 ≤ 0.381 then 96 else 55),
      ("CRANE_PLUG_VALVE_STRAIGHT_THROUGH", 18), ("CRANE_PLUG_VALVE_3_WAY_STRAIGHT_THROUGH", 30),
      ("CRANE_PLUG_VALVE_3_WAY_90_DEG", 90)],
      Crane_loss_coefficient D2 D2 angle p.1 fd = .ok (p.2 * f) := by
  have fx := C49_fixed hf
  have fb := C49_full_bore h2 hf ha ha'
  simp only [boreValves, List.forall_mem_cons, List.not_mem_nil, false_implies, implies_true, and_true] at fb
  obtain ⟨⟨_, -, v1, -⟩, ⟨_, -, v2, -⟩, ⟨_, -, v3, -⟩, ⟨_, -, v4, -⟩, ⟨_, -, v5, -⟩, ⟨_, -, v6, -⟩, ⟨_, -, v7, -⟩, ⟨_, -, v8, -⟩,
    ⟨_, -, v9, -⟩, ⟨_, -, v10, -⟩, ⟨_, -, v11, -⟩, ⟨_, -, v12, -⟩, ⟨_, -, v13, -⟩, ⟨_, -, v14, -⟩, ⟨_, -, v15, -⟩, ⟨_, -, v16, -⟩,
    ⟨_, -, v17, -⟩⟩ := fb
  simp only [List.forall_mem_cons, List.not_mem_nil, false_implies, implies_true, and_true]
  simp only [Crane_loss_coefficient, String.reduceEq, if_true, if_false]
  exact ⟨v17, v1, v2, v3, v4, fx.2.1, fx.1, v6, v5, fx.2.2.2.2.2.2.2.2.2.1 5 (by norm_num),
    fx.2.2.2.2.2.2.2.2.2.2 15 (by norm_num), v7, v8, v9, v10, v11, v12, v13, fx.2.2.1, fx.2.2.2.1, fx.2.2.2.2.1, fx.2.2.2.2.2.1,
    fx.2.2.2.2.2.2.1, fx.2.2.2.2.2.2.2.1, fx.2.2.2.2.2.2.2.2.1, v14, v15, v16⟩

example : Uses (some 0.015) 0.1 0.015 ∧ ∃ f, Uses none 0.1 f := ⟨.inl rfl, C49_friction_defined (by norm_num)⟩

/-- C49: minimum lift velocities: the style list, ValueError for others; the styles with a bore need both diameters (finding: without
them the failure is an `UnboundLocalError`, not a `ValueError`). -/
theorem C49_lift_velocity {rho : ℝ} (hr : 0 < rho) :
    (∀ p ∈ [("swing check angled", (45 : ℝ)), ("swing check straight", 75), ("swing check UL", 120), ("tilting check 5°", 100),
      ("tilting check 15°", 40), ("foot valve poppet disc", 20), ("foot valve hinged disc", 45)],
      v_lift_valve_Crane rho none none p.1 = .ok (p.2 * √(1 / rho))) ∧
    (∀ p ∈ [("lift check straight", (50 : ℝ)), ("lift check angled", 170), ("stop check globe 1", 70), ("stop check angle 1", 95),
      ("stop check globe 2", 75), ("stop check angle 2", 75), ("stop check globe 3", 170), ("stop check angle 3", 170)],
      (∀ D1 D2 : ℝ, 0 < D2 → v_lift_valve_Crane rho (some D1) (some D2) p.1 = .ok (p.2 * (D1 / D2) ^ 2 * √(1 / rho))) ∧
      v_lift_valve_Crane rho none none p.1 = .error .unboundLocalError) := by
  have hs : (0 : ℝ) ≤ 1 / rho := by positivity
  constructor
  · simp only [List.forall_mem_cons, List.not_mem_nil, false_implies, implies_true, and_true, v_lift_valve_Crane, String.reduceEq,
      if_true, if_false, pdiv_ok hr.ne', psqrt_ok hs, Py.ok_bind, Py.pure_eq, or_false, and_self]
  · simp only [List.forall_mem_cons, List.not_mem_nil, false_implies, implies_true, and_true]
    refine ⟨?_, ?_, ?_, ?_, ?_, ?_, ?_, ?_⟩ <;>
    · refine ⟨fun D1 D2 h2 => ?_, ?_⟩
      · simp only [v_lift_valve_Crane, String.reduceEq, if_true, if_false, pdiv_ok hr.ne', psqrt_ok hs, Py.ok_bind, Py.pure_eq, or_false,
          or_true, pdiv_ok h2.ne', pow_two]
      · simp only [v_lift_valve_Crane, String.reduceEq, if_true, if_false, pdiv_ok hr.ne', Py.ok_bind, or_false, or_true]

/-- C49: an unknown style raises ValueError. -/
theorem C49_lift_velocity_unknown {rho : ℝ} (hr : 0 < rho) (style : String)
    (h : style ∉ ["swing check angled", "swing check straight", "swing check UL", "tilting check 5°",
      "tilting check 15°", "foot valve poppet disc", "foot valve hinged disc", "lift check straight", "lift check angled",
      "stop check globe 1", "stop check angle 1", "stop check globe 2", "stop check angle 2", "stop check globe 3", "stop check angle 3"]) :
    v_lift_valve_Crane rho none none style = .error .valueError := by
  simp only [List.mem_cons, List.not_mem_nil, or_false, not_or] at h
  simp only [v_lift_valve_Crane, h, pdiv_ok hr.ne', Py.ok_bind, or_self, if_false]

end valves
end Verif.Fittings
