import Verif.Model.ControlValve
import Verif.Lemmas.Tactic
import Mathlib.Analysis.SpecialFunctions.Pow.Real

/-! Properties C51 and C52: choking pressures and control valve sizing. -/

open Real

namespace Verif.CV

/-! ### C51 -/

theorem FF_ok {Psat Pc : ℝ} (h1 : 0 ≤ Psat) (h2 : 0 < Pc) : FF_critical_pressure_ratio_l Psat Pc = .ok (0.96 - 0.28 * √(Psat / Pc)) := by
  simp only [FF_critical_pressure_ratio_l, pdiv_ok h2.ne', psqrt_ok (by positivity : 0 ≤ Psat / Pc), Py.ok_bind, Py.pure_eq]

theorem truthy_some {x : ℝ} (h : x ≠ 0) : truthy (some x) := ⟨x, rfl, h⟩
theorem not_truthy_none : ¬ truthy none := by rintro ⟨v, h, -⟩; exact absurd h (by simp)

theorem choked_l {dP P1 Psat FF FL : ℝ} (h : FL ≠ 0) :
    is_choked_turbulent_l dP P1 Psat FF (some FL) none none = .ok (decide (FL * FL * (P1 - FF * Psat) ≤ dP)) := by
  simp only [is_choked_turbulent_l, not_truthy_none, false_and, if_false, truthy_some h, if_true, Option.getD_some, ge_iff_le]

theorem choked_g {x Fg xT : ℝ} (h : xT ≠ 0) : is_choked_turbulent_g x Fg (some xT) none = .ok (decide (Fg * xT ≤ x)) := by
  simp only [is_choked_turbulent_g, truthy_some h, if_true, Option.getD_some, ge_iff_le]

/-- C51: liquids: the pressure returned for a given inlet pressure is where `is_choked_turbulent_l` flips: the flow is choked exactly when
the outlet pressure is at or below it. -/
theorem C51_flips_l {Psat Pc FL : ℝ} (h1 : 0 ≤ Psat) (h2 : 0 < Pc) (hF : FL ≠ 0) (P1 : ℝ) :
    ∃ FF p, FF_critical_pressure_ratio_l Psat Pc = .ok FF ∧ control_valve_choke_P_l Psat Pc FL (some P1) none false = .ok p ∧
      ∀ P2, is_choked_turbulent_l (P1 - P2) P1 Psat FF (some FL) none none = .ok (decide (P2 ≤ p)) := by
  refine ⟨_, (0.96 - 0.28 * √(Psat / Pc)) * FL * FL * Psat - FL * FL * P1 + P1, FF_ok h1 h2, ?_, fun P2 => ?_⟩
  · simp [control_valve_choke_P_l, pdiv_ok h2.ne', psqrt_ok (by positivity : 0 ≤ Psat / Pc), Py.ok_bind]
  · rw [choked_l hF]
    congr 1
    rw [decide_eq_decide]
    constructor <;> intro h <;> linarith

/-- C51: with `check_choking`, the same pressure is returned, or ValueError exactly when the inlet pressure is below `FF Psat` so that no
outlet pressure can choke the valve. -/
theorem C51_check_l {Psat Pc FL : ℝ} (h1 : 0 ≤ Psat) (h2 : 0 < Pc) (hF : FL ≠ 0) (P1 : ℝ) :
    ∃ FF, FF_critical_pressure_ratio_l Psat Pc = .ok FF ∧ control_valve_choke_P_l Psat Pc FL (some P1) none true =
      if P1 < FF * Psat then .error .valueError else control_valve_choke_P_l Psat Pc FL (some P1) none false := by
  refine ⟨_, FF_ok h1 h2, ?_⟩
  have hs : 0 < FL * FL := mul_self_pos.mpr hF
  simp only [control_valve_choke_P_l, pdiv_ok h2.ne', psqrt_ok (by positivity : 0 ≤ Psat / Pc), Py.ok_bind, and_true, Bool.false_eq_true,
    and_false, if_false]
  generalize 0.96 - 0.28 * √(Psat / Pc) = FF
  have : FF * FL * FL * Psat - FL * FL * P1 + P1 > P1 ↔ P1 < FF * Psat := by
    rw [gt_iff_lt, ← sub_pos, show FF * FL * FL * Psat - FL * FL * P1 + P1 - P1 = FL * FL * (FF * Psat - P1) by ring, mul_pos_iff_of_pos_left hs,
      sub_pos]
  simp only [this]

/-- C51: liquids: the choking outlet pressure of an inlet pressure and the choking inlet pressure of an outlet pressure are inverse to each
other (`FL² ≠ 1`). -/
theorem C51_roundtrip_l {Psat Pc FL : ℝ} (h1 : 0 ≤ Psat) (h2 : 0 < Pc) (hF : FL * FL ≠ 1) (p q : ℝ) :
    control_valve_choke_P_l Psat Pc FL (some p) none false = .ok q ↔ control_valve_choke_P_l Psat Pc FL none (some q) false = .ok p := by
  have hF' : FL * FL - 1 ≠ 0 := sub_ne_zero.mpr hF
  simp only [control_valve_choke_P_l, pdiv_ok h2.ne', psqrt_ok (by positivity : 0 ≤ Psat / Pc), Py.ok_bind, Bool.false_eq_true,
    and_false, if_false, pdiv_ok hF', Except.ok.injEq]
  rw [div_eq_iff hF']
  constructor <;> intro h <;> linarith

/-- C51 (finding): for `FL = 1` the inlet pressure cannot be recovered: ZeroDivisionError. -/
theorem C51_FL_one {Psat Pc : ℝ} (h1 : 0 ≤ Psat) (h2 : 0 < Pc) (q : ℝ) (b : Bool) :
    control_valve_choke_P_l Psat Pc 1 none (some q) b = .error .zeroDivisionError := by
  simp [control_valve_choke_P_l, pdiv_ok h2.ne', psqrt_ok (by positivity : 0 ≤ Psat / Pc), Py.ok_bind, Py.error_bind]

/-- C51: both or neither pressure is rejected. -/
theorem C51_arguments {Psat Pc FL xT gamma : ℝ} (h1 : 0 ≤ Psat) (h2 : 0 < Pc) (b : Bool) (p q : ℝ) :
    control_valve_choke_P_l Psat Pc FL none none b = .error .valueError ∧
    control_valve_choke_P_l Psat Pc FL (some p) (some q) b = .error .valueError ∧
    control_valve_choke_P_g xT gamma none none = .error .valueError ∧ control_valve_choke_P_g xT gamma (some p) (some q) = .error .valueError := by
  refine ⟨?_, ?_, rfl, rfl⟩ <;>
  simp [control_valve_choke_P_l, pdiv_ok h2.ne', psqrt_ok (by positivity : 0 ≤ Psat / Pc), Py.ok_bind]

/-- C51: gases: the pressure returned for a given inlet pressure is where `is_choked_turbulent_g` (with `x = (P1-P2)/P1` and
`Fgamma = gamma/1.4`) flips. -/
theorem C51_flips_g {xT gamma P1 : ℝ} (hx : xT ≠ 0) (hP : 0 < P1) :
    ∃ p, control_valve_choke_P_g xT gamma (some P1) none = .ok p ∧
      ∀ P2, is_choked_turbulent_g ((P1 - P2) / P1) (gamma / 1.4) (some xT) none = .ok (decide (P2 ≤ p)) := by
  refine ⟨_, rfl, fun P2 => ?_⟩
  rw [choked_g hx]
  congr 1
  rw [decide_eq_decide, le_div_iff₀ hP, le_div_iff₀ (by norm_num)]
  have : gamma / 1.4 * xT * P1 = 5 / 7 * (gamma * xT * P1) := by norm_num; ring
  rw [this]
  constructor <;> intro h <;> nlinarith

/-- C51: gases: the two directions are inverse to each other (`5 γ xT ≠ 7`; at equality every inlet pressure chokes only at vacuum and the
inverse direction divides by zero). -/
theorem C51_roundtrip_g {xT gamma : ℝ} (p q : ℝ) :
    (5 * gamma * xT ≠ 7 → (control_valve_choke_P_g xT gamma (some p) none = .ok q ↔ control_valve_choke_P_g xT gamma none (some q) = .ok p)) ∧
    (5 * gamma * xT = 7 → control_valve_choke_P_g xT gamma none (some q) = .error .zeroDivisionError) := by
  constructor <;> intro h
  · have h' : 5 * gamma * xT - 7 ≠ 0 := sub_ne_zero.mpr h
    simp only [control_valve_choke_P_g, pdiv_ok h', Except.ok.injEq]
    rw [div_eq_iff h', div_eq_iff (by norm_num)]
    constructor <;> intro h <;> linarith
  · simp [control_valve_choke_P_g, h]

/-- with the piping factors, `is_choked_turbulent_l/_g` compare with the corrected limits; with no factor at all they raise ValueError -/
theorem C51_choked_piping (dP P1 Psat FF x Fg : ℝ) {FLP FP xTP : ℝ} (h1 : FLP ≠ 0) (h2 : FP ≠ 0) (h3 : xTP ≠ 0) (FL : Option ℝ) :
    is_choked_turbulent_l dP P1 Psat FF FL (some FLP) (some FP) = .ok (decide ((FLP / FP) ^ 2 * (P1 - FF * Psat) ≤ dP)) ∧
    is_choked_turbulent_g x Fg none (some xTP) = .ok (decide (Fg * xTP ≤ x)) ∧
    is_choked_turbulent_l dP P1 Psat FF none none none = .error .valueError ∧ is_choked_turbulent_g x Fg none none = .error .valueError := by
  refine ⟨?_, ?_, ?_, ?_⟩
  · simp only [is_choked_turbulent_l, truthy_some h1, truthy_some h2, and_self, if_true, Option.getD_some, pdiv_ok (mul_ne_zero h2 h2), Py.ok_bind,
      Py.pure_eq]
    congr 1
    rw [decide_eq_decide, show FLP * FLP / (FP * FP) = (FLP / FP) ^ 2 by ring]
  · simp only [is_choked_turbulent_g, not_truthy_none, if_false, truthy_some h3, if_true, Option.getD_some, ge_iff_le]
  · simp [is_choked_turbulent_l, not_truthy_none]
  · simp [is_choked_turbulent_g, not_truthy_none]

example : (0 : ℝ) ≤ 69682.89 ∧ (0 : ℝ) < 22048320 ∧ (0.9 : ℝ) * 0.9 ≠ 1 := by norm_num

/-! ### C52: no piping -/

/-- the sizing equation for liquids in the units of the standard (m³/h, kPa): `Q = N1 Kv FP √(ΔP/(ρ/ρ0))` -/
noncomputable def iecLiquid (Kv FP dP rho : ℝ) : ℝ := 0.1 * Kv * FP * √(dP / (rho / 999.10329075702327))

/-- the sizing equation for gases (m³/h at 0 °C, kPa): `Q = N9 Kv FP P1 Y √(x/(M T Z))` -/
noncomputable def iecGas (Kv FP P1 Y x MW T Z : ℝ) : ℝ := 24.6 * Kv * FP * P1 * Y * √(x / (MW * T * Z))

theorem sqrt_inv_mul {a b : ℝ} (ha : 0 < a) (hb : 0 < b) : √(a / b) * √(b / a) = 1 := by
  rw [← sqrt_mul (by positivity), div_mul_div_cancel₀ hb.ne', div_self ha.ne', sqrt_one]

/-- C52: liquids without diameters: the result puts `Q` (in m³/h) back into the sizing equation, with the choked pressure drop
`FL²(P1 - FF Psat)` exactly when that is smaller than the actual one (and choking is allowed), and reports choking correctly. -/
theorem C52_liquid {fuel : ℕ} {rho Psat Pc mu P1 P2 Q FL Fd : ℝ} {al full : Bool} (ac : Bool) (hr : 0 < rho) (h1 : 0 ≤ Psat) (h2 : 0 < Pc)
    (h12 : P2 < P1) (hF : 0 < FL) (hc : ∀ FF, FF_critical_pressure_ratio_l Psat Pc = .ok FF → FF * Psat < P1) :
    ∃ FF s, FF_critical_pressure_ratio_l Psat Pc = .ok FF ∧
      size_control_valve_l fuel rho Psat Pc mu P1 P2 Q none none none FL Fd ac al full = .ok s ∧
      (s.choked = true ↔ FL ^ 2 * (P1 - FF * Psat) ≤ P1 - P2) ∧ s.laminar = false ∧ s.warning = false ∧
      iecLiquid s.Kv 1 ((if ac then min (P1 - P2) (FL ^ 2 * (P1 - FF * Psat)) else P1 - P2) / 1000) rho = 3600 * Q := by
  obtain ⟨FF, hFF⟩ : ∃ FF, FF = 0.96 - 0.28 * √(Psat / Pc) := ⟨_, rfl⟩
  have hf := FF_ok h1 h2
  rw [← hFF] at hf
  have hc' := hc FF hf
  have hf' : FF_critical_pressure_ratio_l (Psat / 1000) (Pc / 1000) = .ok FF := by
    rw [FF_ok (by positivity) (by positivity), div_div_div_cancel_right₀ (by norm_num), hFF]
  have n1 : N1 = 0.1 := rfl
  have n10 : (0.1 : ℝ) ≠ 0 := by norm_num
  have r0 : (0 : ℝ) < rho0 := by norm_num [rho0]
  have hd : 0 < P1 / 1000 - P2 / 1000 := by linarith
  have hd' : 0 < P1 / 1000 - FF * (Psat / 1000) := by linarith
  have s1 : 0 ≤ rho / rho0 / (P1 / 1000 - P2 / 1000) := by positivity
  have s2 : 0 ≤ rho / rho0 / (P1 / 1000 - FF * (Psat / 1000)) := by positivity
  have ech : (FL * FL * (P1 / 1000 - FF * (Psat / 1000)) ≤ P1 / 1000 - P2 / 1000) ↔ FL ^ 2 * (P1 - FF * Psat) ≤ P1 - P2 := by
    rw [show FL * FL * (P1 / 1000 - FF * (Psat / 1000)) = FL ^ 2 * (P1 - FF * Psat) / 1000 by ring,
      show P1 / 1000 - P2 / 1000 = (P1 - P2) / 1000 by ring]
    exact div_le_div_iff_of_pos_right (by norm_num)
  refine ⟨FF, _, hf, by
    simp only [size_control_valve_l, pdiv_ok hr.ne', hf', choked_l hF.ne', pdiv_ok hF.ne', pdiv_ok hd.ne', pdiv_ok hd'.ne', psqrt_ok s1, psqrt_ok s2,
      Py.ok_bind, Py.pure_eq, ← apply_ite]; rfl, ?_, rfl, rfl, ?_⟩
  · simp only [decide_eq_true_eq, ech]
  · simp only [decide_eq_true_eq, ech, iecLiquid, n1]
    rw [show (999.10329075702327 : ℝ) = rho0 from rfl]
    have hrr : 0 < rho / rho0 := by positivity
    by_cases q : FL ^ 2 * (P1 - FF * Psat) ≤ P1 - P2 <;> cases ac
    · rw [if_neg (by simp), if_neg (by simp), show (P1 - P2) / 1000 = P1 / 1000 - P2 / 1000 by ring]
      have := sqrt_inv_mul hrr hd
      generalize √(rho / rho0 / (P1 / 1000 - P2 / 1000)) = u at *
      generalize √((P1 / 1000 - P2 / 1000) / (rho / rho0)) = v at *
      rw [show 0.1 * (Q * 3600 / 0.1 * u) * 1 * v = 3600 * Q * (u * v) by field_simp, this, mul_one]
    · rw [if_pos ⟨q, rfl⟩, if_pos rfl, min_eq_right q,
        show FL ^ 2 * (P1 - FF * Psat) / 1000 = FL ^ 2 * (P1 / 1000 - FF * (Psat / 1000)) by ring,
        mul_div_assoc (FL ^ 2), sqrt_mul (sq_nonneg _), sqrt_sq hF.le]
      have := sqrt_inv_mul hrr hd'
      generalize √(rho / rho0 / (P1 / 1000 - FF * (Psat / 1000))) = u at *
      generalize √((P1 / 1000 - FF * (Psat / 1000)) / (rho / rho0)) = v at *
      rw [show 0.1 * (Q * 3600 / 0.1 / FL * u) * 1 * (FL * v) = 3600 * Q * (u * v) by field_simp, this, mul_one]
    all_goals
      rw [if_neg (by simp [q])]
      have := sqrt_inv_mul hrr hd
      simp only [min_eq_left (not_le.mp q).le, ite_self]
      rw [show (P1 - P2) / 1000 = P1 / 1000 - P2 / 1000 by ring]
      generalize √(rho / rho0 / (P1 / 1000 - P2 / 1000)) = u at *
      generalize √((P1 / 1000 - P2 / 1000) / (rho / rho0)) = v at *
      rw [show 0.1 * (Q * 3600 / 0.1 * u) * 1 * v = 3600 * Q * (u * v) by field_simp, this, mul_one]

/-- C52: gases without diameters. `Y = 1 - min(x, Fγ xT)/(3 Fγ xT)`, and the pressure ratio used is limited to `Fγ xT` when choking is allowed. -/
theorem C52_gas {fuel : ℕ} {T MW mu gamma Z P1 P2 Q FL Fd xT : ℝ} {al : Bool} (ac : Bool) (hT : 0 < T) (hM : 0 < MW) (hZ : 0 < Z)
    (hg : 0 < gamma) (hx : 0 < xT) (h2 : 0 ≤ P2) (h12 : P2 < P1) :
    ∃ s, size_control_valve_g fuel T MW mu gamma Z P1 P2 Q none none none FL Fd xT ac al = .ok s ∧
      (s.choked = true ↔ gamma / 1.4 * xT ≤ (P1 - P2) / P1) ∧ s.laminar = false ∧ s.warning = false ∧
      iecGas s.Kv 1 (P1 / 1000) (1 - min ((P1 - P2) / P1) (gamma / 1.4 * xT) / (3 * (gamma / 1.4) * xT))
        (if ac then min ((P1 - P2) / P1) (gamma / 1.4 * xT) else (P1 - P2) / P1) MW T Z = 3600 * Q := by
  have h1 : 0 < P1 := by linarith
  obtain ⟨Fg, hFg⟩ : ∃ Fg, Fg = gamma / 1.4 := ⟨_, rfl⟩
  have Fg0 : 0 < Fg := by rw [hFg]; positivity
  obtain ⟨x, hxx⟩ : ∃ x, x = (P1 - P2) / P1 := ⟨_, rfl⟩
  have x0 : 0 < x := by rw [hxx]; exact div_pos (by linarith) h1
  have ex : (P1 * 1e-3 - P2 * 1e-3) / (P1 * 1e-3) = x := by rw [hxx, ← sub_mul, mul_div_mul_right _ _ (by norm_num)]
  have hp : (0 : ℝ) < P1 * 1e-3 := by positivity
  have hV : 0 < Z * R * T / (P1 * 1e-3 * 1000) := by have : (0 : ℝ) < R := by norm_num [R]
                                                     positivity
  have hrho : 0 < MW * 1e-3 / (Z * R * T / (P1 * 1e-3 * 1000)) := by positivity
  have hd : 0 < 3 * Fg * xT := by positivity
  have n9 : N9 = 24.6 := by norm_num [N9]
  have hY : max (1 - x / (3 * Fg * xT)) (2 / 3) = 1 - min x (Fg * xT) / (3 * Fg * xT) := by
    rcases le_total x (Fg * xT) with q | q
    · rw [min_eq_left q, max_eq_left]
      have : x / (3 * Fg * xT) ≤ 1 / 3 := by rw [div_le_iff₀ hd]; linarith
      linarith
    · rw [min_eq_right q, max_eq_right]
      · have : Fg * xT / (3 * Fg * xT) = 1 / 3 := by field_simp
        rw [this]; norm_num
      · have : 1 / 3 ≤ x / (3 * Fg * xT) := by rw [le_div_iff₀ hd]; linarith
        linarith
  obtain ⟨Y, hYY⟩ : ∃ Y, Y = 1 - min x (Fg * xT) / (3 * Fg * xT) := ⟨_, rfl⟩
  have Y0 : 0 < Y := by rw [hYY, ← hY]; exact lt_max_of_lt_right (by norm_num)
  have dY : N9 * (P1 * 1e-3) * Y ≠ 0 := by rw [n9]; positivity
  have s1 : 0 ≤ MW * T * Z / x := by positivity
  have s2 : 0 ≤ MW * T * Z / xT / Fg := by positivity
  rw [← hFg, ← hxx, ← hYY]
  refine ⟨_, by
    simp only [size_control_valve_g, pdiv_ok (mul_pos hp (by norm_num : (0 : ℝ) < 1000)).ne', pdiv_ok hV.ne', pdiv_ok hrho.ne', pdiv_ok hp.ne', ex,
      ← hFg, pdiv_ok hd.ne', hY, ← hYY, choked_g hx.ne', pdiv_ok dY, pdiv_ok hx.ne', pdiv_ok Fg0.ne', pdiv_ok x0.ne', psqrt_ok s1, psqrt_ok s2,
      Py.ok_bind, Py.pure_eq, ← apply_ite]; rfl, ?_, rfl, rfl, ?_⟩
  · simp only [decide_eq_true_eq]
  · simp only [decide_eq_true_eq, iecGas]
    have hp' : P1 * 1e-3 = P1 / 1000 := by norm_num; ring
    rw [hp', n9]
    have hmt : 0 < MW * T * Z := by positivity
    have key : ∀ y > 0, ∀ A, A = √(MW * T * Z / y) →
        24.6 * (Q * 3600 / (24.6 * (P1 / 1000) * Y) * A) * 1 * (P1 / 1000) * Y * √(y / (MW * T * Z)) = 3600 * Q := by
      intro y hy A hA
      have := sqrt_inv_mul hmt hy
      rw [← hA] at this
      generalize √(y / (MW * T * Z)) = v at *
      rw [show 24.6 * (Q * 3600 / (24.6 * (P1 / 1000) * Y) * A) * 1 * (P1 / 1000) * Y * v = 3600 * Q * (A * v) by field_simp, this, mul_one]
    by_cases q : Fg * xT ≤ x <;> cases ac
    · rw [if_neg (by simp), if_neg (by simp)]; exact key x x0 _ rfl
    · rw [if_pos ⟨q, rfl⟩, if_pos rfl, min_eq_right q]
      refine key (Fg * xT) (by positivity) _ ?_
      congr 1; rw [div_div, mul_comm xT]
    all_goals
      rw [if_neg (by simp [q])]
      simp only [min_eq_left (not_le.mp q).le, ite_self]
      exact key x x0 _ rfl

/-! ### C52: piping factors -/

/-- squared ratio `(Ci/d²)²` weighted with a loss, over the constant of the standard -/
noncomputable def pipingTerm (loss N Ci d : ℝ) : ℝ := loss / N * (Ci / d ^ 2) ^ 2

/-- piping geometry factor of the standard, for total loss coefficient `loss` -/
noncomputable def FPof (loss Ci d : ℝ) : ℝ := 1 / √(1 + pipingTerm loss 1.6e-3 Ci d)
/-- combined liquid pressure recovery factor -/
noncomputable def FLPof (FL up Ci d : ℝ) : ℝ := FL / √(1 + FL ^ 2 * pipingTerm up 1.6e-3 Ci d)
/-- combined pressure differential ratio factor -/
noncomputable def xTPof (xT FP up Ci d : ℝ) : ℝ := xT / FP ^ 2 / (1 + xT * pipingTerm up 1.8e-3 Ci d)

/-- the inlet and outlet losses of a valve of size `d` in a line of sizes `D1`, `D2` -/
theorem C52_loss {d D1 D2 : ℝ} (hd : 0 < d) (h1 : d ≤ D1) (h2 : d ≤ D2) :
    0 ≤ loss_coefficient_piping d (some D1) none ∧ (D2 ≤ D1 → 0 ≤ loss_coefficient_piping d (some D1) (some D2)) ∧
    loss_coefficient_piping d (some d) (some d) = 0 ∧
    (D1 = D2 → loss_coefficient_piping d (some D1) (some D2) = 1.5 * (1 - (d / D1) ^ 2) ^ 2) := by
  have hD1 : 0 < D1 := by linarith
  have hD2 : 0 < D2 := by linarith
  have t1 := truthy_some hD1.ne'
  have t2 := truthy_some hD2.ne'
  have t3 := truthy_some hd.ne'
  have a0 : 0 < d / D1 := by positivity
  have a1 : d / D1 ≤ 1 := by rw [div_le_one hD1]; exact h1
  have b1 : d / D2 ≤ 1 := by rw [div_le_one hD2]; exact h2
  have b0 : 0 < d / D2 := by positivity
  have q1 : d / D1 * (d / D1) ≤ 1 := by nlinarith
  have q2 : d / D2 * (d / D2) ≤ 1 := by nlinarith
  have q3 : 0 < d / D1 * (d / D1) := by positivity
  simp only [loss_coefficient_piping, t1, t2, t3, if_true, if_false, not_truthy_none, Option.getD_some]
  refine ⟨?_, fun h => ?_, ?_, fun h => ?_⟩
  · generalize d / D1 * (d / D1) = a at *
    nlinarith
  · have hab : d / D1 * (d / D1) ≤ d / D2 * (d / D2) := by
      have : d / D1 ≤ d / D2 := div_le_div_of_nonneg_left hd.le hD2 h
      exact mul_self_le_mul_self a0.le this
    generalize d / D1 * (d / D1) = a at *
    generalize d / D2 * (d / D2) = b at *
    nlinarith [sq_nonneg (1 - b), mul_nonneg (sub_nonneg.mpr hab) q3.le, mul_nonneg (sub_nonneg.mpr hab) (q3.le.trans hab)]
  · rw [div_self hd.ne']; norm_num
  · rw [h]; norm_num; ring

section liquid

variable {rho FL FF dP P1 Psat Q D1 D2 d : ℝ}

/-- one evaluation of the piping-corrected sizing equation, as a closed formula: Kv from the previous iterate `Ci` -/
noncomputable def stepL (rho FL FF dP P1 Psat Q D1 D2 d Ci : ℝ) : ℝ :=
  let FP := FPof (loss_coefficient_piping d (some D1) (some D2)) Ci d
  let FLP := FLPof FL (if d > D1 then 0 else loss_coefficient_piping d (some D1) none) Ci d
  if (FLP / FP) ^ 2 * (P1 - FF * Psat) ≤ dP then Q / N1 / FLP * √(rho / rho0 / (P1 - FF * Psat)) else Q / N1 / FP * √(rho / rho0 / dP)

/-- the closed formula is the sizing equation of the standard with `ΔP_sizing = min(ΔP, (FLP/FP)²(P1 - FF Pv))` -/
theorem C52_step_l {Ci : ℝ} (hr : 0 < rho) (hF : 0 < FL) (hp : 0 < dP) (hc : 0 < P1 - FF * Psat)
    (hl : 0 ≤ loss_coefficient_piping d (some D1) (some D2)) (hu : 0 ≤ loss_coefficient_piping d (some D1) none) :
    ∃ FP FLP, FP = FPof (loss_coefficient_piping d (some D1) (some D2)) Ci d ∧ 0 < FP ∧ FP ≤ 1 ∧
      FLP = FLPof FL (if d > D1 then 0 else loss_coefficient_piping d (some D1) none) Ci d ∧ 0 < FLP ∧ FLP ≤ FL ∧
      iecLiquid (stepL rho FL FF dP P1 Psat Q D1 D2 d Ci) FP (min dP ((FLP / FP) ^ 2 * (P1 - FF * Psat))) rho = Q := by
  obtain ⟨up, hup⟩ : ∃ up, up = if d > D1 then 0 else loss_coefficient_piping d (some D1) none := ⟨_, rfl⟩
  have up0 : 0 ≤ up := by rw [hup]; split_ifs <;> simp [hu]
  have p1 : 0 ≤ pipingTerm (loss_coefficient_piping d (some D1) (some D2)) 1.6e-3 Ci d := by unfold pipingTerm; positivity
  have p2 : 0 ≤ FL ^ 2 * pipingTerm up 1.6e-3 Ci d := by unfold pipingTerm; positivity
  have q1 : 1 ≤ √(1 + pipingTerm (loss_coefficient_piping d (some D1) (some D2)) 1.6e-3 Ci d) := by rw [one_le_sqrt]; linarith
  have q2 : 1 ≤ √(1 + FL ^ 2 * pipingTerm up 1.6e-3 Ci d) := by rw [one_le_sqrt]; linarith
  obtain ⟨FP, hFP⟩ : ∃ FP, FP = FPof (loss_coefficient_piping d (some D1) (some D2)) Ci d := ⟨_, rfl⟩
  obtain ⟨FLP, hFLP⟩ : ∃ FLP, FLP = FLPof FL up Ci d := ⟨_, rfl⟩
  have F0 : 0 < FP := by rw [hFP]; unfold FPof; positivity
  have L0 : 0 < FLP := by rw [hFLP]; unfold FLPof; positivity
  refine ⟨FP, FLP, hFP, F0, ?_, by rw [← hup]; exact hFLP, L0, ?_, ?_⟩
  · rw [hFP]; unfold FPof; rw [div_le_one (by linarith)]; exact q1
  · rw [hFLP]; unfold FLPof; exact div_le_self hF.le q2
  · have hrr : 0 < rho / rho0 := by have : (0 : ℝ) < rho0 := by norm_num [rho0]
                                    positivity
    have n1 : N1 = 0.1 := rfl
    simp only [stepL, iecLiquid, ← hup, ← hFP, ← hFLP, n1]
    rw [show (999.10329075702327 : ℝ) = rho0 from rfl]
    split_ifs with q
    · have := sqrt_inv_mul hrr hc
      rw [min_eq_right q, mul_div_assoc ((FLP / FP) ^ 2), sqrt_mul (sq_nonneg _), sqrt_sq (by positivity)]
      generalize √(rho / rho0 / (P1 - FF * Psat)) = u at *
      generalize √((P1 - FF * Psat) / (rho / rho0)) = v at *
      rw [show 0.1 * (Q / 0.1 / FLP * u) * FP * (FLP / FP * v) = Q * (u * v) by field_simp, this, mul_one]
    · have := sqrt_inv_mul hrr hp
      rw [min_eq_left (not_le.mp q).le]
      generalize √(rho / rho0 / dP) = u at *
      generalize √(dP / (rho / rho0)) = v at *
      rw [show 0.1 * (Q / 0.1 / FP * u) * FP * v = Q * (u * v) by field_simp, this, mul_one]

theorem stepL_pos {Ci : ℝ} (hr : 0 < rho) (hF : 0 < FL) (hp : 0 < dP) (hc : 0 < P1 - FF * Psat) (hQ : 0 < Q)
    (hl : 0 ≤ loss_coefficient_piping d (some D1) (some D2)) (hu : 0 ≤ loss_coefficient_piping d (some D1) none) :
    0 < stepL rho FL FF dP P1 Psat Q D1 D2 d Ci := by
  obtain ⟨FP, FLP, h1, F0, -, h2, L0, -, h⟩ := C52_step_l (Q := Q) (Ci := Ci) hr hF hp hc hl hu
  by_contra hn
  have : iecLiquid (stepL rho FL FF dP P1 Psat Q D1 D2 d Ci) FP (min dP ((FLP / FP) ^ 2 * (P1 - FF * Psat))) rho ≤ 0 := by
    unfold iecLiquid
    apply mul_nonpos_of_nonpos_of_nonneg _ (sqrt_nonneg _)
    apply mul_nonpos_of_nonpos_of_nonneg _ F0.le
    linarith [not_lt.mp hn]
  linarith

/-- the body of one iteration, before the recursion test -/
theorem bodyTurbL_ok {Ci : ℝ} (hr : 0 < rho) (hF : 0 < FL) (hp : 0 < dP) (hc : 0 < P1 - FF * Psat)
    (hd : 0 < d) (hl : 0 ≤ loss_coefficient_piping d (some D1) (some D2)) (hu : 0 ≤ loss_coefficient_piping d (some D1) none) :
    ∃ FP FLP ch, FP = FPof (loss_coefficient_piping d (some D1) (some D2)) Ci d ∧
      FLP = FLPof FL (if d > D1 then 0 else loss_coefficient_piping d (some D1) none) Ci d ∧
      bodyTurbL rho FL FF dP P1 Psat Q D1 D2 d Ci = .ok (stepL rho FL FF dP P1 Psat Q D1 D2 d Ci, FLP, FP, ch) := by
  obtain ⟨FP, FLP, hFP, F0, -, hFLP, L0, -, -⟩ := C52_step_l (Q := Q) (Ci := Ci) hr hF hp hc hl hu
  obtain ⟨up, hup⟩ : ∃ up, up = if d > D1 then 0 else loss_coefficient_piping d (some D1) none := ⟨_, rfl⟩
  have up0 : 0 ≤ up := by rw [hup]; split_ifs <;> simp [hu]
  have n2 : N2 = 1.6e-3 := rfl
  have p1 : 0 < 1 + loss_coefficient_piping d (some D1) (some D2) / N2 * (Ci / d ^ 2) ^ 2 := by rw [n2]; positivity
  have p2 : 0 < 1 + FL ^ 2 / N2 * up * (Ci / d ^ 2) ^ 2 := by rw [n2]; positivity
  have e1 : 1 / √(1 + loss_coefficient_piping d (some D1) (some D2) / N2 * (Ci / d ^ 2) ^ 2) = FP := by
    rw [hFP]; unfold FPof pipingTerm; rw [n2]
  have e2 : FL * 1 / √(1 + FL ^ 2 / N2 * up * (Ci / d ^ 2) ^ 2) = FLP := by
    rw [hFLP, ← hup, mul_one]; unfold FLPof pipingTerm; rw [n2]; congr 3; ring
  have hr0 : (0 : ℝ) < rho0 := by norm_num [rho0]
  have s1 : 0 ≤ rho / rho0 / (P1 - FF * Psat) := by positivity
  have s2 : 0 ≤ rho / rho0 / dP := by positivity
  refine ⟨FP, FLP, decide ((FLP / FP) ^ 2 * (P1 - FF * Psat) ≤ dP), hFP, hFLP, ?_⟩
  have hC : (if decide ((FLP / FP) ^ 2 * (P1 - FF * Psat) ≤ dP) = true then
      (Except.ok (Q / N1 / FLP * √(rho / rho0 / (P1 - FF * Psat))) : Py ℝ) else .ok (Q / N1 / FP * √(rho / rho0 / dP))) =
      .ok (stepL rho FL FF dP P1 Psat Q D1 D2 d Ci) := by
    simp only [decide_eq_true_eq, stepL, ← hup]
    rw [← apply_ite Except.ok, hFP, hFLP, ← hup]
  simp only [bodyTurbL, ← hup, pdiv_ok (pow_pos hd 2).ne', psqrt_ok p1.le, psqrt_ok p2.le, pdiv_ok (sqrt_pos.mpr p1).ne', pdiv_ok (sqrt_pos.mpr p2).ne', e1, e2,
    (C51_choked_piping dP P1 Psat FF 0 0 L0.ne' F0.ne' one_ne_zero none).1, pdiv_ok L0.ne', pdiv_ok F0.ne', pdiv_ok hc.ne', pdiv_ok hp.ne',
    psqrt_ok s1, psqrt_ok s2, Py.ok_bind, Py.pure_eq, hC]

/-- C52: the recursion on the piping factors makes at most `n + 1` evaluations (21 for the limit of the code) and never fails with
`full_output`; its answer is the sizing equation evaluated with the factors of the previous iterate, which is within 1 % unless the warning
is set; without `full_output` the only failure is the NameError of the warning line (finding). The factors reported are those of the *first*
iterate (finding). -/
theorem C52_piping_l (full : Bool) (n : ℕ) {C0 : ℝ} (hC0 : 0 < C0) (hr : 0 < rho) (hF : 0 < FL) (hp : 0 < dP) (hc : 0 < P1 - FF * Psat)
    (hQ : 0 < Q) (hd : 0 < d) (hl : 0 ≤ loss_coefficient_piping d (some D1) (some D2)) (hu : 0 ≤ loss_coefficient_piping d (some D1) none) :
    (∃ r Ci, iterTurbL full rho FL FF dP P1 Psat Q D1 D2 d n C0 = .ok r ∧ 0 < Ci ∧ r.C = stepL rho FL FF dP P1 Psat Q D1 D2 d Ci ∧
      (r.warning = false → 0.99 * r.C ≤ Ci) ∧ (full = false → r.warning = false) ∧
      r.FP = FPof (loss_coefficient_piping d (some D1) (some D2)) C0 d) ∨
    (full = false ∧ iterTurbL full rho FL FF dP P1 Psat Q D1 D2 d n C0 = .error .nameError) := by
  induction n generalizing C0 with
  | zero =>
    obtain ⟨FP, FLP, ch, hFP, -, e⟩ := bodyTurbL_ok (Q := Q) (Ci := C0) hr hF hp hc hd hl hu
    have hC := stepL_pos (Ci := C0) hr hF hp hc hQ hl hu
    simp only [iterTurbL, e, Py.ok_bind, pdiv_ok hC.ne']
    cases full
    · exact Or.inr ⟨rfl, rfl⟩
    · exact Or.inl ⟨_, C0, rfl, hC0, rfl, by simp, by simp, hFP⟩
  | succ n ih =>
    obtain ⟨FP, FLP, ch, hFP, -, e⟩ := bodyTurbL_ok (Q := Q) (Ci := C0) hr hF hp hc hd hl hu
    have hC := stepL_pos (Ci := C0) hr hF hp hc hQ hl hu
    simp only [iterTurbL, e, Py.ok_bind, pdiv_ok hC.ne']
    obtain ⟨C, hCC⟩ : ∃ C, C = stepL rho FL FF dP P1 Psat Q D1 D2 d C0 := ⟨_, rfl⟩
    rw [← hCC] at hC ⊢
    by_cases q : C0 / C < 0.99 ∧ C0 < 1e40
    · simp only [if_pos q, not_le.mpr q.2, ge_iff_le, if_false]
      rcases ih hC with ⟨r, Ci, hr', h1, h2, h3, h3', h4⟩ | ⟨h1, h2⟩
      · left
        rw [hr']
        exact ⟨_, Ci, rfl, h1, h2, h3, h3', hFP⟩
      · right
        rw [h2]
        exact ⟨h1, rfl⟩
    · simp only [if_neg q, Py.ok_bind]
      by_cases hbig : C0 ≥ 1e40
      · rw [if_pos hbig]
        cases full
        · exact Or.inr ⟨rfl, rfl⟩
        · exact Or.inl ⟨_, C0, rfl, hC0, hCC, by simp, by simp, hFP⟩
      · rw [if_neg hbig]
        refine Or.inl ⟨_, C0, rfl, hC0, hCC, fun _ => ?_, fun _ => rfl, hFP⟩
        have : ¬ C0 / C < 0.99 := fun h => q ⟨h, not_le.mp hbig⟩
        rw [not_lt, le_div_iff₀ hC] at this
        exact this

/-- C52 (finding): without `full_output`, an iterate beyond `1e40` makes the code write its warning into a dictionary that does not exist:
NameError instead of an answer. -/
theorem C52_warning_name_error (n : ℕ) {C0 : ℝ} (hC0 : 1e40 ≤ C0) (hr : 0 < rho) (hF : 0 < FL) (hp : 0 < dP) (hc : 0 < P1 - FF * Psat)
    (hQ : 0 < Q) (hd : 0 < d) (hl : 0 ≤ loss_coefficient_piping d (some D1) (some D2)) (hu : 0 ≤ loss_coefficient_piping d (some D1) none) :
    iterTurbL false rho FL FF dP P1 Psat Q D1 D2 d n C0 = .error .nameError := by
  obtain ⟨FP, FLP, ch, hFP, -, e⟩ := bodyTurbL_ok (Q := Q) (Ci := C0) hr hF hp hc hd hl hu
  have hC := stepL_pos (Ci := C0) hr hF hp hc hQ hl hu
  cases n <;> simp [iterTurbL, e, Py.ok_bind, pdiv_ok hC.ne', not_lt.mpr hC0, hC0]

end liquid

section gas

variable {T MW Z Fg xT x Y P1 Q D1 D2 d : ℝ}

/-- one evaluation of the piping-corrected gas sizing equation, as a closed formula -/
noncomputable def stepG (T MW Z Fg xT x Y P1 Q D1 D2 d Ci : ℝ) : ℝ :=
  let FP := FPof (loss_coefficient_piping d (some D1) (some D2)) Ci d
  let xTP := xTPof xT FP (loss_coefficient_piping d (some D1) none) Ci d
  Q / (N9 * FP * P1 * Y) * √(MW * T * Z / if Fg * xTP ≤ x then Fg * xTP else x)

/-- the closed formula is the sizing equation of the standard with the pressure ratio limited to `Fγ xTP` -/
theorem C52_step_g {Ci : ℝ} (hT : 0 < T) (hM : 0 < MW) (hZ : 0 < Z) (hFg : 0 < Fg) (hxT : 0 < xT) (hx : 0 < x) (hY : 0 < Y) (hP : 0 < P1)
    (hl : 0 ≤ loss_coefficient_piping d (some D1) (some D2)) (hu : 0 ≤ loss_coefficient_piping d (some D1) none) :
    ∃ FP xTP, FP = FPof (loss_coefficient_piping d (some D1) (some D2)) Ci d ∧ 0 < FP ∧ FP ≤ 1 ∧
      xTP = xTPof xT FP (loss_coefficient_piping d (some D1) none) Ci d ∧ 0 < xTP ∧
      iecGas (stepG T MW Z Fg xT x Y P1 Q D1 D2 d Ci) FP P1 Y (min x (Fg * xTP)) MW T Z = Q := by
  have p1 : 0 ≤ pipingTerm (loss_coefficient_piping d (some D1) (some D2)) 1.6e-3 Ci d := by unfold pipingTerm; positivity
  have p2 : 0 ≤ xT * pipingTerm (loss_coefficient_piping d (some D1) none) 1.8e-3 Ci d := by unfold pipingTerm; positivity
  have q1 : 1 ≤ √(1 + pipingTerm (loss_coefficient_piping d (some D1) (some D2)) 1.6e-3 Ci d) := by rw [one_le_sqrt]; linarith
  obtain ⟨FP, hFP⟩ : ∃ FP, FP = FPof (loss_coefficient_piping d (some D1) (some D2)) Ci d := ⟨_, rfl⟩
  have F0 : 0 < FP := by rw [hFP]; unfold FPof; positivity
  obtain ⟨xTP, hxTP⟩ : ∃ xTP, xTP = xTPof xT FP (loss_coefficient_piping d (some D1) none) Ci d := ⟨_, rfl⟩
  have L0 : 0 < xTP := by rw [hxTP]; unfold xTPof; positivity
  refine ⟨FP, xTP, hFP, F0, ?_, hxTP, L0, ?_⟩
  · rw [hFP]; unfold FPof; rw [div_le_one (by linarith)]; exact q1
  · have hmt : 0 < MW * T * Z := by positivity
    have n9 : N9 = 24.6 := by norm_num [N9]
    have e : (if Fg * xTP ≤ x then Fg * xTP else x) = min x (Fg * xTP) := by rw [min_comm, min_def]
    simp only [stepG, iecGas, ← hFP, ← hxTP, n9, e]
    have := sqrt_inv_mul hmt (lt_min hx (mul_pos hFg L0))
    generalize √(MW * T * Z / min x (Fg * xTP)) = u at *
    generalize √(min x (Fg * xTP) / (MW * T * Z)) = v at *
    rw [show 24.6 * (Q / (24.6 * FP * P1 * Y) * u) * FP * P1 * Y * v = Q * (u * v) by field_simp, this, mul_one]

theorem stepG_pos {Ci : ℝ} (hT : 0 < T) (hM : 0 < MW) (hZ : 0 < Z) (hFg : 0 < Fg) (hxT : 0 < xT) (hx : 0 < x) (hY : 0 < Y) (hP : 0 < P1)
    (hQ : 0 < Q) (hl : 0 ≤ loss_coefficient_piping d (some D1) (some D2)) (hu : 0 ≤ loss_coefficient_piping d (some D1) none) :
    0 < stepG T MW Z Fg xT x Y P1 Q D1 D2 d Ci := by
  obtain ⟨FP, xTP, h1, F0, -, h2, L0, -⟩ := C52_step_g (Q := Q) (Ci := Ci) hT hM hZ hFg hxT hx hY hP hl hu
  have n9 : (0 : ℝ) < N9 := by norm_num [N9]
  simp only [stepG, ← h1, ← h2]
  split_ifs <;> positivity

theorem bodyTurbG_ok {Ci : ℝ} (hT : 0 < T) (hM : 0 < MW) (hZ : 0 < Z) (hFg : 0 < Fg) (hxT : 0 < xT) (hx : 0 < x) (hY : 0 < Y) (hP : 0 < P1)
    (hd : 0 < d) (hl : 0 ≤ loss_coefficient_piping d (some D1) (some D2)) (hu : 0 ≤ loss_coefficient_piping d (some D1) none) :
    ∃ FP xTP ch, FP = FPof (loss_coefficient_piping d (some D1) (some D2)) Ci d ∧
      bodyTurbG T MW Z Fg xT x Y P1 Q D1 D2 d Ci = .ok (stepG T MW Z Fg xT x Y P1 Q D1 D2 d Ci, xTP, FP, ch) := by
  obtain ⟨FP, xTP, hFP, F0, -, hxTP, L0, -⟩ := C52_step_g (Q := Q) (Ci := Ci) hT hM hZ hFg hxT hx hY hP hl hu
  have n2 : N2 = 1.6e-3 := rfl
  have n5 : N5 = 1.8e-3 := rfl
  have n9 : (0 : ℝ) < N9 := by norm_num [N9]
  have p1 : 0 < 1 + loss_coefficient_piping d (some D1) (some D2) / N2 * (Ci / d ^ 2) ^ 2 := by rw [n2]; positivity
  have p2 : 0 < 1 + xT * loss_coefficient_piping d (some D1) none / N5 * (Ci / d ^ 2) ^ 2 := by rw [n5]; positivity
  have e1 : 1 / √(1 + loss_coefficient_piping d (some D1) (some D2) / N2 * (Ci / d ^ 2) ^ 2) = FP := by
    rw [hFP]; unfold FPof pipingTerm; rw [n2]
  have e2 : xT / FP ^ 2 / (1 + xT * loss_coefficient_piping d (some D1) none / N5 * (Ci / d ^ 2) ^ 2) = xTP := by
    rw [hxTP]; unfold xTPof pipingTerm; rw [n5]; congr 2; ring
  have s1 : 0 ≤ MW * T * Z / xTP / Fg := by positivity
  have s2 : 0 ≤ MW * T * Z / x := by positivity
  have dY : N9 * FP * P1 * Y ≠ 0 := by positivity
  refine ⟨FP, xTP, decide (Fg * xTP ≤ x), hFP, ?_⟩
  have hC : (if decide (Fg * xTP ≤ x) = true then
      (Except.ok (Q / (N9 * FP * P1 * Y) * √(MW * T * Z / xTP / Fg)) : Py ℝ) else .ok (Q / (N9 * FP * P1 * Y) * √(MW * T * Z / x))) =
      .ok (stepG T MW Z Fg xT x Y P1 Q D1 D2 d Ci) := by
    simp only [decide_eq_true_eq, stepG]
    rw [← apply_ite Except.ok, ← hFP, ← hxTP]
    congr 1
    split_ifs
    · rw [div_div, mul_comm xTP]
    · rfl
  simp only [bodyTurbG, pdiv_ok (pow_pos hd 2).ne', psqrt_ok p1.le, pdiv_ok (sqrt_pos.mpr p1).ne', e1, pdiv_ok (pow_pos F0 2).ne', pdiv_ok p2.ne', e2,
    (C51_choked_piping 0 0 0 0 x Fg one_ne_zero one_ne_zero L0.ne' none).2.1, pdiv_ok dY, pdiv_ok L0.ne', pdiv_ok hFg.ne', pdiv_ok hx.ne',
    psqrt_ok s1, psqrt_ok s2, Py.ok_bind, Py.pure_eq, hC]

/-- C52: the gas recursion likewise; it never fails. -/
theorem C52_piping_g (n : ℕ) {C0 : ℝ} (hC0 : 0 < C0) (hT : 0 < T) (hM : 0 < MW) (hZ : 0 < Z) (hFg : 0 < Fg) (hxT : 0 < xT) (hx : 0 < x)
    (hY : 0 < Y) (hP : 0 < P1) (hQ : 0 < Q) (hd : 0 < d) (hl : 0 ≤ loss_coefficient_piping d (some D1) (some D2))
    (hu : 0 ≤ loss_coefficient_piping d (some D1) none) :
    ∃ r Ci, iterTurbG T MW Z Fg xT x Y P1 Q D1 D2 d n C0 = .ok r ∧ 0 < Ci ∧ r.C = stepG T MW Z Fg xT x Y P1 Q D1 D2 d Ci ∧
      (r.warning = false → 0.99 * r.C ≤ Ci) ∧ r.FP = FPof (loss_coefficient_piping d (some D1) (some D2)) C0 d := by
  induction n generalizing C0 with
  | zero =>
    obtain ⟨FP, xTP, ch, hFP, e⟩ := bodyTurbG_ok (Q := Q) (Ci := C0) hT hM hZ hFg hxT hx hY hP hd hl hu
    have hC := stepG_pos (Ci := C0) hT hM hZ hFg hxT hx hY hP hQ hl hu
    simp only [iterTurbG, e, Py.ok_bind, pdiv_ok hC.ne']
    exact ⟨_, C0, rfl, hC0, rfl, by simp, hFP⟩
  | succ n ih =>
    obtain ⟨FP, xTP, ch, hFP, e⟩ := bodyTurbG_ok (Q := Q) (Ci := C0) hT hM hZ hFg hxT hx hY hP hd hl hu
    have hC := stepG_pos (Ci := C0) hT hM hZ hFg hxT hx hY hP hQ hl hu
    simp only [iterTurbG, e, Py.ok_bind, pdiv_ok hC.ne']
    obtain ⟨C, hCC⟩ : ∃ C, C = stepG T MW Z Fg xT x Y P1 Q D1 D2 d C0 := ⟨_, rfl⟩
    rw [← hCC] at hC ⊢
    by_cases q : C0 / C < 0.99 ∧ C0 < 1e40
    · simp only [if_pos q]
      obtain ⟨r, Ci, hr', h1, h2, h3, h4⟩ := ih hC
      rw [hr']
      refine ⟨_, Ci, rfl, h1, h2, fun hw => h3 ?_, hFP⟩
      simp only [Bool.or_eq_false_iff] at hw
      exact hw.1
    · simp only [if_neg q, Py.ok_bind]
      refine ⟨_, C0, rfl, hC0, hCC, fun hw => ?_, hFP⟩
      simp only [Bool.false_or, decide_eq_false_iff_not, ge_iff_le, not_le] at hw
      have : ¬ C0 / C < 0.99 := fun h => q ⟨h, hw⟩
      rw [not_lt, le_div_iff₀ hC] at this
      exact this

end gas

/-! ### C52: the laminar recursion -/

/-- the Reynolds number factor the code uses at flow coefficient `C` -/
noncomputable def FRat (nu Q D1 d FL Fd C : ℝ) : Py ℝ := do
  let Rev ← Reynolds_valve nu Q D1 FL Fd C
  if C / (d * d) > 0.016 * N18 then Reynolds_factor FL C d Rev false else Reynolds_factor FL C d Rev true

/-- lower bound of the valve Reynolds number, whatever the flow coefficient -/
noncomputable def revFloor (nu Q D1 Fd : ℝ) : ℝ := N4 * Fd * Q / nu * √√(D1 ^ (-4 : ℝ) / N2)

theorem rev_ok {nu Q D1 FL Fd C : ℝ} (hnu : 0 < nu) (hQ : 0 < Q) (hD : 0 < D1) (hFL : 0 < FL) (hFd : 0 < Fd) (hC : 0 < C) :
    ∃ Rev, Reynolds_valve nu Q D1 FL Fd C = .ok Rev ∧ revFloor nu Q D1 Fd ≤ Rev ∧ 0 < revFloor nu Q D1 Fd := by
  have n2 : (0 : ℝ) < N2 := by norm_num [N2]
  have n4 : (0 : ℝ) < N4 := by norm_num [N4]
  have hs : 0 < √(C * FL) := sqrt_pos.mpr (by positivity)
  have hp : 0 < D1 ^ (-4 : ℝ) := by positivity
  have h1 : 0 ≤ FL * FL * C * C / N2 * D1 ^ (-4 : ℝ) + 1 := by positivity
  refine ⟨_, by simp only [Reynolds_valve, pdiv_ok hnu.ne', psqrt_ok (by positivity : 0 ≤ C * FL), pdiv_ok hs.ne', pdiv_ok n2.ne', ppow_ok hD,
    psqrt_ok h1, psqrt_ok (sqrt_nonneg _), Py.ok_bind, Py.pure_eq]; rfl, ?_, ?_⟩
  · have : √(C * FL) * √√(D1 ^ (-4 : ℝ) / N2) ≤ √√(FL * FL * C * C / N2 * D1 ^ (-4 : ℝ) + 1) := by
      rw [← sqrt_mul (by positivity)]
      apply sqrt_le_sqrt
      apply le_sqrt_of_sq_le
      rw [mul_pow, sq_sqrt (by positivity)]
      have : (C * FL) ^ 2 * (D1 ^ (-4 : ℝ) / N2) = FL * FL * C * C / N2 * D1 ^ (-4 : ℝ) := by ring
      linarith
    unfold revFloor
    have k0 : 0 ≤ N4 * Fd * Q / nu := by positivity
    generalize N4 * Fd * Q / nu = k at *
    rw [mul_one, div_mul_eq_mul_div, le_div_iff₀ hs, mul_assoc, mul_comm (√√_)]
    gcongr
  · unfold revFloor; positivity

theorem log10_bound {R : ℝ} (h : 10 ≤ R) : -3 ≤ log (R / 10000) / log 10 := by
  have l10 : 0 < log 10 := log_pos (by norm_num)
  rw [le_div_iff₀ l10]
  have : log (1 / 1000) ≤ log (R / 10000) := log_le_log (by norm_num) (by linarith)
  have e : log (1 / 1000 : ℝ) = -3 * log 10 := by
    rw [show (1 / 1000 : ℝ) = 10 ^ (-3 : ℝ) by rw [rpow_neg (by norm_num)]; norm_num, log_rpow (by norm_num)]
  linarith

/-- the trimmed branch is positive, and close to one for large flow coefficients -/
theorem factor_reduced {FL C d Rev : ℝ} (hFL : 0 < FL) (hFL1 : FL ≤ 1) (hC : 0 < C) (hd : 0 < d) (hR : 0 < Rev) :
    ∃ FR, Reynolds_factor FL C d Rev false = .ok FR ∧ 0 < FR ∧
      (625 ≤ 140 * (C / d ^ 2) ^ (2 / 3 : ℝ) → 1 ≤ 0.026 / FL * √(140 * (C / d ^ 2) ^ (2 / 3 : ℝ) * Rev) → 0.8 < FR) := by
  have hq : 0 < C / d ^ 2 := by positivity
  obtain ⟨w, hw⟩ : ∃ w, w = (C / d ^ 2) ^ (2 / 3 : ℝ) := ⟨_, rfl⟩
  have w0 : 0 < w := by rw [hw]; positivity
  have n32 : N32 = 140 := by norm_num [N32]
  have hn : 1 ≤ 1 + 140 * w := by linarith
  have hn0 : 0 < 1 + 140 * w := by linarith
  have s1 : 1 ≤ √√(1 + 140 * w) := by rw [one_le_sqrt, one_le_sqrt]; exact hn
  have s0 : 0 < √√(1 + 140 * w) := by linarith
  have sF : √FL ≤ 1 := sqrt_le_one.mpr hFL1
  have sF0 : 0 ≤ √FL := sqrt_nonneg _
  have b0 : 0 < 0.026 / FL * √((1 + 140 * w) * Rev) := by positivity
  have ha : 0 ≤ 0.33 * √FL / √√(1 + 140 * w) := by positivity
  have ha1 : 0.33 * √FL / √√(1 + 140 * w) ≤ 0.33 / √√(1 + 140 * w) := by gcongr; linarith
  have e : Reynolds_factor FL C d Rev false = if Rev < 10 then .ok (min (0.026 / FL * √((1 + 140 * w) * Rev)) 1) else
      .ok (min (1 + 0.33 * √FL / √√(1 + 140 * w) * (log (Rev / 10000) / log 10)) (min (0.026 / FL * √((1 + 140 * w) * Rev)) 1)) := by
    simp only [Reynolds_factor, Bool.false_eq_true, if_false, pdiv_ok (pow_pos hd 2).ne', ppow_ok hq, ← hw, n32, psqrt_ok hFL.le, psqrt_ok hn0.le,
      psqrt_ok (sqrt_nonneg _), pdiv_ok s0.ne', plog10_ok (by positivity : 0 < Rev / 10000), pdiv_ok hFL.ne',
      psqrt_ok (by positivity : 0 ≤ (1 + 140 * w) * Rev), Py.ok_bind]
  have low : 10 ≤ Rev → 1 - 0.99 / √√(1 + 140 * w) ≤ 1 + 0.33 * √FL / √√(1 + 140 * w) * (log (Rev / 10000) / log 10) := by
    intro h
    have := log10_bound h
    have h3 : 0.99 / √√(1 + 140 * w) = 3 * (0.33 / √√(1 + 140 * w)) := by ring
    rw [h3]
    nlinarith
  have low1 : 0.99 / √√(1 + 140 * w) ≤ 0.99 := div_le_self (by norm_num) s1
  rw [e, ← hw]
  have big : 625 ≤ 140 * w → 0.99 / √√(1 + 140 * w) ≤ 0.198 := by
    intro h
    have : 5 ≤ √√(1 + 140 * w) := by
      apply le_sqrt_of_sq_le; apply le_sqrt_of_sq_le; norm_num; linarith
    rw [div_le_iff₀ s0]; norm_num at this ⊢; linarith
  have four : 1 ≤ 0.026 / FL * √(140 * w * Rev) → 1 ≤ 0.026 / FL * √((1 + 140 * w) * Rev) := by
    intro h
    refine h.trans ?_
    gcongr
    linarith
  split_ifs with q
  · refine ⟨_, rfl, lt_min b0 one_pos, fun h1 h2 => lt_min ?_ (by norm_num)⟩
    have := four h2; linarith
  · have := low (not_lt.mp q)
    refine ⟨_, rfl, lt_min ?_ (lt_min b0 one_pos), fun h1 h2 => lt_min ?_ (lt_min ?_ (by norm_num))⟩
    · norm_num at this low1 ⊢; linarith
    · have b := big h1
      norm_num at this b ⊢; linarith
    · have := four h2; norm_num at this ⊢; linarith

theorem factor_full {FL C d Rev : ℝ} (hFL : 0 < FL) (hFL1 : FL ≤ 1) (hC : 0 < C) (hd : 0 < d) (hR : 0 < Rev) :
    ∃ FR, Reynolds_factor FL C d Rev true = .ok FR ∧ 0 < FR := by
  have hq : 0 < C / (d * d) := by positivity
  obtain ⟨n1, hn1⟩ : ∃ n1, n1 = N2 / (min (C / (d * d)) 0.04) ^ 2 := ⟨_, rfl⟩
  have hm : 0 < min (C / (d * d)) 0.04 := lt_min hq (by norm_num)
  have n2 : N2 = 0.0016 := by norm_num [N2]
  have hn : 1 ≤ n1 := by
    rw [hn1, le_div_iff₀ (by positivity), one_mul, n2]
    have : min (C / (d * d)) 0.04 ≤ 0.04 := min_le_right _ _
    generalize min (C / (d * d)) 0.04 = y at *
    norm_num at this ⊢
    nlinarith
  have hn0 : 0 < n1 := by linarith
  have s1 : 1 ≤ √√n1 := by rw [one_le_sqrt, one_le_sqrt]; exact hn
  have s0 : 0 < √√n1 := by linarith
  have sF : √FL ≤ 1 := sqrt_le_one.mpr hFL1
  have sF0 : 0 ≤ √FL := sqrt_nonneg _
  have b0 : 0 < 0.026 / FL * √(n1 * Rev) := by positivity
  have ha : 0 ≤ 0.33 * √FL / √√n1 := by positivity
  have ha1 : 0.33 * √FL / √√n1 ≤ 0.33 := by
    rw [div_le_iff₀ s0]; nlinarith
  have e : Reynolds_factor FL C d Rev true = if Rev < 10 then .ok (0.026 / FL * √(n1 * Rev)) else
      .ok (min (0.026 / FL * √(n1 * Rev)) (1 + 0.33 * √FL / √√n1 * (log (Rev / 10000) / log 10))) := by
    simp only [Reynolds_factor, if_true, pdiv_ok (mul_pos hd hd).ne', pdiv_ok (pow_pos hm 2).ne', ← hn1, psqrt_ok hFL.le, psqrt_ok hn0.le,
      psqrt_ok (sqrt_nonneg _), pdiv_ok s0.ne', plog10_ok (by positivity : 0 < Rev / 10000), pdiv_ok hFL.ne',
      psqrt_ok (by positivity : 0 ≤ n1 * Rev), Py.ok_bind]
  rw [e]
  split_ifs with q
  · exact ⟨_, rfl, b0⟩
  · have := log10_bound (not_lt.mp q)
    refine ⟨_, rfl, lt_min b0 ?_⟩
    norm_num at ha1 this ⊢
    nlinarith

theorem FRat_ok {nu Q D1 d FL Fd C : ℝ} (hnu : 0 < nu) (hQ : 0 < Q) (hD : 0 < D1) (hd : 0 < d) (hFL : 0 < FL) (hFL1 : FL ≤ 1) (hFd : 0 < Fd)
    (hC : 0 < C) : ∃ FR, FRat nu Q D1 d FL Fd C = .ok FR ∧ 0 < FR := by
  obtain ⟨Rev, hR, h1, h2⟩ := rev_ok hnu hQ hD hFL hFd hC
  have hR0 : 0 < Rev := by linarith
  obtain ⟨a, ha, a0, -⟩ := factor_reduced hFL hFL1 hC hd hR0
  obtain ⟨b, hb, b0⟩ := factor_full hFL hFL1 hC hd hR0
  simp only [FRat, hR, Py.ok_bind]
  split_ifs
  · exact ⟨a, ha, a0⟩
  · exact ⟨b, hb, b0⟩

/-- beyond some flow coefficient the factor exceeds 0.8 -/
theorem FRat_large {nu Q D1 d FL Fd : ℝ} (hnu : 0 < nu) (hQ : 0 < Q) (hD : 0 < D1) (hd : 0 < d) (hFL : 0 < FL) (hFL1 : FL ≤ 1) (hFd : 0 < Fd) :
    ∃ C1 > 0, ∀ C, C1 ≤ C → ∃ FR, FRat nu Q D1 d FL Fd C = .ok FR ∧ 0.8 < FR := by
  obtain ⟨B, hB⟩ : ∃ B, B = revFloor nu Q D1 Fd := ⟨_, rfl⟩
  have B0 : 0 < B := by rw [hB]; exact (rev_ok (C := 1) hnu hQ hD hFL hFd one_pos).choose_spec.2.2
  obtain ⟨M, hM⟩ : ∃ M, M = max 625 ((FL / 0.026) ^ 2 / B) := ⟨_, rfl⟩
  have M1 : 625 ≤ M := by rw [hM]; exact le_max_left _ _
  have M2 : (FL / 0.026) ^ 2 / B ≤ M := by rw [hM]; exact le_max_right _ _
  have M0 : 0 < M := by linarith
  refine ⟨d ^ 2 * (M / 140) ^ (3 / 2 : ℝ), by positivity, fun C hC => ?_⟩
  have C0 : 0 < C := lt_of_lt_of_le (by positivity) hC
  have hq : (M / 140) ^ (3 / 2 : ℝ) ≤ C / d ^ 2 := by rw [le_div_iff₀ (by positivity)]; linarith
  have hw : M ≤ 140 * (C / d ^ 2) ^ (2 / 3 : ℝ) := by
    have : ((M / 140) ^ (3 / 2 : ℝ)) ^ (2 / 3 : ℝ) ≤ (C / d ^ 2) ^ (2 / 3 : ℝ) := rpow_le_rpow (by positivity) hq (by norm_num)
    rw [← rpow_mul (by positivity)] at this
    norm_num at this
    linarith
  obtain ⟨Rev, hR, h1, h2⟩ := rev_ok hnu hQ hD hFL hFd C0
  rw [← hB] at h1
  have hR0 : 0 < Rev := by linarith
  obtain ⟨a, ha, a0, hbig⟩ := factor_reduced hFL hFL1 C0 hd hR0
  have hcond : C / (d * d) > 0.016 * N18 := by
    have : 1 ≤ (M / 140) ^ (3 / 2 : ℝ) := one_le_rpow (by rw [le_div_iff₀ (by norm_num)]; linarith) (by norm_num)
    have e : C / (d * d) = C / d ^ 2 := by rw [pow_two]
    rw [e]
    have h18 : 0.016 * N18 < 1 := by norm_num [N18]
    linarith
  refine ⟨a, by simp only [FRat, hR, Py.ok_bind, if_pos hcond, ha], hbig (by linarith) ?_⟩
  have hs : FL / 0.026 ≤ √(140 * (C / d ^ 2) ^ (2 / 3 : ℝ) * Rev) := by
    apply le_sqrt_of_sq_le
    rw [div_le_iff₀ B0] at M2
    calc (FL / 0.026) ^ 2 ≤ M * B := M2
      _ ≤ _ := by gcongr
  rw [div_mul_eq_mul_div, le_div_iff₀ hFL]
  rw [div_le_iff₀ (by norm_num)] at hs
  linarith

/-- one level of the laminar recursion -/
theorem iterLaminar_succ {nu Q D1 d FL Fd C FR : ℝ} (n : ℕ) (hnu : 0 < nu) (hQ : 0 < Q) (hD : 0 < D1) (hd : 0 < d) (hFL : 0 < FL) (hFd : 0 < Fd)
    (hC : 0 < C) (h : FRat nu Q D1 d FL Fd (1.3 * C) = .ok FR) (h0 : 0 < FR) :
    ∃ Rev, iterLaminar nu Q D1 d FL Fd (n + 1) C = if FR * 1.3 ≤ 1 then (do
      let r ← iterLaminar nu Q D1 d FL Fd n (1.3 * C)
      .ok (r.1, FR, Rev)) else .ok (1.3 * C, FR, Rev) := by
  obtain ⟨Rev, hR, h1, h2⟩ := rev_ok hnu hQ hD hFL hFd (by positivity : 0 < 1.3 * C)
  refine ⟨Rev, ?_⟩
  simp only [FRat, hR, Py.ok_bind] at h
  have e : (C / FR ≥ 1.3 * C) ↔ FR * 1.3 ≤ 1 := by
    rw [ge_iff_le, le_div_iff₀ h0, show 1.3 * C * FR = (FR * 1.3) * C by ring]
    exact mul_le_iff_le_one_left hC
  simp only [iterLaminar, hR, Py.ok_bind, pdiv_ok (mul_pos hd hd).ne', h, pdiv_ok h0.ne', e, Py.pure_eq]

/-- C52: the laminar recursion always ends (for `0 < FL ≤ 1`), after a number of levels that depends on the inputs; the flow coefficient `K`
returned satisfies `K·FR(K) > K/1.3 ≥ C`, so it passes the flow that needs `C` in turbulent conditions. -/
theorem C52_laminar {nu Q D1 d FL Fd C : ℝ} (hnu : 0 < nu) (hQ : 0 < Q) (hD : 0 < D1) (hd : 0 < d) (hFL : 0 < FL) (hFL1 : FL ≤ 1) (hFd : 0 < Fd)
    (hC : 0 < C) :
    ∃ n0, ∀ n, n0 ≤ n → ∃ r FR, iterLaminar nu Q D1 d FL Fd n C = .ok r ∧ FRat nu Q D1 d FL Fd r.1 = .ok FR ∧
      1.3 * C ≤ r.1 ∧ r.1 < 1.3 * (r.1 * FR) ∧ C < r.1 * FR := by
  obtain ⟨C1, C10, hC1⟩ := FRat_large hnu hQ hD hd hFL hFL1 hFd
  have main : ∀ k : ℕ, ∀ C > 0, C1 ≤ 1.3 ^ (k + 1) * C → ∀ n, k + 1 ≤ n → ∃ r FR, iterLaminar nu Q D1 d FL Fd n C = .ok r ∧
      FRat nu Q D1 d FL Fd r.1 = .ok FR ∧ 1.3 * C ≤ r.1 ∧ r.1 < 1.3 * (r.1 * FR) := by
    intro k
    induction k with
    | zero =>
      intro C hC h n hn
      obtain ⟨m, rfl⟩ : ∃ m, n = m + 1 := ⟨n - 1, by omega⟩
      obtain ⟨FR, hF, hF8⟩ := hC1 (1.3 * C) (by simpa using h)
      have hF0 : 0 < FR := lt_trans (by norm_num) hF8
      obtain ⟨Rev, e⟩ := iterLaminar_succ m hnu hQ hD hd hFL hFd hC hF hF0
      have hn1 : ¬ FR * 1.3 ≤ 1 := by norm_num at hF8 ⊢; linarith
      rw [if_neg hn1] at e
      refine ⟨_, FR, e, hF, le_rfl, ?_⟩
      rw [not_le] at hn1
      nlinarith
    | succ k ih =>
      intro C hC h n hn
      obtain ⟨m, rfl⟩ : ∃ m, n = m + 1 := ⟨n - 1, by omega⟩
      have hC' : 0 < 1.3 * C := by positivity
      obtain ⟨FR, hF, hF0⟩ := FRat_ok hnu hQ hD hd hFL hFL1 hFd hC'
      obtain ⟨Rev, e⟩ := iterLaminar_succ m hnu hQ hD hd hFL hFd hC hF hF0
      by_cases q : FR * 1.3 ≤ 1
      · rw [if_pos q] at e
        obtain ⟨r, FR', h1, h2, h3, h4⟩ := ih (1.3 * C) hC' (by rw [← mul_assoc, ← pow_succ]; exact h) m (by omega)
        rw [h1, Py.ok_bind] at e
        refine ⟨_, FR', e, h2, ?_, h4⟩
        have : 1.3 * C ≤ 1.3 * (1.3 * C) := by norm_num; linarith
        exact this.trans h3
      · rw [if_neg q] at e
        refine ⟨_, FR, e, hF, le_rfl, ?_⟩
        rw [not_le] at q
        nlinarith
  obtain ⟨k, hk⟩ := pow_unbounded_of_one_lt (C1 / C) (by norm_num : (1 : ℝ) < 1.3)
  refine ⟨k + 1, fun n hn => ?_⟩
  have : C1 ≤ 1.3 ^ (k + 1) * C := by
    rw [div_lt_iff₀ hC] at hk
    have : (1.3 : ℝ) ^ k * C ≤ 1.3 ^ (k + 1) * C := by
      gcongr <;> norm_num
    linarith
  obtain ⟨r, FR, h1, h2, h3, h4⟩ := main k C hC this n hn
  refine ⟨r, FR, h1, h2, h3, h4, ?_⟩
  have : 1.3 * C < 1.3 * (r.1 * FR) := by linarith
  exact lt_of_mul_lt_mul_left this (by norm_num)

/-! ### C52: the two sizing functions with diameters -/

theorem loss_scale {d D1 D2 : ℝ} (h1 : 0 < D1) (h2 : 0 < D2) :
    loss_coefficient_piping (d * 1000) (some (D1 * 1000)) (some (D2 * 1000)) = loss_coefficient_piping d (some D1) (some D2) ∧
    loss_coefficient_piping (d * 1000) (some (D1 * 1000)) none = loss_coefficient_piping d (some D1) none := by
  have k : (1000 : ℝ) ≠ 0 := by norm_num
  simp only [loss_coefficient_piping, truthy_some h1.ne', truthy_some h2.ne', truthy_some (mul_pos h1 (by norm_num : (0 : ℝ) < 1000)).ne',
    truthy_some (mul_pos h2 (by norm_num : (0 : ℝ) < 1000)).ne', if_true, Option.getD_some, mul_div_mul_right _ _ k,
    not_truthy_none, if_false, and_self]

/-- C52: liquids with all three diameters (a line not narrower than the valve, the outlet not wider than the inlet): given enough recursion
depth the call succeeds with `full_output`, reports choking as without diameters, and returns: the piping-corrected sizing equation (21
evaluations at most) when the flow is turbulent and the line differs from the valve; a flow coefficient passing the Reynolds-number-corrected
equation when laminar; else the answer without diameters. -/
theorem C52_liquid_diameters {rho Psat Pc mu P1 P2 Q FL Fd D1 D2 d : ℝ} (ac al : Bool) (hr : 0 < rho) (h1 : 0 ≤ Psat) (h2 : 0 < Pc) (hmu : 0 < mu)
    (hQ : 0 < Q) (h12 : P2 < P1) (hF : 0 < FL) (hF1 : FL ≤ 1) (hFd : 0 < Fd)
    (hc : ∀ FF, FF_critical_pressure_ratio_l Psat Pc = .ok FF → FF * Psat < P1) (hd : 0 < d) (hD2 : d ≤ D2) (hD1 : D2 ≤ D1) :
    ∃ FF s0 n0, FF_critical_pressure_ratio_l Psat Pc = .ok FF ∧
      (∀ fuel, size_control_valve_l fuel rho Psat Pc mu P1 P2 Q none none none FL Fd ac al true = .ok s0) ∧
      ∀ fuel, n0 ≤ fuel → ∃ s, size_control_valve_l fuel rho Psat Pc mu P1 P2 Q (some D1) (some D2) (some d) FL Fd ac al true = .ok s ∧
        s.choked = s0.choked ∧
        ((s.laminar = false ∨ al = false) → (D1 ≠ d ∨ D2 ≠ d) → ∃ Ci > 0,
          s.Kv = stepL rho FL FF (P1 / 1000 - P2 / 1000) (P1 / 1000) (Psat / 1000) (Q * 3600) (D1 * 1000) (D2 * 1000) (d * 1000) Ci ∧
          (s.warning = false → 0.99 * s.Kv ≤ Ci)) ∧
        (s.laminar = true → al = true → ∃ FR, FRat (mu / rho) (Q * 3600) (D1 * 1000) (d * 1000) FL Fd s.Kv = .ok FR ∧ s0.Kv < s.Kv * FR) ∧
        (¬ (s.laminar = true ∧ al = true) → D1 = d → D2 = d → s.Kv = s0.Kv) := by
  obtain ⟨FF, hFF⟩ : ∃ FF, FF = 0.96 - 0.28 * √(Psat / Pc) := ⟨_, rfl⟩
  have hf := FF_ok h1 h2
  rw [← hFF] at hf
  have hc' := hc FF hf
  have hf' : FF_critical_pressure_ratio_l (Psat / 1000) (Pc / 1000) = .ok FF := by
    rw [FF_ok (by positivity) (by positivity), div_div_div_cancel_right₀ (by norm_num), hFF]
  have n1 : (0 : ℝ) < N1 := by norm_num [N1]
  have r0 : (0 : ℝ) < rho0 := by norm_num [rho0]
  have hp : 0 < P1 / 1000 - P2 / 1000 := by linarith
  have hp' : 0 < P1 / 1000 - FF * (Psat / 1000) := by linarith
  have s1 : 0 ≤ rho / rho0 / (P1 / 1000 - P2 / 1000) := by positivity
  have s2 : 0 ≤ rho / rho0 / (P1 / 1000 - FF * (Psat / 1000)) := by positivity
  obtain ⟨ch, hch⟩ : ∃ ch, ch = decide (FL * FL * (P1 / 1000 - FF * (Psat / 1000)) ≤ P1 / 1000 - P2 / 1000) := ⟨_, rfl⟩
  have hchk : is_choked_turbulent_l (P1 / 1000 - P2 / 1000) (P1 / 1000) (Psat / 1000) FF (some FL) none none = .ok ch := by rw [choked_l hF.ne', hch]
  obtain ⟨C, hC⟩ : ∃ C, C = if ch = true ∧ ac = true then Q * 3600 / N1 / FL * √(rho / rho0 / (P1 / 1000 - FF * (Psat / 1000))) else
    Q * 3600 / N1 * √(rho / rho0 / (P1 / 1000 - P2 / 1000)) := ⟨_, rfl⟩
  have C0 : 0 < C := by rw [hC]; split_ifs <;> positivity
  have hnu : 0 < mu / rho := by positivity
  have hD20 : 0 < D2 := by linarith
  have hD10 : 0 < D1 := by linarith
  have q0 : (0 : ℝ) < Q * 3600 := by positivity
  have d0 : 0 < d * 1000 := by positivity
  have D0 : 0 < D1 * 1000 := by positivity
  obtain ⟨l1, l2, -, -⟩ := C52_loss hd (hD2.trans hD1) hD2
  have l2 := l2 hD1
  rw [← (loss_scale hD10 hD20).2] at l1
  rw [← (loss_scale hD10 hD20).1] at l2
  obtain ⟨Rev, hRev, -, -⟩ := rev_ok hnu q0 D0 hF hFd C0
  obtain ⟨n0, hlam⟩ := C52_laminar hnu q0 D0 d0 hF hF1 hFd C0
  have hturb := C52_piping_l (Q := Q * 3600) true 20 C0 hr hF hp hp' q0 d0 l2 l1
  have hC' : (if ch = true ∧ ac = true then (Except.ok (Q * 3600 / N1 / FL * √(rho / rho0 / (P1 / 1000 - FF * (Psat / 1000)))) : Py ℝ) else
    .ok (Q * 3600 / N1 * √(rho / rho0 / (P1 / 1000 - P2 / 1000)))) = .ok C := by rw [← apply_ite Except.ok, hC]
  refine ⟨FF, ⟨C, ch, false, none, none, none, some 1e5, false⟩, n0, hf, fun fuel => ?_, fun fuel hfuel => ?_⟩
  · simp only [size_control_valve_l, pdiv_ok hr.ne', hf', hchk, pdiv_ok hF.ne', pdiv_ok hp.ne', pdiv_ok hp'.ne', psqrt_ok s1, psqrt_ok s2,
      Py.ok_bind, Py.pure_eq, hC']
  · simp only [size_control_valve_l, pdiv_ok hr.ne', hf', hchk, pdiv_ok hF.ne', pdiv_ok hp.ne', pdiv_ok hp'.ne', psqrt_ok s1, psqrt_ok s2,
      Py.ok_bind, Py.pure_eq, hC', hRev]
    have inj : ∀ a b : ℝ, a * 1000 ≠ b * 1000 ↔ a ≠ b := fun a b => by
      rw [ne_eq, mul_left_inj' (by norm_num)]
    simp only [inj]
    split_ifs with q q'
    · rcases hturb with ⟨r, Ci, e, h3, h4, h5, -, -⟩ | ⟨h, -⟩
      · rw [e]
        refine ⟨_, rfl, rfl, fun _ _ => ⟨Ci, h3, h4, h5⟩, fun hl ha => ?_, fun _ ha hb => ?_⟩
        · simp only [decide_eq_true_eq] at hl
          rcases q.1 with q1 | q1
          · exact absurd hl (not_le.mpr q1)
          · simp [ha] at q1
        · rcases q.2 with q2 | q2
          · exact absurd ha q2
          · exact absurd hb q2
      · simp at h
    · obtain ⟨r, FR, e, h3, h4, h5, h6⟩ := hlam fuel hfuel
      rw [e]
      refine ⟨_, rfl, rfl, fun hl _ => ?_, fun _ _ => ⟨FR, h3, h6⟩, fun hl => ?_⟩
      · rcases hl with hl | hl
        · simp [q'.1] at hl
        · simp [q'.2] at hl
      · exact absurd ⟨by simpa using q'.1, q'.2⟩ hl
    · refine ⟨_, rfl, rfl, fun hl hD => ?_, fun hl ha => ?_, fun _ _ _ => rfl⟩
      · exfalso
        apply q
        refine ⟨?_, hD⟩
        rcases hl with hl | hl
        · left; simpa using hl
        · right; exact hl
      · exact absurd ⟨by simpa using hl, ha⟩ q'

/-- C52: gases with all three diameters, likewise. -/
theorem C52_gas_diameters {T MW mu gamma Z P1 P2 Q FL Fd xT D1 D2 d : ℝ} (ac al : Bool) (hT : 0 < T) (hM : 0 < MW) (hZ : 0 < Z) (hmu : 0 < mu)
    (hg : 0 < gamma) (hx : 0 < xT) (h2 : 0 ≤ P2) (h12 : P2 < P1) (hQ : 0 < Q) (hF : 0 < FL) (hF1 : FL ≤ 1) (hFd : 0 < Fd)
    (hd : 0 < d) (hD2 : d ≤ D2) (hD1 : D2 ≤ D1) :
    ∃ s0 n0 nu Y, (∀ fuel, size_control_valve_g fuel T MW mu gamma Z P1 P2 Q none none none FL Fd xT ac al = .ok s0) ∧
      0 < nu ∧ Y = 1 - min ((P1 - P2) / P1) (gamma / 1.4 * xT) / (3 * (gamma / 1.4) * xT) ∧
      ∀ fuel, n0 ≤ fuel → ∃ s, size_control_valve_g fuel T MW mu gamma Z P1 P2 Q (some D1) (some D2) (some d) FL Fd xT ac al = .ok s ∧
        s.choked = s0.choked ∧
        ((s.laminar = false ∨ al = false) → (D1 ≠ d ∨ D2 ≠ d) → ∃ Ci > 0,
          s.Kv = stepG T MW Z (gamma / 1.4) xT ((P1 - P2) / P1) Y (P1 * 1e-3) (Q * 3600) (D1 * 1000) (D2 * 1000) (d * 1000) Ci ∧
          (s.warning = false → 0.99 * s.Kv ≤ Ci)) ∧
        (s.laminar = true → al = true → ∃ FR, FRat nu (Q * 3600) (D1 * 1000) (d * 1000) FL Fd s.Kv = .ok FR ∧ s0.Kv < s.Kv * FR) ∧
        (¬ (s.laminar = true ∧ al = true) → D1 = d → D2 = d → s.Kv = s0.Kv) := by
  have h1 : 0 < P1 := by linarith
  obtain ⟨Fg, hFg⟩ : ∃ Fg, Fg = gamma / 1.4 := ⟨_, rfl⟩
  have Fg0 : 0 < Fg := by rw [hFg]; positivity
  obtain ⟨x, hxx⟩ : ∃ x, x = (P1 - P2) / P1 := ⟨_, rfl⟩
  have x0 : 0 < x := by rw [hxx]; exact div_pos (by linarith) h1
  have ex : (P1 * 1e-3 - P2 * 1e-3) / (P1 * 1e-3) = x := by rw [hxx, ← sub_mul, mul_div_mul_right _ _ (by norm_num)]
  have hp : (0 : ℝ) < P1 * 1e-3 := by positivity
  have hV : 0 < Z * R * T / (P1 * 1e-3 * 1000) := by have : (0 : ℝ) < R := by norm_num [R]
                                                     positivity
  have hrho : 0 < MW * 1e-3 / (Z * R * T / (P1 * 1e-3 * 1000)) := by positivity
  have hd' : 0 < 3 * Fg * xT := by positivity
  have n9 : (0 : ℝ) < N9 := by norm_num [N9]
  obtain ⟨Y, hYY⟩ : ∃ Y, Y = 1 - min x (Fg * xT) / (3 * Fg * xT) := ⟨_, rfl⟩
  have hY : max (1 - x / (3 * Fg * xT)) (2 / 3) = Y := by
    rw [hYY]
    rcases le_total x (Fg * xT) with q | q
    · rw [min_eq_left q, max_eq_left]
      have : x / (3 * Fg * xT) ≤ 1 / 3 := by rw [div_le_iff₀ hd']; linarith
      linarith
    · rw [min_eq_right q, max_eq_right]
      · have : Fg * xT / (3 * Fg * xT) = 1 / 3 := by field_simp
        rw [this]; norm_num
      · have : 1 / 3 ≤ x / (3 * Fg * xT) := by rw [le_div_iff₀ hd']; linarith
        linarith
  have Y0 : 0 < Y := by rw [← hY]; exact lt_max_of_lt_right (by norm_num)
  have dY : N9 * (P1 * 1e-3) * Y ≠ 0 := by positivity
  have s1 : 0 ≤ MW * T * Z / x := by positivity
  have s2 : 0 ≤ MW * T * Z / xT / Fg := by positivity
  obtain ⟨ch, hch⟩ : ∃ ch, ch = decide (Fg * xT ≤ x) := ⟨_, rfl⟩
  have hchk : is_choked_turbulent_g x Fg (some xT) none = .ok ch := by rw [choked_g hx.ne', hch]
  obtain ⟨C, hC⟩ : ∃ C, C = if ch = true ∧ ac = true then Q * 3600 / (N9 * (P1 * 1e-3) * Y) * √(MW * T * Z / xT / Fg) else
    Q * 3600 / (N9 * (P1 * 1e-3) * Y) * √(MW * T * Z / x) := ⟨_, rfl⟩
  have C0 : 0 < C := by rw [hC]; split_ifs <;> positivity
  have hC' : (if ch = true ∧ ac = true then (Except.ok (Q * 3600 / (N9 * (P1 * 1e-3) * Y) * √(MW * T * Z / xT / Fg)) : Py ℝ) else
    .ok (Q * 3600 / (N9 * (P1 * 1e-3) * Y) * √(MW * T * Z / x))) = .ok C := by rw [← apply_ite Except.ok, hC]
  obtain ⟨nu, hnu'⟩ : ∃ nu, nu = mu / (MW * 1e-3 / (Z * R * T / (P1 * 1e-3 * 1000))) := ⟨_, rfl⟩
  have hnu : 0 < nu := by rw [hnu']; positivity
  have hD20 : 0 < D2 := by linarith
  have hD10 : 0 < D1 := by linarith
  have q0 : (0 : ℝ) < Q * 3600 := by positivity
  have d0 : 0 < d * 1000 := by positivity
  have D0 : 0 < D1 * 1000 := by positivity
  obtain ⟨l1, l2, -, -⟩ := C52_loss hd (hD2.trans hD1) hD2
  have l2 := l2 hD1
  rw [← (loss_scale hD10 hD20).2] at l1
  rw [← (loss_scale hD10 hD20).1] at l2
  obtain ⟨Rev, hRev, -, -⟩ := rev_ok hnu q0 D0 hF hFd C0
  obtain ⟨n0, hlam⟩ := C52_laminar hnu q0 D0 d0 hF hF1 hFd C0
  obtain ⟨r, Ci, e, h3, h4, h5, -⟩ := C52_piping_g (Q := Q * 3600) 20 C0 hT hM hZ Fg0 hx x0 Y0 hp q0 d0 l2 l1
  have k1000 : P1 * 1e-3 * 1000 ≠ 0 := by positivity
  rw [← hFg, ← hxx]
  refine ⟨⟨C, ch, false, none, none, none, none, false⟩, n0, nu, Y, fun fuel => ?_, hnu, hYY, fun fuel hfuel => ?_⟩
  · simp only [size_control_valve_g, pdiv_ok k1000, pdiv_ok hV.ne', pdiv_ok hrho.ne', pdiv_ok hp.ne', ex, ← hFg, pdiv_ok hd'.ne', hY, hchk, pdiv_ok dY,
      pdiv_ok hx.ne', pdiv_ok Fg0.ne', pdiv_ok x0.ne', psqrt_ok s1, psqrt_ok s2, Py.ok_bind, Py.pure_eq, hC']
  · simp only [size_control_valve_g, pdiv_ok k1000, pdiv_ok hV.ne', pdiv_ok hrho.ne', ← hnu', pdiv_ok hp.ne', ex, ← hFg, pdiv_ok hd'.ne', hY, hchk,
      pdiv_ok dY, pdiv_ok hx.ne', pdiv_ok Fg0.ne', pdiv_ok x0.ne', psqrt_ok s1, psqrt_ok s2, Py.ok_bind, Py.pure_eq, hC', hRev, e]
    have inj : ∀ a b : ℝ, a * 1000 ≠ b * 1000 ↔ a ≠ b := fun a b => by
      rw [ne_eq, mul_left_inj' (by norm_num)]
    simp only [inj]
    split_ifs with q q'
    · refine ⟨_, rfl, rfl, fun _ _ => ⟨Ci, h3, h4, h5⟩, fun hl ha => ?_, fun _ ha hb => ?_⟩
      · simp only [decide_eq_true_eq] at hl
        rcases q.1 with q1 | q1
        · exact absurd hl (not_le.mpr q1)
        · simp [ha] at q1
      · rcases q.2 with q2 | q2
        · exact absurd ha q2
        · exact absurd hb q2
    · obtain ⟨r, FR, e, h3, h4, h5, h6⟩ := hlam fuel hfuel
      rw [e]
      refine ⟨_, rfl, rfl, fun hl _ => ?_, fun _ _ => ⟨FR, h3, h6⟩, fun hl => ?_⟩
      · rcases hl with hl | hl
        · simp [q'.1] at hl
        · simp [q'.2] at hl
      · exact absurd ⟨by simpa using q'.1, q'.2⟩ hl
    · refine ⟨_, rfl, rfl, fun hl hD => ?_, fun hl ha => ?_, fun _ _ _ => rfl⟩
      · exfalso
        apply q
        refine ⟨?_, hD⟩
        rcases hl with hl | hl
        · left; simpa using hl
        · right; exact hl
      · exact absurd ⟨by simpa using hl, ha⟩ q'

/-- C52: giving some but not all of the diameters is rejected (whatever the hydraulic inputs that get that far). -/
theorem C52_partial_diameters {fuel : ℕ} {rho Psat Pc mu P1 P2 Q FL Fd D D' : ℝ} {ac al full : Bool} (hr : 0 < rho) (h1 : 0 ≤ Psat) (h2 : 0 < Pc)
    (h12 : P2 < P1) (hF : 0 < FL) (hc : ∀ FF, FF_critical_pressure_ratio_l Psat Pc = .ok FF → FF * Psat < P1) :
    ∀ t ∈ [(some D, none, none), (none, some D, none), (none, none, some D), (some D, some D', none), (some D, none, some D'),
      (none, some D, some D')],
      size_control_valve_l fuel rho Psat Pc mu P1 P2 Q t.1 t.2.1 t.2.2 FL Fd ac al full = .error .valueError := by
  obtain ⟨FF, hFF⟩ : ∃ FF, FF = 0.96 - 0.28 * √(Psat / Pc) := ⟨_, rfl⟩
  have hf := FF_ok h1 h2
  rw [← hFF] at hf
  have hc' := hc FF hf
  have hf' : FF_critical_pressure_ratio_l (Psat / 1000) (Pc / 1000) = .ok FF := by
    rw [FF_ok (by positivity) (by positivity), div_div_div_cancel_right₀ (by norm_num), hFF]
  have r0 : (0 : ℝ) < rho0 := by norm_num [rho0]
  have hp : 0 < P1 / 1000 - P2 / 1000 := by linarith
  have hp' : 0 < P1 / 1000 - FF * (Psat / 1000) := by linarith
  have s1 : 0 ≤ rho / rho0 / (P1 / 1000 - P2 / 1000) := by positivity
  have s2 : 0 ≤ rho / rho0 / (P1 / 1000 - FF * (Psat / 1000)) := by positivity
  simp only [List.forall_mem_cons, List.not_mem_nil, false_implies, implies_true, and_true, size_control_valve_l, pdiv_ok hr.ne', hf', choked_l hF.ne',
    pdiv_ok hF.ne', pdiv_ok hp.ne', pdiv_ok hp'.ne', psqrt_ok s1, psqrt_ok s2, Py.ok_bind, Py.pure_eq, ← apply_ite Except.ok, and_self]

example : (0 : ℝ) < 965.4 ∧ (0 : ℝ) ≤ 70.1e3 ∧ (0 : ℝ) < 22120e3 ∧ (220e3 : ℝ) < 680e3 ∧ (0.08 : ℝ) ≤ 0.1 := by norm_num

end Verif.CV
