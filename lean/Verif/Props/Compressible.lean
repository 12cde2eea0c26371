import Verif.Model.Compressible
import Verif.Lemmas.Tactic
import Verif.Spec.Compressible

/-! # C04, C05, C06: compression work, efficiencies, stagnation and critical flow -/

namespace Verif
open Real Compressible Spec

private theorem R_pos : 0 < R := by norm_num [R]

private theorem rpow_ne_one {x a : ℝ} (hx : 0 < x) (hx1 : x ≠ 1) (ha : a ≠ 0) : x ^ a ≠ 1 := by
  intro h
  have := congrArg log h
  rw [log_rpow hx, log_one, mul_eq_zero] at this
  rcases this with h | h
  · exact ha h
  · exact hx1 (eq_one_of_pos_of_log_eq_zero hx h)

/-- C04: whichever of W, P1, P2, eta is left out, the same work equation is solved. `W` is the documented work. -/
theorem C04_round_trip (T1 k Z P1 P2 eta : ℝ) (hT : 0 < T1) (hZ : 0 < Z) (hk : 0 < k) (hk1 : k ≠ 1) (h1 : 0 < P1)
    (h2 : 0 < P2) (he : eta ≠ 0) :
    let W := isentropicWork R T1 k Z P1 P2 eta
    isentropic_work_compression T1 k Z (some P1) (some P2) none (some eta) = .ok W ∧
    isentropic_work_compression T1 k Z none (some P2) (some W) (some eta) = .ok P1 ∧
    isentropic_work_compression T1 k Z (some P1) none (some W) (some eta) = .ok P2 ∧
    (P1 ≠ P2 → isentropic_work_compression T1 k Z (some P1) (some P2) (some W) none = .ok eta) ∧
    (P1 = P2 → isentropic_work_compression T1 k Z (some P1) (some P2) (some W) none = .error .zeroDivisionError) := by
  intro W
  have hkm : k - 1 ≠ 0 := sub_ne_zero.mpr hk1
  have hR := R_pos
  have hx : 0 < P2 / P1 := by positivity
  have hpos : 0 < (P2 / P1) ^ ((k - 1) / k) := rpow_pos_of_pos hx _
  have hW : 1 + W * eta / (R * T1 * Z) - W * eta / (R * T1 * Z * k) = (P2 / P1) ^ ((k - 1) / k) := by
    simp only [W, isentropicWork]
    generalize (P2 / P1) ^ ((k - 1) / k) = q at *
    field_simp
    ring
  refine ⟨?_, ?_, ?_, ?_, ?_⟩
  · simp only [isentropic_work_compression]
    py_eval []
    rfl
  · simp only [isentropic_work_compression]
    py_eval [hW]
    congr 1
    rw [← rpow_mul hx.le, show (k - 1) / k * (-k / (k - 1)) = -1 by field_simp, rpow_neg_one]
    field_simp
  · simp only [isentropic_work_compression]
    py_eval [hW]
    congr 1
    rw [← rpow_mul hx.le, show (k - 1) / k * (k / (k - 1)) = 1 by field_simp, rpow_one]
    field_simp
  · intro hne
    have hq : (P2 / P1) ^ ((k - 1) / k) - 1 ≠ 0 := by
      rw [sub_ne_zero]
      intro h
      refine rpow_ne_one hx ?_ (by positivity) h
      rw [Ne, div_eq_one_iff_eq h1.ne']
      exact hne.symm
    have hWne : W ≠ 0 := by simp only [W, isentropicWork]; positivity
    simp only [isentropic_work_compression]
    py_eval []
    congr 1
    rw [div_eq_iff (by positivity)]
    simp only [W, isentropicWork]
    field_simp
  · rintro rfl
    have : W = 0 := by simp [W, isentropicWork, h1.ne']
    simp only [isentropic_work_compression]
    py_eval [this, zero_mul, pdiv_zero]

/-- C04: any call that does not leave out exactly one of the four raises `ValueError`. -/
theorem C04_rejects (T1 k Z : ℝ) (P1 P2 W eta : Option ℝ) (h : missing [P1, P2, W, eta] ≠ 1) :
    isentropic_work_compression T1 k Z P1 P2 W eta = .error .valueError := by
  rcases P1 with _ | P1 <;> rcases P2 with _ | P2 <;> rcases W with _ | W <;> rcases eta with _ | eta <;>
    simp [missing] at h <;> simp [isentropic_work_compression]

/-- C04: the outlet temperature of the same compression; with perfect efficiency it is the isentropic temperature, and the
work is the enthalpy rise `Cp * (T2 - T1)` of an ideal gas with `Cp = k/(k-1) * Z * R`. -/
theorem C04_temperature_rise (T1 k Z P1 P2 eta : ℝ) (hk : 0 < k) (hk1 : k ≠ 1) (h1 : 0 < P1) (h2 : 0 < P2) (he : eta ≠ 0) :
    ∃ T2 W, isentropic_T_rise_compression T1 P1 P2 k eta = .ok T2 ∧
      isentropic_work_compression T1 k Z (some P1) (some P2) none (some eta) = .ok W ∧
      W = k / (k - 1) * Z * R * (T2 - T1) ∧
      (eta = 1 → T2 = T1 * (P2 / P1) ^ ((k - 1) / k)) := by
  have hkm : k - 1 ≠ 0 := sub_ne_zero.mpr hk1
  have hx : 0 < P2 / P1 := by positivity
  simp only [isentropic_T_rise_compression, isentropic_work_compression]
  py_eval []
  refine ⟨_, _, rfl, rfl, ?_, ?_⟩
  · ring
  · rintro rfl; ring

/-- C05: converting a polytropic efficiency to an isentropic one and back is the identity. -/
theorem C05_polytropic_round_trip (P1 P2 k eta_p : ℝ) (hk : 0 < k) (hk1 : k ≠ 1) (h1 : 0 < P1) (h2 : 0 < P2)
    (hne : P1 ≠ P2) (he : eta_p ≠ 0) :
    ∃ eta_s, isentropic_efficiency P1 P2 k none (some eta_p) = .ok eta_s ∧
      isentropic_efficiency P1 P2 k (some eta_s) none = .ok eta_p := by
  have hkm : k - 1 ≠ 0 := sub_ne_zero.mpr hk1
  have hx : 0 < P2 / P1 := by positivity
  have hx1 : P2 / P1 ≠ 1 := by rw [Ne, div_eq_one_iff_eq h1.ne']; exact hne.symm
  have hl : log (P2 / P1) ≠ 0 := fun h => hx1 (eq_one_of_pos_of_log_eq_zero hx h)
  have ha := sub_ne_zero.mpr (rpow_ne_one hx hx1 (show (k - 1) / k ≠ 0 by positivity))
  have hb := sub_ne_zero.mpr (rpow_ne_one hx hx1 (show (k - 1) / (k * eta_p) ≠ 0 by positivity))
  have hy : ∀ A B : ℝ, A ≠ 0 → B - 1 ≠ 0 → (A / (B - 1) + (A + 1) - 1) / (A / (B - 1)) = B := by
    intro A B hA hB; field_simp; ring
  have hy' := hy _ _ ha hb
  rw [sub_add_cancel] at hy'
  have hBpos : 0 < (P2 / P1) ^ ((k - 1) / (k * eta_p)) := rpow_pos_of_pos hx _
  simp only [isentropic_efficiency]
  py_eval []
  refine ⟨_, rfl, ?_⟩
  have hs : ((P2 / P1) ^ ((k - 1) / k) - 1) / ((P2 / P1) ^ ((k - 1) / (k * eta_p)) - 1) ≠ 0 := div_ne_zero ha hb
  rw [pdiv_ok hs, Py.ok_bind, hy', plog_ok hBpos, Py.ok_bind, log_rpow hx, pdiv_ok (by positivity)]
  congr 1
  field_simp

/-- C05: converting an isentropic efficiency to a polytropic one and back is the identity, whenever the ideal outlet state
`(eta_s + r^((k-1)/k) - 1)/eta_s` is physical (positive); otherwise the conversion raises `ValueError`. -/
theorem C05_isentropic_round_trip (P1 P2 k eta_s : ℝ) (hk : 0 < k) (hk1 : k ≠ 1) (h1 : 0 < P1) (h2 : 0 < P2)
    (hne : P1 ≠ P2) (he : eta_s ≠ 0) :
    (0 < (eta_s + (P2 / P1) ^ ((k - 1) / k) - 1) / eta_s →
      ∃ eta_p, isentropic_efficiency P1 P2 k (some eta_s) none = .ok eta_p ∧
        isentropic_efficiency P1 P2 k none (some eta_p) = .ok eta_s) ∧
    ((eta_s + (P2 / P1) ^ ((k - 1) / k) - 1) / eta_s ≤ 0 →
      isentropic_efficiency P1 P2 k (some eta_s) none = .error .valueError) := by
  have hkm : k - 1 ≠ 0 := sub_ne_zero.mpr hk1
  have hx : 0 < P2 / P1 := by positivity
  have hx1 : P2 / P1 ≠ 1 := by rw [Ne, div_eq_one_iff_eq h1.ne']; exact hne.symm
  have hl : log (P2 / P1) ≠ 0 := fun h => hx1 (eq_one_of_pos_of_log_eq_zero hx h)
  have ha := sub_ne_zero.mpr (rpow_ne_one hx hx1 (show (k - 1) / k ≠ 0 by positivity))
  refine ⟨fun hy => ?_, fun hy => ?_⟩
  · have hy1 : (eta_s + (P2 / P1) ^ ((k - 1) / k) - 1) / eta_s ≠ 1 := by
      rw [Ne, div_eq_one_iff_eq he]; intro h; apply ha; linarith
    have hly := fun h => hy1 (eq_one_of_pos_of_log_eq_zero hy h)
    have hym : (eta_s + (P2 / P1) ^ ((k - 1) / k) - 1) / eta_s - 1 = ((P2 / P1) ^ ((k - 1) / k) - 1) / eta_s := by
      field_simp; ring
    generalize hyd : (eta_s + (P2 / P1) ^ ((k - 1) / k) - 1) / eta_s = y at *
    simp only [isentropic_efficiency]
    py_eval [hyd]
    refine ⟨_, rfl, ?_⟩
    have hp : (k - 1) * log (P2 / P1) / (k * log y) ≠ 0 := by positivity
    rw [pdiv_ok (by positivity), Py.ok_bind]
    have : (P2 / P1) ^ ((k - 1) / (k * ((k - 1) * log (P2 / P1) / (k * log y)))) = y := by
      rw [rpow_def_of_pos hx, show log (P2 / P1) * ((k - 1) / (k * ((k - 1) * log (P2 / P1) / (k * log y)))) = log y by
        field_simp, exp_log hy]
    rw [this, hym, pdiv_ok (by positivity)]
    congr 1
    field_simp
  · simp only [isentropic_efficiency]
    py_eval []
    simp [plog, hy]

/-- C05: exactly one of the two efficiencies must be given. -/
theorem C05_efficiency_rejects (P1 P2 k : ℝ) (a b : Option ℝ) (h : missing [a, b] ≠ 1) :
    isentropic_efficiency P1 P2 k a b = .error .valueError ∧ polytropic_exponent k a b = .error .valueError := by
  rcases a with _ | a <;> rcases b with _ | b <;> simp [missing] at h <;>
    simp [isentropic_efficiency, polytropic_exponent]

/-- C05: polytropic exponent and efficiency determine each other, through `(n-1)/n = (k-1)/(k*eta_p)`. -/
theorem C05_exponent_round_trip (k eta_p : ℝ) (hk : 0 < k) (hk1 : k ≠ 1) (he : eta_p ≠ 0)
    (hd : 1 - k * (1 - eta_p) ≠ 0) :
    ∃ n, polytropic_exponent k none (some eta_p) = .ok n ∧ (n - 1) / n = (k - 1) / (k * eta_p) ∧
      polytropic_exponent k (some n) none = .ok eta_p := by
  have hkm : k - 1 ≠ 0 := sub_ne_zero.mpr hk1
  simp only [polytropic_exponent]
  py_eval []
  refine ⟨_, rfl, ?_, ?_⟩
  · field_simp; ring
  · have : k * eta_p / (1 - k * (1 - eta_p)) - 1 = (k - 1) / (1 - k * (1 - eta_p)) := by field_simp; ring
    rw [this, pdiv_ok (by positivity)]
    congr 1
    field_simp

/-- C05, the other direction. -/
theorem C05_exponent_round_trip' (k n : ℝ) (hk : 0 < k) (hk1 : k ≠ 1) (hn : n ≠ 0) (hn1 : n ≠ 1) :
    ∃ eta_p, polytropic_exponent k (some n) none = .ok eta_p ∧
      polytropic_exponent k none (some eta_p) = .ok n := by
  have hkm : k - 1 ≠ 0 := sub_ne_zero.mpr hk1
  have hnm : n - 1 ≠ 0 := sub_ne_zero.mpr hn1
  simp only [polytropic_exponent]
  py_eval []
  refine ⟨_, rfl, ?_⟩
  have : 1 - k * (1 - n * (k - 1) / (k * (n - 1))) = (k - 1) / (n - 1) := by field_simp; ring
  rw [this, pdiv_ok (by positivity)]
  congr 1
  field_simp

/-- C06: stagnation pressure and stagnation temperature invert each other along the isentrope. -/
theorem C06_stagnation (P T k : ℝ) (hP : 0 < P) (hT : 0 < T) (hk : 0 < k) (hk1 : k ≠ 1) :
    (∀ Tst, 0 < Tst → ∃ Pst, 0 < Pst ∧ P_stagnation P T Tst k = .ok Pst ∧ T_stagnation T P Pst k = .ok Tst ∧
      Pst / P = (Tst / T) ^ (k / (k - 1))) ∧
    (∀ Pst, 0 < Pst → ∃ Tst, 0 < Tst ∧ T_stagnation T P Pst k = .ok Tst ∧ P_stagnation P T Tst k = .ok Pst) := by
  have hkm : k - 1 ≠ 0 := sub_ne_zero.mpr hk1
  refine ⟨fun Tst hTst => ?_, fun Pst hPst => ?_⟩
  · simp only [P_stagnation, T_stagnation]
    py_eval []
    have hx : 0 < Tst / T := by positivity
    refine ⟨_, ?_, rfl, ?_, by field_simp⟩
    · positivity
    · rw [show P * (Tst / T) ^ (k / (k - 1)) / P = (Tst / T) ^ (k / (k - 1)) by field_simp]
      py_eval []
      rw [← rpow_mul hx.le, show k / (k - 1) * ((k - 1) / k) = 1 by field_simp, rpow_one]
      congr 1; field_simp
  · simp only [P_stagnation, T_stagnation]
    py_eval []
    have hx : 0 < Pst / P := by positivity
    refine ⟨_, ?_, rfl, ?_⟩
    · positivity
    · rw [show T * (Pst / P) ^ ((k - 1) / k) / T = (Pst / P) ^ ((k - 1) / k) by field_simp]
      py_eval []
      rw [← rpow_mul hx.le, show (k - 1) / k * (k / (k - 1)) = 1 by field_simp, rpow_one]
      congr 1; field_simp

/-- C06: the critical pressure is the pressure at which the gas, expanded isentropically from stagnation conditions
`(P, T)`, reaches the critical temperature; equivalently `(P, T)` are the stagnation conditions of the critical state. -/
theorem C06_critical_is_isentropic (P T k : ℝ) (hP : 0 < P) (hT : 0 < T) (hk : 1 < k) :
    ∃ Pc Tc, P_critical_flow P k = .ok Pc ∧ T_critical_flow T k = .ok Tc ∧ 0 < Pc ∧ Pc < P ∧ 0 < Tc ∧ Tc < T ∧
      P_stagnation Pc Tc T k = .ok P ∧ T_stagnation Tc Pc P k = .ok T := by
  have hk0 : 0 < k := by linarith
  have hkm : 0 < k - 1 := by linarith
  have h2k : 2 / (k + 1) < 1 := by rw [div_lt_one (by linarith)]; linarith
  have hpw : (2 / (k + 1)) ^ (k / (k - 1)) < 1 := rpow_lt_one (by positivity) h2k (by positivity)
  have hpp : 0 < (2 / (k + 1)) ^ (k / (k - 1)) := by positivity
  simp only [P_critical_flow, T_critical_flow, P_stagnation, T_stagnation]
  py_eval []
  refine ⟨_, _, rfl, rfl, by positivity, by nlinarith, by positivity, ?_, ?_, ?_⟩
  · rw [div_lt_iff₀ (by linarith)]; nlinarith
  · have hr : T / (T * 2 / (k + 1)) = (2 / (k + 1))⁻¹ := by field_simp
    rw [pdiv_ok (by positivity), Py.ok_bind, hr, ppow_ok (by positivity), Py.ok_bind, inv_rpow (by positivity)]
    congr 1
    field_simp
  · have hr : P / (P * (2 / (k + 1)) ^ (k / (k - 1))) = (2 / (k + 1)) ^ (-(k / (k - 1))) := by
      rw [rpow_neg (by positivity)]; field_simp
    rw [pdiv_ok (by positivity), Py.ok_bind, hr, ppow_ok (by positivity), Py.ok_bind, ← rpow_mul (by positivity),
      show -(k / (k - 1)) * ((k - 1) / k) = -1 by field_simp, rpow_neg_one]
    congr 1
    field_simp

/-- C06: `is_critical_flow` answers `True` exactly when the downstream pressure is below the critical pressure. -/
theorem C06_is_critical_flow (P1 P2 k : ℝ) (hk : 0 < k) (hk1 : k ≠ 1) :
    ∃ b Pc, is_critical_flow P1 P2 k = .ok b ∧ P_critical_flow P1 k = .ok Pc ∧
      Pc = P1 * (2 / (k + 1)) ^ (k / (k - 1)) ∧ (b = true ↔ P2 < Pc) := by
  have hkm : k - 1 ≠ 0 := sub_ne_zero.mpr hk1
  simp only [is_critical_flow, P_critical_flow]
  py_eval []
  exact ⟨_, _, rfl, rfl, rfl, by simp⟩

/-- C06: at `k = 1` every one of these relations divides by zero, it does not return a wrong number. -/
theorem C06_k_one (P T Tst P2 : ℝ) (hT : T ≠ 0) :
    P_critical_flow P 1 = .error .zeroDivisionError ∧ P_stagnation P T Tst 1 = .error .zeroDivisionError ∧
      is_critical_flow P P2 1 = .error .zeroDivisionError := by
  simp [P_critical_flow, P_stagnation, is_critical_flow, pdiv, hT, show (1 : ℝ) + 1 ≠ 0 by norm_num]

/-- C06: the stagnation temperature of an ideal gas adds the specific kinetic energy over `Cp`. -/
theorem C06_T_stagnation_ideal (T V Cp : ℝ) (hC : 0 < Cp) :
    ∃ Tst E, T_stagnation_ideal T V Cp = .ok Tst ∧ stagnation_energy V = .ok E ∧ Cp * (Tst - T) = E ∧ T ≤ Tst := by
  simp only [T_stagnation_ideal, stagnation_energy]
  py_eval []
  refine ⟨_, _, rfl, rfl, ?_, ?_⟩
  · field_simp; ring
  · have : 0 ≤ 0.5 * V * V / Cp := by
      apply div_nonneg _ hC.le
      nlinarith [mul_self_nonneg V]
    linarith

example : ∃ W, isentropic_work_compression 300 1.4 1 (some 1e5) (some 1e6) none (some 0.78) = .ok W :=
  ⟨_, (C04_round_trip 300 1.4 1 1e5 1e6 0.78 (by norm_num) (by norm_num) (by norm_num) (by norm_num) (by norm_num)
    (by norm_num) (by norm_num)).1⟩
example : ∃ e, isentropic_efficiency 1e5 1e6 1.4 none (some 0.78) = .ok e :=
  (C05_polytropic_round_trip 1e5 1e6 1.4 0.78 (by norm_num) (by norm_num) (by norm_num) (by norm_num) (by norm_num)
    (by norm_num)).imp fun _ h => h.1
example : ∃ Pc, P_critical_flow 1e6 1.4 = .ok Pc ∧ Pc < 1e6 := by
  obtain ⟨Pc, _, h, _, _, h', _⟩ := C06_critical_is_isentropic 1e6 300 1.4 (by norm_num) (by norm_num) (by norm_num)
  exact ⟨Pc, h, h'⟩

end Verif
