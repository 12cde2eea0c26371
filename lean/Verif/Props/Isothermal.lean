import Verif.Model.Compressible
import Verif.Lemmas.Tactic
import Verif.Spec.Compressible

/-! # C08: complete isothermal gas flow -/

namespace Verif
open Real Compressible Spec

/-! `r` stands for `(P1/P2)^2`, `C` for `fd*L/D`, `β` for `(π D²/4)² ρ P1 / m²`. -/

private theorem phi_strict {a b : ℝ} (ha : 1 ≤ a) (hab : a < b) : a - 1 - log a < b - 1 - log b := by
  have ha0 : 0 < a := by linarith
  have hb0 : 0 < b := by linarith
  have h := log_lt_sub_one_of_pos (x := b / a) (by positivity) (by rw [Ne, div_eq_one_iff_eq ha0.ne']; exact hab.ne')
  rw [log_div hb0.ne' ha0.ne'] at h
  have : b / a - 1 ≤ b - a := by
    rw [div_sub_one ha0.ne', div_le_iff₀ ha0]; nlinarith
  linarith

private theorem phi_le {a b : ℝ} (ha : 1 ≤ a) (hab : a ≤ b) : a - 1 - log a ≤ b - 1 - log b := by
  rcases hab.eq_or_lt with rfl | h
  · exact le_rfl
  · exact (phi_strict ha h).le

private theorem le_of_phi {a b : ℝ} (hb : 1 ≤ b) (h : a - 1 - log a ≤ b - 1 - log b) : a ≤ b := by
  by_contra hlt
  exact absurd h (not_le.mpr (phi_strict hb (not_le.mp hlt)))

/-- at most one subsonic ratio carries a given flow -/
private theorem ratio_unique {r1 r2 β C : ℝ} (h1 : 0 < r1) (h2 : 0 < r2) (hb1 : r1 ≤ β) (hb2 : r2 ≤ β)
    (e1 : β * (1 - 1 / r1) = C + log r1) (e2 : β * (1 - 1 / r2) = C + log r2) : r1 = r2 := by
  have key : ∀ x y : ℝ, 0 < x → x < y → y ≤ β → β * (1 - 1 / x) = C + log x → β * (1 - 1 / y) = C + log y → False := by
    intro x y hx hxy hy ex ey
    have hy0 : 0 < y := hx.trans hxy
    have h := log_lt_sub_one_of_pos (x := y / x) (by positivity) (by rw [Ne, div_eq_one_iff_eq hx.ne']; exact hxy.ne')
    rw [log_div hy0.ne' hx.ne'] at h
    have : y / x - 1 ≤ β * (1 / x - 1 / y) := by
      rw [div_sub_one hx.ne', div_sub_div _ _ hx.ne' hy0.ne', mul_div_assoc', div_le_div_iff₀ hx (by positivity)]
      have : 0 ≤ (y - x) * x * (β - y) := by
        apply mul_nonneg
        · apply mul_nonneg <;> linarith
        · linarith
      nlinarith
    nlinarith
  rcases lt_trichotomy r1 r2 with h | h | h
  · exact (key r1 r2 h1 h hb2 e1 e2).elim
  · exact h
  · exact (key r2 r1 h2 h hb1 e2 e1).elim

section
variable {lambertw : ℝ → Py ℝ}

private theorem crit (hW : IsLambertM1 lambertw) {P fd D L : ℝ} (hP : 0 < P) (hf : 0 < fd) (hD : 0 < D) (hL : 0 < L) :
    ∃ Pc, P_isothermal_critical_flow lambertw P fd D L = .ok Pc ∧ 0 < Pc ∧ Pc < P ∧
      (P / Pc) ^ 2 - 1 - log ((P / Pc) ^ 2) = fd * L / D ∧
      P_upstream_isothermal_critical_flow lambertw Pc fd D L = .ok P := by
  have hC : 0 < fd * L / D := by positivity
  have earg : (-D - L * fd) / D = -1 - fd * L / D := by field_simp
  have earg' : -(fd * L + D) / D = -1 - fd * L / D := by field_simp; ring
  obtain ⟨w, hw, hw1, hwe⟩ := hW (-exp (-1 - fd * L / D)) (by
    apply neg_le_neg; apply exp_le_exp.mpr; linarith) (by simp [exp_pos])
  have e1 : (D * (w + 1) + L * fd) / (2 * D) = (w + 1 + fd * L / D) / 2 := by field_simp
  have e2 : -0.5 * (D * w + fd * L + D) / D = -((w + 1 + fd * L / D) / 2) := by field_simp; ring
  simp only [P_isothermal_critical_flow, P_upstream_isothermal_critical_flow]
  py_eval [earg, earg', hw, e1, e2]
  generalize fd * L / D = C at *
  have hr : exp (-(w + 1 + C)) = -w := by
    have : exp (-(w + 1 + C)) * exp w = exp (-1 - C) := by rw [← exp_add]; congr 1; ring
    have h2 : -w * exp w = exp (-1 - C) := by linarith
    exact mul_right_cancel₀ (exp_pos w).ne' (this.trans h2.symm)
  have hsq : (P / (P * exp ((w + 1 + C) / 2))) ^ 2 = -w := by
    rw [← hr, div_pow, mul_pow, ← exp_nat_mul, exp_neg]
    have : ((2 : ℕ) : ℝ) * ((w + 1 + C) / 2) = w + 1 + C := by push_cast; ring
    rw [this]; field_simp
  have hlog : log (-w) = -(w + 1 + C) := by rw [← hr, log_exp]
  have hwlt : w < -1 := by
    rcases hw1.lt_or_eq with h | h
    · exact h
    · rw [h] at hlog; simp at hlog; linarith
  refine ⟨_, rfl, by positivity, ?_, ?_, ?_⟩
  · have : exp ((w + 1 + C) / 2) < 1 := by
      rw [exp_lt_one_iff]
      have : 0 < log (-w) := log_pos (by linarith)
      linarith
    nlinarith
  · rw [hsq, hlog]; ring
  · rw [mul_comm, mul_assoc, ← exp_add]
    congr 1
    simp


private theorem log_ratio {P1 P2 : ℝ} (h1 : 0 < P1) (h2 : 0 < P2) : 2 * log (P1 / P2) = log ((P1 / P2) ^ 2) := by
  rw [log_pow]; norm_num

/-- evaluation of the mass-flow branch between the choke pressure and the inlet pressure -/
private theorem iso_m_ok (hW : IsLambertM1 lambertw) {rho fd P1 P2 L D : ℝ} (hr : 0 < rho) (hf : 0 < fd) (hP : 0 < P1)
    (hL : 0 < L) (hD : 0 < D) {Pc : ℝ} (hPc : P_isothermal_critical_flow lambertw P1 fd D L = .ok Pc) (h0 : 0 < Pc)
    (h1 : Pc ≤ P2) (h2 : P2 ≤ P1) :
    ∃ m, isothermal_gas_m lambertw rho fd P1 P2 L D = .ok m ∧ 0 ≤ m ∧ (P2 < P1 → 0 < m) ∧
      m ^ 2 * (P1 * (fd * L / D + 2 * log (P1 / P2))) = (π / 4 * D ^ 2) ^ 2 * rho * (P1 ^ 2 - P2 ^ 2) := by
  have hP2 : 0 < P2 := by linarith
  have hl : 0 ≤ log (P1 / P2) := log_nonneg (by rw [le_div_iff₀ hP2]; linarith)
  simp only [isothermal_gas_m, hPc, Py.ok_bind, not_lt.mpr h1, gt_iff_lt, not_lt.mpr h2, if_false]
  py_eval []
  have hden : 0 < P1 * (fd * L / D + 2 * log (P1 / P2)) := by positivity
  have hsq : 0 ≤ P1 * P1 - P2 * P2 := by nlinarith
  have harg : 0 ≤ 0.0625 * π * π * D ^ 4 * rho / (P1 * (fd * L / D + 2 * log (P1 / P2))) * (P1 * P1 - P2 * P2) := by
    positivity
  rw [psqrt_ok harg]
  refine ⟨_, rfl, sqrt_nonneg _, fun hlt => ?_, ?_⟩
  · have : 0 < P1 * P1 - P2 * P2 := by nlinarith
    apply sqrt_pos.mpr; positivity
  · rw [sq_sqrt harg]
    field_simp
    ring

private theorem flow_ratio {rho fd P1 P2 L D m : ℝ} (h1 : 0 < P1) (h2 : 0 < P2) (hm : 0 < m)
    (h : m ^ 2 * (P1 * (fd * L / D + 2 * log (P1 / P2))) = (π / 4 * D ^ 2) ^ 2 * rho * (P1 ^ 2 - P2 ^ 2)) :
    (π / 4 * D ^ 2) ^ 2 * rho * P1 / m ^ 2 * (1 - 1 / (P1 / P2) ^ 2) = fd * L / D + log ((P1 / P2) ^ 2) := by
  rw [← log_ratio h1 h2]
  generalize fd * L / D + 2 * log (P1 / P2) = X at *
  generalize (π / 4 * D ^ 2) ^ 2 * rho = B at *
  rw [show (1 : ℝ) - 1 / (P1 / P2) ^ 2 = (P1 ^ 2 - P2 ^ 2) / P1 ^ 2 by field_simp]
  rw [div_mul_div_comm, div_eq_iff (by positivity)]
  linear_combination (-P1) * h

/-- C08: the choke pressure of the isothermal pipe lies strictly below the inlet pressure, satisfies the documented
choking condition, and the upstream version is its inverse. -/
theorem C08_choke_pressure (hW : IsLambertM1 lambertw) {P fd D L : ℝ} (hP : 0 < P) (hf : 0 < fd) (hD : 0 < D)
    (hL : 0 < L) :
    ∃ Pc, P_isothermal_critical_flow lambertw P fd D L = .ok Pc ∧ 0 < Pc ∧ Pc < P ∧
      (P / Pc) ^ 2 - 1 - log ((P / Pc) ^ 2) = fd * L / D ∧
      P_upstream_isothermal_critical_flow lambertw Pc fd D L = .ok P := crit hW hP hf hD hL

/-- C08: between the choke pressure and the inlet pressure the mass-flow mode returns the nonnegative solution of the
documented equation; a choked request (outlet below the choke pressure) and a reversed one raise `ValueError`. -/
theorem C08_mass_flow (hW : IsLambertM1 lambertw) (secant brenth) {rho fd P1 P2 L D Pc : ℝ} (hr : 0 < rho) (hf : 0 < fd)
    (hP : 0 < P1) (hL : 0 < L) (hD : 0 < D) (hPc : P_isothermal_critical_flow lambertw P1 fd D L = .ok Pc) :
    (Pc ≤ P2 → P2 ≤ P1 → ∃ m,
      isothermal_gas lambertw secant brenth rho fd (some P1) (some P2) (some L) (some D) none = .ok m ∧
      0 ≤ m ∧ (P2 < P1 → 0 < m) ∧ IsothermalFlow rho fd P1 P2 L D m) ∧
    (P2 < Pc ∨ P1 < P2 →
      isothermal_gas lambertw secant brenth rho fd (some P1) (some P2) (some L) (some D) none = .error .valueError) := by
  obtain ⟨Pc', h', h0, hlt, -⟩ := crit hW hP hf hD hL
  obtain rfl : Pc = Pc' := by rw [hPc] at h'; simpa using h'
  refine ⟨fun h1 h2 => ?_, fun h => ?_⟩
  · obtain ⟨m, hm, hm0, hmp, he⟩ := iso_m_ok hW hr hf hP hL hD hPc h0 h1 h2
    refine ⟨m, by simpa [isothermal_gas] using hm, hm0, hmp, ?_⟩
    have hP2 : 0 < P2 := by linarith
    have hl : 0 ≤ log (P1 / P2) := log_nonneg (by rw [le_div_iff₀ hP2]; linarith)
    rw [IsothermalFlow, eq_div_iff (by positivity), he]
    ring
  · simp only [isothermal_gas, isothermal_gas_m, hPc, Py.ok_bind]
    rcases h with h | h
    · simp [h]
    · simp [h]

/-- C08: rejecting choked requests is right: no outlet pressure whatsoever, above or below the choke pressure, satisfies the
flow equation with more mass flow than the choke pressure does. -/
theorem C08_choke_is_maximum (hW : IsLambertM1 lambertw) {rho fd P1 P2 L D Pc m : ℝ} (hr : 0 < rho) (hf : 0 < fd)
    (hP : 0 < P1) (hL : 0 < L) (hD : 0 < D) (hPc : P_isothermal_critical_flow lambertw P1 fd D L = .ok Pc)
    (h2 : 0 < P2) (h12 : P2 < P1) (hm : 0 < m) (hfl : IsothermalFlow rho fd P1 P2 L D m) :
    ∃ mc, isothermal_gas_m lambertw rho fd P1 Pc L D = .ok mc ∧ m ≤ mc := by
  obtain ⟨Pc', h', h0, hlt, hphi, -⟩ := crit hW hP hf hD hL
  obtain rfl : Pc = Pc' := by rw [hPc] at h'; simpa using h'
  obtain ⟨mc, hmc, -, hmcp, hec⟩ := iso_m_ok hW hr hf hP hL hD hPc h0 le_rfl hlt.le
  have hmc0 := hmcp hlt
  refine ⟨mc, hmc, ?_⟩
  have hl : 0 ≤ log (P1 / P2) := log_nonneg (by rw [le_div_iff₀ h2]; linarith)
  rw [IsothermalFlow, eq_div_iff (by positivity)] at hfl
  have e1 := flow_ratio (rho := rho) hP h2 hm (by rw [hfl]; ring)
  have e2 := flow_ratio hP h0 hmc0 hec
  have hB : 0 < (π / 4 * D ^ 2) ^ 2 * rho * P1 := by positivity
  generalize hBd : (π / 4 * D ^ 2) ^ 2 * rho * P1 = B at *
  have hr1 : 1 < (P1 / P2) ^ 2 := by
    apply one_lt_pow₀ _ (by norm_num); rw [lt_div_iff₀ h2]; linarith
  have hrc : 1 < (P1 / Pc) ^ 2 := by
    apply one_lt_pow₀ _ (by norm_num); rw [lt_div_iff₀ h0]; linarith
  generalize hrd : (P1 / P2) ^ 2 = r at *
  generalize hrcd : (P1 / Pc) ^ 2 = rc at *
  rw [← hphi] at e1 e2
  have hlg := log_le_sub_one_of_pos (x := rc / r) (by positivity)
  rw [log_div (by positivity) (by positivity)] at hlg
  have hβc : B / mc ^ 2 = rc := by
    have : B / mc ^ 2 * (1 - 1 / rc) = rc * (1 - 1 / rc) := by rw [e2]; field_simp; ring
    have hne : 1 - 1 / rc ≠ 0 := by
      have : 1 / rc < 1 := by rw [div_lt_one (by linarith)]; exact hrc
      linarith
    exact mul_right_cancel₀ hne this
  have hβ : rc ≤ B / m ^ 2 := by
    have h1 : rc * (1 - 1 / r) ≤ B / m ^ 2 * (1 - 1 / r) := by
      rw [e1, mul_sub, mul_one_div, mul_one]; linarith
    have hpos : 0 < 1 - 1 / r := by
      have : 1 / r < 1 := by rw [div_lt_one (by linarith)]; exact hr1
      linarith
    exact le_of_mul_le_mul_right h1 hpos
  rw [← hβc, div_le_div_iff_of_pos_left hB (by positivity) (by positivity)] at hβ
  exact (pow_le_pow_iff_left₀ hm.le hmc0.le two_ne_zero).mp hβ


/-- C08: solving for the length from a computed flow returns the length. -/
theorem C08_length_round_trip (hW : IsLambertM1 lambertw) (secant brenth) {rho fd P1 P2 L D Pc : ℝ} (hr : 0 < rho)
    (hf : 0 < fd) (hP : 0 < P1) (hL : 0 < L) (hD : 0 < D)
    (hPc : P_isothermal_critical_flow lambertw P1 fd D L = .ok Pc) (h1 : Pc ≤ P2) (h2 : P2 < P1) :
    ∃ m, isothermal_gas lambertw secant brenth rho fd (some P1) (some P2) (some L) (some D) none = .ok m ∧
      isothermal_gas lambertw secant brenth rho fd (some P1) (some P2) none (some D) (some m) = .ok L := by
  obtain ⟨Pc', h', h0, hlt, -⟩ := crit hW hP hf hD hL
  obtain rfl : Pc = Pc' := by rw [hPc] at h'; simpa using h'
  obtain ⟨m, hm, -, hmp, he⟩ := iso_m_ok hW hr hf hP hL hD hPc h0 h1 h2.le
  have hm0 := hmp h2
  have hP2 : 0 < P2 := by linarith
  refine ⟨m, by simpa [isothermal_gas] using hm, ?_⟩
  simp only [isothermal_gas, isothermal_gas_L]
  py_eval []
  congr 1
  have he' : m ^ 2 * (P1 * (fd * L + 2 * D * log (P1 / P2))) = D * ((π / 4 * D ^ 2) ^ 2 * rho * (P1 ^ 2 - P2 ^ 2)) := by
    rw [← he]; field_simp
  rw [div_eq_iff (by positivity)]
  linear_combination -16 * he'

private theorem closed_core {P1 Pc w β C : ℝ} (hP : 0 < P1) (h0 : 0 < Pc) (hrc : 1 < (P1 / Pc) ^ 2)
    (hphi : (P1 / Pc) ^ 2 - 1 - log ((P1 / Pc) ^ 2) = C) (hC : 0 < C) (hβ1 : 1 < β) (hw1 : w ≤ -1)
    (hwe : w * exp w = -β * exp (C - β)) :
    Pc ≤ P1 / exp ((w + β - C) / 2) ∧ P1 / exp ((w + β - C) / 2) < P1 ∧
      β * (1 - 1 / (P1 / (P1 / exp ((w + β - C) / 2))) ^ 2) = C + log ((P1 / (P1 / exp ((w + β - C) / 2))) ^ 2) := by
  have hρ : exp (w + β - C) * -w = β := by
    have h1 : exp (w + β - C) * exp (C - β) = exp w := by rw [← exp_add]; congr 1; ring
    have h2 : -w * exp w = β * exp (C - β) := by linarith
    have h3 : exp (w + β - C) * -w * exp (C - β) = β * exp (C - β) := by rw [← h2, ← h1]; ring
    exact mul_right_cancel₀ (exp_pos _).ne' h3
  have hdv : (P1 / (P1 / exp ((w + β - C) / 2))) ^ 2 = exp (w + β - C) := by
    rw [show P1 / (P1 / exp ((w + β - C) / 2)) = exp ((w + β - C) / 2) by field_simp, ← exp_nat_mul]
    congr 1; push_cast; ring
  have hE := exp_pos (w + β - C)
  generalize hEd : exp (w + β - C) = r at *
  have hlr : log r = w + β - C := by rw [← hEd, log_exp]
  have hrβ : r ≤ β := by rw [← hρ]; nlinarith
  have hwr : β / r = -w := by rw [← hρ]; field_simp
  have hflow : β * (1 - 1 / r) = C + log r := by rw [hlr, mul_sub, mul_one_div, hwr]; ring
  have hr1 : 1 < r := by
    by_contra hcon
    rw [not_lt] at hcon
    have h5 : β * (1 - 1 / r) ≤ 1 - 1 / r := by
      have : 1 - 1 / r ≤ 0 := by
        have : 1 ≤ 1 / r := by rw [le_div_iff₀ hE]; linarith
        linarith
      nlinarith
    have h6 : 1 - 1 / r ≤ log r := by
      have := log_le_sub_one_of_pos (x := 1 / r) (by positivity)
      rw [log_div one_ne_zero hE.ne', log_one] at this
      linarith
    linarith
  have hrrc : r ≤ (P1 / Pc) ^ 2 := by
    apply le_of_phi hrc.le
    rw [hphi]
    have : (r - 1) ≤ β * (1 - 1 / r) := by
      have h1 : r * (1 - 1 / r) ≤ β * (1 - 1 / r) := by
        apply mul_le_mul_of_nonneg_right hrβ
        have : 1 / r ≤ 1 := by rw [div_le_one hE]; linarith
        linarith
      rwa [mul_sub, mul_one_div_cancel hE.ne', mul_one] at h1
    linarith
  have hx : 0 < exp ((w + β - C) / 2) := exp_pos _
  have hx2 : P1 / exp ((w + β - C) / 2) < P1 := by
    rw [div_lt_iff₀ hx]
    have : 1 < exp ((w + β - C) / 2) := by
      rw [one_lt_exp_iff, ← hlr]
      have := log_pos hr1
      linarith
    nlinarith
  have hxc : Pc ≤ P1 / exp ((w + β - C) / 2) := by
    have h1 : P1 / (P1 / exp ((w + β - C) / 2)) ≤ P1 / Pc := by
      rw [← hdv] at hrrc
      exact (pow_le_pow_iff_left₀ (by positivity) (by positivity) two_ne_zero).mp hrrc
    rwa [div_le_div_iff_of_pos_left hP (by positivity) h0] at h1
  refine ⟨hxc, hx2, ?_⟩
  rw [hdv]; exact hflow

/-- the closed form branch, for a flow that the pipe can carry -/
private theorem closed_eval (hW : IsLambertM1 lambertw) {rho fd P1 L D Pc m mc : ℝ} (hr : 0 < rho) (hf : 0 < fd)
    (hP : 0 < P1) (hL : 0 < L) (hD : 0 < D) (hPc : P_isothermal_critical_flow lambertw P1 fd D L = .ok Pc)
    (hmc : isothermal_gas_m lambertw rho fd P1 Pc L D = .ok mc) (hm : 0 < m) (hle : m ≤ mc) :
    ∃ P2, 0 < P2 ∧ Pc ≤ P2 ∧ P2 < P1 ∧ isothermal_gas_P2_closed lambertw rho fd P1 L D m = .ok P2 ∧
      isothermal_gas_m lambertw rho fd P1 P2 L D = .ok m := by
  obtain ⟨Pc', h', h0, hlt, hphi, -⟩ := crit hW hP hf hD hL
  obtain rfl : Pc = Pc' := by rw [hPc] at h'; simpa using h'
  obtain ⟨mc', hmc', -, hmcp, hec⟩ := iso_m_ok hW hr hf hP hL hD hPc h0 le_rfl hlt.le
  obtain rfl : mc = mc' := by rw [hmc] at hmc'; simpa using hmc'
  have hmc0 := hmcp hlt
  have e2 := flow_ratio hP h0 hmc0 hec
  have hC : 0 < fd * L / D := by positivity
  have hB : 0 < (π / 4 * D ^ 2) ^ 2 * rho := by positivity
  simp only [isothermal_gas_P2_closed, hPc, hmc, Py.ok_bind, hle, not_true, if_false]
  have hrc : 1 < (P1 / Pc) ^ 2 := by
    apply one_lt_pow₀ _ (by norm_num); rw [lt_div_iff₀ h0]; linarith
  have hβc : (π / 4 * D ^ 2) ^ 2 * rho * P1 / mc ^ 2 = (P1 / Pc) ^ 2 := by
    generalize hrcd : (P1 / Pc) ^ 2 = rc at *
    rw [← hphi] at e2
    have : (π / 4 * D ^ 2) ^ 2 * rho * P1 / mc ^ 2 * (1 - 1 / rc) = rc * (1 - 1 / rc) := by rw [e2]; field_simp; ring
    have hne : 1 - 1 / rc ≠ 0 := by
      have : 1 / rc < 1 := by rw [div_lt_one (by linarith)]; exact hrc
      linarith
    exact mul_right_cancel₀ hne this
  have hβ : (P1 / Pc) ^ 2 ≤ (π / 4 * D ^ 2) ^ 2 * rho * P1 / m ^ 2 := by
    rw [← hβc]; gcongr
  have hβ1 : 1 < (π / 4 * D ^ 2) ^ 2 * rho * P1 / m ^ 2 := hrc.trans_le hβ
  have hφβ := phi_le hrc.le hβ
  rw [hphi] at hφβ
  have earg : -((π / 4 * D ^ 2) ^ 2 * rho) / m ^ 2 * P1 *
      exp (-(-(fd * L / D) * m ^ 2 + (π / 4 * D ^ 2) ^ 2 * rho * P1) / m ^ 2)
      = -((π / 4 * D ^ 2) ^ 2 * rho * P1 / m ^ 2) * exp (fd * L / D - (π / 4 * D ^ 2) ^ 2 * rho * P1 / m ^ 2) := by
    congr 1
    · ring
    · congr 1; field_simp; ring
  py_eval [earg]
  have ew : ∀ w : ℝ, (-(fd * L / D) * m ^ 2 + w * m ^ 2 + (π / 4 * D ^ 2) ^ 2 * rho * P1) / m ^ 2
      = w + (π / 4 * D ^ 2) ^ 2 * rho * P1 / m ^ 2 - fd * L / D := by
    intro w; field_simp; ring
  simp only [ew]
  obtain ⟨w, hw, hw1, hwe⟩ := hW (-((π / 4 * D ^ 2) ^ 2 * rho * P1 / m ^ 2) *
    exp (fd * L / D - (π / 4 * D ^ 2) ^ 2 * rho * P1 / m ^ 2)) (by
      rw [neg_mul]
      apply neg_le_neg
      rw [← exp_log (lt_trans zero_lt_one hβ1), ← exp_add, exp_log (lt_trans zero_lt_one hβ1)]
      apply exp_le_exp.mpr
      linarith) (by rw [neg_mul]; apply neg_neg_of_pos; positivity)
  have hfwd : ∀ P2, Pc ≤ P2 → P2 < P1 →
      (π / 4 * D ^ 2) ^ 2 * rho * P1 / m ^ 2 * (1 - 1 / (P1 / P2) ^ 2) = fd * L / D + log ((P1 / P2) ^ 2) →
      isothermal_gas_m lambertw rho fd P1 P2 L D = .ok m := by
    intro P2 ha hb he
    have hP2 : 0 < P2 := by linarith
    obtain ⟨m', hm', hm0', -, he'⟩ := iso_m_ok hW hr hf hP hL hD hPc h0 ha hb.le
    rw [hm']
    congr 1
    have hl : 0 ≤ log (P1 / P2) := log_nonneg (by rw [le_div_iff₀ hP2]; linarith)
    have hX : 0 < P1 * (fd * L / D + 2 * log (P1 / P2)) := by positivity
    have : m' ^ 2 = m ^ 2 := by
      apply mul_right_cancel₀ hX.ne'
      rw [he', log_ratio hP hP2, ← he]
      field_simp
    exact (pow_left_inj₀ hm0' hm.le two_ne_zero).mp this
  rw [hw, Py.ok_bind]
  generalize hβd : (π / 4 * D ^ 2) ^ 2 * rho * P1 / m ^ 2 = β at *
  generalize hCd : fd * L / D = C at *
  obtain ⟨hxc, hx2, hflow⟩ := closed_core hP h0 hrc hphi hC hβ1 hw1 hwe
  refine ⟨P1 / exp ((w + β - C) / 2), by positivity, hxc, hx2, ?_, hfwd _ hxc hx2 hflow⟩
  simp [hx2]

/-- the outlet pressure that carries a given flow is unique -/
private theorem fwd_inj (hW : IsLambertM1 lambertw) {rho fd P1 L D Pc m P2 P2' : ℝ} (hr : 0 < rho) (hf : 0 < fd)
    (hP : 0 < P1) (hL : 0 < L) (hD : 0 < D) (hPc : P_isothermal_critical_flow lambertw P1 fd D L = .ok Pc)
    (h1 : Pc ≤ P2) (h2 : P2 < P1) (h1' : Pc ≤ P2') (h2' : P2' < P1)
    (e : isothermal_gas_m lambertw rho fd P1 P2 L D = .ok m)
    (e' : isothermal_gas_m lambertw rho fd P1 P2' L D = .ok m) : P2' = P2 := by
  obtain ⟨_, h', h0, hlt, hphi, -⟩ := crit hW hP hf hD hL
  rw [hPc] at h'
  obtain rfl := Except.ok.inj h'
  have key : ∀ P2, Pc ≤ P2 → P2 < P1 → isothermal_gas_m lambertw rho fd P1 P2 L D = .ok m → 0 < P2 ∧ 0 < m ∧
      1 < (P1 / P2) ^ 2 ∧ (P1 / P2) ^ 2 ≤ (π / 4 * D ^ 2) ^ 2 * rho * P1 / m ^ 2 ∧
      (π / 4 * D ^ 2) ^ 2 * rho * P1 / m ^ 2 * (1 - 1 / (P1 / P2) ^ 2) = fd * L / D + log ((P1 / P2) ^ 2) := by
    intro P2 h1 h2 e
    have hP2 : 0 < P2 := by linarith
    obtain ⟨m', hm', -, hmp, he⟩ := iso_m_ok hW hr hf hP hL hD hPc h0 h1 h2.le
    obtain rfl : m = m' := by rw [e] at hm'; simpa using hm'
    have hm0 := hmp h2
    have fl := flow_ratio hP hP2 hm0 he
    have hr1 : 1 < (P1 / P2) ^ 2 := by
      apply one_lt_pow₀ _ (by norm_num); rw [lt_div_iff₀ hP2]; linarith
    have hle : (P1 / P2) ^ 2 ≤ (P1 / Pc) ^ 2 := by gcongr
    have hph := phi_le hr1.le hle
    rw [hphi] at hph
    refine ⟨hP2, hm0, hr1, ?_, fl⟩
    generalize (P1 / P2) ^ 2 = r at *
    generalize (π / 4 * D ^ 2) ^ 2 * rho * P1 / m ^ 2 = β at *
    have hpos : 0 < 1 - 1 / r := by
      have : 1 / r < 1 := by rw [div_lt_one (by linarith)]; exact hr1
      linarith
    apply le_of_mul_le_mul_right _ hpos
    rw [fl, mul_sub, mul_one_div_cancel (by linarith), mul_one]
    linarith
  obtain ⟨hp, -, k1, k2, k3⟩ := key _ h1 h2 e
  obtain ⟨hp', -, k1', k2', k3'⟩ := key _ h1' h2' e'
  have hu := ratio_unique (by linarith) (by linarith) k2 k2' k3 k3'
  have hu2 := (pow_left_inj₀ (by positivity) (by positivity) two_ne_zero).mp hu
  field_simp at hu2
  exact hu2

/-- C08: solving for the outlet pressure from a computed flow returns the outlet pressure. -/
theorem C08_outlet_round_trip (hW : IsLambertM1 lambertw) (secant brenth) {rho fd P1 P2 L D Pc : ℝ} (hr : 0 < rho)
    (hf : 0 < fd) (hP : 0 < P1) (hL : 0 < L) (hD : 0 < D)
    (hPc : P_isothermal_critical_flow lambertw P1 fd D L = .ok Pc) (h1 : Pc ≤ P2) (h2 : P2 < P1) :
    ∃ m, isothermal_gas lambertw secant brenth rho fd (some P1) (some P2) (some L) (some D) none = .ok m ∧
      isothermal_gas lambertw secant brenth rho fd (some P1) none (some L) (some D) (some m) = .ok P2 := by
  obtain ⟨_, h', h0, hlt, -⟩ := crit hW hP hf hD hL
  rw [hPc] at h'
  obtain rfl := Except.ok.inj h'
  obtain ⟨hok, -⟩ := C08_mass_flow (P2 := P2) hW secant brenth hr hf hP hL hD hPc
  obtain ⟨m, hm, -, hmp, hfl⟩ := hok h1 h2.le
  have hm0 := hmp h2
  obtain ⟨mc, hmc, hle⟩ := C08_choke_is_maximum hW hr hf hP hL hD hPc (by linarith) h2 hm0 hfl
  obtain ⟨P2', -, a, b, hcl, hfw⟩ := closed_eval hW hr hf hP hL hD hPc hmc hm0 hle
  have hm' : isothermal_gas_m lambertw rho fd P1 P2 L D = .ok m := by simpa [isothermal_gas] using hm
  have : P2' = P2 := fwd_inj hW hr hf hP hL hD hPc h1 h2 a b hm' hfw
  refine ⟨m, hm, ?_⟩
  simp [isothermal_gas, isothermal_gas_P2, hcl, this]

/-- an exact bracketing solver -/
def ExactBracket (brenth : (ℝ → Py ℝ) → ℝ → ℝ → Py ℝ) : Prop := ∀ g a b x, brenth g a b = .ok x → g x = .ok 0

private theorem err_zero {rho fd P1 P2 L D m : ℝ} (h : isothermal_gas_err lambertw rho fd P1 P2 L D m = .ok 0) :
    isothermal_gas_m lambertw rho fd P1 P2 L D = .ok m := by
  unfold isothermal_gas_err at h
  rw [Py.bind_eq_ok] at h
  obtain ⟨a, ha, h⟩ := h
  simp [sub_eq_zero] at h
  rw [ha, h]

private theorem P2_sound (hW : IsLambertM1 lambertw) {brenth} (hb : ExactBracket brenth)
    {rho fd P1 P2 L D m : ℝ} (hr : 0 < rho) (hf : 0 < fd) (hP : 0 < P1) (hL : 0 < L) (hD : 0 < D) (hm : 0 < m)
    (h : isothermal_gas_P2 lambertw brenth rho fd P1 L D m = .ok P2) :
    isothermal_gas_m lambertw rho fd P1 P2 L D = .ok m := by
  obtain ⟨Pc, hPc, h0, hlt, -⟩ := crit hW hP hf hD hL
  obtain ⟨mc, hmc, -⟩ := iso_m_ok hW hr hf hP hL hD hPc h0 le_rfl hlt.le
  unfold isothermal_gas_P2 at h
  rcases le_or_gt m mc with hle | hgt
  · obtain ⟨P2', -, a, b, hcl, hfw⟩ := closed_eval hW hr hf hP hL hD hPc hmc hm hle
    rw [hcl] at h
    simp at h
    rwa [← h]
  · have hcl : isothermal_gas_P2_closed lambertw rho fd P1 L D m = .error .valueError := by
      simp [isothermal_gas_P2_closed, hPc, hmc, hgt]
    rw [hcl] at h
    simp only [hPc, Py.ok_bind, hmc] at h
    generalize hbr : brenth _ _ _ = res at h
    rcases res with e | x
    · simp at h
    · simp at h
      rw [← h]
      exact err_zero (have hz := hb _ _ _ _ hbr; hz)

/-- C08: every outlet pressure returned carries the requested flow, and a request above the choked flow raises
`ValueError`, provided the fallback bracketing solver only returns zeros. -/
theorem C08_outlet_sound (hW : IsLambertM1 lambertw) (secant) {brenth} (hb : ExactBracket brenth)
    {rho fd P1 L D Pc m mc : ℝ} (hr : 0 < rho) (hf : 0 < fd) (hP : 0 < P1) (hL : 0 < L) (hD : 0 < D) (hm : 0 < m)
    (hPc : P_isothermal_critical_flow lambertw P1 fd D L = .ok Pc)
    (hmc : isothermal_gas lambertw secant brenth rho fd (some P1) (some Pc) (some L) (some D) none = .ok mc) :
    (∀ P2, isothermal_gas lambertw secant brenth rho fd (some P1) none (some L) (some D) (some m) = .ok P2 →
      isothermal_gas lambertw secant brenth rho fd (some P1) (some P2) (some L) (some D) none = .ok m) ∧
    (mc < m →
      isothermal_gas lambertw secant brenth rho fd (some P1) none (some L) (some D) (some m) = .error .valueError) ∧
    (m ≤ mc → ∃ P2, Pc ≤ P2 ∧ P2 < P1 ∧
      isothermal_gas lambertw secant brenth rho fd (some P1) none (some L) (some D) (some m) = .ok P2) := by
  obtain ⟨_, h', h0, hlt, -⟩ := crit hW hP hf hD hL
  rw [hPc] at h'
  obtain rfl := Except.ok.inj h'
  simp only [isothermal_gas] at hmc ⊢
  refine ⟨fun P2 h => P2_sound hW hb hr hf hP hL hD hm h, fun hgt => ?_, fun hle => ?_⟩
  · have hcl : isothermal_gas_P2_closed lambertw rho fd P1 L D m = .error .valueError := by
      simp [isothermal_gas_P2_closed, hPc, hmc, hgt]
    have hno : ∀ P2, isothermal_gas_m lambertw rho fd P1 P2 L D ≠ .ok m := by
      intro P2 hcon
      have hrej := C08_mass_flow (P2 := P2) hW secant brenth hr hf hP hL hD hPc
      simp only [isothermal_gas] at hrej
      have h1 : Pc ≤ P2 := by
        by_contra hc
        rw [hrej.2 (Or.inl (not_le.mp hc))] at hcon; simp at hcon
      have h2 : P2 ≤ P1 := by
        by_contra hc
        rw [hrej.2 (Or.inr (not_le.mp hc))] at hcon; simp at hcon
      obtain ⟨m', hm', -, hmp, hfl⟩ := hrej.1 h1 h2
      rw [hcon] at hm'
      obtain rfl := Except.ok.inj hm'
      rcases h2.lt_or_eq with h2 | h2
      · obtain ⟨mc', hmc', hle⟩ := C08_choke_is_maximum hW hr hf hP hL hD hPc (by linarith) h2 hm hfl
        rw [hmc] at hmc'
        obtain rfl := Except.ok.inj hmc'
        linarith
      · rw [IsothermalFlow, h2] at hfl
        simp at hfl
        linarith
    unfold isothermal_gas_P2
    rw [hcl]
    simp only [hPc, Py.ok_bind, hmc]
    generalize hbr : brenth _ _ _ = res
    rcases res with e | x
    · simp
    · exact absurd (err_zero (have hz := hb _ _ _ _ hbr; hz)) (hno x)
  · obtain ⟨P2, -, a, b, hcl, -⟩ := closed_eval hW hr hf hP hL hD hPc hmc hm hle
    exact ⟨P2, a, b, by simp [isothermal_gas_P2, hcl]⟩

/-- C08: every inlet pressure and every diameter returned carries the requested flow, provided the solvers only return
zeros of the function handed to them. -/
theorem C08_inlet_and_diameter_sound (hW : IsLambertM1 lambertw) {secant brenth} (hs : ExactSolver secant)
    (hb : ExactBracket brenth) {rho fd L D m : ℝ} (hr : 0 < rho) (hf : 0 < fd) (hL : 0 < L) (hm : 0 < m) :
    (∀ P1 P2, 0 < D → 0 < P2 →
      isothermal_gas lambertw secant brenth rho fd none (some P2) (some L) (some D) (some m) = .ok P1 →
      isothermal_gas lambertw secant brenth rho fd (some P1) (some P2) (some L) (some D) none = .ok m) ∧
    (∀ P1 P2, isothermal_gas lambertw secant brenth rho fd (some P1) (some P2) (some L) none (some m) = .ok D →
      isothermal_gas lambertw secant brenth rho fd (some P1) (some P2) (some L) (some D) none = .ok m) := by
  refine ⟨fun P1 P2 hD hP2 h => ?_, fun P1 P2 h => ?_⟩
  · simp only [isothermal_gas, isothermal_gas_P1] at h ⊢
    rw [Py.bind_eq_ok] at h
    obtain ⟨Pcf, -, h⟩ := h
    generalize hsec : secant _ _ = res at h
    have hbranch : ∀ {b}, brenth (fun P1 => isothermal_gas_err lambertw rho fd P1 P2 L D m) P2 Pcf = .ok b →
        isothermal_gas_m lambertw rho fd b P2 L D = .ok m := fun hbr => err_zero (have hz := hb _ _ _ _ hbr; hz)
    have hfall : (match brenth (fun P1 => isothermal_gas_err lambertw rho fd P1 P2 L D m) P2 Pcf with
        | .ok P1 => (.ok P1 : Py ℝ)
        | .error _ => do
          let _m_max ← isothermal_gas_m lambertw rho fd Pcf P2 L D
          .error .valueError) = .ok P1 → isothermal_gas_m lambertw rho fd P1 P2 L D = .ok m := by
      intro hh
      generalize hbr : brenth _ _ _ = rb at hh
      rcases rb with e | x
      · rcases hmm : isothermal_gas_m lambertw rho fd Pcf P2 L D with e | y <;> rw [hmm] at hh <;> simp at hh
      · simp at hh; rw [← hh]; exact hbranch hbr
    rcases res with e | x
    · exact hfall h
    · by_cases hx : P2 ≤ x
      · simp only [Py.ok_bind, hx, not_true, if_false, Py.pure_eq, Except.ok.injEq] at h
        rw [← h]
        have hz := hs _ _ _ hsec
        unfold isothermal_gas_err_P2_basis at hz
        rw [Py.bind_eq_ok] at hz
        obtain ⟨a, ha, hz⟩ := hz
        simp [sub_eq_zero] at hz
        rw [← hz] at ha
        exact P2_sound hW hb hr hf (by linarith) hL hD hm ha
      · simp only [Py.ok_bind, hx, not_false_eq_true, if_true] at h
        exact hfall h
  · simp only [isothermal_gas] at h ⊢
    exact err_zero (have hz := hs _ _ _ h; hz)

/-- C08: a call that does not leave out exactly one of the five raises `ValueError`. -/
theorem C08_rejects (secant brenth) (rho fd : ℝ) (P1 P2 L D m : Option ℝ) (h : missing [P1, P2, L, D, m] ≠ 1) :
    isothermal_gas lambertw secant brenth rho fd P1 P2 L D m = .error .valueError := by
  rcases P1 with _ | P1 <;> rcases P2 with _ | P2 <;> rcases L with _ | L <;> rcases D with _ | D <;>
    rcases m with _ | m <;> simp [missing] at h <;> simp [isothermal_gas]

end

/-- A Lambert W function exists: `w ↦ w * exp w` takes every value of `[-1/e, 0)` on `(-∞, -1]`. -/
theorem exists_lambertM1 : ∃ lambertw, IsLambertM1 lambertw := by
  classical
  have key : ∀ y : ℝ, -exp (-1) ≤ y → y < 0 → ∃ w, w ≤ -1 ∧ w * exp w = y := by
    intro y h1 h2
    have hlim : Filter.Tendsto (fun w : ℝ => w * exp w) Filter.atBot (nhds 0) := by
      have := tendsto_pow_mul_exp_neg_atTop_nhds_zero 1
      have h3 := this.comp Filter.tendsto_neg_atBot_atTop
      have h4 : (fun w : ℝ => w * exp w) = fun w => -(((fun x : ℝ => x ^ 1 * exp (-x)) ∘ Neg.neg) w) := by
        funext w; simp
      rw [h4]; simpa using h3.neg
    obtain ⟨a, ha, ha1⟩ := ((hlim.eventually (lt_mem_nhds h2)).and (Filter.eventually_le_atBot (-1))).exists
    have hc : ContinuousOn (fun w : ℝ => w * exp w) (Set.Icc a (-1)) := by fun_prop
    have := intermediate_value_Icc' ha1 hc
    obtain ⟨w, hw, he⟩ := this (show y ∈ Set.Icc _ _ from ⟨by simpa using h1, ha.le⟩)
    exact ⟨w, hw.2, he⟩
  refine ⟨fun y => if h : ∃ w, w ≤ -1 ∧ w * exp w = y then .ok h.choose else .error .valueError, fun y h1 h2 => ?_⟩
  have := key y h1 h2
  exact ⟨this.choose, by simp [this], this.choose_spec⟩

example : ∃ lambertw Pc, IsLambertM1 lambertw ∧ P_isothermal_critical_flow lambertw 1e6 0.00185 0.5 1000 = .ok Pc ∧
    Pc < 1e6 := by
  obtain ⟨w, hw⟩ := exists_lambertM1
  obtain ⟨Pc, h, -, hlt, -⟩ := C08_choke_pressure hw (P := 1e6) (fd := 0.00185) (D := 0.5) (L := 1000) (by norm_num)
    (by norm_num) (by norm_num) (by norm_num)
  exact ⟨w, Pc, hw, h, hlt⟩

end Verif
