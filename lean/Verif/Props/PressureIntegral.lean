import Verif.Props.Atmosphere
import Mathlib.MeasureTheory.Integral.IntervalIntegral.FundThmCalculus

/-! C135: the pressure difference of a column of air (`ATMOSPHERE_1976.pressure_integral`). -/

open Real

noncomputable section

namespace Verif.Atmosphere

/-! ### Specification -/

/-- pressure, temperature and gravity the standard atmosphere reports at every elevation -/
structure Standard (P T g : ℝ → ℝ) : Prop where
  reports : ∀ Z, -r0 < Z → ∃ a, ATMOSPHERE_1976 Z = .ok a ∧ a.P = P Z ∧ a.T = T Z ∧ a.g = g Z

/-- `κ` times the molar mass of air over the gas constant: the constant of the density -/
def rhoConst : ℝ := 0.00348367635597379

/-- no layer boundary lies between two elevations -/
def SameLayer (Z₁ Z₂ : ℝ) : Prop := ∀ b ∈ boundaries, geopotential Z₁ ≤ b ↔ geopotential Z₂ ≤ b

/-! ### Auxiliary -/

theorem Standard.eq {P T g : ℝ → ℝ} (h : Standard P T g) {Z Tb L Pb Hb : ℝ} (hZ : -r0 < Z) (hl : LayerAt (geopotential Z) Tb L Pb Hb) :
    P Z = layerP Tb L Pb Hb (geopotential Z) ∧ T Z = isaT (geopotential Z) ∧ g Z = g0 * (r0 / (r0 + Z)) ^ 2 := by
  obtain ⟨a, e, h1, h2, h3⟩ := h.reports Z hZ
  obtain ⟨b, e', -, k2, k3, -, k5, -⟩ := atm_eq (dT := 0) hZ hl (by simpa using isaT_pos _)
  obtain rfl : a = b := Except.ok.inj (e.symm.trans e')
  exact ⟨by rw [← h1, k3], by rw [← h2, k2, add_zero], by rw [← h3, k5]⟩

theorem Standard.pos {P T g : ℝ → ℝ} (h : Standard P T g) {Z : ℝ} (hZ : -r0 < Z) : 0 < P Z ∧ 0 < T Z ∧ 0 < g Z := by
  obtain ⟨Tb, L, Pb, Hb, hl⟩ := layer_at (geopotential Z)
  obtain ⟨e1, e2, e3⟩ := h.eq hZ hl
  have h0 := const_pos.2.2.2; have h00 := const_pos.1
  have hZ' : 0 < r0 + Z := by linarith
  exact ⟨by rw [e1]; exact layerP_pos hl, by rw [e2]; exact isaT_pos _, by rw [e3]; positivity⟩

theorem to_int_dP_eq {P T g : ℝ → ℝ} (h : Standard P T g) {Z dT : ℝ} (hZ : -r0 < Z) (hd : 0 < T Z + dT) : to_int_dP Z dT = .ok (rhoConst * P Z / (T Z + dT) * g Z) := by
  obtain ⟨Tb, L, Pb, Hb, hl⟩ := layer_at (geopotential Z)
  obtain ⟨e1, e2, e3⟩ := h.eq hZ hl
  obtain ⟨a, e, -, h2, h3, h4, h5, -⟩ := atm_eq (dT := dT) hZ hl (by rw [← e2]; exact hd)
  simp only [to_int_dP, e, Py.ok_bind, Py.pure_eq]
  rw [h4, h2, h3, h5, ← e1, ← e2, ← e3, rhoConst]
  congr 1; ring

theorem above {Z₁ Z₂ Z : ℝ} (h1 : -r0 < Z₁) (h2 : -r0 < Z₂) (h : Z ∈ Set.uIcc Z₁ Z₂) : -r0 < Z := (lt_min h1 h2).trans_le h.1

theorem geo_mono {Z₁ Z₂ : ℝ} (h : -r0 < Z₁) (h12 : Z₁ ≤ Z₂) : geopotential Z₁ ≤ geopotential Z₂ := by
  rcases h12.eq_or_lt with rfl | c
  · exact le_rfl
  · exact (geopotential_strictMono h c).le

theorem same_between {Z₁ Z₂ Z : ℝ} (h1 : -r0 < Z₁) (h2 : -r0 < Z₂) (hs : SameLayer Z₁ Z₂) (h : Z ∈ Set.uIcc Z₁ Z₂) : SameLayer Z₁ Z := by
  intro b hb
  rcases le_total Z₁ Z₂ with c | c
  · rw [Set.uIcc_of_le c] at h
    exact ⟨fun k => (geo_mono (h1.trans_le h.1) h.2).trans ((hs b hb).1 k), fun k => (geo_mono h1 h.1).trans k⟩
  · rw [Set.uIcc_of_ge c] at h
    exact ⟨fun k => (geo_mono (h2.trans_le h.1) h.2).trans k, fun k => (hs b hb).2 ((geo_mono h2 h.1).trans k)⟩

/-! ### The property -/

/-- C135: what is computed. The solver's elevation `E` fixes the offset `T1 - T(E)`; the result is the weight of the air between `E` and `E + dH`: the integral of gravity times the density of
an ideal gas at standard pressure and at the standard temperature plus the offset. -/
theorem C135_weight {P T g : ℝ → ℝ} (h : Standard P T g) {secant : (ℝ → Py ℝ) → Py ℝ} {T1 P1 dH E : ℝ}
    (hs : secant (fun H => H_for_P_err H P1) = .ok E) (hE : -r0 < E) (hE' : -r0 < E + dH) (hT : ∀ Z ∈ Set.uIcc E (E + dH), 0 < T Z + (T1 - T E)) :
    pressure_integral secant T1 P1 dH = .ok (∫ Z in E..(E + dH), rhoConst * P Z / (T Z + (T1 - T E)) * g Z) ∧ |rhoConst - M0 / Rgas| ≤ 1e-15 := by
  refine ⟨?_, by rw [abs_le]; constructor <;> norm_num [rhoConst, M0, Rgas]⟩
  obtain ⟨a, e, -, h2, -⟩ := h.reports E hE
  have e' : ATMOSPHERE_1976 E 0.0 = .ok a := by rw [← e]; norm_num
  have hall : ∀ Z ∈ Set.uIcc E (E + dH), to_int_dP Z (T1 - T E) = .ok (rhoConst * P Z / (T Z + (T1 - T E)) * g Z) :=
    fun Z hZ => to_int_dP_eq h (above hE hE' hZ) (hT Z hZ)
  rw [← h2] at hall ⊢
  simp only [pressure_integral, hs, Py.ok_bind, e']
  rw [if_pos fun Z hZ => ⟨_, hall Z hZ⟩, Py.pure_eq]
  congr 1
  refine intervalIntegral.integral_congr fun Z hZ => ?_
  simp only [dPValue, hall Z hZ]

/-- C135: the error function given to the solver is zero exactly where the standard pressure is `P1` -/
theorem C135_reference {P T g : ℝ → ℝ} (h : Standard P T g) {P1 E : ℝ} (hE : -r0 < E) : H_for_P_err E P1 = .ok (P E - P1) := by
  obtain ⟨a, e, h1, -⟩ := h.reports E hE
  have e' : ATMOSPHERE_1976 E 0.0 = .ok a := by rw [← e]; norm_num
  simp only [H_for_P_err, e', Py.ok_bind, Py.pure_eq, h1]

/-- within a layer the standard pressure has the hydrostatic derivative, and all quantities are continuous -/
theorem column {P T g : ℝ → ℝ} (h : Standard P T g) {E E' : ℝ} (hE : -r0 < E) (hE' : -r0 < E') (hs : SameLayer E E') :
    ∃ p : ℝ → ℝ, (∀ Z ∈ Set.uIcc E E', P Z = p Z) ∧ (∀ Z ∈ Set.uIcc E E', HasDerivAt p (-(M0 / Rgas) * P Z / T Z * g Z) Z) ∧
      ContinuousOn P (Set.uIcc E E') ∧ ContinuousOn T (Set.uIcc E E') ∧ ContinuousOn g (Set.uIcc E E') := by
  obtain ⟨Tb, L, Pb, Hb, hl⟩ := layer_at (geopotential E)
  have hal : ∀ Z ∈ Set.uIcc E E', LayerAt (geopotential Z) Tb L Pb Hb := fun Z hZ => same_layer hl (same_between hE hE' hs hZ)
  have hd : ∀ Z ∈ Set.uIcc E E', HasDerivAt (fun Z => layerP Tb L Pb Hb (geopotential Z)) (-(M0 / Rgas) * P Z / T Z * g Z) Z := fun Z hZ => by
    have hZ0 := above hE hE' hZ
    obtain ⟨e1, e2, e3⟩ := h.eq hZ0 (hal Z hZ)
    have hl' := hal Z hZ
    refine ((layerP_deriv (Pb := Pb) hl'.Tb_pos (by rw [hl'.T_eq]; exact hl'.T_pos)).comp Z (geopotential_deriv hZ0)).congr_deriv ?_
    rw [hl'.T_eq, e1, e2, e3]
    ring
  have heq : ∀ Z ∈ Set.uIcc E E', P Z = layerP Tb L Pb Hb (geopotential Z) := fun Z hZ => (h.eq (above hE hE' hZ) (hal Z hZ)).1
  refine ⟨fun Z => layerP Tb L Pb Hb (geopotential Z), heq, hd, ?_, ?_, ?_⟩
  · exact ContinuousOn.congr (fun Z hZ => (hd Z hZ).continuousAt.continuousWithinAt) heq
  · exact (C67_temperature_continuous.2.mono fun Z hZ => above hE hE' hZ).congr fun Z hZ => (h.eq (above hE hE' hZ) (hal Z hZ)).2.1
  · refine ContinuousOn.congr (f := fun Z => g0 * (r0 / (r0 + Z)) ^ 2) ?_ fun Z hZ => (h.eq (above hE hE' hZ) (hal Z hZ)).2.2
    refine ContinuousOn.mul continuousOn_const (ContinuousOn.pow (ContinuousOn.div continuousOn_const (by fun_prop) fun Z hZ => ?_) 2)
    have := above hE hE' hZ
    intro h; linarith

/-- C135: at standard conditions the result is the difference of the standard pressures of the two elevations, to the digits of the density's constant. `E` is an elevation of pressure `P1` in the layer of `E + dH`,
and `T1` is the standard temperature there. -/
theorem C135_standard {P T g : ℝ → ℝ} (h : Standard P T g) {secant : (ℝ → Py ℝ) → Py ℝ} {P1 dH E : ℝ}
    (hs : secant (fun H => H_for_P_err H P1) = .ok E) (hE : -r0 < E) (hE' : -r0 < E + dH) (hr : H_for_P_err E P1 = .ok 0) (hl : SameLayer E (E + dH)) :
    ∃ κ, |κ - 1| ≤ 1e-12 ∧ pressure_integral secant (T E) P1 dH = .ok (κ * (P1 - P (E + dH))) := by
  have hP : P E = P1 := by
    rw [C135_reference h hE] at hr
    have := Except.ok.inj hr; linarith
  have hR := const_pos.2.2.1; have hM := const_pos.2.1
  refine ⟨rhoConst * Rgas / M0, by rw [abs_le]; constructor <;> norm_num [rhoConst, M0, Rgas], ?_⟩
  rw [(C135_weight h hs hE hE' fun Z hZ => by simpa using (h.pos (above hE hE' hZ)).2.1).1]
  obtain ⟨p, heq, hd, c1, c2, c3⟩ := column h hE hE' hl
  have hc : ContinuousOn (fun Z => -(M0 / Rgas) * P Z / T Z * g Z) (Set.uIcc E (E + dH)) :=
    ((continuousOn_const.mul c1).div c2 fun Z hZ => (h.pos (above hE hE' hZ)).2.1.ne').mul c3
  have hint := intervalIntegral.integral_eq_sub_of_hasDerivAt hd hc.intervalIntegrable
  rw [← heq _ Set.right_mem_uIcc, ← heq _ Set.left_mem_uIcc, hP] at hint
  congr 1
  rw [show rhoConst * Rgas / M0 * (P1 - P (E + dH)) = -(rhoConst * Rgas / M0) * (P (E + dH) - P1) by ring, ← hint, ← intervalIntegral.integral_const_mul]
  refine intervalIntegral.integral_congr fun Z _ => ?_
  simp only [sub_self, add_zero]
  field_simp

/-- C135: within a layer the difference is positive for a column above the reference, negative for one below and zero for none, and a warmer column weighs less -/
theorem C135_sign {P T g : ℝ → ℝ} (h : Standard P T g) {secant : (ℝ → Py ℝ) → Py ℝ} {T1 T1' P1 dH E : ℝ}
    (hs : secant (fun H => H_for_P_err H P1) = .ok E) (hE : -r0 < E) (hE' : -r0 < E + dH) (hl : SameLayer E (E + dH))
    (hT : ∀ Z ∈ Set.uIcc E (E + dH), 0 < T Z + (T1 - T E)) (hTT : T1 < T1') :
    ∃ v v', pressure_integral secant T1 P1 dH = .ok v ∧ pressure_integral secant T1' P1 dH = .ok v' ∧
      (0 < dH → 0 < v' ∧ v' < v) ∧ (dH < 0 → v < v' ∧ v' < 0) ∧ (dH = 0 → v = 0) := by
  have hT' : ∀ Z ∈ Set.uIcc E (E + dH), 0 < T Z + (T1' - T E) := fun Z hZ => by linarith [hT Z hZ]
  refine ⟨_, _, (C135_weight h hs hE hE' hT).1, (C135_weight h hs hE hE' hT').1, ?_⟩
  obtain ⟨p, heq, hd, c1, c2, c3⟩ := column h hE hE' hl
  have hcont : ∀ τ, (∀ Z ∈ Set.uIcc E (E + dH), 0 < T Z + (τ - T E)) → ContinuousOn (fun Z => rhoConst * P Z / (T Z + (τ - T E)) * g Z) (Set.uIcc E (E + dH)) :=
    fun τ hτ => ((continuousOn_const.mul c1).div (c2.add continuousOn_const) fun Z hZ => (hτ Z hZ).ne').mul c3
  have hc := hcont T1 hT
  have hc' := hcont T1' hT'
  have hk : (0:ℝ) < rhoConst := by norm_num [rhoConst]
  have hpos : ∀ Z ∈ Set.uIcc E (E + dH), 0 < rhoConst * P Z / (T Z + (T1' - T E)) * g Z := fun Z hZ => by
    obtain ⟨p1, -, p3⟩ := h.pos (above hE hE' hZ)
    have := hT' Z hZ
    positivity
  have hlt : ∀ Z ∈ Set.uIcc E (E + dH), rhoConst * P Z / (T Z + (T1' - T E)) * g Z < rhoConst * P Z / (T Z + (T1 - T E)) * g Z := fun Z hZ => by
    obtain ⟨p1, -, p3⟩ := h.pos (above hE hE' hZ)
    have := hT Z hZ
    exact mul_lt_mul_of_pos_right (div_lt_div_of_pos_left (mul_pos hk p1) this (by linarith)) p3
  refine ⟨fun hp => ?_, fun hn => ?_, fun h0 => by rw [h0, add_zero, intervalIntegral.integral_same]⟩
  · have hle : E ≤ E + dH := by linarith
    rw [Set.uIcc_of_le hle] at hc hc' hpos hlt
    refine ⟨intervalIntegral.intervalIntegral_pos_of_pos_on (hc'.intervalIntegrable_of_Icc hle) (fun Z hZ => hpos Z ⟨hZ.1.le, hZ.2.le⟩) (by linarith), ?_⟩
    exact intervalIntegral.integral_lt_integral_of_continuousOn_of_le_of_exists_lt (by linarith) hc' hc (fun Z hZ => (hlt Z ⟨hZ.1.le, hZ.2⟩).le) ⟨E, Set.left_mem_Icc.2 hle, hlt E (Set.left_mem_Icc.2 hle)⟩
  · have hle : E + dH ≤ E := by linarith
    rw [Set.uIcc_of_ge hle] at hc hc' hpos hlt
    rw [intervalIntegral.integral_symm (E + dH) E, intervalIntegral.integral_symm (E + dH) E]
    refine ⟨neg_lt_neg ?_, neg_neg_of_pos ?_⟩
    · exact intervalIntegral.integral_lt_integral_of_continuousOn_of_le_of_exists_lt (by linarith) hc' hc (fun Z hZ => (hlt Z ⟨hZ.1.le, hZ.2⟩).le) ⟨E, Set.right_mem_Icc.2 hle, hlt E (Set.right_mem_Icc.2 hle)⟩
    · exact intervalIntegral.intervalIntegral_pos_of_pos_on (hc'.intervalIntegrable_of_Icc hle) (fun Z hZ => hpos Z ⟨hZ.1.le, hZ.2.le⟩) (by linarith)

/-- C135: a solver that fails, and a column that is too cold, are reported -/
theorem C135_errors {P T g : ℝ → ℝ} (h : Standard P T g) {secant : (ℝ → Py ℝ) → Py ℝ} {T1 P1 dH : ℝ} :
    (∀ e, secant (fun H => H_for_P_err H P1) = .error e → pressure_integral secant T1 P1 dH = .error e) ∧
    ∀ E, secant (fun H => H_for_P_err H P1) = .ok E → -r0 < E → T1 < 0 → pressure_integral secant T1 P1 dH = .error .valueError := by
  refine ⟨fun e he => by simp only [pressure_integral, he]; rfl, fun E he hE hT => ?_⟩
  obtain ⟨a, e, -, h2, -⟩ := h.reports E hE
  have e' : ATMOSPHERE_1976 E 0.0 = .ok a := by rw [← e]; norm_num
  simp only [pressure_integral, he, Py.ok_bind, e']
  rw [if_neg]
  intro hall
  obtain ⟨v, hv⟩ := hall E Set.left_mem_uIcc
  obtain ⟨Tb, L, Pb, Hb, hl⟩ := layer_at (geopotential E)
  obtain ⟨i, hi, g1, g2, g3, g4⟩ := hl.ind
  have hZ' : 0 < r0 + E := by linarith
  have hP := layerPressure_eq hl
  have hTe := hl.T_eq
  have hTE := (h.eq hE hl).2.1
  unfold geopotential at *
  have hneg : Tb + L * (r0 * E / (r0 + E) - Hb) + (T1 - a.T) < 0 := by rw [hTe, h2, hTE]; linarith
  simp only [to_int_dP, ATMOSPHERE_1976, pdiv_ok hZ'.ne', Py.ok_bind, hi, g1, g2, g3, g4, atmBuild, hP, density, sonic_velocity, pdiv_ok hneg.ne, psqrt] at hv
  rw [if_pos (by nlinarith)] at hv
  cases hv

/-- the standard atmosphere exists, and 200 m above an elevation of 50 m are in its layer: a column at a cooling tower -/
example : (∃ P T g, Standard P T g) ∧ SameLayer 50 (50 + 200) ∧ -r0 < (50:ℝ) := by
  obtain ⟨P, T, g, h, -⟩ := C67_hydrostatic
  exact ⟨⟨P, T, g, ⟨h⟩⟩, by norm_num [SameLayer, boundaries, geopotential, r0], by norm_num [r0]⟩

/-- a solver and a pressure that meet the hypotheses of `C135_standard` -/
example {P T g : ℝ → ℝ} (h : Standard P T g) : H_for_P_err 50 (P 50) = .ok 0 ∧ (fun _ => Except.ok 50 : (ℝ → Py ℝ) → Py ℝ) (fun H => H_for_P_err H (P 50)) = .ok 50 :=
  ⟨by rw [C135_reference h (by norm_num [r0]), sub_self], rfl⟩

end Verif.Atmosphere
