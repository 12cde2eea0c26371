import Verif.Model.Plates
import Mathlib.Analysis.SpecialFunctions.Pow.Real
import Mathlib.Tactic

/-! C119: wet-gas Venturi tubes, pump and motor efficiencies, erosional velocity, isothermal compression. -/

namespace Verif.Plates
open Verif Real

/-! ### wet-gas Venturi tubes -/

lemma wetFroude_ok {mg rhog rhol D g : ℝ} (hm : 0 < mg) (hg : 0 < rhog) (hl : rhog < rhol) (hD : 0 < D) (hg' : 0 < g) : ∃ F > 0, wetFroude mg rhog rhol D g = .ok F := by
  have hp := pi_pos
  have hd : 0 < rhog / (rhol - rhog) := div_pos hg (by linarith)
  have hs : 0 < √(g * D) := Real.sqrt_pos.2 (by positivity)
  refine ⟨4 * mg / (rhog * π * D * D) / √(g * D) * √(rhog / (rhol - rhog)), by have := Real.sqrt_pos.2 hd; positivity, ?_⟩
  unfold wetFroude Core.Froude_densimetric
  rw [pdiv_ok (by positivity), Py.ok_bind]
  simp only [Bool.false_eq_true, if_false]
  rw [psqrt_ok (by positivity), Py.ok_bind, pdiv_ok hs.ne', Py.ok_bind, pdiv_ok (by linarith), Py.ok_bind, psqrt_ok hd.le, Py.ok_bind]
  rfl

lemma wetX_ok {ml mg rhog rhol : ℝ} (hm : 0 < mg) (hg : 0 < rhog) (hl : rhog < rhol) : wetX ml mg rhog rhol = .ok (ml / mg * √(rhog / rhol)) := by
  have : 0 < rhol := hg.trans hl
  unfold wetX
  rw [pdiv_ok hm.ne', Py.ok_bind, pdiv_ok this.ne', Py.ok_bind, psqrt_ok (by positivity), Py.ok_bind]
  rfl

lemma wetCCh_ok {F H b2 rhog rhol : ℝ} (hH : H ≠ 0) (hg : 0 < rhog) (hl : rhog < rhol) : ∃ v, wetCCh F H b2 rhog rhol = .ok v := by
  have hl' : 0 < rhol := hg.trans hl
  have h0 : 0 < rhog / rhol := by positivity
  unfold wetCCh
  rw [pdiv_ok hH, Py.ok_bind, pdiv_ok hl'.ne']
  simp only [Py.ok_bind, ppow_ok h0]
  rw [pdiv_ok (Real.rpow_pos_of_pos h0 _).ne', Py.ok_bind]
  exact ⟨_, rfl⟩

/-- C119: the discharge coefficient of a Venturi tube in wet gas. For a given gas flow there is a factor φ in (0, 1) such that every liquid flow and every liquid type parameter `H` give
1 − 0.0463 φ min(1, √(X/0.016)) with X the Lockhart-Martinelli parameter: one for dry gas, never above one, at least 0.9537, no larger for more liquid, and — although `H` is a documented
input — the same for every non-zero `H`; a zero `H` divides by zero. -/
theorem C119_wet_discharge {mg rhog rhol D Do g : ℝ} (hm : 0 < mg) (hg : 0 < rhog) (hl : rhog < rhol) (hD : 0 < D) (hDo : 0 < Do) (hg' : 0 < g) :
    (∃ φ > 0, φ < 1 ∧ ∀ ml H, 0 ≤ ml → H ≠ 0 → C_Reader_Harris_Gallagher_wet_venturi_tube mg ml rhog rhol D Do H g =
      .ok (1 - 0.0463 * φ * min 1 √(ml / mg * √(rhog / rhol) / 0.016))) ∧
    (∀ ml, C_Reader_Harris_Gallagher_wet_venturi_tube mg ml rhog rhol D Do 0 g = .error .zeroDivisionError) ∧
    (∀ ml ml' H H' C C', 0 ≤ ml → ml ≤ ml' → H ≠ 0 → H' ≠ 0 → C_Reader_Harris_Gallagher_wet_venturi_tube mg ml rhog rhol D Do H g = .ok C →
      C_Reader_Harris_Gallagher_wet_venturi_tube mg ml' rhog rhol D Do H' g = .ok C' → C' ≤ C ∧ C ≤ 1 ∧ 0.9537 < C' ∧ (ml = 0 → C = 1) ∧ (ml = ml' → C = C')) := by
  obtain ⟨F, hF, eF⟩ := wetFroude_ok hm hg hl hD hg'
  have hl' : 0 < rhol := hg.trans hl
  have hb : 0 < Do / D := by positivity
  have hs := Real.sqrt_pos.2 hb
  have key : ∃ φ > 0, φ < 1 ∧ ∀ ml H, 0 ≤ ml → H ≠ 0 → C_Reader_Harris_Gallagher_wet_venturi_tube mg ml rhog rhol D Do H g =
      .ok (1 - 0.0463 * φ * min 1 √(ml / mg * √(rhog / rhol) / 0.016)) := by
    refine ⟨Real.exp (-0.05 * (F / (Do / D * (Do / D) * √(Do / D)))), Real.exp_pos _, Real.exp_lt_one_iff.2 (by linarith [show 0 < F / (Do / D * (Do / D) * √(Do / D)) by positivity]), ?_⟩
    intro ml H h0 hH
    obtain ⟨v, hv⟩ := wetCCh_ok (F := F) (b2 := Do / D * (Do / D)) hH hg hl
    unfold C_Reader_Harris_Gallagher_wet_venturi_tube
    rw [eF, Py.ok_bind, pdiv_ok hD.ne', Py.ok_bind]
    dsimp only
    rw [psqrt_ok hb.le, Py.ok_bind, pdiv_ok (by positivity), Py.ok_bind, hv, Py.ok_bind, wetX_ok hm hg hl, Py.ok_bind, psqrt_ok (by positivity), Py.ok_bind]
    rfl
  refine ⟨key, ?_, ?_⟩
  · intro ml
    unfold C_Reader_Harris_Gallagher_wet_venturi_tube
    rw [eF, Py.ok_bind, pdiv_ok hD.ne', Py.ok_bind]
    dsimp only
    rw [psqrt_ok hb.le, Py.ok_bind, pdiv_ok (by positivity), Py.ok_bind]
    unfold wetCCh
    simp only [pdiv_zero, Py.error_bind]
  · obtain ⟨φ, h0, h1, hk⟩ := key
    intro ml ml' H H' C C' hml hmm hH hH' e e'
    rw [hk _ _ hml hH] at e
    rw [hk _ _ (hml.trans hmm) hH'] at e'
    have e := Except.ok.inj e
    have e' := Except.ok.inj e'
    have m : min 1 √(ml / mg * √(rhog / rhol) / 0.016) ≤ min 1 √(ml' / mg * √(rhog / rhol) / 0.016) := min_le_min_left _ (Real.sqrt_le_sqrt (by gcongr))
    have n0 : 0 ≤ min 1 √(ml / mg * √(rhog / rhol) / 0.016) := le_min (by norm_num) (Real.sqrt_nonneg _)
    have n1 : min 1 √(ml' / mg * √(rhog / rhol) / 0.016) ≤ 1 := min_le_left _ _
    rw [← e, ← e']
    refine ⟨by gcongr, by have : 0 ≤ 0.0463 * φ * min 1 √(ml / mg * √(rhog / rhol) / 0.016) := by positivity
                          linarith, ?_, ?_, ?_⟩
    · have : 0.0463 * φ * min 1 √(ml' / mg * √(rhog / rhol) / 0.016) ≤ 0.0463 * φ * 1 := by gcongr
      linarith
    · rintro rfl
      simp
    · rintro rfl
      rfl

/-- C119: the permanent pressure loss of a Venturi tube in wet gas. For a given gas flow and liquid type the loss is the measured difference times 0.0896 + 0.48 β⁹ + Y, where Y is 0 for dry gas,
grows strictly with the liquid flow and stays below 0.61; so for β ≤ 0.75 the loss is a positive part of the measured difference. -/
theorem C119_wet_loss {mg rhog rhol D Do H g : ℝ} (hm : 0 < mg) (hg : 0 < rhog) (hl : rhog < rhol) (hD : 0 < D) (hDo : 0 < Do) (hg' : 0 < g) (hH : 0 < H) :
    ∃ Y : ℝ → ℝ, (∀ P1 P2 ml, 0 ≤ ml → dP_Reader_Harris_Gallagher_wet_venturi_tube D Do P1 P2 ml mg rhol rhog H g = .ok ((P1 - P2) * (0.0896 + 0.48 * (Do / D) ^ 9 + Y ml))) ∧
      Y 0 = 0 ∧ (∀ ml ml', 0 ≤ ml → ml < ml' → Y ml < Y ml') ∧ (∀ ml, Y ml < 0.61) ∧
      (Do / D ≤ 0.75 → ∀ P1 P2 ml, P2 < P1 → 0 ≤ ml → ∃ w, dP_Reader_Harris_Gallagher_wet_venturi_tube D Do P1 P2 ml mg rhol rhog H g = .ok w ∧ 0 < w ∧ w < P1 - P2) := by
  obtain ⟨F, hF, eF⟩ := wetFroude_ok hm hg hl hD hg'
  have hl' : 0 < rhol := hg.trans hl
  have hr : 0 < √(rhog / rhol) := Real.sqrt_pos.2 (by positivity)
  have hb : 0 < Do / D := by positivity
  obtain ⟨A, hA, eA⟩ : ∃ A > 0, A = Real.exp (-0.28 * F / H) := ⟨_, Real.exp_pos _, rfl⟩
  obtain ⟨M, hM, hM1, eM⟩ : ∃ M > 0, M < 1 ∧ M = Real.exp (-11 * rhog / rhol - 0.045 * F / H) := by
    refine ⟨_, Real.exp_pos _, Real.exp_lt_one_iff.2 ?_, rfl⟩
    have : 0 < 11 * rhog / rhol := by positivity
    have : 0 < 0.045 * F / H := by positivity
    rw [show -11 * rhog / rhol = -(11 * rhog / rhol) by ring]
    linarith
  obtain ⟨Y, eY⟩ : ∃ Y : ℝ → ℝ, ∀ ml, Y ml = 0.61 * M * (1 - Real.exp (-35 * (ml / mg * √(rhog / rhol)) ^ (0.75 : ℝ) * A)) := ⟨_, fun _ => rfl⟩
  have val : ∀ P1 P2 ml, 0 ≤ ml → dP_Reader_Harris_Gallagher_wet_venturi_tube D Do P1 P2 ml mg rhol rhog H g = .ok ((P1 - P2) * (0.0896 + 0.48 * (Do / D) ^ 9 + Y ml)) := by
    intro P1 P2 ml h0
    have hX : 0 ≤ ml / mg * √(rhog / rhol) := by positivity
    unfold dP_Reader_Harris_Gallagher_wet_venturi_tube
    dsimp only
    rw [pdiv_ok hD.ne', Py.ok_bind, wetX_ok hm hg hl, Py.ok_bind, eF, Py.ok_bind, ppow_ok' hX (by norm_num), Py.ok_bind, pdiv_ok hH.ne', Py.ok_bind, pdiv_ok hl'.ne', Py.ok_bind, pdiv_ok hH.ne',
      Py.ok_bind, Py.pure_eq, eY, eM, eA]
    congr 1
    ring
  have lt : ∀ ml, Y ml < 0.61 := by
    intro ml
    have := Real.exp_pos (-35 * (ml / mg * √(rhog / rhol)) ^ (0.75 : ℝ) * A)
    rw [eY]
    nlinarith [mul_pos hM this]
  have mono : ∀ ml ml', 0 ≤ ml → ml < ml' → Y ml < Y ml' := by
    intro ml ml' h0 h1
    have e : (ml / mg * √(rhog / rhol)) ^ (0.75 : ℝ) < (ml' / mg * √(rhog / rhol)) ^ (0.75 : ℝ) := Real.rpow_lt_rpow (by positivity) (by gcongr) (by norm_num)
    have : Real.exp (-35 * (ml' / mg * √(rhog / rhol)) ^ (0.75 : ℝ) * A) < Real.exp (-35 * (ml / mg * √(rhog / rhol)) ^ (0.75 : ℝ) * A) := Real.exp_lt_exp.2 (by nlinarith)
    rw [eY, eY]
    gcongr
  have zero : Y 0 = 0 := by rw [eY]; norm_num
  refine ⟨Y, val, zero, mono, lt, ?_⟩
  intro hb' P1 P2 ml hP h0
  refine ⟨_, val P1 P2 ml h0, ?_, ?_⟩
  · have : 0 ≤ Y ml := by
      rcases h0.eq_or_lt with rfl | h
      · rw [zero]
      · have := mono 0 ml le_rfl h
        linarith
    have : 0 < P1 - P2 := by linarith
    positivity
  · have b9 : (Do / D) ^ 9 ≤ 0.75 ^ 9 := pow_le_pow_left₀ hb.le hb' 9
    norm_num at b9
    have := lt ml
    nlinarith

example : ∃ C, C_Reader_Harris_Gallagher_wet_venturi_tube 5.31926 2.65963 50 800 0.1 0.06 1 9.80665 = .ok C ∧ 0.9537 < C ∧ C ≤ 1 := by
  obtain ⟨⟨φ, -, -, hv⟩, -, h⟩ := C119_wet_discharge (mg := 5.31926) (rhog := 50) (rhol := 800) (D := 0.1) (Do := 0.06) (g := 9.80665) (by norm_num) (by norm_num) (by norm_num) (by norm_num)
    (by norm_num) (by norm_num)
  have e := hv 2.65963 1 (by norm_num) (by norm_num)
  have := h _ _ 1 1 _ _ (by norm_num) le_rfl (by norm_num) (by norm_num) e e
  exact ⟨_, e, this.2.2.1, this.2.1⟩

/-! ### efficiencies -/

/-- C119: the efficiency correlations are never above 0.887 (pumps) and 0.94 (motors) whatever the flow or power, and a flow or power that is not positive raises. -/
theorem C119_efficiency (x : ℝ) :
    (0 < x → ∃ e, Corripio_pump_efficiency x = .ok e ∧ e < 0.887) ∧ (0 < x → ∃ e, Corripio_motor_efficiency x = .ok e ∧ e < 0.94) ∧
    (x ≤ 0 → Corripio_pump_efficiency x = .error .valueError ∧ Corripio_motor_efficiency x = .error .valueError) := by
  refine ⟨fun h => ?_, fun h => ?_, fun h => ?_⟩
  · unfold Corripio_pump_efficiency
    rw [plog_ok (by positivity), Py.ok_bind]
    refine ⟨_, rfl, ?_⟩
    nlinarith [sq_nonneg (Real.log (x * 15850.323) - 10.0146)]
  · unfold Corripio_motor_efficiency
    rw [plog_ok (by positivity), Py.ok_bind]
    refine ⟨_, rfl, ?_⟩
    nlinarith [sq_nonneg (Real.log (x / 745.69987) - 8.7637)]
  · have e : ∀ y : ℝ, y ≤ 0 → plog y = .error .valueError := fun y hy => by unfold plog; rw [if_pos hy]
    unfold Corripio_pump_efficiency Corripio_motor_efficiency
    rw [e _ (by nlinarith), e _ (div_nonpos_of_nonpos_of_nonneg h (by norm_num))]
    exact ⟨rfl, rfl⟩

/-- C119: below one gallon a minute the pump correlation returns an efficiency below −0.31, with no warning. -/
theorem C119_efficiency_negative {Q e : ℝ} (h : 0 < Q) (hQ : Q ≤ 1 / 15850.323) (he : Corripio_pump_efficiency Q = .ok e) : e ≤ -0.316 := by
  unfold Corripio_pump_efficiency at he
  rw [plog_ok (by positivity), Py.ok_bind] at he
  have := Except.ok.inj he
  have hl : Real.log (Q * 15850.323) ≤ 0 := Real.log_nonpos (by positivity) (by
    rw [le_div_iff₀ (by norm_num)] at hQ
    exact hQ)
  rw [← this]
  nlinarith [sq_nonneg (Real.log (Q * 15850.323))]

/-! ### erosional velocity -/

/-- C119: the erosional velocity falls with the square root of density and is proportional to the constant C: for any two densities and constants v √ρ / C is the same. -/
theorem C119_erosional {rho rho' C C' : ℝ} (h : 0 < rho) (h' : 0 < rho') :
    (∃ v v', erosional_velocity rho C = .ok v ∧ erosional_velocity rho' C' = .ok v' ∧ v * √rho * C' = v' * √rho' * C ∧ (0 < C → 0 < v)) ∧
    erosional_velocity 0 C = .error .zeroDivisionError ∧ (∀ r < 0, erosional_velocity r C = .error .valueError) := by
  have hf : (0 : ℝ) < (Const.foot : ℝ) := by norm_num [Const.foot, Const.inch]
  have hlb : (0 : ℝ) < (Const.lb : ℝ) := by norm_num [Const.lb, Const.pound, Const.grain]
  set k : ℝ := (Const.lb : ℝ) / (Const.foot : ℝ) ^ 3 with hk
  have hk0 : 0 < k := by positivity
  have val : ∀ r c : ℝ, 0 < r → erosional_velocity r c = .ok (c / √(r / k) * (Const.foot : ℝ)) := by
    intro r c hr
    have : 0 < r / k := by positivity
    unfold erosional_velocity
    dsimp only
    rw [← hk, psqrt_ok this.le, Py.ok_bind, pdiv_ok (Real.sqrt_pos.2 this).ne', Py.ok_bind]
    rfl
  refine ⟨⟨_, _, val rho C h, val rho' C' h', ?_, fun hC => ?_⟩, ?_, fun r hr => ?_⟩
  · rw [Real.sqrt_div h.le, Real.sqrt_div h'.le]
    have a := Real.sqrt_pos.2 h
    have b := Real.sqrt_pos.2 h'
    have c := Real.sqrt_pos.2 hk0
    field_simp
  · have : 0 < √(rho / k) := Real.sqrt_pos.2 (by positivity)
    positivity
  · unfold erosional_velocity
    dsimp only
    rw [zero_div, psqrt_ok le_rfl, Py.ok_bind, Real.sqrt_zero, pdiv_zero]
    rfl
  · unfold erosional_velocity
    dsimp only
    rw [← hk]
    unfold psqrt
    rw [if_pos (div_neg_of_neg_of_pos hr hk0)]
    rfl

/-! ### isothermal compression -/

/-- C119: isothermal compression work is additive over stages, changes sign when the pressures are exchanged, is zero without a pressure change and is a lower bound for the work of the isentropic
function at the same conditions, for every efficiency up to one. -/
theorem C119_isothermal {P1 P2 P3 T Z : ℝ} (h1 : 0 < P1) (h2 : 0 < P2) (h3 : 0 < P3) :
    (∃ a b c d, isothermal_work_compression P1 P2 T Z = .ok a ∧ isothermal_work_compression P2 P3 T Z = .ok b ∧ isothermal_work_compression P1 P3 T Z = .ok c ∧
      isothermal_work_compression P2 P1 T Z = .ok d ∧ a + b = c ∧ d = -a ∧ (P1 = P2 → a = 0)) ∧
    (∀ k eta W Wi, 1 < k → 0 < eta → eta ≤ 1 → 0 ≤ Z → 0 ≤ T → P1 ≤ P2 → isothermal_work_compression P1 P2 T Z = .ok W →
      Compressible.isentropic_work_compression T k Z (some P1) (some P2) none (some eta) = .ok Wi → W ≤ Wi) := by
  have val : ∀ p q : ℝ, 0 < p → 0 < q → isothermal_work_compression p q T Z = .ok (Z * Compressible.R * T * (Real.log q - Real.log p)) := by
    intro p q hp hq
    unfold isothermal_work_compression
    rw [pdiv_ok hp.ne', Py.ok_bind, plog_ok (by positivity), Py.ok_bind, Real.log_div hq.ne' hp.ne']
    rfl
  refine ⟨⟨_, _, _, _, val _ _ h1 h2, val _ _ h2 h3, val _ _ h1 h3, val _ _ h2 h1, by ring, by ring, fun e => by rw [e]; ring⟩, ?_⟩
  intro k eta W Wi hk he he1 hZ hT hP hW hWi
  rw [val _ _ h1 h2] at hW
  have hx : 0 < P2 / P1 := by positivity
  have hk1 : 0 < k - 1 := by linarith
  have hk0 : 0 < k := by linarith
  simp only [Compressible.isentropic_work_compression, pdiv_ok hk1.ne', pdiv_ok h1.ne', pdiv_ok hk0.ne', Py.ok_bind, ppow_ok hx, pdiv_ok he.ne'] at hWi
  rw [← Except.ok.inj hW, ← Except.ok.inj hWi]
  have hR : (0 : ℝ) < Compressible.R := by unfold Compressible.R; norm_num
  have hlog : 0 ≤ Real.log P2 - Real.log P1 := by have := Real.log_le_log h1 hP; linarith
  have key : (k - 1) / k * (Real.log P2 - Real.log P1) ≤ (P2 / P1) ^ ((k - 1) / k) - 1 := by
    rw [Real.rpow_def_of_pos hx, Real.log_div h2.ne' h1.ne']
    have := Real.add_one_le_exp ((Real.log P2 - Real.log P1) * ((k - 1) / k))
    linarith
  have hZR : 0 ≤ Z * Compressible.R * T := by positivity
  rw [le_div_iff₀ he]
  calc Z * Compressible.R * T * (Real.log P2 - Real.log P1) * eta ≤ Z * Compressible.R * T * (Real.log P2 - Real.log P1) * 1 := by gcongr
    _ = k / (k - 1) * (Z * Compressible.R * T) * ((k - 1) / k * (Real.log P2 - Real.log P1)) := by field_simp
    _ ≤ k / (k - 1) * (Z * Compressible.R * T) * ((P2 / P1) ^ ((k - 1) / k) - 1) := by gcongr
    _ = _ := by ring

example : ∃ a b, isothermal_work_compression 1e5 1e6 300 1 = .ok a ∧ Compressible.isentropic_work_compression 300 1.4 1 (some 1e5) (some 1e6) none (some 0.78) = .ok b ∧ a ≤ b := by
  obtain ⟨⟨a, -, -, -, ha, -⟩, h⟩ := C119_isothermal (P1 := 1e5) (P2 := 1e6) (P3 := 1) (T := 300) (Z := 1) (by norm_num) (by norm_num) (by norm_num)
  have e : ∃ b, Compressible.isentropic_work_compression 300 1.4 1 (some 1e5) (some 1e6) none (some 0.78) = .ok b := by
    simp only [Compressible.isentropic_work_compression]
    rw [pdiv_ok (by norm_num), Py.ok_bind, pdiv_ok (by norm_num), Py.ok_bind, pdiv_ok (by norm_num), Py.ok_bind, ppow_ok (by norm_num), Py.ok_bind, pdiv_ok (by norm_num)]
    exact ⟨_, rfl⟩
  obtain ⟨b, hb⟩ := e
  exact ⟨a, b, ha, hb, h _ _ _ _ (by norm_num) (by norm_num) (by norm_num) (by norm_num) (by norm_num) (by norm_num) ha hb⟩

end Verif.Plates
