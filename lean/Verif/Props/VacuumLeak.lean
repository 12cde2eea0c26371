import Verif.Model.JetPump
import Verif.Lemmas.Tactic
import Mathlib.Analysis.SpecialFunctions.Pow.Real
import Mathlib.Analysis.Complex.ExponentialBounds
import Mathlib.Tactic

/-! C107: air leakage into vacuum vessels (`fluids/jet_pump.py`). -/

open Real

noncomputable section

namespace Verif.JetPump

/-! ### specification: the units of the correlations -/

/-- Cubic feet of a volume in m³. -/
def ft3 (V : ℝ) : ℝ := V / 0.3048 ^ 3
/-- Torr of a vacuum in Pa. -/
def torr (p : ℝ) : ℝ := p / (101325 / 760)
/-- Inches of mercury of a vacuum in Pa. -/
def inHg (p : ℝ) : ℝ := p / (101325 / 760) / 25.4
/-- kg/s of a flow in lb/hr. -/
def lbhr (w : ℝ) : ℝ := w * 0.45359237 / 3600

lemma ft3_eq (V : ℝ) : V * ((Const.foot_cubed_inv : ℚ) : ℝ) = ft3 V := by
  unfold ft3; rw [div_eq_mul_inv]; congr 1
  norm_num [Const.foot_cubed_inv, Const.foot_cubed, Const.foot, Const.inch]

lemma torr_inv_eq : ((Const.torr_inv : ℚ) : ℝ) = (101325 / 760)⁻¹ := by
  norm_num [Const.torr_inv, Const.torr, Const.atm]

lemma mmHg_inv_eq : ((Const.mmHg_inv : ℚ) : ℝ) = (101325 / 760)⁻¹ := by
  norm_num [Const.mmHg_inv, Const.torr, Const.atm]

lemma vac_torr (P Pa : ℝ) : Pa * ((Const.torr_inv : ℚ) : ℝ) - P * ((Const.torr_inv : ℚ) : ℝ) = torr (Pa - P) := by
  rw [torr_inv_eq]; unfold torr; ring

lemma vac_mmHg (P Pa : ℝ) : Pa * ((Const.mmHg_inv : ℚ) : ℝ) - P * ((Const.mmHg_inv : ℚ) : ℝ) = torr (Pa - P) := by
  rw [mmHg_inv_eq]; unfold torr; ring

lemma vac_inHg (P Pa : ℝ) : Pa / ((Const.inchHg : ℚ) : ℝ) - P / ((Const.inchHg : ℚ) : ℝ) = inHg (Pa - P) := by
  have : ((Const.inchHg : ℚ) : ℝ) = 101325 / 760 * 25.4 := by norm_num [Const.inchHg, Const.mmHg, Const.atm, Const.inch]
  rw [this]; unfold inHg; ring

lemma lbhr_eq (w : ℝ) : w * ((Const.lb : ℚ) : ℝ) * ((Const.hour_inv : ℚ) : ℝ) = lbhr w := by
  have h1 : ((Const.lb : ℚ) : ℝ) = 0.45359237 := by norm_num [Const.lb, Const.grain]
  have h2 : ((Const.hour_inv : ℚ) : ℝ) = 1 / 3600 := by norm_num [Const.hour_inv, Const.hour, Const.minute]
  rw [h1, h2]; unfold lbhr; ring

lemma lbhr_mono {a b : ℝ} (h : a ≤ b) : lbhr a ≤ lbhr b := by unfold lbhr; linarith
lemma lbhr_nonneg {a : ℝ} (h : 0 ≤ a) : 0 ≤ lbhr a := by unfold lbhr; positivity
lemma ft3_mono {a b : ℝ} (h : a ≤ b) : ft3 a ≤ ft3 b := by unfold ft3; gcongr
lemma ft3_nonneg {a : ℝ} (h : 0 ≤ a) : 0 ≤ ft3 a := by unfold ft3; positivity
lemma torr_mono {a b : ℝ} (h : a ≤ b) : torr a ≤ torr b := by unfold torr; gcongr
lemma torr_nonneg {a : ℝ} (h : 0 ≤ a) : 0 ≤ torr a := by unfold torr; positivity

/-! ### Ryans and Croll -/

/-- The factor of `V^0.6` (lb/hr, ft³) at a vacuum of `p` torr, as documented. -/
def ryans (p : ℝ) : ℝ := if p < 10 then 0.026 * p ^ (0.34 : ℝ) else if p < 100 then 0.032 * p ^ (0.26 : ℝ) else 0.106

/-- C107: for any vessel below atmospheric pressure the Ryans-Croll leakage is the documented three-band formula in lb/hr, torr of vacuum and cubic feet. -/
theorem C107_Ryans_Croll {V P Pa : ℝ} (hV : 0 ≤ V) (hP : P ≤ Pa) :
    vacuum_air_leakage_Ryans_Croll V P Pa = .ok (lbhr (ryans (torr (Pa - P)) * ft3 V ^ (0.6 : ℝ))) := by
  have h0 := torr_nonneg (sub_nonneg.2 hP)
  have hv := ft3_nonneg hV
  unfold vacuum_air_leakage_Ryans_Croll ryans
  simp only [ft3_eq, vac_torr]
  generalize torr (Pa - P) = p at *
  rw [ppow_ok' hv (by norm_num), ppow_ok' h0 (by norm_num), ppow_ok' h0 (by norm_num)]
  simp only [Py.ok_bind, Py.pure_eq]
  split_ifs <;> simp only [Py.ok_bind, lbhr_eq]

example : vacuum_air_leakage_Ryans_Croll 10 10000 101325 = .ok (lbhr (0.106 * ft3 10 ^ (0.6 : ℝ))) := by
  rw [C107_Ryans_Croll (by norm_num) (by norm_num)]
  have : ryans (torr (101325 - 10000)) = 0.106 := by
    unfold ryans torr; rw [if_neg (by norm_num), if_neg (by norm_num)]
  rw [this]

/-- C107: a deeper vacuum or a larger vessel never leaks less, across the band boundaries at 10 and 100 torr too. -/
theorem C107_Ryans_Croll_mono {V V' P P' Pa : ℝ} (hV : 0 ≤ V) (hVV : V ≤ V') (hP : P ≤ Pa) (hPP : P' ≤ P) :
    ∃ w w', vacuum_air_leakage_Ryans_Croll V P Pa = .ok w ∧ vacuum_air_leakage_Ryans_Croll V' P' Pa = .ok w' ∧ 0 ≤ w ∧ w ≤ w' := by
  refine ⟨_, _, C107_Ryans_Croll hV hP, C107_Ryans_Croll (hV.trans hVV) (hPP.trans hP), ?_⟩
  have hp : torr (Pa - P) ≤ torr (Pa - P') := torr_mono (by linarith)
  have h0 := torr_nonneg (sub_nonneg.2 hP)
  have hv := ft3_nonneg hV
  have hvv := ft3_mono hVV
  generalize torr (Pa - P) = p at *
  generalize torr (Pa - P') = p' at *
  have b1 : (0.026 : ℝ) * 10 ^ (0.34 : ℝ) ≤ 0.032 * 10 ^ (0.26 : ℝ) := by
    have e : (10 : ℝ) ^ (0.34 : ℝ) = 10 ^ (0.26 : ℝ) * 10 ^ (2 / 25 : ℝ) := by
      rw [← Real.rpow_add (by norm_num)]; norm_num
    have k : (10 : ℝ) ^ (2 / 25 : ℝ) ≤ 16 / 13 := by
      rw [div_eq_mul_inv, Real.rpow_mul (by norm_num), Real.rpow_inv_le_iff_of_pos (by positivity) (by norm_num) (by norm_num)]
      norm_num
    rw [e]
    have : (0 : ℝ) < 10 ^ (0.26 : ℝ) := by positivity
    nlinarith
  have b2 : (0.032 : ℝ) * 100 ^ (0.26 : ℝ) ≤ 0.106 := by
    have k : (100 : ℝ) ^ (0.26 : ℝ) ≤ 106 / 32 := by
      rw [show (0.26 : ℝ) = 13 / 50 by norm_num, div_eq_mul_inv, Real.rpow_mul (by norm_num), Real.rpow_inv_le_iff_of_pos (by positivity) (by norm_num) (by norm_num)]
      norm_num
    nlinarith
  have nn : ∀ x : ℝ, 0 ≤ x → 0 ≤ ryans x := by
    intro x hx; unfold ryans; split_ifs <;> positivity
  have mono : ryans p ≤ ryans p' := by
    unfold ryans
    have m1 : ∀ x y : ℝ, 0 ≤ x → x ≤ y → x ^ (0.34 : ℝ) ≤ y ^ (0.34 : ℝ) := fun x y hx hxy => Real.rpow_le_rpow hx hxy (by norm_num)
    have m2 : ∀ x y : ℝ, 0 ≤ x → x ≤ y → x ^ (0.26 : ℝ) ≤ y ^ (0.26 : ℝ) := fun x y hx hxy => Real.rpow_le_rpow hx hxy (by norm_num)
    split_ifs with c1 c2 c3 c4 c5 c6
    · have := m1 p p' h0 hp; linarith
    · have := m1 p 10 h0 c1.le; have := m2 10 p' (by norm_num) (not_lt.1 c2); linarith
    · have := m1 p 10 h0 c1.le; have := m2 10 100 (by norm_num) (by norm_num); linarith
    · linarith
    · have := m2 p p' h0 hp; linarith
    · have := m2 p 100 h0 c4.le; linarith
    · linarith
    · linarith
    · exact le_rfl
  have hm : ft3 V ^ (0.6 : ℝ) ≤ ft3 V' ^ (0.6 : ℝ) := Real.rpow_le_rpow hv hvv (by norm_num)
  have hn : 0 ≤ ft3 V ^ (0.6 : ℝ) := by positivity
  exact ⟨lbhr_nonneg (mul_nonneg (nn p h0) hn), lbhr_mono (mul_le_mul mono hm hn (nn p' (h0.trans hp)))⟩

/-- C107: above atmospheric pressure the Ryans-Croll formula has no real value: the result is a complex number, not an exception. -/
theorem C107_Ryans_Croll_above {V P Pa : ℝ} (hP : Pa < P) : vacuum_air_leakage_Ryans_Croll V P Pa = .error .complexResult := by
  have h0 : torr (Pa - P) < 0 := by unfold torr; exact div_neg_of_neg_of_pos (by linarith) (by norm_num)
  unfold vacuum_air_leakage_Ryans_Croll
  simp only [ft3_eq, vac_torr]
  generalize torr (Pa - P) = p at *
  have hc : ppow p 0.34 = .error .complexResult := by
    unfold ppow
    rw [if_neg (by rintro ⟨h, -⟩; linarith), if_pos]
    refine ⟨h0, ?_⟩
    rintro ⟨n, hn⟩
    have h1 : (0 : ℝ) < n := by rw [hn]; norm_num
    have h2 : (n : ℝ) < 1 := by rw [hn]; norm_num
    have h1 : 0 < n := by exact_mod_cast h1
    have h2 : n < 1 := by exact_mod_cast h2
    omega
  rw [if_pos (by linarith), hc]
  rfl

/-! ### Seider -/

/-- The bracket of Seider's formula at a vacuum of `p` torr. -/
def seider (p : ℝ) : ℝ := 0.0289 + 0.03088 * log p - 0.0005733 * log p ^ 2

/-- C107: below atmospheric pressure the Seider leakage is `5 + (0.0289 + 0.03088 ln p - 0.0005733 (ln p)²) V^0.66` lb/hr (the documentation prints 0.0298); at or above it, ValueError. -/
theorem C107_Seider {V P Pa : ℝ} (hV : 0 ≤ V) :
    (P < Pa → vacuum_air_leakage_Seider V P Pa = .ok (lbhr (5 + seider (torr (Pa - P)) * ft3 V ^ (0.66 : ℝ)))) ∧
    (Pa ≤ P → vacuum_air_leakage_Seider V P Pa = .error .valueError) := by
  have hv := ft3_nonneg hV
  unfold vacuum_air_leakage_Seider
  simp only [ft3_eq, vac_torr]
  constructor
  · intro hP
    have h0 : 0 < torr (Pa - P) := by unfold torr; exact div_pos (by linarith) (by norm_num)
    rw [plog_ok h0, Py.ok_bind, ppow_ok' hv (by norm_num), Py.ok_bind, lbhr_eq]
    unfold seider
    rw [show ∀ L : ℝ, 0.0005733 * L * L = 0.0005733 * L ^ 2 from fun L => by ring]
    rfl
  · intro hP
    have h0 : torr (Pa - P) ≤ 0 := by unfold torr; exact div_nonpos_of_nonpos_of_nonneg (by linarith) (by norm_num)
    rw [plog, if_pos h0]; rfl

/-- C107: for a vacuum between 1 torr and ten million torr a deeper vacuum or a larger vessel never leaks less, and the leakage is at least 5 lb/hr. -/
theorem C107_Seider_mono {V V' P P' Pa : ℝ} (hV : 0 ≤ V) (hVV : V ≤ V') (h1 : 1 ≤ torr (Pa - P)) (hPP : P' ≤ P) (h2 : torr (Pa - P') ≤ 1e7) :
    ∃ w w', vacuum_air_leakage_Seider V P Pa = .ok w ∧ vacuum_air_leakage_Seider V' P' Pa = .ok w' ∧ lbhr 5 ≤ w ∧ w ≤ w' := by
  have hP : P < Pa := by
    by_contra h
    have : torr (Pa - P) ≤ 0 := by unfold torr; exact div_nonpos_of_nonpos_of_nonneg (by linarith [not_lt.1 h]) (by norm_num)
    linarith
  refine ⟨_, _, (C107_Seider hV).1 hP, (C107_Seider (hV.trans hVV)).1 (by linarith), ?_⟩
  have hp : torr (Pa - P) ≤ torr (Pa - P') := torr_mono (by linarith)
  have hv := ft3_nonneg hV
  have hvv := ft3_mono hVV
  generalize torr (Pa - P) = p at *
  generalize torr (Pa - P') = p' at *
  have l0 : 0 ≤ log p := Real.log_nonneg h1
  have l1 : log p ≤ log p' := Real.log_le_log (by linarith) hp
  have l2 : log p' ≤ 20 := by
    rw [Real.log_le_iff_le_exp (by linarith)]
    have e : Real.exp 20 = Real.exp 1 ^ 20 := by rw [← Real.exp_nat_mul]; norm_num
    rw [e]
    have h := Real.exp_one_gt_d9
    have : (2.7 : ℝ) ^ 20 ≤ Real.exp 1 ^ 20 := by gcongr; linarith
    have : (1e7 : ℝ) ≤ 2.7 ^ 20 := by norm_num
    linarith
  have s1 : seider p ≤ seider p' := by
    unfold seider
    nlinarith
  have s0 : 0 ≤ seider p := by
    unfold seider
    nlinarith
  have hm : ft3 V ^ (0.66 : ℝ) ≤ ft3 V' ^ (0.66 : ℝ) := Real.rpow_le_rpow hv hvv (by norm_num)
  have hn : 0 ≤ ft3 V ^ (0.66 : ℝ) := by positivity
  refine ⟨lbhr_mono ?_, lbhr_mono ?_⟩
  · have := mul_nonneg s0 hn; linarith
  · have := mul_le_mul s1 hm hn (s0.trans s1); linarith

example : 1 ≤ torr (101325 - 10000) ∧ torr (101325 - 0) ≤ 1e7 := by unfold torr; norm_num

/-- C107: near atmospheric pressure (a vacuum below 1/3 torr) the Seider leakage of a large enough vessel is negative. -/
theorem C107_Seider_negative {P Pa : ℝ} (hP : P < Pa) (h : torr (Pa - P) ≤ 1 / 3) :
    ∃ V w, 0 < V ∧ vacuum_air_leakage_Seider V P Pa = .ok w ∧ w < 0 := by
  have h0 : 0 < torr (Pa - P) := by unfold torr; exact div_pos (by linarith) (by norm_num)
  have hs : seider (torr (Pa - P)) < 0 := by
    have hl : log (torr (Pa - P)) ≤ -1 := by
      rw [Real.log_le_iff_le_exp h0, Real.exp_neg]
      have := Real.exp_one_lt_three
      have h3 : (1 / 3 : ℝ) ≤ (Real.exp 1)⁻¹ := by
        rw [one_div]; gcongr
      linarith
    unfold seider
    nlinarith [sq_nonneg (log (torr (Pa - P)))]
  generalize hk : seider (torr (Pa - P)) = k at *
  set x : ℝ := 6 / -k with hx
  have hx0 : 0 < x := div_pos (by norm_num) (by linarith)
  refine ⟨x ^ (0.66 : ℝ)⁻¹ * 0.3048 ^ 3, lbhr (5 + k * x), by positivity, ?_, ?_⟩
  · rw [(C107_Seider (by positivity)).1 hP, hk]
    have : ft3 (x ^ (0.66 : ℝ)⁻¹ * 0.3048 ^ 3) ^ (0.66 : ℝ) = x := by
      unfold ft3
      rw [mul_div_assoc, div_self (by norm_num), mul_one, ← Real.rpow_mul hx0.le, inv_mul_cancel₀ (by norm_num), Real.rpow_one]
    rw [this]
  · have : k * x = -6 := by have := hs.ne; rw [hx]; field_simp
    rw [this]; unfold lbhr; norm_num

/-! ### HEI 2633 -/

/-- The fits `ln W = a ln V + b` (lb/hr, ft³) for a vacuum of `p` mmHg: up to 1, 1-3, 3-20, 20-90 and above 90. -/
def HeiFit (p a b : ℝ) : Prop :=
  (p ≤ 1 → a = 0.6667235169997174 ∧ b = -3.71246576520232) ∧ (1 < p ∧ p ≤ 3 → a = 0.664489357445796 ∧ b = -3.0147277548691274) ∧
  (3 < p ∧ p ≤ 20 → a = 0.6656780453394583 ∧ b = -2.34007321331419) ∧ (20 < p ∧ p ≤ 90 → a = 0.663080000739313 ∧ b = -1.9278288516732665) ∧
  (90 < p → a = 0.6658471905826482 ∧ b = -1.6641585778506027)

lemma heiFit_coeffs (p : ℝ) : HeiFit p (HEI_coeffs p).1 (HEI_coeffs p).2 := by
  unfold HeiFit HEI_coeffs
  split_ifs <;> refine ⟨fun h => ?_, fun h => ?_, fun h => ?_, fun h => ?_, fun h => ?_⟩ <;>
    first | exact ⟨rfl, rfl⟩ | (exfalso; linarith) | (exfalso; obtain ⟨h, h'⟩ := h; linarith)

/-- C107: the HEI 2633 leakage never fails, whatever the pressure and volume; it is positive, and vessels below 10 ft³ count as 10 ft³. -/
theorem C107_HEI (V P Pa : ℝ) :
    ∃ w a b, vacuum_air_leakage_HEI2633 V P Pa = .ok w ∧ 0 < w ∧ HeiFit (torr (Pa - P)) a b ∧ w = lbhr (max (ft3 V) 10 ^ a * Real.exp b) := by
  have e : (if ft3 V < 10 then (10 : ℝ) else ft3 V) = max (ft3 V) 10 := by
    split_ifs with h
    · exact (max_eq_right h.le).symm
    · exact (max_eq_left (not_lt.1 h)).symm
  have hm : 0 < max (ft3 V) 10 := lt_of_lt_of_le (by norm_num) (le_max_right _ _)
  refine ⟨_, _, _, ?_, ?_, heiFit_coeffs _, rfl⟩
  · unfold vacuum_air_leakage_HEI2633
    simp only [ft3_eq, vac_mmHg, e]
    rw [plog_ok hm, Py.ok_bind, lbhr_eq, Real.rpow_def_of_pos hm, ← Real.exp_add, add_comm]
    rfl
  · unfold lbhr; positivity

/-- C107: a deeper vacuum or a larger vessel never leaks less, across all five fits, up to volumes of `exp 100` ft³. -/
theorem C107_HEI_mono {V V' P P' Pa : ℝ} (hVV : V ≤ V') (hV' : ft3 V' ≤ Real.exp 100) (hPP : P' ≤ P) :
    ∃ w w', vacuum_air_leakage_HEI2633 V P Pa = .ok w ∧ vacuum_air_leakage_HEI2633 V' P' Pa = .ok w' ∧ w ≤ w' := by
  obtain ⟨w, a, b, hw, -, hf, e⟩ := C107_HEI V P Pa
  obtain ⟨w', a', b', hw', -, hf', e'⟩ := C107_HEI V' P' Pa
  refine ⟨w, w', hw, hw', ?_⟩
  rw [e, e']
  apply lbhr_mono
  have hp : torr (Pa - P) ≤ torr (Pa - P') := torr_mono (by linarith)
  have hvv := ft3_mono hVV
  have hm : 0 < max (ft3 V) 10 := lt_of_lt_of_le (by norm_num) (le_max_right _ _)
  have hm' : 0 < max (ft3 V') 10 := lt_of_lt_of_le (by norm_num) (le_max_right _ _)
  have hmm : max (ft3 V) 10 ≤ max (ft3 V') 10 := max_le_max hvv le_rfl
  have hL : log (max (ft3 V) 10) ≤ log (max (ft3 V') 10) := Real.log_le_log hm hmm
  have h100 : log (max (ft3 V') 10) ≤ 100 := by
    rw [Real.log_le_iff_le_exp hm']
    refine max_le hV' ?_
    have : (10 : ℝ) ≤ 100 + 1 := by norm_num
    exact this.trans (Real.add_one_le_exp 100)
  have hL0 : 0 ≤ log (max (ft3 V) 10) := Real.log_nonneg (le_trans (by norm_num) (le_max_right _ _))
  rw [Real.rpow_def_of_pos hm, Real.rpow_def_of_pos hm', ← Real.exp_add, ← Real.exp_add, Real.exp_le_exp]
  generalize log (max (ft3 V) 10) = L at *
  generalize log (max (ft3 V') 10) = L' at *
  generalize torr (Pa - P) = p at *
  generalize torr (Pa - P') = p' at *
  have cases5 : ∀ q : ℝ, q ≤ 1 ∨ (1 < q ∧ q ≤ 3) ∨ (3 < q ∧ q ≤ 20) ∨ (20 < q ∧ q ≤ 90) ∨ 90 < q := by
    intro q
    rcases le_or_gt q 1 with h | h
    · exact Or.inl h
    rcases le_or_gt q 3 with h3 | h3
    · exact Or.inr (Or.inl ⟨h, h3⟩)
    rcases le_or_gt q 20 with h4 | h4
    · exact Or.inr (Or.inr (Or.inl ⟨h3, h4⟩))
    rcases le_or_gt q 90 with h5 | h5
    · exact Or.inr (Or.inr (Or.inr (Or.inl ⟨h4, h5⟩)))
    · exact Or.inr (Or.inr (Or.inr (Or.inr h5)))
  have split : ∀ {p a b : ℝ}, HeiFit p a b →
      (p ≤ 1 ∧ a = 0.6667235169997174 ∧ b = -3.71246576520232) ∨ (1 < p ∧ p ≤ 3 ∧ a = 0.664489357445796 ∧ b = -3.0147277548691274) ∨
      (3 < p ∧ p ≤ 20 ∧ a = 0.6656780453394583 ∧ b = -2.34007321331419) ∨ (20 < p ∧ p ≤ 90 ∧ a = 0.663080000739313 ∧ b = -1.9278288516732665) ∨
      (90 < p ∧ a = 0.6658471905826482 ∧ b = -1.6641585778506027) := by
    rintro p a b ⟨f1, f2, f3, f4, f5⟩
    rcases cases5 p with h | ⟨h, h'⟩ | ⟨h, h'⟩ | ⟨h, h'⟩ | h
    · exact Or.inl ⟨h, f1 h⟩
    · exact Or.inr (Or.inl ⟨h, h', f2 ⟨h, h'⟩⟩)
    · exact Or.inr (Or.inr (Or.inl ⟨h, h', f3 ⟨h, h'⟩⟩))
    · exact Or.inr (Or.inr (Or.inr (Or.inl ⟨h, h', f4 ⟨h, h'⟩⟩)))
    · exact Or.inr (Or.inr (Or.inr (Or.inr ⟨h, f5 h⟩)))
  rcases split hf with ⟨c, rfl, rfl⟩ | ⟨c, c', rfl, rfl⟩ | ⟨c, c', rfl, rfl⟩ | ⟨c, c', rfl, rfl⟩ | ⟨c, rfl, rfl⟩ <;>
    rcases split hf' with ⟨d, rfl, rfl⟩ | ⟨d, d', rfl, rfl⟩ | ⟨d, d', rfl, rfl⟩ | ⟨d, d', rfl, rfl⟩ | ⟨d, rfl, rfl⟩ <;>
    first | (exfalso; linarith) | nlinarith

example : ft3 10 ≤ Real.exp 100 := by
  have h := Real.add_one_le_exp (100 : ℝ)
  have h2 : Real.exp 100 = Real.exp 50 * Real.exp 50 := by rw [← Real.exp_add]; norm_num
  have h3 := Real.add_one_le_exp (50 : ℝ)
  unfold ft3
  rw [h2]
  have : (51 : ℝ) * 51 ≤ Real.exp 50 * Real.exp 50 := by gcongr <;> linarith
  norm_num at *
  linarith

/-! ### Coker and Worthington -/

/-- C107: the Coker-Worthington table: the largest entry whose vacuum (inches of mercury) is exceeded, in lb/hr. -/
theorem C107_Coker (P Pa : ℝ) (c : Bool) :
    vacuum_air_leakage_Coker_Worthington P Pa c = lbhr (
      if inHg (Pa - P) ≤ 3 then (if c then 20 else 10) else if inHg (Pa - P) ≤ 5 then (if c then 25 else 20)
      else if inHg (Pa - P) ≤ 8 then (if c then 30 else 25) else (if c then 40 else 30)) := by
  unfold vacuum_air_leakage_Coker_Worthington
  simp only [vac_inHg, lbhr_eq]
  generalize inHg (Pa - P) = p
  congr 1
  cases c <;> simp only [if_true, Bool.false_eq_true, if_false] <;> split_ifs <;> first | rfl | (exfalso; linarith)

/-- C107: a deeper vacuum never leaks less, and the conservative column is never below the other. -/
theorem C107_Coker_mono {P P' Pa : ℝ} (h : P' ≤ P) (c : Bool) :
    vacuum_air_leakage_Coker_Worthington P Pa c ≤ vacuum_air_leakage_Coker_Worthington P' Pa c ∧
    vacuum_air_leakage_Coker_Worthington P Pa false < vacuum_air_leakage_Coker_Worthington P Pa true := by
  have hp : inHg (Pa - P) ≤ inHg (Pa - P') := by unfold inHg; gcongr
  simp only [C107_Coker]
  constructor
  · generalize inHg (Pa - P) = p at *
    generalize inHg (Pa - P') = p' at *
    apply lbhr_mono
    cases c <;> simp only [if_true, Bool.false_eq_true, if_false] <;> split_ifs <;> linarith
  · generalize inHg (Pa - P) = p at *
    unfold lbhr
    simp only [if_true, Bool.false_eq_true, if_false]
    split_ifs <;> norm_num

end Verif.JetPump
