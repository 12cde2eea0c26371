import Verif.Model.OpenFlow
import Verif.Lemmas.Tactic
import Verif.Lemmas.InterpTable
import Mathlib.Analysis.SpecialFunctions.Trigonometric.Arctan

/-! C73: Manning and Chezy.  C86: weirs. -/

open Real

noncomputable section

namespace Verif.OpenFlow

/-! ### C73 -/

/-- C73: the two coefficient conversions undo each other -/
theorem C73_inverse {n C Rh : ℝ} (hn : 0 < n) (hC : 0 < C) (hR : 0 < Rh) :
    (∃ c, n_Manning_to_C_Chezy n Rh = .ok c ∧ 0 < c ∧ C_Chezy_to_n_Manning c Rh = .ok n) ∧
    (∃ m, C_Chezy_to_n_Manning C Rh = .ok m ∧ 0 < m ∧ n_Manning_to_C_Chezy m Rh = .ok C) := by
  have hw : 0 < Rh ^ (1 / 6 : ℝ) := by positivity
  unfold n_Manning_to_C_Chezy C_Chezy_to_n_Manning
  constructor
  · py_eval []
    refine ⟨_, rfl, by positivity, ?_⟩
    py_eval []
    refine ok_congr ?_
    field_simp
  · py_eval []
    refine ⟨_, rfl, by positivity, ?_⟩
    py_eval []
    refine ok_congr ?_
    field_simp

/-- C73: both velocity formulas agree when the coefficient is converted, in either direction -/
theorem C73_velocity {Rh S : ℝ} (hR : 0 < Rh) (hS : 0 ≤ S) :
    (∀ n, 0 < n → ∃ C v, n_Manning_to_C_Chezy n Rh = .ok C ∧ V_Chezy Rh S C = .ok v ∧ V_Manning Rh S n = .ok v) ∧
    (∀ C, 0 < C → ∃ n v, C_Chezy_to_n_Manning C Rh = .ok n ∧ V_Manning Rh S n = .ok v ∧ V_Chezy Rh S C = .ok v) := by
  have hw : 0 < Rh ^ (1 / 6 : ℝ) := by positivity
  have hSR : 0 ≤ S * Rh := by positivity
  have key : Rh ^ (2.0 / 3 : ℝ) * √S = Rh ^ (1 / 6 : ℝ) * √(S * Rh) := by
    rw [sqrt_mul hS, sqrt_eq_rpow Rh, show (2.0 / 3 : ℝ) = 1 / 6 + 1 / 2 by norm_num, rpow_add hR]; ring
  constructor
  · intro n hn
    unfold n_Manning_to_C_Chezy V_Chezy V_Manning
    py_eval []
    refine ⟨_, _, rfl, rfl, ?_⟩
    refine ok_congr ?_
    rw [key]; field_simp
  · intro C hC
    unfold C_Chezy_to_n_Manning V_Chezy V_Manning
    py_eval []
    refine ⟨_, _, rfl, ?_, rfl⟩
    rw [pdiv_ok (by positivity)]
    refine ok_congr ?_
    rw [key]; field_simp

/-- C73: division by a zero coefficient and a negative slope raise -/
theorem C73_errors {Rh : ℝ} (hR : 0 < Rh) (n S : ℝ) :
    n_Manning_to_C_Chezy 0 Rh = .error .zeroDivisionError ∧ C_Chezy_to_n_Manning 0 Rh = .error .zeroDivisionError ∧
    (0 ≤ S → V_Manning Rh S 0 = .error .zeroDivisionError) ∧ (S < 0 → V_Manning Rh S n = .error .valueError) := by
  unfold n_Manning_to_C_Chezy C_Chezy_to_n_Manning V_Manning
  refine ⟨?_, ?_, fun h => ?_, fun h => ?_⟩
  · simp
  · py_eval [pdiv_zero]
  · py_eval [pdiv_zero]
  · py_eval [psqrt, if_pos h, Py.error_bind]

example : ∃ C, n_Manning_to_C_Chezy 0.05 5 = .ok C ∧ C_Chezy_to_n_Manning C 5 = .ok 0.05 := by
  obtain ⟨c, h, -, h'⟩ := (C73_inverse (n := 0.05) (C := 1) (Rh := 5) (by norm_num) (by norm_num) (by norm_num)).1
  exact ⟨c, h, h'⟩

/-! ### C86 -/

theorem sg_pos : 0 < √g := sqrt_pos.mpr (by norm_num [g, Const.g])
theorem s2_pos : 0 < √(2 : ℝ) := sqrt_pos.mpr (by norm_num)

theorem ackers_eq {h1 h2 b : ℝ} (h : 0 ≤ h1) (hh : 0 < h2) : Q_weir_rectangular_full_Ackers h1 h2 b = .ok (0.564 * (1 + 0.150 * h1 / h2) * b * √g * (h1 + 0.001) ^ (1.5 : ℝ)) := by
  unfold Q_weir_rectangular_full_Ackers; py_eval []
theorem rehbock_eq {h1 h2 b : ℝ} (h : 0 ≤ h1) (hh : 0 < h2) :
    Q_weir_rectangular_full_Rehbock h1 h2 b = .ok (2 / 3 * √2 * (0.602 + 0.0832 * h1 / h2) * b * √g * (h1 + 0.00125) ^ (1.5 : ℝ)) := by
  unfold Q_weir_rectangular_full_Rehbock; py_eval []
theorem kcf_eq {h1 h2 b : ℝ} (h : 0 ≤ h1) (hh : 0 < h2) :
    Q_weir_rectangular_full_Kindsvater_Carter h1 h2 b = .ok (2 / 3 * √2 * (0.602 + 0.075 * h1 / h2) * (b - 0.001) * √g * (h1 + 0.001) ^ (1.5 : ℝ)) := by
  unfold Q_weir_rectangular_full_Kindsvater_Carter; py_eval []
theorem kc_eq {h1 h2 b : ℝ} (h : 0 ≤ h1) (hh : 0 < h2) :
    Q_weir_rectangular_Kindsvater_Carter h1 h2 b = .ok (0.554 * (1 - 0.0035 * h1 / h2) * (b + 0.0025) * √g * (h1 + 0.0001) ^ (1.5 : ℝ)) := by
  unfold Q_weir_rectangular_Kindsvater_Carter; py_eval []
theorem siaf_eq {h1 h2 b : ℝ} (h : 0 ≤ h1) (hh : 0 < h2) :
    Q_weir_rectangular_full_SIA h1 h2 b =
      .ok (2 / 3 * √2 * (0.615 + 0.000615 / (h1 + 0.0016)) * b * √g * h1 + 0.5 * (h1 / (h1 + h2)) ^ 2 * b * √g * h1 ^ (1.5 : ℝ)) := by
  unfold Q_weir_rectangular_full_SIA
  simp (disch := first | assumption | positivity) only [pdiv_ok, ppow_ok' h (show (0:ℝ) ≤ 1.5 by norm_num), Py.ok_bind, Py.pure_eq]

/-- a discharge `Q` of the head is defined, non-negative and strictly increasing for heads in `[0, top]` -/
def Rating (Q : ℝ → Py ℝ) (top : ℝ) : Prop :=
  (∀ h, 0 ≤ h → h ≤ top → ∃ q, Q h = .ok q ∧ 0 ≤ q) ∧ ∀ h h' q q', 0 ≤ h → h < h' → h' ≤ top → Q h = .ok q → Q h' = .ok q' → q < q'

theorem rating_of {Q : ℝ → Py ℝ} {f : ℝ → ℝ} {top : ℝ} (hQ : ∀ h, 0 ≤ h → h ≤ top → Q h = .ok (f h)) (h0 : ∀ h, 0 ≤ h → h ≤ top → 0 ≤ f h)
    (hm : ∀ h h', 0 ≤ h → h < h' → h' ≤ top → f h < f h') : Rating Q top := by
  refine ⟨fun h g1 g2 => ⟨_, hQ h g1 g2, h0 h g1 g2⟩, fun h h' q q' g1 g2 g3 e e' => ?_⟩
  rw [hQ h g1 (g2.le.trans g3)] at e
  rw [hQ h' (g1.trans g2.le) g3] at e'
  rw [← Except.ok.inj e, ← Except.ok.inj e']
  exact hm h h' g1 g2 g3

/-- C86: the full-width weirs: every head has a discharge and a higher head discharges more, with no upper limit on the head -/
theorem C86_full_width {h2 b : ℝ} (hh : 0 < h2) (hb : 0.001 < b) (top : ℝ) :
    Rating (fun h => Q_weir_rectangular_full_Ackers h h2 b) top ∧ Rating (fun h => Q_weir_rectangular_full_Rehbock h h2 b) top ∧
    Rating (fun h => Q_weir_rectangular_full_Kindsvater_Carter h h2 b) top ∧ Rating (fun h => Q_weir_rectangular_full_SIA h h2 b) top := by
  have hb0 : 0 < b := by norm_num at hb; linarith
  have hb1 : 0 < b - 0.001 := by linarith
  have := sg_pos; have := s2_pos
  refine ⟨rating_of (fun h g _ => ackers_eq g hh) (fun h g _ => by positivity) ?_, rating_of (fun h g _ => rehbock_eq g hh) (fun h g _ => by positivity) ?_,
    rating_of (fun h g _ => kcf_eq g hh) (fun h g _ => by positivity) ?_, rating_of (fun h g _ => siaf_eq g hh) (fun h g _ => by positivity) ?_⟩
  · intro h h' g1 g2 _
    have : (h + 0.001) ^ (1.5 : ℝ) < (h' + 0.001) ^ (1.5 : ℝ) := rpow_lt_rpow (by positivity) (by linarith) (by norm_num)
    gcongr
  · intro h h' g1 g2 _
    have : (h + 0.00125) ^ (1.5 : ℝ) < (h' + 0.00125) ^ (1.5 : ℝ) := rpow_lt_rpow (by positivity) (by linarith) (by norm_num)
    gcongr
  · intro h h' g1 g2 _
    have : (h + 0.001) ^ (1.5 : ℝ) < (h' + 0.001) ^ (1.5 : ℝ) := rpow_lt_rpow (by positivity) (by linarith) (by norm_num)
    gcongr
  · intro h h' g1 g2 _
    have g3 : 0 < h' := by linarith
    have e1 : (0.615 + 0.000615 / (h + 0.0016)) * h < (0.615 + 0.000615 / (h' + 0.0016)) * h' := by
      have : h / (h + 0.0016) ≤ h' / (h' + 0.0016) := by
        rw [div_le_div_iff₀ (by positivity) (by positivity)]; nlinarith
      rw [show (0.615 + 0.000615 / (h + 0.0016)) * h = 0.615 * h + 0.000615 * (h / (h + 0.0016)) by ring,
        show (0.615 + 0.000615 / (h' + 0.0016)) * h' = 0.615 * h' + 0.000615 * (h' / (h' + 0.0016)) by ring]
      linarith
    have e2 : h / (h + h2) ≤ h' / (h' + h2) := by
      rw [div_le_div_iff₀ (by positivity) (by positivity)]; nlinarith
    have e3 : h ^ (1.5 : ℝ) ≤ h' ^ (1.5 : ℝ) := rpow_le_rpow g1 g2.le (by norm_num)
    have e4 : 0.5 * (h / (h + h2)) ^ 2 * b * √g * h ^ (1.5 : ℝ) ≤ 0.5 * (h' / (h' + h2)) ^ 2 * b * √g * h' ^ (1.5 : ℝ) := by gcongr
    have e5 := mul_lt_mul_of_pos_left e1 (show 0 < 2 / 3 * √2 * b * √g by positivity)
    linarith

/-- C86: the contracted rectangular weir, up to heads 170 times the depth below the crest (the documented range ends at 2) -/
theorem C86_contracted {h2 b : ℝ} (hh : 0.0001 ≤ h2) (hb : 0 < b) : Rating (fun h => Q_weir_rectangular_Kindsvater_Carter h h2 b) (170 * h2) := by
  have hh0 : 0 < h2 := by norm_num at hh; linarith
  have := sg_pos
  refine rating_of (fun h g _ => kc_eq g hh0) (fun h g g' => ?_) ?_
  · have : 0.0035 * h / h2 ≤ 1 := by rw [div_le_one hh0]; norm_num; linarith
    have : 0 ≤ 1 - 0.0035 * h / h2 := by linarith
    positivity
  · intro h h' g1 g2 g3
    have hlt : (1 - 0.0035 * h / h2) * (h + 0.0001) ^ (1.5 : ℝ) < (1 - 0.0035 * h' / h2) * (h' + 0.0001) ^ (1.5 : ℝ) := by
      have p' : 0.0035 * h' / h2 ≤ 0.595 := by rw [div_le_iff₀ hh0]; norm_num; linarith
      have p : 0.0035 * h / h2 ≤ 0.595 := by rw [div_le_iff₀ hh0]; norm_num; linarith
      have q' : 0 < 1 - 0.0035 * h' / h2 := by norm_num at p' ⊢; linarith
      have q : 0 < 1 - 0.0035 * h / h2 := by norm_num at p ⊢; linarith
      have e : ∀ {x : ℝ}, 0 < x → x ^ (1.5 : ℝ) = x * √x := by
        intro x hx
        rw [sqrt_eq_rpow, ← rpow_one_add' hx.le (by norm_num)]; norm_num
      rw [e (by positivity), e (by linarith)]
      -- first factor times the height already increases; the square root only helps
      have hr : √(h + 0.0001) < √(h' + 0.0001) := sqrt_lt_sqrt (by positivity) (by linarith)
      have hr0 : 0 < √(h + 0.0001) := sqrt_pos.mpr (by positivity)
      have hx : √(h + 0.0001) ^ 2 = h + 0.0001 := sq_sqrt (by positivity)
      have hx' : √(h' + 0.0001) ^ 2 = h' + 0.0001 := sq_sqrt (by linarith)
      set r := √(h + 0.0001)
      set r' := √(h' + 0.0001)
      set c := 0.0035 / h2 with hcd
      have hc : 0 < c := by positivity
      have hcc : c * 0.0001 ≤ 0.0035 := by rw [hcd, div_mul_eq_mul_div, div_le_iff₀ hh0]; norm_num at hh ⊢; linarith
      have eh : 0.0035 * h / h2 = c * (r ^ 2 - 0.0001) := by rw [hx, hcd]; ring
      have eh' : 0.0035 * h' / h2 = c * (r' ^ 2 - 0.0001) := by rw [hx', hcd]; ring
      rw [← hx, ← hx', eh, eh']
      rw [eh] at p; rw [eh'] at p'
      have m2 : c * r' ^ 2 ≤ 0.5985 := by norm_num at p' hcc ⊢; linarith
      -- (r'^3 - r^3)(1 + c e) > c (r'^5 - r^5)
      have k : c * (r' ^ 4 + r' ^ 3 * r + r' ^ 2 * r ^ 2 + r' * r ^ 3 + r ^ 4) < r' ^ 2 + r' * r + r ^ 2 := by
        have a1 : r' ^ 4 + r' ^ 3 * r + r' ^ 2 * r ^ 2 + r' * r ^ 3 + r ^ 4 ≤ r' ^ 2 * (5 / 3 * (r' ^ 2 + r' * r + r ^ 2)) := by
          have d : 0 ≤ r' - r := by linarith
          have aux : ∀ a u : ℝ, 0 ≤ a → 0 ≤ u → (a + u) ^ 4 + (a + u) ^ 3 * a + (a + u) ^ 2 * a ^ 2 + (a + u) * a ^ 3 + a ^ 4 ≤
              (a + u) ^ 2 * (5 / 3 * ((a + u) ^ 2 + (a + u) * a + a ^ 2)) := by
            intro a u ha hu
            have t1 : 0 ≤ a ^ 3 * u := by positivity
            have t2 : 0 ≤ a ^ 2 * u ^ 2 := by positivity
            have t3 : 0 ≤ a * u ^ 3 := by positivity
            have t4 : 0 ≤ u ^ 4 := by positivity
            nlinarith
          have := aux r (r' - r) hr0.le d
          rwa [add_sub_cancel] at this
        calc c * _ ≤ c * (r' ^ 2 * (5 / 3 * (r' ^ 2 + r' * r + r ^ 2))) := mul_le_mul_of_nonneg_left a1 hc.le
          _ = (c * r' ^ 2) * (5 / 3) * (r' ^ 2 + r' * r + r ^ 2) := by ring
          _ ≤ 0.5985 * (5 / 3) * (r' ^ 2 + r' * r + r ^ 2) := by gcongr
          _ < _ := by
            have : 0 < r' ^ 2 + r' * r + r ^ 2 := by positivity
            norm_num; linarith
      have k2 := mul_lt_mul_of_pos_left k (sub_pos.mpr hr)
      have k3 : 0 < c * 0.0001 * (r' ^ 3 - r ^ 3) := by
        have : r ^ 3 < r' ^ 3 := pow_lt_pow_left₀ hr hr0.le (by norm_num)
        have : 0 < r' ^ 3 - r ^ 3 := by linarith
        positivity
      nlinarith
    have := mul_lt_mul_of_pos_left hlt (show 0 < 0.554 * (b + 0.0025) * √g by positivity)
    beta_reduce
    linarith

/-- C86: triangular weirs with any notch angle below 180 degrees -/
theorem C86_triangular {angle : ℝ} (ha : 0 < angle) (ha' : angle < 180) (top : ℝ) : Rating (fun h => Q_weir_V_Shen h angle) top := by
  have hs : angles_Shen.Pairwise (· < ·) := by norm_num [angles_Shen]
  obtain ⟨C, hC⟩ := interp_total (dy := Cs_Shen) angle hs rfl (by norm_num [angles_Shen]) none none false
  obtain ⟨k, hk⟩ := interp_total (dy := k_Shen) angle hs rfl (by norm_num [angles_Shen]) none none false
  have hCp : 0 < C := by
    have := (interp_bounds (dy := Cs_Shen) angle hs rfl (by norm_num [angles_Shen]) (lo := 0.5) (hi := 0.6) (by norm_num [Cs_Shen]) hC).1
    norm_num at this; linarith
  have hkp : 0 < k := by
    have := (interp_bounds (dy := k_Shen) angle hs rfl (by norm_num [angles_Shen]) (lo := 0.001) (hi := 0.0028) (by norm_num [k_Shen]) hk).1
    norm_num at this; linarith
  have ht : 0 < tan (angle * (π / 180) / 2) := by
    have := pi_pos
    exact tan_pos_of_pos_of_lt_pi_div_two (by positivity) (by nlinarith)
  have := sg_pos
  refine rating_of (f := fun h => C * tan (angle * (π / 180) / 2) * √g * (h + k) ^ (2.5 : ℝ)) (fun h g _ => ?_) (fun h g _ => by positivity) ?_
  · unfold Q_weir_V_Shen
    py_eval [hC, hk]
  · intro h h' g1 g2 _
    have : (h + k) ^ (2.5 : ℝ) < (h' + k) ^ (2.5 : ℝ) := rpow_lt_rpow (by positivity) (by linarith) (by norm_num)
    beta_reduce
    gcongr

/-- C86: discharge is proportional to the channel width for the full-width weirs of Ackers, Rehbock and SIA -/
theorem C86_proportional {h1 h2 b c : ℝ} (h : 0 ≤ h1) (hh : 0 < h2) :
    (∃ q, Q_weir_rectangular_full_Ackers h1 h2 b = .ok q ∧ Q_weir_rectangular_full_Ackers h1 h2 (c * b) = .ok (c * q)) ∧
    (∃ q, Q_weir_rectangular_full_Rehbock h1 h2 b = .ok q ∧ Q_weir_rectangular_full_Rehbock h1 h2 (c * b) = .ok (c * q)) ∧
    (∃ q, Q_weir_rectangular_full_SIA h1 h2 b = .ok q ∧ Q_weir_rectangular_full_SIA h1 h2 (c * b) = .ok (c * q)) := by
  refine ⟨⟨_, ackers_eq h hh, ?_⟩, ⟨_, rehbock_eq h hh, ?_⟩, ⟨_, siaf_eq h hh, ?_⟩⟩
  · rw [ackers_eq h hh]; refine ok_congr ?_; ring
  · rw [rehbock_eq h hh]; refine ok_congr ?_; ring
  · rw [siaf_eq h hh]; refine ok_congr ?_; ring

/-- C86 (finding): the contracted SIA weir uses the whole depth `h1 + h2` where a weir formula has the head, so a channel standing exactly at the crest
(`h1 = 0`) is reported to discharge, and the more the deeper the water below the crest -/
theorem C86_SIA_zero_head : ∀ {h2 b b1 : ℝ}, 0 < h2 → 0 < b → b ≤ b1 → ∃ q, Q_weir_rectangular_SIA 0 h2 b b1 = .ok q ∧ 0 < q ∧ b * h2 ^ (1.5 : ℝ) ≤ q := by
  intro h2 b b1 hh hb hbb
  have hb1 : 0 < b1 := by linarith
  have hr : b / b1 ≤ 1 := (div_le_one hb1).mpr hbb
  have hr0 : 0 < b / b1 := div_pos hb hb1
  have hr2 : (b / b1) ^ 2 ≤ 1 := pow_le_one₀ hr0.le hr
  have hs : 3 ≤ √g := le_sqrt_of_sq_le (by norm_num [g, Const.g])
  have hd : (0 : ℝ) < 0 + h2 := by linarith
  have hz : (0 : ℝ) + 0.0016 ≠ 0 := by norm_num
  unfold Q_weir_rectangular_SIA
  simp only [pdiv_ok hb1.ne', pdiv_ok hz, pdiv_ok hd.ne', ppow_ok hd, Py.ok_bind, Py.pure_eq]
  simp only [zero_add, zero_div, ne_eq, OfNat.ofNat_ne_zero, not_false_eq_true, zero_pow, mul_zero, add_zero, mul_one]
  have hw : 0 < h2 ^ (1.5 : ℝ) := by positivity
  have hk : 0.6 ≤ 0.544 * (1 + 0.064 * (b / b1) ^ 2 + (0.00626 - 0.00519 * (b / b1) ^ 2) / 0.0016) := by
    norm_num; nlinarith
  refine ⟨_, rfl, ?_, ?_⟩
  · have : (0 : ℝ) < 0.544 * (1 + 0.064 * (b / b1) ^ 2 + (0.00626 - 0.00519 * (b / b1) ^ 2) / 0.0016) := by norm_num at hk ⊢; linarith
    positivity
  · have h1 : 1 ≤ 0.544 * (1 + 0.064 * (b / b1) ^ 2 + (0.00626 - 0.00519 * (b / b1) ^ 2) / 0.0016) * √g := by
      norm_num at hk ⊢; nlinarith
    calc b * h2 ^ (1.5 : ℝ) ≤ 0.544 * (1 + 0.064 * (b / b1) ^ 2 + (0.00626 - 0.00519 * (b / b1) ^ 2) / 0.0016) * √g * (b * h2 ^ (1.5 : ℝ)) :=
          le_mul_of_one_le_left (by positivity) h1
      _ = _ := by ring

example : ∃ q q', Q_weir_V_Shen 0.6 100 = .ok q ∧ Q_weir_V_Shen 0.7 100 = .ok q' ∧ q < q' := by
  have hR := C86_triangular (angle := 100) (by norm_num) (by norm_num) 1
  obtain ⟨q, hq, -⟩ := hR.1 0.6 (by norm_num) (by norm_num)
  obtain ⟨q', hq', -⟩ := hR.1 0.7 (by norm_num) (by norm_num)
  exact ⟨q, q', hq, hq', hR.2 _ _ _ _ (by norm_num) (by norm_num) (by norm_num) hq hq'⟩

end Verif.OpenFlow
