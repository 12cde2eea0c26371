import Verif.Lemmas.Friction
import Mathlib.Analysis.SpecialFunctions.Log.Deriv
import Mathlib.Analysis.Complex.ExponentialBounds

/-! On the turbulent range (2040 ≤ Re, 0 ≤ eD ≤ 0.05) the correlations return a value. -/

namespace Verif.Friction
open Real
open Verif.Spec.Friction (lg fromInvSqrt fanning)

theorem plog10_ok' {x : ℝ} (h : 0 < x) : plog10 x = .ok (lg x) := plog10_ok h

theorem log_ten_gt : 2 < log 10 := by
  rw [lt_log_iff_exp_lt (by norm_num), show (2 : ℝ) = 1 + 1 by norm_num, exp_add]
  nlinarith [exp_one_lt_d9, exp_pos 1]

theorem log_ten_pos : 0 < log 10 := by linarith [log_ten_gt]

theorem lg_neg {x : ℝ} (h0 : 0 < x) (h1 : x < 1) : lg x < 0 := div_neg_of_neg_of_pos (log_neg h0 h1) log_ten_pos
theorem lg_pos {x : ℝ} (h1 : 1 < x) : 0 < lg x := div_pos (log_pos h1) log_ten_pos
theorem sq_ne {y : ℝ} (h : y ≠ 0) : y * y ≠ 0 := mul_self_ne_zero.mpr h

/-- the turbulent range -/
structure Turb (Re e : ℝ) : Prop where
  re : 2040 ≤ Re
  e0 : 0 ≤ e
  e1 : e ≤ 0.05

variable {Re e : ℝ}

theorem Turb.pos (h : Turb Re e) : 0 < Re := by linarith [h.re]

theorem Turb.div_le (h : Turb Re e) {c : ℝ} (hc : 0 ≤ c) : c / Re ≤ c / 2040 :=
  div_le_div_of_nonneg_left hc (by norm_num) h.re

theorem sqrt_bound {x : ℝ} {p b : ℝ} (h0 : 0 ≤ x) (hb : 0 ≤ b) (hx : x ≤ b ^ 2) (hb1 : b ≤ 1) (hp : 1 / 2 ≤ p) : x ^ p ≤ b := by
  have hp0 : 0 ≤ p := by linarith
  rcases h0.eq_or_lt with rfl | h0
  · rw [zero_rpow (by linarith)]; exact hb
  · have h1 : x ≤ 1 := hx.trans (by nlinarith)
    calc x ^ p ≤ x ^ (1 / 2 : ℝ) := rpow_le_rpow_of_exponent_ge h0 h1 hp
      _ = √x := (sqrt_eq_rpow x).symm
      _ ≤ √(b ^ 2) := sqrt_le_sqrt hx
      _ = b := sqrt_sq hb

theorem Turb.pw (h : Turb Re e) {c p : ℝ} (hc : 0 ≤ c) (hc' : c ≤ 30) (hp : 1 / 2 ≤ p) : (c / Re) ^ p ≤ 0.13 := by
  apply sqrt_bound (div_nonneg hc h.pos.le) (by norm_num) _ (by norm_num) hp
  refine (h.div_le hc).trans ?_
  rw [div_le_iff₀ (by norm_num)]; nlinarith

theorem Turb.ew (h : Turb Re e) {p : ℝ} (hp : 1 / 2 ≤ p) : e ^ p ≤ 0.23 :=
  sqrt_bound h.e0 (by norm_num) (by nlinarith [h.e1]) (by norm_num) hp

/-- the logarithm of something not too small -/
theorem lg_bound (hRe : 0 < Re) {c x : ℝ} (hc : 0 < c) (hx : c / Re ≤ x) : -lg x ≤ Re / (2 * c) := by
  have h0 : 0 < c / Re := by positivity
  have h1 : log (c / Re) ≤ log x := log_le_log h0 hx
  have h2 : log (Re / c) ≤ Re / c - 1 := log_le_sub_one_of_pos (by positivity)
  have h3 : log (c / Re) = -log (Re / c) := by rw [← log_inv, inv_div]
  have h4 : 0 < Re / c := by positivity
  have h5 : -log x ≤ Re / c := by linarith
  unfold lg
  rw [← neg_div, div_le_iff₀ log_ten_pos, show Re / (2 * c) = Re / c / 2 by field_simp]
  nlinarith [log_ten_gt]

theorem lg_tenth {x : ℝ} (h0 : 0 < x) (h1 : x ≤ 1 / 10) : lg x ≤ -1 := by
  unfold lg
  rw [div_le_iff₀ log_ten_pos]
  have := log_le_log h0 h1
  rw [one_div, log_inv] at this
  linarith

theorem lg_fifth {x : ℝ} (h0 : 0 < x) (h1 : x ^ 5 ≤ 1 / 10 ^ 4) : lg x ≤ -4 / 5 := by
  unfold lg
  rw [div_le_iff₀ log_ten_pos]
  have := log_le_log (by positivity) h1
  rw [one_div, log_inv, log_pow, log_pow] at this
  push_cast at this
  linarith

/-- run, with the definedness facts at hand -/
macro "fr_ok" "[" ls:Lean.Parser.Tactic.simpLemma,* "]" : tactic => `(tactic|
  (simp (disch := first | assumption | positivity) only
    [pdiv_ok, ppow_ok, ppow_ok', psqrt_ok, plog_ok, plog10_ok', Py.ok_bind, Py.pure_eq, $ls,*]
   exact ⟨_, rfl⟩))

theorem ok_Moody (h : Turb Re e) : ∃ f, Moody Re e = .ok f := by
  have hRe := h.pos
  fr_ok [Moody, pcbrt]

theorem ok_Alshul (h : Turb Re e) : ∃ f, Alshul_1952 Re e = .ok f := by
  have hRe := h.pos
  have h0 := h.e0
  fr_ok [Alshul_1952]

theorem ok_Wood (h : Turb Re e) : ∃ f, Wood_1966 Re e = .ok f := by
  have hRe := h.pos
  have h0 := h.e0
  fr_ok [Wood_1966]

theorem ok_Churchill_1973 (h : Turb Re e) : ∃ f, Churchill_1973 Re e = .ok f := by
  have hRe := h.pos
  have h0 := h.e0
  have a1 : 0 < e * (1 / 3.7) + (7 / Re) ^ (0.9 : ℝ) := by positivity
  have a2 : e * (1 / 3.7) + (7 / Re) ^ (0.9 : ℝ) < 1 := by
    linarith [h.pw (c := 7) (p := 0.9) (by norm_num) (by norm_num) (by norm_num), h.e1]
  have a3 := sq_ne (y := -2 * lg (e * (1 / 3.7) + (7 / Re) ^ (0.9 : ℝ))) (by linarith [lg_neg a1 a2])
  fr_ok [Churchill_1973]

theorem ok_Eck_1973 (h : Turb Re e) : ∃ f, Eck_1973 Re e = .ok f := by
  have hRe := h.pos
  have h0 := h.e0
  have h1 := h.e1
  have a1 : 0 < e * (1 / 3.715) + 15 / Re := by positivity
  have a2 : e * (1 / 3.715) + 15 / Re < 1 := by linarith [h.div_le (c := 15) (by norm_num)]
  have a3 := sq_ne (y := -2 * lg (e * (1 / 3.715) + 15 / Re)) (by linarith [lg_neg a1 a2])
  fr_ok [Eck_1973]

theorem ok_Jain_1976 (h : Turb Re e) : ∃ f, Jain_1976 Re e = .ok f := by
  have hRe := h.pos
  have h0 := h.e0
  have h1 := h.e1
  have a1 : 0 < e + (29.843 / Re) ^ (0.9 : ℝ) := by positivity
  have a2 : e + (29.843 / Re) ^ (0.9 : ℝ) < 1 := by
    linarith [h.pw (c := 29.843) (p := 0.9) (by norm_num) (by norm_num) (by norm_num)]
  have a3 := sq_ne (y := 2.28 - 4 * lg (e + (29.843 / Re) ^ (0.9 : ℝ))) (by linarith [lg_neg a1 a2])
  fr_ok [Jain_1976]

theorem ok_Swamee_Jain_1976 (h : Turb Re e) : ∃ f, Swamee_Jain_1976 Re e = .ok f := by
  have hRe := h.pos
  have h0 := h.e0
  have h1 := h.e1
  have a1 : 0 < (6.97 / Re) ^ (0.9 : ℝ) + e * (1 / 3.7) := by positivity
  have a2 : (6.97 / Re) ^ (0.9 : ℝ) + e * (1 / 3.7) < 1 := by
    linarith [h.pw (c := 6.97) (p := 0.9) (by norm_num) (by norm_num) (by norm_num)]
  have a3 := sq_ne (y := -4 * lg ((6.97 / Re) ^ (0.9 : ℝ) + e * (1 / 3.7))) (by linarith [lg_neg a1 a2])
  fr_ok [Swamee_Jain_1976]

theorem ok_Churchill_1977 (h : Turb Re e) : ∃ f, Churchill_1977 Re e = .ok f := by
  have hRe := h.pos
  have h0 := h.e0
  have h1 := h.e1
  have a1 : 0 < (7 / Re) ^ (0.9 : ℝ) + 0.27 * e := by positivity
  have a2 : 0 < (2.457 * log ((7 / Re) ^ (0.9 : ℝ) + 0.27 * e)) ^ 16 + (37530 / Re) ^ 16 := by positivity
  fr_ok [Churchill_1977]

theorem ok_Chen_1979 (h : Turb Re e) : ∃ f, Chen_1979 Re e = .ok f := by
  have hRe := h.pos
  have h0 := h.e0
  have h1 := h.e1
  have a1 : 0 < e ^ (1.1098 : ℝ) * (1 / 2.8257) + (7.149 / Re) ^ (0.8981 : ℝ) := by positivity
  have a2 : e ^ (1.1098 : ℝ) * (1 / 2.8257) + (7.149 / Re) ^ (0.8981 : ℝ) < 1 := by
    linarith [h.pw (c := 7.149) (p := 0.8981) (by norm_num) (by norm_num) (by norm_num), h.ew (p := 1.1098) (by norm_num)]
  have a3 : 7.149 / Re ≤ e ^ (1.1098 : ℝ) * (1 / 2.8257) + (7.149 / Re) ^ (0.8981 : ℝ) := by
    have b1 : 7.149 / Re ≤ (7.149 / Re) ^ (0.8981 : ℝ) := self_le_rpow_of_le_one (by positivity)
      ((h.div_le (by norm_num)).trans (by norm_num)) (by norm_num)
    have b2 : 0 ≤ e ^ (1.1098 : ℝ) := by positivity
    linarith
  have a4 := lg_neg a1 a2
  have a5 := lg_bound hRe (by norm_num) a3
  set y := lg (e ^ (1.1098 : ℝ) * (1 / 2.8257) + (7.149 / Re) ^ (0.8981 : ℝ)) with hy
  have a6 : 0 < 5.0452 / Re * -y := mul_pos (by positivity) (by linarith)
  have a7 : 5.0452 / Re * -y ≤ 5.0452 / Re * (Re / (2 * 7.149)) := mul_le_mul_of_nonneg_left a5 (by positivity)
  have a8 : 5.0452 / Re * (Re / (2 * 7.149)) = 5.0452 / 14.298 := by field_simp; norm_num
  have b1 : 0 < e * (1 / 3.7065) - 5.0452 / Re * y := by nlinarith
  have b2 : e * (1 / 3.7065) - 5.0452 / Re * y < 1 := by nlinarith
  have b3 := sq_ne (y := -4 * lg (e * (1 / 3.7065) - 5.0452 / Re * y)) (by linarith [lg_neg b1 b2])
  fr_ok [Chen_1979, ← hy]

theorem ok_Round_1980 (h : Turb Re e) : ∃ f, Round_1980 Re e = .ok f := by
  have hRe := h.pos
  have h0 := h.e0
  have h1 := h.e1
  have a0 : 0 < 0.135 * Re * e + 6.5 := by positivity
  have a1 : 0 < Re / (0.135 * Re * e + 6.5) := by positivity
  have a2 : 1 < Re / (0.135 * Re * e + 6.5) := by
    rw [lt_div_iff₀ a0]; nlinarith [h.re]
  have a3 := sq_ne (y := -3.6 * lg (Re / (0.135 * Re * e + 6.5))) (by linarith [lg_pos a2])
  fr_ok [Round_1980]

theorem ok_Shacham_1980 (h : Turb Re e) : ∃ f, Shacham_1980 Re e = .ok f := by
  have hRe := h.pos
  have h0 := h.e0
  have h1 := h.e1
  have a1 : 0 < e * (1 / 3.7) + 14.5 / Re := by positivity
  have a2 : e * (1 / 3.7) + 14.5 / Re < 1 := by linarith [h.div_le (c := 14.5) (by norm_num)]
  have a3 : 14.5 / Re ≤ e * (1 / 3.7) + 14.5 / Re := by linarith
  have a4 := lg_neg a1 a2
  have a5 := lg_bound hRe (by norm_num) a3
  set y := lg (e * (1 / 3.7) + 14.5 / Re) with hy
  have a6 : 0 < 5.02 / Re * -y := mul_pos (by positivity) (by linarith)
  have a7 : 5.02 / Re * -y ≤ 5.02 / Re * (Re / (2 * 14.5)) := mul_le_mul_of_nonneg_left a5 (by positivity)
  have a8 : 5.02 / Re * (Re / (2 * 14.5)) = 5.02 / (2 * 14.5) := by field_simp
  have b1 : 0 < e * (1 / 3.7) - 5.02 / Re * y := by nlinarith
  have b2 : e * (1 / 3.7) - 5.02 / Re * y < 1 := by
    have : (5.02 : ℝ) / (2 * 14.5) < 1 / 2 := by norm_num
    nlinarith
  have b3 := sq_ne (y := -4 * lg (e * (1 / 3.7) - 5.02 / Re * y)) (by linarith [lg_neg b1 b2])
  fr_ok [Shacham_1980, ← hy]

theorem ok_Zigrang_Sylvester_1 (h : Turb Re e) : ∃ f, Zigrang_Sylvester_1 Re e = .ok f := by
  have hRe := h.pos
  have h0 := h.e0
  have h1 := h.e1
  have a1 : 0 < e * (1 / 3.7) + 13 / Re := by positivity
  have a2 : e * (1 / 3.7) + 13 / Re < 1 := by linarith [h.div_le (c := 13) (by norm_num)]
  have a3 : 13 / Re ≤ e * (1 / 3.7) + 13 / Re := by linarith
  have a4 := lg_neg a1 a2
  have a5 := lg_bound hRe (by norm_num) a3
  set y := lg (e * (1 / 3.7) + 13 / Re) with hy
  have a6 : 0 < 5.02 / Re * -y := mul_pos (by positivity) (by linarith)
  have a7 : 5.02 / Re * -y ≤ 5.02 / Re * (Re / (2 * 13)) := mul_le_mul_of_nonneg_left a5 (by positivity)
  have a8 : 5.02 / Re * (Re / (2 * 13)) = 5.02 / (2 * 13) := by field_simp
  have b1 : 0 < e * (1 / 3.7) - 5.02 / Re * y := by nlinarith
  have b2 : e * (1 / 3.7) - 5.02 / Re * y < 1 := by
    have : (5.02 : ℝ) / (2 * 13) < 1 / 2 := by norm_num
    nlinarith
  have b3 := sq_ne (y := -4 * lg (e * (1 / 3.7) - 5.02 / Re * y)) (by linarith [lg_neg b1 b2])
  fr_ok [Zigrang_Sylvester_1, ← hy]

theorem ok_Barr_1981 (h : Turb Re e) : ∃ f, Barr_1981 Re e = .ok f := by
  have hRe := h.pos
  have h0 := h.e0
  have h1 := h.e1
  have hRe' := h.re
  have a0 : 0 < Re * (1 / 7) := by positivity
  have a1 : 0 < lg (Re * (1 / 7)) := lg_pos (by linarith)
  have a2 : lg (Re * (1 / 7)) ≤ Re / 14 := by
    unfold lg
    rw [div_le_iff₀ log_ten_pos]
    nlinarith [log_le_sub_one_of_pos a0, log_ten_gt]
  set y := lg (Re * (1 / 7)) with hy
  have a3 : 0 < 1 + Re ^ (0.52 : ℝ) * (1 / 29) * e ^ (0.7 : ℝ) := by positivity
  have a3' : 1 ≤ 1 + Re ^ (0.52 : ℝ) * (1 / 29) * e ^ (0.7 : ℝ) := by
    have : 0 ≤ Re ^ (0.52 : ℝ) * (1 / 29) * e ^ (0.7 : ℝ) := by positivity
    linarith
  have a4 : 0 < Re * (1 + Re ^ (0.52 : ℝ) * (1 / 29) * e ^ (0.7 : ℝ)) := by positivity
  have a5 : 4.518 * y / (Re * (1 + Re ^ (0.52 : ℝ) * (1 / 29) * e ^ (0.7 : ℝ))) < 1 / 2 := by
    rw [div_lt_iff₀ a4]
    nlinarith
  have b1 : 0 < e * (1 / 3.7) + 4.518 * y / (Re * (1 + Re ^ (0.52 : ℝ) * (1 / 29) * e ^ (0.7 : ℝ))) := by positivity
  have b2 : e * (1 / 3.7) + 4.518 * y / (Re * (1 + Re ^ (0.52 : ℝ) * (1 / 29) * e ^ (0.7 : ℝ))) < 1 := by linarith
  have b3 := sq_ne (y := -2 * lg (e * (1 / 3.7) + 4.518 * y / (Re * (1 + Re ^ (0.52 : ℝ) * (1 / 29) * e ^ (0.7 : ℝ)))))
    (by linarith [lg_neg b1 b2])
  fr_ok [Barr_1981, ← hy]

theorem ok_Zigrang_Sylvester_2 (h : Turb Re e) : ∃ f, Zigrang_Sylvester_2 Re e = .ok f := by
  have hRe := h.pos
  have h0 := h.e0
  have h1 := h.e1
  have a1 : 0 < e * (1 / 3.7) + 13 / Re := by positivity
  have a2 : e * (1 / 3.7) + 13 / Re ≤ 1 / 10 := by linarith [h.div_le (c := 13) (by norm_num)]
  have a3 : 13 / Re ≤ e * (1 / 3.7) + 13 / Re := by linarith
  have a4 := lg_tenth a1 a2
  have a5 := lg_bound hRe (by norm_num) a3
  set y := lg (e * (1 / 3.7) + 13 / Re) with hy
  have a6 : 5.02 / Re * 1 ≤ 5.02 / Re * -y := mul_le_mul_of_nonneg_left (by linarith) (by positivity)
  have a6' : 0 < 5.02 / Re := by positivity
  have a7 : 5.02 / Re * -y ≤ 5.02 / Re * (Re / (2 * 13)) := mul_le_mul_of_nonneg_left a5 (by positivity)
  have a8 : 5.02 / Re * (Re / (2 * 13)) = 5.02 / 26 := by field_simp; norm_num
  have b1 : 0 < e * (1 / 3.7) - 5.02 / Re * y := by nlinarith
  have b2 : e * (1 / 3.7) - 5.02 / Re * y < 1 := by nlinarith
  have b3 : 5.02 / Re ≤ e * (1 / 3.7) - 5.02 / Re * y := by nlinarith
  have b4 := lg_neg b1 b2
  have b5 := lg_bound hRe (by norm_num) b3
  set z := lg (e * (1 / 3.7) - 5.02 / Re * y) with hz
  have b6 : 0 < 5.02 / Re * -z := mul_pos (by positivity) (by linarith)
  have b7 : 5.02 / Re * -z ≤ 5.02 / Re * (Re / (2 * 5.02)) := mul_le_mul_of_nonneg_left b5 (by positivity)
  have b8 : 5.02 / Re * (Re / (2 * 5.02)) = 1 / 2 := by field_simp
  have c1 : 0 < e * (1 / 3.7) - 5.02 / Re * z := by nlinarith
  have c2 : e * (1 / 3.7) - 5.02 / Re * z < 1 := by nlinarith
  have c3 := sq_ne (y := -4 * lg (e * (1 / 3.7) - 5.02 / Re * z)) (by linarith [lg_neg c1 c2])
  fr_ok [Zigrang_Sylvester_2, ← hy, ← hz]

theorem ok_Haaland (h : Turb Re e) : ∃ f, Haaland Re e = .ok f := by
  have hRe := h.pos
  have h0 := h.e0
  have h1 := h.e1
  have a0 : 0 ≤ e * (1 / 3.7) := by positivity
  have a1 : 0 < 6.9 / Re + (e * (1 / 3.7)) ^ (1.11 : ℝ) := by positivity
  have a2 : 6.9 / Re + (e * (1 / 3.7)) ^ (1.11 : ℝ) < 1 := by
    have b1 : (e * (1 / 3.7)) ^ (1.11 : ℝ) ≤ 0.2 := sqrt_bound a0 (by norm_num) (by nlinarith) (by norm_num) (by norm_num)
    linarith [h.div_le (c := 6.9) (by norm_num)]
  have a3 := sq_ne (y := -3.6 * lg (6.9 / Re + (e * (1 / 3.7)) ^ (1.11 : ℝ))) (by linarith [lg_neg a1 a2])
  fr_ok [Haaland]

theorem ok_Tsal_1989 (h : Turb Re e) : ∃ f, Tsal_1989 Re e = .ok f := by
  have hRe := h.pos
  have h0 := h.e0
  have h1 := h.e1
  simp (disch := first | assumption | positivity) only [Tsal_1989, pdiv_ok, psqrt_ok, Py.ok_bind, Py.pure_eq]
  split_ifs <;> exact ⟨_, rfl⟩

/-- the map iterated by the Serghides correlations -/
theorem ser_anti (hRe : 0 < Re) (h0 : 0 ≤ e) {x y : ℝ} (hx : 0 < x) (hxy : x < y) :
    -2 * lg (e * (1 / 3.7) + 2.51 * y / Re) < -2 * lg (e * (1 / 3.7) + 2.51 * x / Re) := by
  have h1 : 0 < e * (1 / 3.7) + 2.51 * x / Re := by positivity
  have h2 : e * (1 / 3.7) + 2.51 * x / Re < e * (1 / 3.7) + 2.51 * y / Re := by
    have : 2.51 * x / Re < 2.51 * y / Re := div_lt_div_of_pos_right (by linarith) hRe
    linarith
  have h3 := div_lt_div_of_pos_right (log_lt_log h1 h2) log_ten_pos
  unfold lg
  linarith

/-- what the two Serghides correlations share -/
theorem ser_facts (h : Turb Re e) {A B C : ℝ} (hA : A = -2 * lg (e * (1 / 3.7) + 12 / Re))
    (hB : B = -2 * lg (e * (1 / 3.7) + 2.51 * A / Re)) (hC : C = -2 * lg (e * (1 / 3.7) + 2.51 * B / Re)) :
    0 < e * (1 / 3.7) + 12 / Re ∧ 0 < A ∧ 0 < B ∧ 0 < C ∧ (A < 12 / 2.51 → A < B) ∧ (12 / 2.51 < A → B < A) ∧ (A < B → C < B)
      ∧ (B < A → B < C) ∧ (A = 12 / 2.51 → B = A) := by
  have hRe := h.pos
  have h0 := h.e0
  have h1 := h.e1
  have a1 : 0 < e * (1 / 3.7) + 12 / Re := by positivity
  have a2 : e * (1 / 3.7) + 12 / Re ≤ 1 / 10 := by linarith [h.div_le (c := 12) (by norm_num)]
  have a3 := lg_tenth a1 a2
  have a4 := lg_bound hRe (c := 12) (by norm_num) (x := e * (1 / 3.7) + 12 / Re) (by linarith)
  have hA2 : 2 ≤ A := by rw [hA]; linarith
  have hA3 : A ≤ Re / 12 := by rw [hA]; rw [show Re / (2 * 12) = Re / 12 / 2 by ring] at a4; linarith
  have b1 : 0 < e * (1 / 3.7) + 2.51 * A / Re := by positivity
  have b2 : e * (1 / 3.7) + 2.51 * A / Re < 1 := by
    have : 2.51 * A / Re ≤ 1 / 2 := by rw [div_le_iff₀ hRe]; linarith
    linarith
  have hB0 : 0 < B := by rw [hB]; linarith [lg_neg b1 b2]
  have b3 := lg_bound hRe (c := 5.02) (by norm_num) (x := e * (1 / 3.7) + 2.51 * A / Re) (by
    have : 5.02 / Re ≤ 2.51 * A / Re := div_le_div_of_nonneg_right (by linarith) hRe.le
    linarith [mul_nonneg h0 (show (0 : ℝ) ≤ 1 / 3.7 by norm_num)])
  have hB3 : B ≤ Re / 5.02 := by
    rw [hB]; rw [show Re / (2 * 5.02) = Re / 5.02 / 2 by ring] at b3; linarith
  have c1 : 0 < e * (1 / 3.7) + 2.51 * B / Re := by positivity
  have c2 : e * (1 / 3.7) + 2.51 * B / Re < 1 := by
    have : 2.51 * B / Re ≤ 1 / 2 := by
      rw [div_le_iff₀ hRe]
      have : 2.51 * B ≤ 2.51 * (Re / 5.02) := by linarith
      rw [show 2.51 * (Re / 5.02) = 1 / 2 * Re by ring] at this
      exact this
    linarith
  have hC0 : 0 < C := by rw [hC]; linarith [lg_neg c1 c2]
  have key : A = -2 * lg (e * (1 / 3.7) + 2.51 * (12 / 2.51) / Re) := by rw [hA]; norm_num
  refine ⟨a1, by linarith, hB0, hC0, fun hlt => ?_, fun hlt => ?_, fun hlt => ?_, fun hlt => ?_, fun heq => ?_⟩
  · have := ser_anti hRe h0 (by linarith) hlt
    rw [← key, ← hB] at this; exact this
  · have := ser_anti hRe h0 (by norm_num) hlt
    rw [← key, ← hB] at this; exact this
  · have := ser_anti hRe h0 (by linarith) hlt
    rw [← hC, ← hB] at this; exact this
  · have := ser_anti hRe h0 hB0 hlt
    rw [← hC, ← hB] at this; exact this
  · rw [hB, heq, ← key]; exact heq

/-- the two denominators of `Serghides_1` -/
theorem ser1_ne {A B C : ℝ} (hA : 0 < A) (hB : 0 < B) (hne : A ≠ B) (h1 : A < B → C < B) (h2 : B < A → B < C) :
    C - 2 * B + A ≠ 0 ∧ A - (B - A) * (B - A) / (C - 2 * B + A) ≠ 0 := by
  rcases lt_or_gt_of_ne hne with hlt | hlt
  · have hc := h1 hlt
    have hd : C - 2 * B + A < 0 := by linarith
    refine ⟨hd.ne, ?_⟩
    have : (B - A) * (B - A) / (C - 2 * B + A) ≤ 0 := div_nonpos_of_nonneg_of_nonpos (mul_self_nonneg _) hd.le
    linarith
  · have hc := h2 hlt
    have hd : 0 < C - 2 * B + A := by linarith
    refine ⟨hd.ne', ?_⟩
    have : (B - A) * (B - A) / (C - 2 * B + A) < A - B := by
      rw [div_lt_iff₀ hd]; nlinarith
    linarith

/-- the two denominators of `Serghides_2` -/
theorem ser2_ne {A B : ℝ} (hA : 0 < A) (hne : ¬ (12 / 2.51 < A ∧ A < 4.781)) (h1 : A < 12 / 2.51 → A < B) (h2 : 12 / 2.51 < A → B < A)
    (h3 : A = 12 / 2.51 → B = A) :
    B - 2 * A + 4.781 ≠ 0 ∧ 4.781 - (A - 4.781) * (A - 4.781) / (B - 2 * A + 4.781) ≠ 0 := by
  by_cases hlt : A ≤ 12 / 2.51
  · have hb : A ≤ B := by
      rcases hlt.lt_or_eq with h | h
      · exact (h1 h).le
      · exact (h3 h).ge
    have h4 : (12 : ℝ) / 2.51 < 4.781 := by norm_num
    have hd : 0 < B - 2 * A + 4.781 := by linarith
    refine ⟨hd.ne', ?_⟩
    have : (A - 4.781) * (A - 4.781) / (B - 2 * A + 4.781) ≤ 4.781 - A := by
      rw [div_le_iff₀ hd]; nlinarith
    linarith
  · have hgt := not_le.mp hlt
    have h5 : 4.781 ≤ A := by
      by_contra hc; exact hne ⟨hgt, not_le.mp hc⟩
    have hb := h2 hgt
    have hd : B - 2 * A + 4.781 < 0 := by linarith
    refine ⟨hd.ne, ?_⟩
    have : (A - 4.781) * (A - 4.781) / (B - 2 * A + 4.781) ≤ 0 := div_nonpos_of_nonneg_of_nonpos (mul_self_nonneg _) hd.le
    linarith

theorem ok_Serghides_1 (h : Turb Re e) (hne : Spec.Friction.serA Re e ≠ 12 / 2.51) : ∃ f, Serghides_1 Re e = .ok f := by
  have hRe := h.pos
  have h0 := h.e0
  have h1 := h.e1
  rw [show Spec.Friction.serA Re e = -2 * lg (e * (1 / 3.7) + 12 / Re) by simp only [Spec.Friction.serA, div_eq_mul_inv, one_mul]] at hne
  obtain ⟨A, hA⟩ : ∃ A, A = -2 * lg (e * (1 / 3.7) + 12 / Re) := ⟨_, rfl⟩
  obtain ⟨B, hB⟩ : ∃ B, B = -2 * lg (e * (1 / 3.7) + 2.51 * A / Re) := ⟨_, rfl⟩
  obtain ⟨C, hC⟩ : ∃ C, C = -2 * lg (e * (1 / 3.7) + 2.51 * B / Re) := ⟨_, rfl⟩
  obtain ⟨a1, hA0, hB0, hC0, f1, f2, f3, f4, f5⟩ := ser_facts h hA hB hC
  have b1 : 0 < e * (1 / 3.7) + 2.51 * A / Re := by positivity
  have c1 : 0 < e * (1 / 3.7) + 2.51 * B / Re := by positivity
  rw [← hA] at hne
  have hAB : A ≠ B := by
    rcases lt_or_gt_of_ne hne with hl | hl
    · exact (f1 hl).ne
    · exact (f2 hl).ne'
  obtain ⟨d1, d2⟩ := ser1_ne hA0 hB0 hAB f3 f4
  have d3 := sq_ne d2
  fr_ok [Serghides_1, ← hA, ← hB, ← hC]

theorem ok_Serghides_2 (h : Turb Re e) (hne : ¬ (12 / 2.51 < Spec.Friction.serA Re e ∧ Spec.Friction.serA Re e < 4.781)) : ∃ f, Serghides_2 Re e = .ok f := by
  have hRe := h.pos
  have h0 := h.e0
  have h1 := h.e1
  rw [show Spec.Friction.serA Re e = -2 * lg (e * (1 / 3.7) + 12 / Re) by simp only [Spec.Friction.serA, div_eq_mul_inv, one_mul]] at hne
  obtain ⟨A, hA⟩ : ∃ A, A = -2 * lg (e * (1 / 3.7) + 12 / Re) := ⟨_, rfl⟩
  obtain ⟨B, hB⟩ : ∃ B, B = -2 * lg (e * (1 / 3.7) + 2.51 * A / Re) := ⟨_, rfl⟩
  obtain ⟨C, hC⟩ : ∃ C, C = -2 * lg (e * (1 / 3.7) + 2.51 * B / Re) := ⟨_, rfl⟩
  obtain ⟨a1, hA0, hB0, hC0, f1, f2, f3, f4, f5⟩ := ser_facts h hA hB hC
  have b1 : 0 < e * (1 / 3.7) + 2.51 * A / Re := by positivity
  have c1 : 0 < e * (1 / 3.7) + 2.51 * B / Re := by positivity
  rw [← hA] at hne
  obtain ⟨d1, d2⟩ := ser2_ne hA0 hne f1 f2 f5
  have d3 := sq_ne d2
  fr_ok [Serghides_2, ← hA, ← hB]

theorem Turb.pow_ge (h : Turb Re e) {p : ℝ} (hp : 0 ≤ p) : 1 + p * 6.9 ≤ Re ^ p := by
  have h2 : (0.69 : ℝ) < log 2 := by linarith [log_two_gt_d9]
  have h3 : log 1024 ≤ log Re := log_le_log (by norm_num) (by linarith [h.re])
  rw [show (1024 : ℝ) = 2 ^ 10 by norm_num, log_pow] at h3
  push_cast at h3
  rw [rpow_def_of_pos h.pos]
  have := add_one_le_exp (log Re * p)
  nlinarith

theorem ok_Manadilli_1997 (h : Turb Re e) : ∃ f, Manadilli_1997 Re e = .ok f := by
  have hRe := h.pos
  have h0 := h.e0
  have h1 := h.e1
  have a0 := h.pow_ge (p := 0.017) (by norm_num)
  have a1 : Re ^ (-0.983 : ℝ) = Re ^ (0.017 : ℝ) / Re := by
    rw [show (-0.983 : ℝ) = 0.017 - 1 by norm_num, rpow_sub hRe, rpow_one]
  have a2 : Re ^ (-0.983 : ℝ) ≤ 1 / 216 := by
    have b1 : (1296 : ℝ) ^ (3 / 4 : ℝ) ≤ Re ^ (3 / 4 : ℝ) := rpow_le_rpow (by norm_num) (by linarith [h.re]) (by norm_num)
    have b2 : (1296 : ℝ) ^ (3 / 4 : ℝ) = 216 := by
      rw [show (1296 : ℝ) = 6 ^ (4 : ℝ) by norm_num, ← rpow_mul (by norm_num)]; norm_num
    calc Re ^ (-0.983 : ℝ) ≤ Re ^ (-(3 / 4) : ℝ) := rpow_le_rpow_of_exponent_le (by linarith [h.re]) (by norm_num)
      _ = 1 / Re ^ (3 / 4 : ℝ) := by rw [rpow_neg hRe.le, one_div]
      _ ≤ 1 / 216 := one_div_le_one_div_of_le (by norm_num) (by rw [← b2]; exact b1)
  have a3 : 0 < 95 * Re ^ (-0.983 : ℝ) - 96.82 / Re := by
    rw [a1, show 95 * (Re ^ (0.017 : ℝ) / Re) - 96.82 / Re = (95 * Re ^ (0.017 : ℝ) - 96.82) / Re by ring]
    exact div_pos (by linarith) hRe
  have a4 : 0 < 96.82 / Re := by positivity
  have b1 : 0 < e * (1 / 3.7) + 95 * Re ^ (-0.983 : ℝ) - 96.82 / Re := by linarith [mul_nonneg h0 (show (0 : ℝ) ≤ 1 / 3.7 by norm_num)]
  have b2 : e * (1 / 3.7) + 95 * Re ^ (-0.983 : ℝ) - 96.82 / Re < 1 := by linarith
  have b3 := sq_ne (y := -2 * lg (e * (1 / 3.7) + 95 * Re ^ (-0.983 : ℝ) - 96.82 / Re)) (by linarith [lg_neg b1 b2])
  fr_ok [Manadilli_1997]

theorem ok_Fang_2011 (h : Turb Re e) : ∃ f, Fang_2011 Re e = .ok f := by
  have hRe := h.pos
  have h0 := h.e0
  have h1 := h.e1
  have a0 := h.pow_ge (p := 0.0393) (by norm_num)
  have a1 : Re ^ (-1.0712 : ℝ) = Re ^ (0.0393 : ℝ) * Re ^ (-1.1105 : ℝ) := by rw [← rpow_add hRe]; norm_num
  have a2 : 0 < Re ^ (-1.1105 : ℝ) := by positivity
  have a3 : Re ^ (-1.0712 : ℝ) ≤ 1 / 2040 := by
    calc Re ^ (-1.0712 : ℝ) ≤ Re ^ (-1 : ℝ) := rpow_le_rpow_of_exponent_le (by linarith [h.re]) (by norm_num)
      _ = 1 / Re := by rw [rpow_neg_one, one_div]
      _ ≤ 1 / 2040 := one_div_le_one_div_of_le (by norm_num) h.re
  have a4 := h.ew (p := 1.1007) (by norm_num)
  have a5 : 0 ≤ e ^ (1.1007 : ℝ) := by positivity
  have b1 : 0 < 0.234 * e ^ (1.1007 : ℝ) - 60.525 * Re ^ (-1.1105 : ℝ) + 56.291 * Re ^ (-1.0712 : ℝ) := by nlinarith
  have b2 : 0.234 * e ^ (1.1007 : ℝ) - 60.525 * Re ^ (-1.1105 : ℝ) + 56.291 * Re ^ (-1.0712 : ℝ) < 1 := by nlinarith
  have b3 := sq_ne (log_neg b1 b2).ne
  fr_ok [Fang_2011]

theorem ok_Romeo_2002 (h : Turb Re e) : ∃ f, Romeo_2002 Re e = .ok f := by
  have hRe := h.pos
  have h0 := h.e0
  have h1 := h.e1
  have hre := h.re
  have a0 : 0 ≤ e * (1 / 7.7918) := by positivity
  have a1 : (e * (1 / 7.7918)) ^ (0.9924 : ℝ) ≤ 0.0802 := sqrt_bound a0 (by norm_num) (by nlinarith) (by norm_num) (by norm_num)
  have a2 : 0 < 208.815 + Re := by linarith
  have a3 : 5.3326 / (208.815 + Re) ≤ 0.002372 := by rw [div_le_iff₀ a2]; nlinarith
  have a4 : 0 < 5.3326 / (208.815 + Re) := by positivity
  have a5 : (5.3326 / (208.815 + Re)) ^ (0.9345 : ℝ) ≤ 0.0488 :=
    sqrt_bound a4.le (by norm_num) (by linarith) (by norm_num) (by norm_num)
  have a6 : 5.3326 / (208.815 + Re) ≤ (5.3326 / (208.815 + Re)) ^ (0.9345 : ℝ) :=
    self_le_rpow_of_le_one a4.le (by linarith) (by norm_num)
  have a7 : 4 / Re ≤ 5.3326 / (208.815 + Re) := by rw [div_le_div_iff₀ hRe a2]; nlinarith
  have a8 : 0 ≤ (e * (1 / 7.7918)) ^ (0.9924 : ℝ) := by positivity
  obtain ⟨t, ht⟩ : ∃ t, t = (e * (1 / 7.7918)) ^ (0.9924 : ℝ) + (5.3326 / (208.815 + Re)) ^ (0.9345 : ℝ) := ⟨_, rfl⟩
  have t0 : 0 < t := by rw [ht]; positivity
  have t1 : t ≤ 0.129 := by rw [ht]; linarith
  have t2 : 4 / Re ≤ t := by rw [ht]; linarith
  have t3 := lg_bound hRe (by norm_num) t2
  have t4 : lg t ≤ -4 / 5 := lg_fifth t0 (by
    calc t ^ 5 ≤ 0.129 ^ 5 := pow_le_pow_left₀ t0.le t1 5
      _ ≤ 1 / 10 ^ 4 := by norm_num)
  obtain ⟨y, hy⟩ : ∃ y, y = lg t := ⟨_, rfl⟩
  rw [← hy] at t3 t4
  have b1 : 4.567 / Re * (4 / 5) ≤ 4.567 / Re * -y := mul_le_mul_of_nonneg_left (by linarith) (by positivity)
  have b2 : 4.567 / Re * -y ≤ 4.567 / Re * (Re / (2 * 4)) := mul_le_mul_of_nonneg_left t3 (by positivity)
  have b3 : 4.567 / Re * (Re / (2 * 4)) = 4.567 / 8 := by field_simp; norm_num
  have b4 : 3.6 / Re ≤ 4.567 / Re * (4 / 5) := by rw [div_mul_eq_mul_div]; exact div_le_div_of_nonneg_right (by norm_num) hRe.le
  have b5 : 0 < 3.6 / Re := by positivity
  obtain ⟨x, hx⟩ : ∃ x, x = e * (1 / 3.827) - 4.567 / Re * y := ⟨_, rfl⟩
  have x0 : 3.6 / Re ≤ x := by rw [hx]; linarith [mul_nonneg h0 (show (0 : ℝ) ≤ 1 / 3.827 by norm_num)]
  have x1 : x < 1 := by rw [hx]; linarith
  have x2 : 0 < x := by linarith
  have x3 := lg_bound hRe (by norm_num) x0
  have x4 := lg_neg x2 x1
  obtain ⟨z, hz⟩ : ∃ z, z = lg x := ⟨_, rfl⟩
  rw [← hz] at x3 x4
  have c1 : 0 < 5.0272 / Re * -z := mul_pos (by positivity) (by linarith)
  have c2 : 5.0272 / Re * -z ≤ 5.0272 / Re * (Re / (2 * 3.6)) := mul_le_mul_of_nonneg_left x3 (by positivity)
  have c3 : 5.0272 / Re * (Re / (2 * 3.6)) = 5.0272 / 7.2 := by field_simp; norm_num
  have d1 : 0 < e * (1 / 3.7065) - 5.0272 / Re * z := by nlinarith
  have d2 : e * (1 / 3.7065) - 5.0272 / Re * z < 1 := by nlinarith
  have d3 := sq_ne (y := -2 * lg (e * (1 / 3.7065) - 5.0272 / Re * z)) (by linarith [lg_neg d1 d2])
  fr_ok [Romeo_2002, ← ht, ← hy, ← hx, ← hz]

end Verif.Friction
