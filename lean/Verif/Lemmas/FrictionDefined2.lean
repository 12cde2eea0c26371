import Verif.Lemmas.FrictionDefined

/-! More correlations return a value on the turbulent range; in particular the default one. -/

namespace Verif.Friction
open Real
open Verif.Spec.Friction (lg fromInvSqrt fanning)

variable {Re e : ℝ}

theorem Turb.log_ge (h : Turb Re e) : 6.9 ≤ log Re := by
  have h2 : (0.69 : ℝ) < log 2 := by linarith [log_two_gt_d9]
  have h3 : log 1024 ≤ log Re := log_le_log (by norm_num) (by linarith [h.re])
  rw [show (1024 : ℝ) = 2 ^ 10 by norm_num, log_pow] at h3
  push_cast at h3
  linarith

theorem log_le_two_sqrt {x : ℝ} (h : 0 < x) : log x ≤ 2 * √x - 2 := by
  have h1 : 0 < √x := sqrt_pos.mpr h
  have h2 := log_le_sub_one_of_pos h1
  rw [log_sqrt h.le] at h2
  linarith

theorem Turb.sqrt_ge (h : Turb Re e) : 45 ≤ √Re := by
  rw [show (45 : ℝ) = √(45 ^ 2) by rw [sqrt_sq (by norm_num)]]
  exact sqrt_le_sqrt (by linarith [h.re])

theorem Turb.sqrt_le (h : Turb Re e) : √Re ≤ Re / 45 := by
  have h1 := h.sqrt_ge
  have h2 := sq_sqrt h.pos.le
  rw [le_div_iff₀ (by norm_num)]; nlinarith

theorem Turb.sqrt_e (h : Turb Re e) : √e ≤ 0.23 := by
  rw [sqrt_eq_rpow]; exact h.ew (by norm_num)

theorem ok_Sonnad_Goudar_2006 (h : Turb Re e) : ∃ f, Sonnad_Goudar_2006 Re e = .ok f := by
  have hRe := h.pos
  have h0 := h.e0
  have h1 := h.e1
  have hre := h.re
  have hL := h.log_ge
  have a0 : 0 < 0.4587 * Re := by linarith
  obtain ⟨S, hS⟩ : ∃ S, S = 0.124 * e * Re + log (0.4587 * Re) := ⟨_, rfl⟩
  have a1 : 1 ≤ log (0.4587 * Re) := by
    rw [le_log_iff_exp_le a0]; linarith [exp_one_lt_d9]
  have a2 : log (0.4587 * Re) ≤ 0.4587 * Re / 2 := by
    have := log_le_two_sqrt a0
    have b := sq_sqrt a0.le
    nlinarith [sq_nonneg (√(0.4587 * Re) - 2)]
  have a3 : 0.124 * e * Re ≤ 0.0062 * Re := mul_le_mul_of_nonneg_right (by linarith) hRe.le
  have a4 : 0 ≤ 0.124 * e * Re := by positivity
  have s1 : 1 ≤ S := by rw [hS]; linarith
  have s2 : S < 0.4587 * Re := by rw [hS]; linarith
  have s0 : 0 < S := by linarith
  have s3 : S ^ (S / (S + 1)) ≤ S := by
    calc S ^ (S / (S + 1)) ≤ S ^ (1 : ℝ) := rpow_le_rpow_of_exponent_le s1 (by rw [div_le_one (by linarith)]; linarith)
      _ = S := rpow_one S
  have s4 : 0 < S ^ (S / (S + 1)) := by positivity
  have s5 : 1 < 0.4587 * Re / S ^ (S / (S + 1)) := by rw [one_lt_div s4]; linarith
  have s6 := sq_ne (y := 0.8686 * log (0.4587 * Re / S ^ (S / (S + 1)))) (by have := log_pos s5; positivity)
  have s7 : S + 1 ≠ 0 := by linarith
  fr_ok [Sonnad_Goudar_2006, ← hS]

theorem ok_Rao_Kumar_2007 (h : Turb Re e) (he : 0 < e) : ∃ f, Rao_Kumar_2007 Re e = .ok f := by
  have hRe := h.pos
  have h0 := h.e0
  have h1 := h.e1
  have hre := h.re
  have hL := h.log_ge
  obtain ⟨b, hb⟩ : ∃ b, b = 1 - 0.55 * Real.exp (-0.33 * log (Re * (1 / 6.5)) * log (Re * (1 / 6.5))) := ⟨_, rfl⟩
  have a1 : Real.exp (-0.33 * log (Re * (1 / 6.5)) * log (Re * (1 / 6.5))) ≤ 1 := by
    rw [exp_le_one_iff]; nlinarith [mul_self_nonneg (log (Re * (1 / 6.5)))]
  have a2 := exp_pos (-0.33 * log (Re * (1 / 6.5)) * log (Re * (1 / 6.5)))
  have b1 : 0.45 ≤ b := by rw [hb]; linarith
  have b2 : b ≤ 1 := by rw [hb]; linarith
  have b0 : 0 < b := by linarith
  have c1 := h.div_le (c := 0.444) (by norm_num)
  have c0 : 0 < 0.444 / Re := by positivity
  have c2 : 0 < 2 * e * b * (0.444 / Re + 0.135) := by positivity
  have c3 : 2 * e * b * (0.444 / Re + 0.135) < 1 := by
    have : 2 * e * b ≤ 0.1 := by nlinarith
    have : 2 * e * b * (0.444 / Re + 0.135) ≤ 0.1 * (0.444 / Re + 0.135) := mul_le_mul_of_nonneg_right this (by positivity)
    linarith
  have c4 : 1 < 1 / (2 * e * b * (0.444 / Re + 0.135)) := by rw [one_lt_div c2]; exact c3
  have c5 : 0 < 1 / (2 * e * b * (0.444 / Re + 0.135)) := by positivity
  have c6 := sq_ne (y := 2 * lg (1 / (2 * e * b * (0.444 / Re + 0.135)))) (by have := lg_pos c4; positivity)
  fr_ok [Rao_Kumar_2007, ← hb]

theorem ok_Buzzelli_2008 (h : Turb Re e) : ∃ f, Buzzelli_2008 Re e = .ok f := by
  have hRe := h.pos
  have h0 := h.e0
  have h1 := h.e1
  have hre := h.re
  have hL := h.log_ge
  have a1 := h.sqrt_e
  have a2 := sqrt_nonneg e
  have a3 := log_le_two_sqrt hRe
  have a4 := h.sqrt_le
  obtain ⟨B, hB⟩ : ∃ B, B = (0.774 * log Re - 1.41) / (1 + 1.32 * √e) := ⟨_, rfl⟩
  have d1 : 0 < 1 + 1.32 * √e := by positivity
  have B0 : 0 < B := by rw [hB]; exact div_pos (by linarith) d1
  have B1 : B ≤ 0.774 * log Re := by
    rw [hB, div_le_iff₀ d1]
    nlinarith [mul_nonneg (show 0 ≤ 0.774 * log Re by linarith) a2]
  have c1 : 0 < e * (1 / 3.7) * Re + 2.51 * B := by positivity
  have c2 : (e * (1 / 3.7) * Re + 2.51 * B) / Re < 1 := by
    rw [div_lt_one hRe]
    have : e * (1 / 3.7) * Re ≤ 0.05 * (1 / 3.7) * Re := mul_le_mul_of_nonneg_right (by linarith) hRe.le
    linarith
  have c3 : 0 < (e * (1 / 3.7) * Re + 2.51 * B) / Re := by positivity
  obtain ⟨y, hy⟩ : ∃ y, y = lg ((e * (1 / 3.7) * Re + 2.51 * B) / Re) := ⟨_, rfl⟩
  have y0 : y < 0 := by rw [hy]; exact lg_neg c3 c2
  have d2 : 0 < 2.18 / (e * (1 / 3.7) * Re + 2.51 * B) := by positivity
  have d3 : 1 + 2.18 / (e * (1 / 3.7) * Re + 2.51 * B) ≠ 0 := by positivity
  have d4 : (B + 2 * y) / (1 + 2.18 / (e * (1 / 3.7) * Re + 2.51 * B)) < B := by
    rw [div_lt_iff₀ (by positivity)]
    nlinarith [mul_pos B0 d2]
  have d5 := sq_ne (y := B - (B + 2 * y) / (1 + 2.18 / (e * (1 / 3.7) * Re + 2.51 * B))) (by linarith)
  fr_ok [Buzzelli_2008, ← hB, ← hy]

theorem ok_Avci_Karagoz_2009 (h : Turb Re e) : ∃ f, Avci_Karagoz_2009 Re e = .ok f := by
  have hRe := h.pos
  have h0 := h.e0
  have h1 := h.e1
  have hre := h.re
  have hL := h.log_ge
  have a1 := h.sqrt_e
  have a2 := sqrt_nonneg e
  have a3 : 0 < 1 + 0.01 * Re * e * (1 + 10 * √e) := by positivity
  have a4 : 1 + 0.01 * Re * e * (1 + 10 * √e) < Re := by
    have b1 : 0.01 * Re * e ≤ 0.0005 * Re := by nlinarith
    have b2 : 0.01 * Re * e * (1 + 10 * √e) ≤ 0.0005 * Re * 3.3 := mul_le_mul b1 (by linarith) (by positivity) (by positivity)
    linarith
  have a5 : 0 < log Re - log (1 + 0.01 * Re * e * (1 + 10 * √e)) := by linarith [log_lt_log a3 a4]
  fr_ok [Avci_Karagoz_2009]

theorem ok_Papaevangelo_2010 (h : Turb Re e) : ∃ f, Papaevangelo_2010 Re e = .ok f := by
  have hRe := h.pos
  have h0 := h.e0
  have h1 := h.e1
  have hre := h.re
  have hL := h.log_ge
  have a1 : Re ^ (-0.9142 : ℝ) ≤ 0.023 := by
    have b1 := h.sqrt_ge
    calc Re ^ (-0.9142 : ℝ) ≤ Re ^ (-(1 / 2) : ℝ) := rpow_le_rpow_of_exponent_le (by linarith) (by norm_num)
      _ = 1 / √Re := by rw [rpow_neg hRe.le, ← sqrt_eq_rpow, one_div]
      _ ≤ 0.023 := by rw [div_le_iff₀ (by linarith)]; linarith
  have a2 : 0 < e * (1 / 3.615) + 7.366 * Re ^ (-0.9142 : ℝ) := by positivity
  have a3 : e * (1 / 3.615) + 7.366 * Re ^ (-0.9142 : ℝ) < 1 := by linarith
  have a4 := sq_ne (lg_neg a2 a3).ne
  fr_ok [Papaevangelo_2010]

/-- `β` of the two Brkić correlations -/
theorem brk (h : Turb Re e) {M b : ℝ} (hM : M = log (1.1 * Re / log (1 + 1.1 * Re))) (hb : b = log (Re / (1.816 * M))) :
    0 < 1.1 * Re / log (1 + 1.1 * Re) ∧ 0 < M ∧ log (1 + 1.1 * Re) ≠ 0 ∧ 1 ≤ b ∧ 2.18 * b / Re ≤ 0.1 := by
  have hRe := h.pos
  have hre := h.re
  have s1 := h.sqrt_ge
  have s2 := sq_sqrt hRe.le
  have s3 := h.sqrt_le
  have l1 : 1 ≤ log (1 + 1.1 * Re) := by
    rw [le_log_iff_exp_le (by linarith)]; linarith [exp_one_lt_d9]
  have l0 : 0 < log (1 + 1.1 * Re) := by linarith
  have l2 : log (1 + 1.1 * Re) ≤ 0.1 * Re := by
    have h1 : log (1 + 1.1 * Re) ≤ log (2 * Re) := log_le_log (by linarith) (by linarith)
    rw [log_mul (by norm_num) hRe.ne'] at h1
    linarith [log_le_two_sqrt hRe, log_two_lt_d9]
  have q1 : 10 ≤ 1.1 * Re / log (1 + 1.1 * Re) := by rw [le_div_iff₀ l0]; linarith
  have q2 : 1.1 * Re / log (1 + 1.1 * Re) ≤ 2 * Re := by
    rw [div_le_iff₀ l0]; nlinarith
  have m1 : 1 ≤ M := by
    rw [hM, le_log_iff_exp_le (by linarith)]; linarith [exp_one_lt_d9]
  have m2 : M ≤ 0.1 * Re := by
    have h1 : M ≤ log (2 * Re) := by rw [hM]; exact log_le_log (by linarith) q2
    rw [log_mul (by norm_num) hRe.ne'] at h1
    linarith [log_le_two_sqrt hRe, log_two_lt_d9]
  have r0 : 0 < 1.816 * M := by linarith
  have b1 : 1 ≤ b := by
    rw [hb, le_log_iff_exp_le (by positivity), le_div_iff₀ r0]
    nlinarith [exp_one_lt_d9]
  have b2 : b ≤ log Re := by
    rw [hb]; exact log_le_log (by positivity) (div_le_self hRe.le (by linarith))
  refine ⟨by linarith, by linarith, l0.ne', b1, ?_⟩
  rw [div_le_iff₀ hRe]
  linarith [log_le_two_sqrt hRe]

theorem ok_Brkic_2011_1 (h : Turb Re e) : ∃ f, Brkic_2011_1 Re e = .ok f := by
  have hRe := h.pos
  have h0 := h.e0
  have h1 := h.e1
  have hre := h.re
  have hL := h.log_ge
  obtain ⟨M, hM⟩ : ∃ M, M = log (1.1 * Re / log (1 + 1.1 * Re)) := ⟨_, rfl⟩
  obtain ⟨b, hb⟩ : ∃ b, b = log (Re / (1.816 * M)) := ⟨_, rfl⟩
  obtain ⟨a1, a2, a3, a4, a5⟩ := brk h hM hb
  have c1 : (10 : ℝ) ^ (-0.4343 * b) ≤ 1 / 2 := by
    calc (10 : ℝ) ^ (-0.4343 * b) ≤ 10 ^ (-(1 / 3) : ℝ) := rpow_le_rpow_of_exponent_le (by norm_num) (by linarith)
      _ = 1 / (10 : ℝ) ^ (1 / 3 : ℝ) := by rw [rpow_neg (by norm_num)]; exact inv_eq_one_div _
      _ ≤ 1 / 2 := one_div_le_one_div_of_le (by norm_num) (by
          calc (2 : ℝ) = (8 : ℝ) ^ (1 / 3 : ℝ) := by
                rw [show (8 : ℝ) = 2 ^ (3 : ℝ) by norm_num, ← rpow_mul (by norm_num)]; norm_num
            _ ≤ 10 ^ (1 / 3 : ℝ) := rpow_le_rpow (by norm_num) (by norm_num) (by norm_num))
  have c2 : 0 < (10 : ℝ) ^ (-0.4343 * b) + e * (1 / 3.71) := by positivity
  have c3 : (10 : ℝ) ^ (-0.4343 * b) + e * (1 / 3.71) < 1 := by linarith
  have c4 := sq_ne (y := -2 * lg ((10 : ℝ) ^ (-0.4343 * b) + e * (1 / 3.71))) (by linarith [lg_neg c2 c3])
  fr_ok [Brkic_2011_1, ← hM, ← hb]

theorem ok_Brkic_2011_2 (h : Turb Re e) : ∃ f, Brkic_2011_2 Re e = .ok f := by
  have hRe := h.pos
  have h0 := h.e0
  have h1 := h.e1
  have hre := h.re
  have hL := h.log_ge
  obtain ⟨M, hM⟩ : ∃ M, M = log (1.1 * Re / log (1 + 1.1 * Re)) := ⟨_, rfl⟩
  obtain ⟨b, hb⟩ : ∃ b, b = log (Re / (1.816 * M)) := ⟨_, rfl⟩
  obtain ⟨a1, a2, a3, a4, a5⟩ := brk h hM hb
  have c0 : 0 < 2.18 * b / Re := by positivity
  have c2 : 0 < 2.18 * b / Re + e * (1 / 3.71) := by positivity
  have c3 : 2.18 * b / Re + e * (1 / 3.71) < 1 := by linarith
  have c4 := sq_ne (y := -2 * lg (2.18 * b / Re + e * (1 / 3.71))) (by linarith [lg_neg c2 c3])
  fr_ok [Brkic_2011_2, ← hM, ← hb]

/-- the last denominator of `Clamond` -/
theorem clam_den {a E F : ℝ} (ha : 1 ≤ a) (hF : 0 < F) (hb : 0 < 1 + a + E * (1 + 1 / 3 * E)) (hl : -(2 + 4 * a) ≤ E * (1 + a))
    (hu : E * (1 + a) < F) : 0 < (1 + a + E * (1 + 1 / 3 * E)) * F - (1 + a + 0.5 * E) * E * a := by
  have a0 : 0 < a := by linarith
  rcases le_total E 0 with hneg | hpos
  · have q1 : 0 ≤ 1 + a + 0.5 * E := by
      have r3 : E * (1 + a) ≤ E * 2 := mul_le_mul_of_nonpos_left (by linarith) hneg
      linarith
    have q2 : (1 + a + 0.5 * E) * E * a ≤ 0 := mul_nonpos_of_nonpos_of_nonneg (mul_nonpos_of_nonneg_of_nonpos q1 hneg) a0.le
    have q3 := mul_pos hb hF
    linarith
  · have q1 : E * a < F := by linarith
    have q2 : (1 + a + 0.5 * E) * E * a ≤ (1 + a + E * (1 + 1 / 3 * E)) * (E * a) := by
      have h1 : 0 ≤ E * a := by positivity
      have h2 : 1 + a + 0.5 * E ≤ 1 + a + E * (1 + 1 / 3 * E) := by nlinarith
      calc (1 + a + 0.5 * E) * E * a = (1 + a + 0.5 * E) * (E * a) := by ring
        _ ≤ _ := mul_le_mul_of_nonneg_right h2 h1
    have q3 : (1 + a + E * (1 + 1 / 3 * E)) * (E * a) < (1 + a + E * (1 + 1 / 3 * E)) * F := mul_lt_mul_of_pos_left q1 hb
    linarith

set_option maxHeartbeats 1000000 in
theorem pos_Clamond (h : Turb Re e) (fast : Bool) : ∃ f > 0, Clamond Re e fast = .ok f := by
  have hRe := h.pos
  have h0 := h.e0
  have h1 := h.e1
  have hre := h.re
  have hL := h.log_ge
  have hs := h.sqrt_le
  have hl := log_le_two_sqrt hRe
  obtain ⟨c, hc⟩ : ∃ c : ℝ, c = 0.1239681863354175460160858261654858382699 := ⟨_, rfl⟩
  obtain ⟨k, hk⟩ : ∃ k : ℝ, k = 0.7793974884556819406441139701653776731705 := ⟨_, rfl⟩
  obtain ⟨X, hX⟩ : ∃ X, X = e * Re * c := ⟨_, rfl⟩
  have c0 : 0 < c := by rw [hc]; norm_num
  have X0 : 0 ≤ X := by rw [hX]; positivity
  have X1 : X ≤ 0.0062 * Re := by
    rw [hX]
    have : e * Re ≤ 0.05 * Re := mul_le_mul_of_nonneg_right h1 hRe.le
    have : e * Re * c ≤ 0.05 * Re * c := mul_le_mul_of_nonneg_right this c0.le
    have hc1 : c ≤ 0.124 := by rw [hc]; norm_num
    nlinarith
  have k1 : k ≤ 0.78 := by rw [hk]; norm_num
  have k0 : 0.7 ≤ k := by rw [hk]; norm_num
  obtain ⟨a, ha⟩ : ∃ a, a = X + (log Re - k - 0.2) := ⟨_, rfl⟩
  have a1 : 5 ≤ a := by rw [ha]; linarith
  have a0 : 0 < a := by linarith
  have a2 : log a ≤ log Re - 2.7 := by
    have : a ≤ Re / 2 ^ 4 := by rw [ha]; linarith
    have := log_le_log a0 this
    rw [log_div hRe.ne' (by norm_num), log_pow] at this
    push_cast at this
    linarith [log_two_gt_d9]
  have a3 : 1 ≤ log a := by rw [le_log_iff_exp_le a0]; linarith [exp_one_lt_d9]
  have a4 : log a ≤ a / 2 := by
    have := log_le_two_sqrt a0
    have b := sq_sqrt a0.le
    nlinarith [sq_nonneg (√a - 2)]
  obtain ⟨E, hE⟩ : ∃ E, E = (log a - 0.2) / (1 + a) := ⟨_, rfl⟩
  have E0 : 0 < E := by rw [hE]; exact div_pos (by linarith) (by linarith)
  have E1 : E * a ≤ log a - 0.2 := by
    rw [hE, div_mul_eq_mul_div, div_le_iff₀ (by linarith)]; nlinarith
  have d0 : 0 < 1 + a + E * (1 + 1 / 3 * E) := by positivity
  obtain ⟨t, ht⟩ : ∃ t, t = (1 + a + 0.5 * E) * E * a / (1 + a + E * (1 + 1 / 3 * E)) := ⟨_, rfl⟩
  have t0 : 0 < t := by rw [ht]; positivity
  have t1 : t ≤ log a - 0.2 := by
    refine le_trans ?_ E1
    rw [ht, div_le_iff₀ d0]
    have : 0 < E * a := by positivity
    nlinarith [mul_pos this E0, mul_pos (mul_pos this E0) E0]
  obtain ⟨F, hF⟩ : ∃ F, F = log Re - k - 0.2 - t := ⟨_, rfl⟩
  have F1 : 1 ≤ F := by rw [hF]; linarith
  obtain ⟨a', ha'⟩ : ∃ a', a' = X + F := ⟨_, rfl⟩
  have e1 : a' = a - t := by rw [ha', hF, ha]; ring
  have e2 : 1 ≤ a' := by rw [ha']; linarith
  have e0 : 0 < a' := by linarith
  have e3 : 0 ≤ log a' := log_nonneg e2
  have e4 : log a' ≤ log a := log_le_log e0 (by linarith)
  have g0 : 1 + a' ≠ 0 := by linarith
  obtain ⟨E', hE'⟩ : ∃ E', E' = (log a' + F - (log Re - k)) / (1 + a') := ⟨_, rfl⟩
  have hh : log a' + F - (log Re - k) = E' * (1 + a') := by rw [hE', div_mul_cancel₀ _ g0]
  have b0 : 0 < 1 + a' + E' * (1 + 1 / 3 * E') := by nlinarith [sq_nonneg (E' + 3 / 2)]
  have D0 : 0 < (1 + a' + E' * (1 + 1 / 3 * E')) * F - (1 + a' + 0.5 * E') * E' * a' :=
    clam_den e2 (by linarith) b0 (by rw [← hh, hF]; linarith) (by rw [← hh]; linarith)
  have D1 := D0.ne'
  have F2 : F * F ≠ 0 := by positivity
  have d1 := d0.ne'
  cases fast
  · simp (disch := first | assumption | positivity) only
      [pdiv_ok, plog_ok, Py.ok_bind, Py.pure_eq, Clamond, ← hc, ← hk, ← hX, ← ha, ← hE, ← ht, ← hF, ← ha', ← hE', if_false, Bool.false_eq_true]
    exact ⟨_, by positivity, rfl⟩
  · simp (disch := first | assumption | positivity) only
      [pdiv_ok, plog_ok, Py.ok_bind, Py.pure_eq, Clamond, ← hc, ← hk, ← hX, ← ha, ← hE, ← ht, ← hF, ← ha', ← hE', if_true]
    exact ⟨_, by positivity, rfl⟩

theorem ok_Clamond (h : Turb Re e) (fast : Bool) : ∃ f, Clamond Re e fast = .ok f := by
  obtain ⟨f, -, hf⟩ := pos_Clamond h fast
  exact ⟨f, hf⟩

end Verif.Friction
