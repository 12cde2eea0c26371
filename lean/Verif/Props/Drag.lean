import Verif.Model.Drag
import Verif.Lemmas.Tactic
import Mathlib.Analysis.SpecialFunctions.Pow.Continuity
import Mathlib.Analysis.SpecialFunctions.Pow.Asymptotics
import Mathlib.Analysis.Complex.ExponentialBounds

/-! C91: every sphere drag correlation is a positive drag coefficient, and those documented to follow Stokes' law at low Reynolds number do. -/

open Real

noncomputable section

namespace Verif.Drag

/-! ### Specification -/

/-- the correlation returns a positive drag coefficient at every Reynolds number in the set -/
def PositiveOn (f : ℝ → Py ℝ) (S : Set ℝ) : Prop := ∀ Re ∈ S, ∃ c, f Re = .ok c ∧ 0 < c

/-- the correlation never predicts less drag than Stokes' law `24/Re` -/
def AboveStokes (f : ℝ → Py ℝ) : Prop := ∀ Re, 0 < Re → ∃ c, f Re = .ok c ∧ 24 / Re ≤ c

/-- the drag coefficient approaches Stokes' law as the Reynolds number goes to zero: the relative difference becomes arbitrarily small -/
def StokesLimit (f : ℝ → Py ℝ) : Prop :=
  ∀ ε > 0, ∃ δ > 0, ∀ Re, 0 < Re → Re < δ → ∃ c, f Re = .ok c ∧ |c / (24 / Re) - 1| < ε

/-! ### Positivity -/

theorem tanh_pos {x : ℝ} (h : 0 < x) : 0 < tanh x := by
  rw [tanh_eq_sinh_div_cosh]; exact div_pos (sinh_pos_iff.mpr h) (cosh_pos x)

theorem tanh_lt_one' (x : ℝ) : tanh x < 1 := by
  rw [tanh_eq_sinh_div_cosh, div_lt_one (cosh_pos x)]; exact sinh_lt_cosh x

theorem C91_Stokes : PositiveOn Stokes (Set.Ioi 0) := by
  intro Re h; simp only [Set.mem_Ioi] at h
  exact ⟨24 / Re, pdiv_ok h.ne', by positivity⟩

theorem C91_Barati : PositiveOn Barati (Set.Ioi 0) := by
  intro Re h; simp only [Set.mem_Ioi] at h
  unfold Barati; py_eval []
  refine ⟨_, rfl, ?_⟩
  have h1 := tanh_pos (x := 4.3774e-9 * (1 / Re)) (by positivity)
  have h2 := tanh_pos (x := 700.6574 * (1 / Re)) (by positivity)
  have h3 := tanh_pos (x := 74.1539 * (1 / Re)) (by positivity)
  have h4 := tanh_lt_one' (7429.0843 * (1 / Re))
  have h5 := tanh_pos (x := 9.9851 / (Re + 2.3384)) (by positivity)
  generalize tanh (4.3774e-9 * (1 / Re)) = a at *
  nlinarith

theorem baratiHigh_pos {Re : ℝ} (h : 0 < Re) (h6 : Re ≤ 1e6) : ∃ c, baratiHigh Re = .ok c ∧ 0 < c := by
  have ht := tanh_pos h
  have htt := tanh_pos ht
  unfold baratiHigh; py_eval []
  refine ⟨_, rfl, ?_⟩
  have hl10 : 0 < log 10 := log_pos (by norm_num)
  have hl1 : log Re / log 10 ≤ 6 := by
    rw [div_le_iff₀ hl10, show (6:ℝ) * log 10 = log (10 ^ 6) by rw [log_pow]; norm_num]
    exact log_le_log h (by norm_num at h6 ⊢; exact h6)
  have hl2 : log (tanh (tanh Re)) / log 10 ≤ 0 :=
    div_nonpos_of_nonpos_of_nonneg (log_nonpos htt.le (tanh_lt_one' _).le) hl10.le
  have hE2 : exp (-(1 / Re) * (log (Re * Re + 10.7563) / log 10 * (log (Re * Re + 10.7563) / log 10) + 9.9867)) ≤ 1 := by
    rw [exp_le_one_iff]
    have : 0 < 1 / Re := by positivity
    nlinarith [mul_self_nonneg (log (Re * Re + 10.7563) / log 10)]
  have hlast : 8.5e-3 * (1 / Re) * (2 * (log (tanh (tanh Re)) / log 10) - 2825.7162) ≤ 0 :=
    mul_nonpos_of_nonneg_of_nonpos (by positivity) (by linarith)
  generalize log (tanh (tanh Re)) / log 10 = l2 at *
  generalize log Re / log 10 = l1 at *
  generalize exp (-(1 / Re) * (log (Re * Re + 10.7563) / log 10 * (log (Re * Re + 10.7563) / log 10) + 9.9867)) = E2 at *
  rcases le_or_gt Re 3e5 with hc | hc
  · have hE1 : exp (-2.08e43 * (1 / (Re + Re * Re) * (1 / (Re + Re * Re)) * (1 / (Re + Re * Re) * (1 / (Re + Re * Re))))) ≤ 0.8 := by
      have hm : Re + Re * Re ≤ 9.1e10 := by norm_num at hc ⊢; nlinarith
      have hm0 : 0 < Re + Re * Re := by positivity
      have hi : 1 / 9.1e10 ≤ 1 / (Re + Re * Re) := one_div_le_one_div_of_le hm0 hm
      have hp : (1 / 9.1e10 : ℝ) ^ 4 ≤ (1 / (Re + Re * Re)) ^ 4 := pow_le_pow_left₀ (by norm_num) hi 4
      have : exp (-2.08e43 * (1 / (Re + Re * Re) * (1 / (Re + Re * Re)) * (1 / (Re + Re * Re) * (1 / (Re + Re * Re))))) ≤ exp (-0.3) := by
        apply exp_le_exp.mpr
        have : (1 / (Re + Re * Re) * (1 / (Re + Re * Re)) * (1 / (Re + Re * Re) * (1 / (Re + Re * Re)))) = (1 / (Re + Re * Re)) ^ 4 := by ring
        rw [this]; norm_num at hp ⊢; linarith
      refine this.trans ?_
      rw [exp_neg, inv_le_comm₀ (exp_pos _) (by norm_num)]
      have := add_one_le_exp (0.3 : ℝ)
      norm_num at this ⊢; linarith
    have hE3 : 0 < exp (-(1 / Re) * (Re * (1 / 1620) * (Re * (1 / 1620)) + 10370)) := exp_pos _
    generalize exp (-2.08e43 * (1 / (Re + Re * Re) * (1 / (Re + Re * Re)) * (1 / (Re + Re * Re) * (1 / (Re + Re * Re))))) = E1 at *
    generalize exp (-(1 / Re) * (Re * (1 / 1620) * (Re * (1 / 1620)) + 10370)) = E3 at *
    have : 0 ≤ Re * (1 / 6530) * (Re * (1 / 6530)) := by positivity
    norm_num at *; nlinarith
  · have hE1 : exp (-2.08e43 * (1 / (Re + Re * Re) * (1 / (Re + Re * Re)) * (1 / (Re + Re * Re) * (1 / (Re + Re * Re))))) ≤ 1 := by
      rw [exp_le_one_iff]
      have : 0 ≤ (1 / (Re + Re * Re) * (1 / (Re + Re * Re)) * (1 / (Re + Re * Re) * (1 / (Re + Re * Re)))) := by positivity
      nlinarith
    have hE3 : 0.58 ≤ exp (-(1 / Re) * (Re * (1 / 1620) * (Re * (1 / 1620)) + 10370)) := by
      refine le_trans ?_ (add_one_le_exp _)
      have e : -(1 / Re) * (Re * (1 / 1620) * (Re * (1 / 1620)) + 10370) = -(Re / 2624400 + 10370 / Re) := by field_simp; ring
      have : 10370 / Re ≤ 0.035 := by rw [div_le_iff₀ h]; norm_num at hc ⊢; linarith
      rw [e]; norm_num at h6 this ⊢; linarith
    generalize exp (-2.08e43 * (1 / (Re + Re * Re) * (1 / (Re + Re * Re)) * (1 / (Re + Re * Re) * (1 / (Re + Re * Re))))) = E1 at *
    generalize exp (-(1 / Re) * (Re * (1 / 1620) * (Re * (1 / 1620)) + 10370)) = E3 at *
    have : 2000 ≤ Re * (1 / 6530) * (Re * (1 / 6530)) := by norm_num at hc ⊢; nlinarith
    norm_num at *; nlinarith

theorem C91_Barati_high : PositiveOn Barati_high (Set.Ioi 0) := by
  intro Re h; simp only [Set.mem_Ioi] at h
  unfold Barati_high
  apply baratiHigh_pos
  · split_ifs
    · norm_num
    · exact h
  · split_ifs with h1
    · exact le_rfl
    · exact not_lt.mp h1

theorem C91_Rouse : PositiveOn Rouse (Set.Ioi 0) := by
  intro Re h; simp only [Set.mem_Ioi] at h
  unfold Rouse; py_eval []
  exact ⟨_, rfl, by positivity⟩

theorem C91_Engelund_Hansen : PositiveOn Engelund_Hansen (Set.Ioi 0) := by
  intro Re h; simp only [Set.mem_Ioi] at h
  unfold Engelund_Hansen; py_eval []
  exact ⟨_, rfl, by positivity⟩

theorem C91_Clift_Gauvin : PositiveOn Clift_Gauvin (Set.Ioi 0) := by
  intro Re h; simp only [Set.mem_Ioi] at h
  unfold Clift_Gauvin; py_eval []
  exact ⟨_, rfl, by positivity⟩

theorem C91_Morsi_Alexander : PositiveOn Morsi_Alexander (Set.Ioi 0) := by
  intro Re h; simp only [Set.mem_Ioi] at h
  have key : ∀ a b c : ℝ, 0 < a / Re + b / Re ^ 2 + c ↔ 0 < a * Re + b + c * Re ^ 2 := by
    intro a b c
    rw [show a / Re + b / Re ^ 2 + c = (a * Re + b + c * Re ^ 2) / Re ^ 2 by field_simp]
    exact div_pos_iff_of_pos_right (by positivity)
  unfold Morsi_Alexander
  split_ifs with h1 h2 h3 h4 h5 h6 h7
  · py_eval []; exact ⟨_, rfl, by positivity⟩
  all_goals
    py_eval []; refine ⟨_, rfl, ?_⟩
    try rw [sub_eq_add_neg, ← neg_div]
    rw [key]; norm_num at *; nlinarith

theorem C91_Graf : PositiveOn Graf (Set.Ioi 0) := by
  intro Re h; simp only [Set.mem_Ioi] at h
  unfold Graf; py_eval []
  exact ⟨_, rfl, by positivity⟩

theorem C91_Flemmer_Banks : PositiveOn Flemmer_Banks (Set.Ioi 0) := by
  intro Re h; simp only [Set.mem_Ioi] at h
  unfold Flemmer_Banks; py_eval []
  exact ⟨_, rfl, by positivity⟩

theorem C91_Khan_Richardson : PositiveOn Khan_Richardson (Set.Ioi 0) := by
  intro Re h; simp only [Set.mem_Ioi] at h
  unfold Khan_Richardson; py_eval []
  exact ⟨_, rfl, by positivity⟩

/-- C91: the Khan and Richardson coefficient follows its two power laws: it is at least the larger of them and at most 2^3.18 times that. -/
theorem C91_Khan_Richardson_asymptotes (Re : ℝ) (h : 0 < Re) :
    ∃ Cd, Khan_Richardson Re = .ok Cd ∧ max (2.49 ^ (3.18 : ℝ) * Re ^ (-1.04304 : ℝ)) (0.34 ^ (3.18 : ℝ) * Re ^ (0.21306 : ℝ)) ≤ Cd ∧
      Cd ≤ 2 ^ (3.18 : ℝ) * max (2.49 ^ (3.18 : ℝ) * Re ^ (-1.04304 : ℝ)) (0.34 ^ (3.18 : ℝ) * Re ^ (0.21306 : ℝ)) := by
  have h1 : (2.49 : ℝ) ^ (3.18 : ℝ) * Re ^ (-1.04304 : ℝ) = (2.49 * Re ^ (-0.328 : ℝ)) ^ (3.18 : ℝ) := by
    rw [mul_rpow (by norm_num) (by positivity), ← rpow_mul h.le]; norm_num
  have h2 : (0.34 : ℝ) ^ (3.18 : ℝ) * Re ^ (0.21306 : ℝ) = (0.34 * Re ^ (0.067 : ℝ)) ^ (3.18 : ℝ) := by
    rw [mul_rpow (by norm_num) (by positivity), ← rpow_mul h.le]; norm_num
  rw [h1, h2]
  have a0 : 0 ≤ 2.49 * Re ^ (-0.328 : ℝ) := by positivity
  have b0 : 0 ≤ 0.34 * Re ^ (0.067 : ℝ) := by positivity
  unfold Khan_Richardson; py_eval []
  refine ⟨_, rfl, max_le (rpow_le_rpow a0 (by linarith) (by norm_num)) (rpow_le_rpow b0 (by linarith) (by norm_num)), ?_⟩
  rcases le_total (2.49 * Re ^ (-0.328 : ℝ)) (0.34 * Re ^ (0.067 : ℝ)) with hle | hle
  · refine le_trans ?_ (mul_le_mul_of_nonneg_left (le_max_right _ _) (by positivity))
    rw [← mul_rpow (by norm_num) b0]
    exact rpow_le_rpow (by positivity) (by linarith) (by norm_num)
  · refine le_trans ?_ (mul_le_mul_of_nonneg_left (le_max_left _ _) (by positivity))
    rw [← mul_rpow (by norm_num) a0]
    exact rpow_le_rpow (by positivity) (by linarith) (by norm_num)

theorem C91_Swamee_Ojha : PositiveOn Swamee_Ojha (Set.Ioi 0) := by
  intro Re h; simp only [Set.mem_Ioi] at h
  unfold Swamee_Ojha; py_eval []
  exact ⟨_, rfl, by positivity⟩

theorem C91_Haider_Levenspiel : PositiveOn Haider_Levenspiel (Set.Ioi 0) := by
  intro Re h; simp only [Set.mem_Ioi] at h
  unfold Haider_Levenspiel; py_eval []
  exact ⟨_, rfl, by positivity⟩

theorem C91_Terfous : PositiveOn Terfous (Set.Ioi 0) := by
  intro Re h; simp only [Set.mem_Ioi] at h
  unfold Terfous; py_eval []
  refine ⟨_, rfl, ?_⟩
  have e : Re ^ (0.2:ℝ) = Re ^ (0.1:ℝ) * Re ^ (0.1:ℝ) := by rw [← rpow_add h]; norm_num
  have hu : 0 < Re ^ (0.1:ℝ) := by positivity
  rw [e]
  generalize Re ^ (0.1:ℝ) = u at *
  have h1 : 0 < 21.683 / Re + 0.131 / Re ^ 2 := by positivity
  have h2 : 0 < 2.689 - 10.616 / u + 12.216 / (u * u) := by
    rw [show 2.689 - 10.616 / u + 12.216 / (u * u) = 2.689 - 10.616 * (1 / u) + 12.216 * (1 / u) ^ 2 by field_simp]
    nlinarith [sq_nonneg (1 / u - 0.4345)]
  linarith

/-- inside its range, and up to about eight times its upper limit -/
theorem C91_Mikhailov_Freire : PositiveOn Mikhailov_Freire (Set.Ioo 0 980000) := by
  rintro Re ⟨h, h1⟩
  have : 0 < 77531 / 422 + 13529 / 976 * Re - 1 / 71154 * Re ^ 2 := by norm_num at *; nlinarith
  unfold Mikhailov_Freire; py_eval []
  exact ⟨_, rfl, by positivity⟩

/-- finding: beyond its range the Mikhailov-Freire correlation has a pole, and after it the drag coefficient is negative -/
theorem C91_Mikhailov_Freire_negative {Re : ℝ} (h : 1000000 ≤ Re) : ∃ c, Mikhailov_Freire Re = .ok c ∧ c < 0 := by
  have hd : 77531 / 422 + 13529 / 976 * Re - 1 / 71154 * Re ^ 2 < 0 := by nlinarith
  have h0 : 0 < Re := by linarith
  have hd' : 681 * Re * (77531 / 422 + 13529 / 976 * Re - 1 / 71154 * Re ^ 2) < 0 := mul_neg_of_pos_of_neg (by positivity) hd
  unfold Mikhailov_Freire
  rw [pdiv_ok hd'.ne]
  exact ⟨_, rfl, div_neg_of_pos_of_neg (by positivity) hd'⟩

theorem log10_le {Re : ℝ} (h : 0 < Re) (h1 : Re ≤ 4e5) : log Re / log 10 ≤ 73 / 13 := by
  have hl10 : 0 < log 10 := log_pos (by norm_num)
  rw [div_le_iff₀ hl10]
  have : log (Re ^ 13) ≤ log (10 ^ 73) := log_le_log (by positivity) (le_trans (pow_le_pow_left₀ h.le h1 13) (by norm_num))
  rw [log_pow, log_pow] at this
  push_cast at this; linarith

theorem C91_Clift : PositiveOn Clift (Set.Ioi 0) := by
  intro Re h; simp only [Set.mem_Ioi] at h
  unfold Clift
  split_ifs with h1 h2 h3 h4 h5 h6 h7 h8
  all_goals try (py_eval []; exact ⟨_, rfl, by positivity⟩)
  · py_eval []; refine ⟨_, rfl, ?_⟩
    have := log10_le h (by norm_num at h8 ⊢; linarith)
    linarith
  · py_eval []; refine ⟨_, rfl, ?_⟩
    have hl10 : 0 < log 10 := log_pos (by norm_num)
    have : 5 ≤ log Re / log 10 := by
      rw [le_div_iff₀ hl10, show (5:ℝ) * log 10 = log (10 ^ 5) by rw [log_pow]; norm_num]
      exact log_le_log (by norm_num) (by norm_num at h8 ⊢; linarith)
    linarith

theorem C91_Almedeij : PositiveOn Almedeij (Set.Ioi 0) := by
  intro Re h; simp only [Set.mem_Ioi] at h
  unfold Almedeij; py_eval []
  exact ⟨_, rfl, by positivity⟩

theorem C91_Morrison : PositiveOn Morrison (Set.Ioi 0) := by
  intro Re h; simp only [Set.mem_Ioi] at h
  unfold Morrison; py_eval []
  exact ⟨_, rfl, by positivity⟩

theorem C91_Song_Xu {sphericity S : ℝ} (h1 : 0 < sphericity) (h2 : 0 < S) : PositiveOn (fun Re => Song_Xu Re sphericity S) (Set.Ioi 0) := by
  intro Re h; simp only [Set.mem_Ioi] at h
  unfold Song_Xu; py_eval []
  exact ⟨_, rfl, by positivity⟩

theorem C91_Yen : PositiveOn Yen (Set.Ioi 0) := by
  intro Re h; simp only [Set.mem_Ioi] at h
  unfold Yen; py_eval []
  refine ⟨_, rfl, ?_⟩
  have h0 : 0 ≤ 1e4 * 1 / √Re := by positivity
  have h1 : 0.208 / (1 + 1e4 * 1 / √Re) ≤ 0.208 := div_le_self (by norm_num) (by linarith)
  have h2 : 24 / Re * (1 + 0.15 * √Re + 0.017 * Re) = 24 / Re * (1 + 0.15 * √Re) + 0.408 := by field_simp; ring
  have h3 : 0 < 24 / Re * (1 + 0.15 * √Re) := by positivity
  rw [h2]; linarith

theorem C91_Cheng : PositiveOn Cheng (Set.Ioi 0) := by
  intro Re h; simp only [Set.mem_Ioi] at h
  unfold Cheng; py_eval []
  refine ⟨_, rfl, ?_⟩
  have h1 : exp (-0.04 * Re ^ (0.38:ℝ)) ≤ 1 := by
    rw [exp_le_one_iff]
    have : 0 < Re ^ (0.38:ℝ) := by positivity
    linarith
  have h2 : 0 < 24 / Re * (1 + 0.27 * Re) ^ (0.43:ℝ) := by positivity
  linarith

/-- from the lower limit of its range on; far below it the correlation is negative -/
theorem C91_Ceylan : PositiveOn Ceylan (Set.Ici 0.1) := by
  intro Re h'; simp only [Set.mem_Ici] at h'
  have h : 0 < Re := lt_of_lt_of_le (by norm_num) h'
  unfold Ceylan; py_eval []
  refine ⟨_, rfl, ?_⟩
  have hq : √(√Re) * √(√Re) = √Re := mul_self_sqrt (sqrt_nonneg _)
  have hq2 : √Re * √Re = Re := mul_self_sqrt h.le
  have hu0 : 0 < √(√Re) := by positivity
  have hu : 0.5623 ≤ √(√Re) := by
    apply le_sqrt_of_sq_le; apply le_sqrt_of_sq_le; norm_num at h' ⊢; linarith
  generalize √(√Re) = u at *
  rw [← hq]
  -- the second term dominates the third
  have hpow : Re ^ (-2 / 3 : ℝ) ≤ 4.65 := by
    have h1 : Re ^ (-2 / 3 : ℝ) ≤ 0.1 ^ (-2 / 3 : ℝ) := rpow_le_rpow_of_nonpos (by norm_num) h' (by norm_num)
    refine h1.trans ?_
    have h2 : (0.1 : ℝ) ^ (-2 / 3 : ℝ) = 100 ^ (1 / 3 : ℝ) := by
      rw [show (0.1 : ℝ) = 10 ^ (-1 : ℝ) by rw [rpow_neg_one]; norm_num, show (100 : ℝ) = 10 ^ (2 : ℝ) by norm_num, ← rpow_mul (by norm_num),
        ← rpow_mul (by norm_num)]
      norm_num
    rw [h2, ← rpow_le_rpow_iff (z := 3) (by positivity) (by norm_num) (by norm_num), ← rpow_mul (by norm_num)]
    norm_num
  have hp0 : 0 < Re ^ (-2 / 3 : ℝ) := by positivity
  have h43 : Re ^ (-4 / 3 : ℝ) = Re ^ (-2 / 3 : ℝ) * Re ^ (-2 / 3 : ℝ) := by rw [← rpow_add h]; norm_num
  have hexp : exp (1.30 / (u * u)) ≤ 21 * exp (0.952 / u) := by
    have h1 : 1.30 / (u * u) ≤ 3 + 0.952 / u := by
      rw [div_le_iff₀ (by positivity)]
      have : (3 + 0.952 / u) * (u * u) = 3 * (u * u) + 0.952 * u := by field_simp
      rw [this]; norm_num at hu ⊢; nlinarith
    calc exp (1.30 / (u * u)) ≤ exp (3 + 0.952 / u) := exp_le_exp.mpr h1
      _ = exp 3 * exp (0.952 / u) := exp_add _ _
      _ ≤ 21 * exp (0.952 / u) := by
        gcongr
        have h3 : exp 3 = exp 1 ^ 3 := by rw [← exp_nat_mul]; norm_num
        rw [h3]
        exact (pow_le_pow_left₀ (exp_pos 1).le exp_one_lt_d9.le 3).trans (by norm_num)
  have hA : 0 ≤ 10.11 * Re ^ (-2 / 3 : ℝ) * exp (0.952 / u) - 0.03859 * Re ^ (-4 / 3 : ℝ) * exp (1.30 / (u * u)) := by
    rw [h43]
    have hE := exp_pos (0.952 / u)
    have hE' := exp_pos (1.30 / (u * u))
    generalize exp (0.952 / u) = E at *
    generalize exp (1.30 / (u * u)) = E' at *
    generalize Re ^ (-2 / 3 : ℝ) = r at *
    have h1 : r * E' ≤ 4.65 * (21 * E) := mul_le_mul hpow hexp hE'.le (by norm_num)
    have h2 : r * (r * E') ≤ r * (4.65 * (21 * E)) := mul_le_mul_of_nonneg_left h1 hp0.le
    have h3 : 0 < r * E := by positivity
    norm_num at *; nlinarith
  -- the last term is bounded
  have hy : 0.222e-5 * Re * exp (-(0.222e-5 * Re)) ≤ 0.3679 := by
    have h1 := add_one_le_exp (0.222e-5 * Re - 1)
    have h2 : 0.222e-5 * Re ≤ exp (0.222e-5 * Re) * exp (-1) := by rw [← exp_add, ← sub_eq_add_neg]; linarith
    have h3 : exp (0.222e-5 * Re) * exp (-(0.222e-5 * Re)) = 1 := by rw [← exp_add]; simp
    have h4 := exp_pos (-(0.222e-5 * Re))
    calc 0.222e-5 * Re * exp (-(0.222e-5 * Re)) ≤ exp (0.222e-5 * Re) * exp (-1) * exp (-(0.222e-5 * Re)) := by gcongr
      _ = exp (-1) := by rw [mul_right_comm, h3, one_mul]
      _ ≤ 0.3679 := by have := exp_neg_one_lt_d9; linarith
  have hD : 0.116e-10 * Re ^ 2 * exp (-0.444e-5 * Re) ≤ 0.32 := by
    have e : exp (-0.444e-5 * Re) = exp (-(0.222e-5 * Re)) ^ 2 := by
      rw [← exp_nat_mul]; congr 1; push_cast; ring
    have h1 : (0.222e-5 * Re * exp (-(0.222e-5 * Re))) ^ 2 ≤ 0.3679 ^ 2 := pow_le_pow_left₀ (by positivity) hy 2
    rw [e]
    have : 0.116e-10 * Re ^ 2 * exp (-(0.222e-5 * Re)) ^ 2 = 0.116e-10 / (0.222e-5) ^ 2 * (0.222e-5 * Re * exp (-(0.222e-5 * Re))) ^ 2 := by
      generalize exp (-(0.222e-5 * Re)) = z; norm_num; ring
    rw [this]; norm_num at h1 ⊢; linarith
  have hC : 0 ≤ 0.037e-4 * Re * exp (-0.125e-4 * Re) := by positivity
  have h0 : exp 0.182 ≤ 1.23 := by
    have h1 := add_one_le_exp (-0.182 : ℝ)
    rw [exp_neg] at h1
    have h2 := exp_pos (0.182 : ℝ)
    have h3 : exp (0.182:ℝ) * (exp 0.182)⁻¹ = 1 := mul_inv_cancel₀ h2.ne'
    norm_num at h1 ⊢; nlinarith
  linarith

/-! ### Stokes' law -/

theorem stokes_ratio {c Re : ℝ} (h : 0 < Re) : c / (24 / Re) = c * Re / 24 := by field_simp

theorem C91_above_Stokes : AboveStokes Stokes ∧ AboveStokes Rouse ∧ AboveStokes Engelund_Hansen ∧ AboveStokes Clift_Gauvin ∧ AboveStokes Graf ∧
    AboveStokes Swamee_Ojha ∧ AboveStokes Yen ∧ AboveStokes Haider_Levenspiel ∧ AboveStokes Cheng ∧ AboveStokes Morrison ∧
    AboveStokes (fun Re => Song_Xu Re) := by
  refine ⟨?_, ?_, ?_, ?_, ?_, ?_, ?_, ?_, ?_, ?_, ?_⟩ <;> intro Re h
  · exact ⟨24 / Re, pdiv_ok h.ne', le_rfl⟩
  · unfold Rouse; py_eval []; refine ⟨_, rfl, ?_⟩
    have : 0 < 3 / √Re := by positivity
    linarith
  · unfold Engelund_Hansen; py_eval []; exact ⟨_, rfl, by linarith⟩
  · unfold Clift_Gauvin; py_eval []; refine ⟨_, rfl, ?_⟩
    have h1 : 0 < 0.417 / (1 + 5070 * Re ^ (-0.94:ℝ)) := by positivity
    have h2 : 0 < 24 / Re * (0.152 * Re ^ (0.677:ℝ)) := by positivity
    rw [mul_add, mul_one]; linarith
  · unfold Graf; py_eval []; refine ⟨_, rfl, ?_⟩
    have : 0 < 7.3 / (1 + √Re) := by positivity
    linarith
  · unfold Swamee_Ojha; py_eval []; refine ⟨_, rfl, ?_⟩
    have h0 : 0 < 24 / Re := by positivity
    have h1 : (24 / Re) ^ 4 ≤ ((24 / Re) ^ (1.6:ℝ) + (130 / Re) ^ (0.72:ℝ)) ^ (2.5:ℝ) := by
      calc (24 / Re) ^ 4 = ((24 / Re) ^ (1.6:ℝ)) ^ (2.5:ℝ) := by rw [← rpow_mul h0.le, ← rpow_natCast]; norm_num
        _ ≤ _ := by gcongr; exact le_add_of_nonneg_right (by positivity)
    have h2 : 0 < 1 / √(√((40000 / Re) ^ 2 + 1)) := by positivity
    have h3 : 2 * (24 / Re) ≤ √(√(16 * ((24 / Re) ^ (1.6:ℝ) + (130 / Re) ^ (0.72:ℝ)) ^ (2.5:ℝ) + 1 / √(√((40000 / Re) ^ 2 + 1)))) := by
      apply le_sqrt_of_sq_le; apply le_sqrt_of_sq_le
      rw [show ((2 * (24 / Re)) ^ 2) ^ 2 = 16 * (24 / Re) ^ 4 by ring]; linarith
    linarith
  · unfold Yen; py_eval []; refine ⟨_, rfl, ?_⟩
    have h0 : 0 ≤ 1e4 * 1 / √Re := by positivity
    have h1 : 0.208 / (1 + 1e4 * 1 / √Re) ≤ 0.208 := div_le_self (by norm_num) (by linarith)
    have h2 : 24 / Re * (1 + 0.15 * √Re + 0.017 * Re) = 24 / Re + 24 / Re * (0.15 * √Re) + 0.408 := by field_simp; ring
    have h3 : 0 < 24 / Re * (0.15 * √Re) := by positivity
    rw [h2]; linarith
  · unfold Haider_Levenspiel; py_eval []; refine ⟨_, rfl, ?_⟩
    have h1 : 0 < 0.4251 / (1 + 6880.95 / Re) := by positivity
    have h2 : 0 < 24 / Re * (0.1806 * Re ^ (0.6459:ℝ)) := by positivity
    rw [mul_add, mul_one]; linarith
  · unfold Cheng; py_eval []; refine ⟨_, rfl, ?_⟩
    have h1 : exp (-0.04 * Re ^ (0.38:ℝ)) ≤ 1 := by
      rw [exp_le_one_iff]
      have : 0 < Re ^ (0.38:ℝ) := by positivity
      linarith
    have h2 : 1 ≤ (1 + 0.27 * Re) ^ (0.43:ℝ) := one_le_rpow (by linarith) (by norm_num)
    have h3 : 24 / Re * 1 ≤ 24 / Re * (1 + 0.27 * Re) ^ (0.43:ℝ) := by gcongr
    linarith
  · unfold Morrison; py_eval []; refine ⟨_, rfl, ?_⟩
    have h1 : 0 < 2.6 * Re / 5 / (1 + (Re / 5) ^ (1.52:ℝ)) := by positivity
    have h2 : 0 < 0.411 * (Re / 263000) ^ (-7.94:ℝ) / (1 + (Re / 263000) ^ (-8:ℝ)) := by positivity
    have h3 : 0 < Re ^ (0.8:ℝ) / 461000 := by positivity
    linarith
  · beta_reduce; unfold Song_Xu; py_eval [one_rpow, mul_one]; refine ⟨_, rfl, ?_⟩
    have h2 : 1 ≤ (1 + 0.35 * Re) ^ (0.44:ℝ) := one_le_rpow (by linarith) (by norm_num)
    calc 24 / Re = 24 / Re * 1 := (mul_one _).symm
      _ ≤ _ := by gcongr

open Filter Topology

theorem stokesLimit_of {f : ℝ → Py ℝ} {lo hi : ℝ → ℝ} (h : ∀ Re, 0 < Re → Re < 0.01 → ∃ c, f Re = .ok c ∧ lo Re ≤ c / (24 / Re) ∧ c / (24 / Re) ≤ hi Re)
    (hlo : Tendsto lo (𝓝[>] 0) (𝓝 1)) (hhi : Tendsto hi (𝓝[>] 0) (𝓝 1)) : StokesLimit f := by
  intro ε hε
  have h1 := (Metric.tendsto_nhdsWithin_nhds.mp hlo) ε hε
  have h2 := (Metric.tendsto_nhdsWithin_nhds.mp hhi) ε hε
  obtain ⟨d1, hd1, h1⟩ := h1
  obtain ⟨d2, hd2, h2⟩ := h2
  refine ⟨min 0.01 (min d1 d2), by positivity, fun Re h0 hlt => ?_⟩
  obtain ⟨hl0, hlt⟩ := lt_min_iff.mp hlt
  obtain ⟨hl1, hl2⟩ := lt_min_iff.mp hlt
  obtain ⟨c, hc, ha, hb⟩ := h Re h0 hl0
  refine ⟨c, hc, ?_⟩
  have e1 := h1 (x := Re) h0 (by simpa [abs_of_pos h0] using hl1)
  have e2 := h2 (x := Re) h0 (by simpa [abs_of_pos h0] using hl2)
  rw [Real.dist_eq] at e1 e2
  rw [abs_lt] at e1 e2 ⊢
  constructor <;> linarith [e1.1, e2.2]

/-- powers with a positive exponent vanish at zero -/
theorem pow_tendsto {p : ℝ} (hp : 0 < p) : Tendsto (fun Re : ℝ => Re ^ p) (𝓝[>] 0) (𝓝 0) := by
  have := (continuousAt_rpow_const (0:ℝ) p (Or.inr hp.le)).tendsto
  rw [zero_rpow hp.ne'] at this
  exact this.mono_left nhdsWithin_le_nhds

theorem above_of (f : ℝ → Py ℝ) {p K : ℝ} (hp : 0 < p) (h : ∀ Re, 0 < Re → Re < 0.01 → ∃ c, f Re = .ok c ∧ 24 / Re ≤ c ∧ c ≤ 24 / Re * (1 + K * Re ^ p)) :
    StokesLimit f := by
  refine stokesLimit_of (lo := fun _ => 1) (hi := fun Re => 1 + K * Re ^ p) (fun Re h0 h1 => ?_) tendsto_const_nhds ?_
  · obtain ⟨c, hc, ha, hb⟩ := h Re h0 h1
    have : 0 < 24 / Re := by positivity
    exact ⟨c, hc, (one_le_div this).mpr ha, (div_le_iff₀ this).mpr (by rw [mul_comm]; exact hb)⟩
  · have := ((pow_tendsto hp).const_mul K).const_add 1
    simpa using this

theorem le_pow {Re p : ℝ} (h : 0 < Re) (h1 : Re < 0.01) (hp : p ≤ 1) : Re ≤ Re ^ p := by
  calc Re = Re ^ (1:ℝ) := (rpow_one Re).symm
    _ ≤ Re ^ p := rpow_le_rpow_of_exponent_ge h (by linarith) hp

theorem C91_Stokes_limit_simple : StokesLimit Stokes ∧ StokesLimit Rouse ∧ StokesLimit Engelund_Hansen ∧ StokesLimit Clift_Gauvin ∧
    StokesLimit Morsi_Alexander ∧ StokesLimit Graf ∧ StokesLimit Yen ∧ StokesLimit Haider_Levenspiel ∧ StokesLimit Cheng ∧ StokesLimit Clift ∧
    StokesLimit Morrison ∧ StokesLimit (fun Re => Song_Xu Re) := by
  obtain ⟨a1, a2, a3, a4, a5, -, a7, a8, a9, a10, a11⟩ := C91_above_Stokes
  have mk : ∀ {f : ℝ → Py ℝ} {p K : ℝ}, AboveStokes f → 0 < p → (∀ Re c, 0 < Re → Re < 0.01 → f Re = .ok c → c ≤ 24 / Re * (1 + K * Re ^ p)) → StokesLimit f := by
    intro f p K ha hp h
    refine above_of f (K := K) hp fun Re h0 h1 => ?_
    obtain ⟨c, hc, hl⟩ := ha Re h0
    exact ⟨c, hc, hl, h Re c h0 h1 hc⟩
  refine ⟨?_, ?_, ?_, ?_, ?_, ?_, ?_, ?_, ?_, ?_, ?_, ?_⟩
  · refine mk (p := 1) (K := 1) a1 (by norm_num) fun Re c h h1 hc => ?_
    rw [Stokes, pdiv_ok h.ne'] at hc; obtain rfl := Except.ok.inj hc
    rw [rpow_one]; exact le_mul_of_one_le_right (by positivity) (by linarith)
  · refine mk (p := 1 / 2) (K := 1) a2 (by norm_num) fun Re c h h1 hc => ?_
    unfold Rouse at hc; revert hc; py_eval []; intro hc; obtain rfl := Except.ok.inj hc
    rw [← sqrt_eq_rpow]
    have hs : 0 < √Re := by positivity
    have hq : √Re * √Re = Re := mul_self_sqrt h.le
    have hs1 : √Re < 1 := by nlinarith
    generalize √Re = s at *
    rw [← hq]
    have : 24 / (s * s) + 3 / s + 0.34 = 24 / (s * s) * (1 + (s / 8 + 0.34 / 24 * (s * s))) := by field_simp; ring
    rw [this]; gcongr; nlinarith
  · refine mk (p := 1) (K := 1) a3 (by norm_num) fun Re c h h1 hc => ?_
    unfold Engelund_Hansen at hc; revert hc; py_eval []; intro hc; obtain rfl := Except.ok.inj hc
    rw [rpow_one]
    have : 24 / Re * (1 + 1 * Re) = 24 / Re + 24 := by field_simp
    rw [this]; linarith
  · refine mk (p := 0.677) (K := 1) a4 (by norm_num) fun Re c h h1 hc => ?_
    unfold Clift_Gauvin at hc; revert hc; py_eval []; intro hc; obtain rfl := Except.ok.inj hc
    have h2 := le_pow h h1 (p := 0.677) (by norm_num)
    have h3 : 0.417 / (1 + 5070 * Re ^ (-0.94:ℝ)) ≤ 0.417 := div_le_self (by norm_num) (by
      have : 0 < Re ^ (-0.94:ℝ) := by positivity
      linarith)
    have h4 : (0.417:ℝ) ≤ 24 / Re * (0.02 * Re ^ (0.677:ℝ)) := by
      rw [div_mul_eq_mul_div, le_div_iff₀ h]; linarith
    have h5 : 0 < Re ^ (0.677:ℝ) := by positivity
    calc _ ≤ 24 / Re * (1 + 0.152 * Re ^ (0.677:ℝ)) + 24 / Re * (0.02 * Re ^ (0.677:ℝ)) := by linarith
      _ = 24 / Re * (1 + 0.172 * Re ^ (0.677:ℝ)) := by ring
      _ ≤ _ := by gcongr; norm_num
  · intro ε hε
    refine ⟨0.1, by norm_num, fun Re h h1 => ⟨24 / Re, by unfold Morsi_Alexander; rw [if_pos h1, pdiv_ok h.ne'], ?_⟩⟩
    rw [div_self (by positivity)]; simpa using hε
  · refine mk (p := 1) (K := 1) a5 (by norm_num) fun Re c h h1 hc => ?_
    unfold Graf at hc; revert hc; py_eval []; intro hc; obtain rfl := Except.ok.inj hc
    rw [rpow_one]
    have h3 : 7.3 / (1 + √Re) ≤ 7.3 := div_le_self (by norm_num) (by linarith [sqrt_nonneg Re])
    have : 24 / Re * (1 + 1 * Re) = 24 / Re + 24 := by field_simp
    rw [this]; linarith
  · refine mk (p := 1 / 2) (K := 1) a7 (by norm_num) fun Re c h h1 hc => ?_
    unfold Yen at hc; revert hc; py_eval []; intro hc; obtain rfl := Except.ok.inj hc
    have h2 : Re ≤ √Re := by rw [sqrt_eq_rpow]; exact le_pow h h1 (by norm_num)
    rw [← sqrt_eq_rpow]
    have h3 : 0 ≤ 0.208 / (1 + 1e4 * 1 / √Re) := by positivity
    have h4 : 24 / Re * (1 + 0.15 * √Re + 0.017 * Re) ≤ 24 / Re * (1 + 1 * √Re) :=
      mul_le_mul_of_nonneg_left (by linarith [sqrt_nonneg Re]) (by positivity)
    linarith
  · refine mk (p := 0.6459) (K := 1) a8 (by norm_num) fun Re c h h1 hc => ?_
    unfold Haider_Levenspiel at hc; revert hc; py_eval []; intro hc; obtain rfl := Except.ok.inj hc
    have h2 := le_pow h h1 (p := 0.6459) (by norm_num)
    have h3 : 0.4251 / (1 + 6880.95 / Re) ≤ 0.4251 := div_le_self (by norm_num) (by
      have : 0 < 6880.95 / Re := by positivity
      linarith)
    have h4 : (0.4251:ℝ) ≤ 24 / Re * (0.02 * Re ^ (0.6459:ℝ)) := by
      rw [div_mul_eq_mul_div, le_div_iff₀ h]; linarith
    have h5 : 0 < Re ^ (0.6459:ℝ) := by positivity
    calc _ ≤ 24 / Re * (1 + 0.1806 * Re ^ (0.6459:ℝ)) + 24 / Re * (0.02 * Re ^ (0.6459:ℝ)) := by linarith
      _ = 24 / Re * (1 + 0.2006 * Re ^ (0.6459:ℝ)) := by ring
      _ ≤ _ := by gcongr; norm_num
  · refine mk (p := 1) (K := 1) a9 (by norm_num) fun Re c h h1 hc => ?_
    unfold Cheng at hc; revert hc; py_eval []; intro hc; obtain rfl := Except.ok.inj hc
    rw [rpow_one]
    have h2 : (1 + 0.27 * Re) ^ (0.43:ℝ) ≤ 1 + 0.27 * Re := by
      calc _ ≤ (1 + 0.27 * Re) ^ (1:ℝ) := rpow_le_rpow_of_exponent_le (by linarith) (by norm_num)
        _ = _ := rpow_one _
    have h3 := exp_pos (-0.04 * Re ^ (0.38:ℝ))
    have h4 : 24 / Re * (1 + 0.27 * Re) ^ (0.43:ℝ) ≤ 24 / Re * (1 + 0.27 * Re) := by gcongr
    have h5 : 24 / Re * (1 + 0.27 * Re) = 24 / Re + 6.48 := by field_simp; ring
    have : 24 / Re * (1 + 1 * Re) = 24 / Re + 24 := by field_simp
    rw [this]; linarith
  · refine above_of Clift (p := 1) (K := 1) (by norm_num) fun Re h h1 => ?_
    unfold Clift; rw [if_pos h1]; py_eval []
    refine ⟨_, rfl, by linarith, ?_⟩
    have : 24 / Re * (1 + 1 * Re) = 24 / Re + 24 := by field_simp
    rw [rpow_one, this]; linarith
  · refine mk (p := 1) (K := 1) a10 (by norm_num) fun Re c h h1 hc => ?_
    unfold Morrison at hc; revert hc; py_eval []; intro hc; obtain rfl := Except.ok.inj hc
    rw [rpow_one]
    have h2 : 2.6 * Re / 5 / (1 + (Re / 5) ^ (1.52:ℝ)) ≤ 1 := by
      rw [div_le_one (by positivity)]
      have : 0 < (Re / 5) ^ (1.52:ℝ) := by positivity
      linarith
    have h3 : 0.411 * (Re / 263000) ^ (-7.94:ℝ) / (1 + (Re / 263000) ^ (-8:ℝ)) ≤ 1 := by
      rw [div_le_one (by positivity)]
      have hz : 0 < Re / 263000 := by positivity
      have h0 : (Re / 263000) ^ (-7.94:ℝ) ≤ (Re / 263000) ^ (-8:ℝ) := rpow_le_rpow_of_exponent_ge hz (by linarith) (by norm_num)
      have : 0 < (Re / 263000) ^ (-7.94:ℝ) := by positivity
      linarith
    have h4 : Re ^ (0.8:ℝ) / 461000 ≤ 1 := by
      have : Re ^ (0.8:ℝ) ≤ 1 := rpow_le_one h.le (by linarith) (by norm_num)
      rw [div_le_one (by norm_num)]; linarith
    have : 24 / Re * (1 + 1 * Re) = 24 / Re + 24 := by field_simp
    rw [this]; linarith
  · refine mk (p := 1) (K := 1) a11 (by norm_num) fun Re c h h1 hc => ?_
    unfold Song_Xu at hc; revert hc; py_eval [one_rpow, mul_one]; intro hc; obtain rfl := Except.ok.inj hc
    rw [rpow_one]
    have h2 : (1 + 0.35 * Re) ^ (0.44:ℝ) ≤ 1 + 0.35 * Re := by
      calc _ ≤ (1 + 0.35 * Re) ^ (1:ℝ) := rpow_le_rpow_of_exponent_le (by linarith) (by norm_num)
        _ = _ := rpow_one _
    gcongr; linarith

theorem C91_Stokes_limit_Flemmer_Banks : StokesLimit Flemmer_Banks := by
  let E : ℝ → ℝ := fun Re => 10 ^ (0.383 * Re ^ (0.356:ℝ) - 0.207 * Re ^ (0.396:ℝ) - 0.143 / (1 + (log Re / log 10) ^ 2))
  have hE : Tendsto E (𝓝[>] 0) (𝓝 1) := by
    have h1 := (pow_tendsto (p := 0.356) (by norm_num)).const_mul 0.383
    have h2 := (pow_tendsto (p := 0.396) (by norm_num)).const_mul 0.207
    have hl10 : 0 < log 10 := log_pos (by norm_num)
    have h3 : Tendsto (fun Re : ℝ => 0.143 / (1 + (log Re / log 10) ^ 2)) (𝓝[>] 0) (𝓝 0) := by
      apply Tendsto.div_atTop tendsto_const_nhds
      apply tendsto_atTop_add_const_left
      have : Tendsto (fun Re : ℝ => log Re / log 10) (𝓝[>] 0) atBot := tendsto_log_nhdsGT_zero.atBot_div_const hl10
      refine ((tendsto_pow_atTop (n := 2) two_ne_zero).comp (tendsto_abs_atBot_atTop.comp this)).congr fun x => ?_
      exact sq_abs _
    have h4 := (h1.sub h2).sub h3
    have h5 := (continuous_const_rpow (a := 10) (by norm_num)).continuousAt.tendsto.comp h4
    simpa [Function.comp_def] using h5
  refine stokesLimit_of (lo := E) (hi := E) (fun Re h h1 => ?_) hE hE
  unfold Flemmer_Banks; py_eval []
  have h0 : 24 / Re ≠ 0 := by positivity
  refine ⟨_, rfl, ?_, ?_⟩ <;> rw [mul_div_cancel_left₀ _ h0]

theorem C91_Stokes_limit_Swamee_Ojha : StokesLimit Swamee_Ojha := by
  obtain ⟨-, -, -, -, -, ha, -⟩ := C91_above_Stokes
  let K : ℝ := 130 ^ (0.72:ℝ) / 24 ^ (1.6:ℝ)
  refine stokesLimit_of (lo := fun _ => 1) (hi := fun Re => (1 + K * Re ^ (0.88:ℝ)) ^ (2.5:ℝ) + Re) (fun Re h h1 => ?_) tendsto_const_nhds ?_
  · obtain ⟨c, hc, hl⟩ := ha Re h
    have h0 : 0 < 24 / Re := by positivity
    refine ⟨c, hc, (one_le_div h0).mpr hl, ?_⟩
    have hx : 1 ≤ c / (24 / Re) := (one_le_div h0).mpr hl
    unfold Swamee_Ojha at hc; revert hc; py_eval []; intro hc; replace hc := (Except.ok.inj hc).symm
    have hS : 1 / √(√((40000 / Re) ^ 2 + 1)) ≤ 1 := by
      rw [div_le_one (by positivity)]
      have : 0 ≤ (40000 / Re) ^ 2 := by positivity
      exact le_sqrt_of_sq_le (by rw [one_pow]; exact le_sqrt_of_sq_le (by rw [one_pow]; linarith))
    have hS0 : 0 < 1 / √(√((40000 / Re) ^ 2 + 1)) := by positivity
    generalize 1 / √(√((40000 / Re) ^ 2 + 1)) = S at *
    have e1 : (24 / Re) ^ (1.6:ℝ) + (130 / Re) ^ (0.72:ℝ) = (24 / Re) ^ (1.6:ℝ) * (1 + K * Re ^ (0.88:ℝ)) := by
      rw [div_rpow (by norm_num) h.le, div_rpow (by norm_num) h.le, show Re ^ (0.88:ℝ) = Re ^ (1.6:ℝ) / Re ^ (0.72:ℝ) by rw [← rpow_sub h]; norm_num]
      simp only [K]; field_simp
    have hKp : 0 < 1 + K * Re ^ (0.88:ℝ) := by positivity
    have e2 : ((24 / Re) ^ (1.6:ℝ) + (130 / Re) ^ (0.72:ℝ)) ^ (2.5:ℝ) = (24 / Re) ^ 4 * (1 + K * Re ^ (0.88:ℝ)) ^ (2.5:ℝ) := by
      rw [e1, mul_rpow (by positivity) hKp.le, ← rpow_mul h0.le, show (1.6:ℝ) * 2.5 = (4:ℕ) by norm_num, rpow_natCast]
    rw [e2] at hc
    have hc4 : c ^ 4 = (24 / Re) ^ 4 * (1 + K * Re ^ (0.88:ℝ)) ^ (2.5:ℝ) + S / 16 := by
      rw [hc]
      have hp : 0 ≤ 16 * ((24 / Re) ^ 4 * (1 + K * Re ^ (0.88:ℝ)) ^ (2.5:ℝ)) + S := by positivity
      have h1 := sq_sqrt (sqrt_nonneg (16 * ((24 / Re) ^ 4 * (1 + K * Re ^ (0.88:ℝ)) ^ (2.5:ℝ)) + S))
      have h2 := sq_sqrt hp
      generalize √(16 * ((24 / Re) ^ 4 * (1 + K * Re ^ (0.88:ℝ)) ^ (2.5:ℝ)) + S) = r at *
      generalize √r = t at *
      have : (0.5 * t) ^ 4 = (t ^ 2) ^ 2 / 16 := by ring
      rw [this, h1, h2]; ring
    have h4 : (c / (24 / Re)) ^ 4 ≤ (1 + K * Re ^ (0.88:ℝ)) ^ (2.5:ℝ) + Re := by
      rw [div_pow, hc4, add_div, mul_div_cancel_left₀ _ (by positivity)]
      have : S / 16 / (24 / Re) ^ 4 ≤ Re := by
        rw [div_le_iff₀ (by positivity)]
        have : Re * (24 / Re) ^ 4 = 24 ^ 4 / Re ^ 3 := by field_simp
        rw [this, le_div_iff₀ (by positivity)]
        have : Re ^ 3 ≤ 1 := pow_le_one₀ h.le (by linarith)
        have : 0 < Re ^ 3 := by positivity
        nlinarith
      linarith
    refine le_trans ?_ h4
    calc c / (24 / Re) = (c / (24 / Re)) ^ 1 := (pow_one _).symm
      _ ≤ _ := pow_le_pow_right₀ hx (by norm_num)
  · have h1 := ((pow_tendsto (p := 0.88) (by norm_num)).const_mul K).const_add 1
    have h2 : Tendsto (fun Re : ℝ => (1 + K * Re ^ (0.88:ℝ)) ^ (2.5:ℝ)) (𝓝[>] 0) (𝓝 ((1 + K * 0) ^ (2.5:ℝ))) :=
      h1.rpow_const (Or.inr (by norm_num))
    have h3 : Tendsto (fun Re : ℝ => Re) (𝓝[>] 0) (𝓝 0) := tendsto_id.mono_left nhdsWithin_le_nhds
    simpa using h2.add h3

theorem C91_Stokes_limit_Almedeij : StokesLimit Almedeij := by
  let K : ℝ := (24 / 1.57e8) ^ 10
  refine stokesLimit_of (lo := fun Re => (1 / (1 + K * Re ^ (6.25:ℝ))) ^ (0.1:ℝ)) (hi := fun Re => (1 + Re) ^ (0.1:ℝ)) (fun Re h h1 => ?_) ?_ ?_
  · have h0 : 0 < 24 / Re := by positivity
    unfold Almedeij; py_eval []
    have e24 : 24 * Re ^ (-1:ℝ) = 24 / Re := by rw [rpow_neg_one]; rfl
    rw [e24]
    refine ⟨_, rfl, ?_⟩
    set Q : ℝ := (1.57e8 * Re ^ (-1.625:ℝ)) ^ 10 with hQ
    have hQ0 : 0 < Q := by positivity
    set X : ℝ := (24 / Re) ^ 10 with hX
    have hX0 : 0 < X := by positivity
    set P2 : ℝ := ((0.148 * Re ^ (0.11:ℝ)) ^ (-10:ℝ) + 0.5 ^ (-10:ℝ)) ^ (-1:ℝ) with hP2
    set P4 : ℝ := ((6e-17 * Re ^ (2.63:ℝ)) ^ (-10:ℝ) + 0.2 ^ (-10:ℝ)) ^ (-1:ℝ) with hP4
    set P1 : ℝ := (21 * Re ^ (-0.67:ℝ)) ^ 10 with hP1
    set P0 : ℝ := (4 * Re ^ (-0.33:ℝ)) ^ 10 with hP0
    have b2 : 0 < P2 := by positivity
    have b4 : 0 < P4 := by positivity
    have b1 : 0 < P1 := by positivity
    have b0 : 0 < P0 := by positivity
    have c2 : P2 ≤ 1 := by
      rw [hP2, rpow_neg_one]; apply inv_le_one_of_one_le₀
      have : (0:ℝ) < (0.148 * Re ^ (0.11:ℝ)) ^ (-10:ℝ) := by positivity
      have : (1:ℝ) ≤ 0.5 ^ (-10:ℝ) := by rw [show (0.5:ℝ) ^ (-10:ℝ) = 1024 by rw [rpow_neg (by norm_num)]; norm_num]; norm_num
      linarith
    have c4 : P4 ≤ 1 := by
      rw [hP4, rpow_neg_one]; apply inv_le_one_of_one_le₀
      have : (0:ℝ) < (6e-17 * Re ^ (2.63:ℝ)) ^ (-10:ℝ) := by positivity
      have : (1:ℝ) ≤ 0.2 ^ (-10:ℝ) := by rw [show (0.2:ℝ) ^ (-10:ℝ) = 9765625 by rw [rpow_neg (by norm_num)]; norm_num]; norm_num
      linarith
    have hXQ : X / Q = K * Re ^ (6.25:ℝ) := by
      rw [hX, hQ, mul_pow, ← rpow_natCast (Re ^ (-1.625:ℝ)), ← rpow_mul h.le, div_pow,
        show Re ^ (6.25:ℝ) = Re ^ (16.25:ℝ) / Re ^ 10 by rw [← rpow_natCast, ← rpow_sub h]; norm_num,
        show (-1.625:ℝ) * (10:ℕ) = -(16.25:ℝ) by norm_num, rpow_neg h.le]
      simp only [K]; field_simp
    set A : ℝ := X + P1 + P0 + 0.4 ^ 10 + P2 with hA
    have hA0 : 0 < A := by positivity
    have hXA : X ≤ A := by rw [hA]; have : (0:ℝ) < 0.4 ^ 10 := by norm_num
                           linarith
    rw [rpow_neg_one A, rpow_neg_one Q]
    have e24' : (24 / Re : ℝ) = X ^ (0.1:ℝ) := by rw [hX, ← rpow_natCast, ← rpow_mul h0.le]; norm_num
    rw [e24', ← div_rpow (by positivity) hX0.le]
    constructor
    · refine rpow_le_rpow (by positivity) ?_ (by norm_num)
      rw [← hXQ, le_div_iff₀ hX0]
      have h2 : 1 / (1 + X / Q) * X = 1 / (X⁻¹ + Q⁻¹) := by field_simp
      have h3 : 1 / (X⁻¹ + Q⁻¹) ≤ 1 / (A⁻¹ + Q⁻¹) := by gcongr
      rw [h2]; linarith
    · refine rpow_le_rpow (by positivity) ?_ (by norm_num)
      rw [div_le_iff₀ hX0]
      have h3 : 1 / (A⁻¹ + Q⁻¹) ≤ A := by
        rw [div_le_iff₀ (by positivity)]
        have : A * A⁻¹ = 1 := mul_inv_cancel₀ hA0.ne'
        have : 0 < A * Q⁻¹ := by positivity
        nlinarith
      -- the remaining terms of phi1 are small compared with (24/Re)^10
      have d1 : P1 ≤ X * (Re / 3) := by
        have hu : Re ^ (-0.67:ℝ) = Re ^ (0.33:ℝ) / Re := by rw [← rpow_sub_one h.ne']; norm_num
        have h33 : (Re ^ (0.33:ℝ)) ^ 10 ≤ Re := by
          rw [← rpow_natCast, ← rpow_mul h.le]
          calc Re ^ ((0.33:ℝ) * (10:ℕ)) ≤ Re ^ (1:ℝ) := rpow_le_rpow_of_exponent_ge h (by linarith) (by norm_num)
            _ = Re := rpow_one _
        rw [hP1, hX, hu, mul_pow, div_pow, div_pow]
        rw [show (24:ℝ) ^ 10 / Re ^ 10 * (Re / 3) = 24 ^ 10 / 3 * Re / Re ^ 10 by ring, ← mul_div_assoc]
        apply div_le_div_of_nonneg_right _ (by positivity)
        norm_num at h33 ⊢; nlinarith
      have d0 : P0 ≤ X * (Re / 4) := by
        have hu : Re ^ (-0.33:ℝ) = Re ^ (0.67:ℝ) / Re := by rw [← rpow_sub_one h.ne']; norm_num
        have h33 : (Re ^ (0.67:ℝ)) ^ 10 ≤ Re := by
          rw [← rpow_natCast, ← rpow_mul h.le]
          calc Re ^ ((0.67:ℝ) * (10:ℕ)) ≤ Re ^ (1:ℝ) := rpow_le_rpow_of_exponent_ge h (by linarith) (by norm_num)
            _ = Re := rpow_one _
        rw [hP0, hX, hu, mul_pow, div_pow, div_pow]
        rw [show (24:ℝ) ^ 10 / Re ^ 10 * (Re / 4) = 24 ^ 10 / 4 * Re / Re ^ 10 by ring, ← mul_div_assoc]
        apply div_le_div_of_nonneg_right _ (by positivity)
        norm_num at h33 ⊢; nlinarith
      have dX : 10 ≤ X * (Re / 4) := by
        rw [hX, div_pow, show (24:ℝ) ^ 10 / Re ^ 10 * (Re / 4) = 24 ^ 10 / 4 / Re ^ 9 by field_simp, le_div_iff₀ (by positivity)]
        have : Re ^ 9 ≤ 1 := pow_le_one₀ h.le (by linarith)
        norm_num; linarith
      have : (0.4:ℝ) ^ 10 ≤ 1 := by norm_num
      linarith
  · have h1 := ((pow_tendsto (p := 6.25) (by norm_num)).const_mul K).const_add 1
    have h2 := ((tendsto_const_nhds (x := (1:ℝ))).div h1 (by norm_num)).rpow_const (p := (0.1:ℝ)) (Or.inr (by norm_num))
    simpa using h2
  · have h3 : Tendsto (fun Re : ℝ => 1 + Re) (𝓝[>] 0) (𝓝 (1 + 0)) := (tendsto_id.mono_left nhdsWithin_le_nhds).const_add 1
    have h2 := h3.rpow_const (p := (0.1:ℝ)) (Or.inr (by norm_num))
    simpa using h2

/-- finding: `Barati` is bounded, so it is not Stokes' law as the Reynolds number goes to zero (the documentation gives no lower limit) -/
theorem C91_Barati_no_Stokes_limit : ¬ StokesLimit Barati := by
  intro hS
  obtain ⟨d, hd, h⟩ := hS (1 / 2) (by norm_num)
  set Re : ℝ := min (d / 2) 1e-9 with hRe
  have h0 : 0 < Re := by positivity
  have h1 : Re < d := lt_of_le_of_lt (min_le_left _ _) (by linarith)
  have h2 : Re ≤ 1e-9 := min_le_right _ _
  obtain ⟨c, hc, hlt⟩ := h Re h0 h1
  unfold Barati at hc; revert hc; py_eval []; intro hc; replace hc := (Except.ok.inj hc).symm
  have t1 := tanh_lt_one' (4.3774e-9 * (1 / Re))
  have t2 := tanh_lt_one' (700.6574 * (1 / Re))
  have t3 := tanh_lt_one' (74.1539 * (1 / Re))
  have t4 := tanh_pos (x := 7429.0843 * (1 / Re)) (by positivity)
  have t5 := tanh_lt_one' (9.9851 / (Re + 2.3384))
  have hb : c ≤ 5.5e9 := by rw [hc]; norm_num at *; linarith
  rw [stokes_ratio h0, abs_lt] at hlt
  have : c * Re ≤ 5.5e9 * 1e-9 := by
    rcases le_or_gt 0 c with hc0 | hc0
    · exact mul_le_mul hb h2 h0.le (by norm_num)
    · have := mul_neg_of_neg_of_pos hc0 h0
      norm_num; linarith
  norm_num at this; linarith [hlt.1]

/-- the specifications on a concrete case -/
example : ∃ c, Rouse 100 = .ok c ∧ 24 / 100 ≤ c := C91_above_Stokes.2.1 100 (by norm_num)
example : ∃ c, Barati_high 2e6 = .ok c ∧ 0 < c := C91_Barati_high 2e6 (by simp only [Set.mem_Ioi]; norm_num)

end Verif.Drag
