import Verif.Model.Friction
import Verif.Spec.Friction
import Verif.Lemmas.Tactic

/-! What each friction correlation computes when it returns. -/

namespace Verif.Friction
open Real
open Verif.Spec.Friction (lg fromInvSqrt fanning)

theorem plog10_eq_ok {x y : ℝ} : plog10 x = .ok y ↔ 0 < x ∧ y = lg x := by
  unfold plog10 lg; split <;> simp_all [eq_comm]
theorem plog_eq_ok {x y : ℝ} : plog x = .ok y ↔ 0 < x ∧ y = log x := by
  unfold plog; split <;> simp_all [eq_comm]
theorem ppow_eq_ok {x y z : ℝ} : x ^ₚ y = .ok z ↔ (¬ (x = 0 ∧ y < 0) ∧ ¬ (x < 0 ∧ ¬ ∃ n : ℤ, (n : ℝ) = y)) ∧ z = x ^ y := by
  classical
  unfold ppow; split_ifs <;> simp_all [eq_comm]
theorem ok_eq_ok {α : Type _} {a b : α} : (Except.ok a : Py α) = .ok b ↔ b = a := by
  rw [Except.ok.injEq, eq_comm]

/-- read off the value a program returned -/
macro "fr_run" h:ident "[" ls:Lean.Parser.Tactic.simpLemma,* "]" : tactic => `(tactic|
  (simp only [$ls,*, Py.bind_eq_ok, pdiv_eq_ok, plog10_eq_ok, plog_eq_ok, psqrt_eq_ok, ppow_eq_ok, ok_eq_ok, Py.pure_eq,
    and_assoc, exists_and_left, exists_eq_left] at $h:ident
   casesm* _ ∧ _))

variable {Re e f : ℝ}

theorem sqrt_sqrt {x : ℝ} (hx : 0 ≤ x) : √(√x) = x ^ (0.25 : ℝ) := by
  rw [sqrt_eq_rpow, sqrt_eq_rpow, ← rpow_mul hx]; norm_num

theorem val_Moody (hRe : 0 < Re) (he : 0 ≤ e) (h : Moody Re e = .ok f) : f = Spec.Friction.Moody Re e := by
  fr_run h [Moody, pcbrt]
  subst f
  rw [if_pos (by positivity)]; rfl

theorem val_Alshul (hRe : 0 < Re) (he : 0 ≤ e) (h : Alshul_1952 Re e = .ok f) : f = Spec.Friction.Alshul_1952 Re e := by
  fr_run h [Alshul_1952]
  subst f
  rw [sqrt_sqrt (by assumption)]; rfl

theorem val_Wood (h : Wood_1966 Re e = .ok f) : f = Spec.Friction.Wood_1966 Re e := by
  fr_run h [Wood_1966]
  subst f; rfl

theorem val_Churchill_1973 (h : Churchill_1973 Re e = .ok f) : f = Spec.Friction.Churchill_1973 Re e := by
  fr_run h [Churchill_1973]
  subst f
  simp only [Spec.Friction.Churchill_1973, fromInvSqrt, div_eq_mul_inv, one_mul, pow_two]


theorem val_Eck_1973 (h : Eck_1973 Re e = .ok f) : f = Spec.Friction.Eck_1973 Re e := by
  fr_run h [Eck_1973]
  subst f
  simp only [Spec.Friction.Eck_1973, fromInvSqrt, fanning, div_eq_mul_inv, one_mul, pow_two]

theorem val_Jain_1976 (h : Jain_1976 Re e = .ok f) : f = Spec.Friction.Jain_1976 Re e := by
  fr_run h [Jain_1976]
  subst f
  simp only [Spec.Friction.Jain_1976, fromInvSqrt, fanning, div_eq_mul_inv, one_mul, pow_two]

theorem val_Swamee_Jain_1976 (h : Swamee_Jain_1976 Re e = .ok f) : f = Spec.Friction.Swamee_Jain_1976 Re e := by
  fr_run h [Swamee_Jain_1976]
  subst f
  simp only [Spec.Friction.Swamee_Jain_1976, fromInvSqrt, fanning, div_eq_mul_inv, one_mul, pow_two]

theorem val_Chen_1979 (h : Chen_1979 Re e = .ok f) : f = Spec.Friction.Chen_1979 Re e := by
  fr_run h [Chen_1979]
  subst f
  simp only [Spec.Friction.Chen_1979, fromInvSqrt, fanning, div_eq_mul_inv, one_mul, pow_two]

theorem val_Round_1980 (h : Round_1980 Re e = .ok f) : f = Spec.Friction.Round_1980 Re e := by
  fr_run h [Round_1980]
  subst f
  simp only [Spec.Friction.Round_1980, fromInvSqrt, fanning, div_eq_mul_inv, one_mul, pow_two]

theorem val_Shacham_1980 (h : Shacham_1980 Re e = .ok f) : f = Spec.Friction.Shacham_1980 Re e := by
  fr_run h [Shacham_1980]
  subst f
  simp only [Spec.Friction.Shacham_1980, fromInvSqrt, fanning, div_eq_mul_inv, one_mul, pow_two]

theorem val_Barr_1981 (h : Barr_1981 Re e = .ok f) : f = Spec.Friction.Barr_1981 Re e := by
  fr_run h [Barr_1981]
  subst f
  simp only [Spec.Friction.Barr_1981, fromInvSqrt, fanning, div_eq_mul_inv, one_mul, pow_two]

theorem val_Zigrang_Sylvester_1 (h : Zigrang_Sylvester_1 Re e = .ok f) : f = Spec.Friction.Zigrang_Sylvester_1 Re e := by
  fr_run h [Zigrang_Sylvester_1]
  subst f
  simp only [Spec.Friction.Zigrang_Sylvester_1, fromInvSqrt, fanning, div_eq_mul_inv, one_mul, pow_two]

theorem val_Zigrang_Sylvester_2 (h : Zigrang_Sylvester_2 Re e = .ok f) : f = Spec.Friction.Zigrang_Sylvester_2 Re e := by
  fr_run h [Zigrang_Sylvester_2]
  subst f
  simp only [Spec.Friction.Zigrang_Sylvester_2, fromInvSqrt, fanning, div_eq_mul_inv, one_mul, pow_two]

theorem val_Churchill_1977 (h : Churchill_1977 Re e = .ok f) : f = Spec.Friction.Churchill_1977 Re e := by
  fr_run h [Churchill_1977]
  subst f
  have hp : 0 ≤ (2.457 * log ((7 / Re) ^ (0.9 : ℝ) + 0.27 * e)) ^ 16 + (37530 / Re) ^ 16 := by positivity
  rw [Spec.Friction.Churchill_1977, rpow_neg hp, one_div]

theorem val_Haaland (h : Haaland Re e = .ok f) : f = Spec.Friction.Haaland Re e := by
  fr_run h [Haaland]
  subst f
  simp only [Spec.Friction.Haaland, fromInvSqrt, add_comm, div_eq_mul_inv, one_mul]
  rw [show (-3.6 : ℝ) = 2 * -1.8 by norm_num, mul_inv_rev, mul_inv_rev]
  ring

theorem val_Serghides_1 (h : Serghides_1 Re e = .ok f) : f = Spec.Friction.Serghides_1 Re e := by
  fr_run h [Serghides_1]
  subst f
  simp only [Spec.Friction.Serghides_1, fromInvSqrt, fanning, div_eq_mul_inv, one_mul, pow_two, Spec.Friction.serA, Spec.Friction.serB, Spec.Friction.serC]

theorem val_Serghides_2 (h : Serghides_2 Re e = .ok f) : f = Spec.Friction.Serghides_2 Re e := by
  fr_run h [Serghides_2]
  subst f
  simp only [Spec.Friction.Serghides_2, fromInvSqrt, fanning, div_eq_mul_inv, one_mul, pow_two, Spec.Friction.serA, Spec.Friction.serB]

theorem val_Tsal_1989 (h : Tsal_1989 Re e = .ok f) : f = Spec.Friction.Tsal_1989 Re e := by
  simp only [Tsal_1989, Py.bind_eq_ok, pdiv_eq_ok, psqrt_eq_ok, Py.pure_eq, and_assoc, exists_and_left, exists_eq_left] at h
  obtain ⟨_, h1, _, h⟩ := h
  rw [sqrt_sqrt h1] at h
  unfold Spec.Friction.Tsal_1989
  split_ifs at h ⊢ <;> exact (Except.ok.inj h).symm

theorem val_Manadilli_1997 (hRe : 0 < Re) (h : Manadilli_1997 Re e = .ok f) : f = Spec.Friction.Manadilli_1997 Re e := by
  fr_run h [Manadilli_1997]
  subst f
  rw [Spec.Friction.Manadilli_1997, fromInvSqrt, rpow_neg hRe.le]
  simp only [div_eq_mul_inv, one_mul, pow_two]

theorem val_Romeo_2002 (h : Romeo_2002 Re e = .ok f) : f = Spec.Friction.Romeo_2002 Re e := by
  fr_run h [Romeo_2002]
  subst f
  simp only [Spec.Friction.Romeo_2002, fromInvSqrt, fanning, div_eq_mul_inv, one_mul, pow_two]

theorem val_Sonnad_Goudar_2006 (h : Sonnad_Goudar_2006 Re e = .ok f) : f = Spec.Friction.Sonnad_Goudar_2006 Re e := by
  fr_run h [Sonnad_Goudar_2006]
  subst f
  simp only [Spec.Friction.Sonnad_Goudar_2006, fromInvSqrt, fanning, div_eq_mul_inv, one_mul, pow_two, Spec.Friction.sgS]
  norm_num

theorem val_Rao_Kumar_2007 (hRe : 0 < Re) (h : Rao_Kumar_2007 Re e = .ok f) : f = Spec.Friction.Rao_Kumar_2007 Re e := by
  fr_run h [Rao_Kumar_2007]
  subst f
  rw [Spec.Friction.Rao_Kumar_2007, fromInvSqrt, pow_two]
  have e1 : 1 / (2 * e * (1 - 0.55 * exp (-0.33 * log (Re * (1 / 6.5)) * log (Re * (1 / 6.5)))) * (0.444 / Re + 0.135))
      = (2 * e)⁻¹ / ((0.444 + 0.135 * Re) / Re * (1 - 0.55 * exp (-0.33 * log (Re / 6.5) ^ 2))) := by
    rw [show (0.444 + 0.135 * Re) / Re = 0.444 / Re + 0.135 by field_simp, show Re * (1 / 6.5) = Re / 6.5 by ring,
      show -0.33 * log (Re / 6.5) * log (Re / 6.5) = -0.33 * log (Re / 6.5) ^ 2 by ring, div_eq_mul_inv _ ((0.444 / Re + 0.135) * _), ← mul_inv]
    ring_nf
  rw [e1]

theorem val_Buzzelli_2008 (h : Buzzelli_2008 Re e = .ok f) : f = Spec.Friction.Buzzelli_2008 Re e := by
  fr_run h [Buzzelli_2008]
  subst f
  simp only [Spec.Friction.Buzzelli_2008, fromInvSqrt, fanning, div_eq_mul_inv, one_mul, pow_two, Spec.Friction.buB1, Spec.Friction.buB2]

theorem val_Avci_Karagoz_2009 (h : Avci_Karagoz_2009 Re e = .ok f) : f = Spec.Friction.Avci_Karagoz_2009 Re e := by
  fr_run h [Avci_Karagoz_2009]
  rename_i h1 h2 h3
  have hn : ¬ ∃ n : ℤ, (n : ℝ) = -2.4 := by
    rintro ⟨n, hn⟩
    have h5 : (n : ℝ) * 5 = -12 := by rw [hn]; norm_num
    have : n * 5 = -12 := by exact_mod_cast h5
    omega
  have hb : 0 ≤ log Re - log (1 + 0.01 * Re * e * (1 + 10 * √e)) := by
    by_contra hb
    exact h2 ⟨not_le.mp hb, hn⟩
  subst f
  rw [Spec.Friction.Avci_Karagoz_2009, rpow_neg hb, ← div_eq_mul_inv, sqrt_eq_rpow]
  norm_num

theorem val_Papaevangelo_2010 (hRe : 0 < Re) (h : Papaevangelo_2010 Re e = .ok f) : f = Spec.Friction.Papaevangelo_2010 Re e := by
  fr_run h [Papaevangelo_2010]
  subst f
  rw [Spec.Friction.Papaevangelo_2010, show e / 3.615 + 7.366 / Re ^ (0.9142 : ℝ) = e * (1 / 3.615) + 7.366 * Re ^ (-0.9142 : ℝ) by
    rw [rpow_neg hRe.le]; ring]
  ring

theorem val_Brkic_2011_1 (h : Brkic_2011_1 Re e = .ok f) : f = Spec.Friction.Brkic_2011_1 Re e := by
  fr_run h [Brkic_2011_1]
  subst f
  simp only [Spec.Friction.Brkic_2011_1, fromInvSqrt, fanning, div_eq_mul_inv, one_mul, pow_two, Spec.Friction.brBeta]

theorem val_Brkic_2011_2 (h : Brkic_2011_2 Re e = .ok f) : f = Spec.Friction.Brkic_2011_2 Re e := by
  fr_run h [Brkic_2011_2]
  subst f
  simp only [Spec.Friction.Brkic_2011_2, fromInvSqrt, fanning, div_eq_mul_inv, one_mul, pow_two, Spec.Friction.brBeta]

theorem val_Fang_2011 (hRe : 0 < Re) (h : Fang_2011 Re e = .ok f) : f = Spec.Friction.Fang_2011 Re e := by
  fr_run h [Fang_2011]
  subst f
  rw [Spec.Friction.Fang_2011, show 0.234 * e ^ (1.1007 : ℝ) - 60.525 / Re ^ (1.1105 : ℝ) + 56.291 / Re ^ (1.0712 : ℝ)
    = 0.234 * e ^ (1.1007 : ℝ) - 60.525 * Re ^ (-1.1105 : ℝ) + 56.291 * Re ^ (-1.0712 : ℝ) by
      rw [rpow_neg hRe.le, rpow_neg hRe.le]; ring]
  ring

end Verif.Friction
