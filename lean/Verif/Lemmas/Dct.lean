import Mathlib.Analysis.SpecialFunctions.Trigonometric.Basic
import Mathlib.RingTheory.RootsOfUnity.Complex
import Mathlib.Algebra.BigOperators.Intervals
import Mathlib.Algebra.BigOperators.Field
import Mathlib.LinearAlgebra.FiniteDimensional.Basic
import Mathlib.LinearAlgebra.Matrix.ToLin

/-! # Sums of cosines and the discrete cosine transform -/

namespace Verif.Dct
open Real Finset

theorem sum_cos (M : ℕ) (hM : M ≠ 0) (m : ℤ) : ∑ j ∈ range M, cos (2 * π * j * m / M) = if (M : ℤ) ∣ m then (M : ℝ) else 0 := by
  have hp := Complex.isPrimitiveRoot_exp M hM
  set ζ := Complex.exp (2 * π * Complex.I / M) with hζ
  have hre : ∀ j : ℕ, cos (2 * π * j * m / M) = ((ζ ^ m) ^ j).re := by
    intro j
    rw [hζ, ← Complex.exp_int_mul, ← Complex.exp_nat_mul]
    have : (j : ℂ) * (m * (2 * π * Complex.I / M)) = ((2 * π * j * m / M : ℝ) : ℂ) * Complex.I := by push_cast; ring
    rw [this, Complex.exp_ofReal_mul_I_re]
  rw [sum_congr rfl fun j _ => hre j, ← Complex.re_sum]
  by_cases h : (M : ℤ) ∣ m
  · rw [if_pos h, (hp.zpow_eq_one_iff_dvd m).2 h]
    simp
  · rw [if_neg h]
    have h1 : ζ ^ m ≠ 1 := fun hh => h ((hp.zpow_eq_one_iff_dvd m).1 hh)
    rw [geom_sum_eq h1, ← zpow_natCast, ← zpow_mul, mul_comm, zpow_mul, zpow_natCast, hp.pow_eq_one, one_zpow, sub_self, zero_div]
    rfl

/-- Orthogonality of the cosines at `2N` equispaced points. -/
theorem orthogonal (N : ℕ) (hN : N ≠ 0) {k l : ℕ} (hk : k ≤ N) (hl : l ≤ N) :
    ∑ j ∈ range (2 * N), cos (π * j * k / N) * cos (π * j * l / N) = if k = l then (if k = 0 ∨ k = N then 2 * (N : ℝ) else N) else 0 := by
  have hN' : (N : ℝ) ≠ 0 := by exact_mod_cast hN
  have e : ∀ j : ℕ, cos (π * j * k / N) * cos (π * j * l / N) = (cos (2 * π * j * ((k : ℤ) - l : ℤ) / (2 * N : ℕ)) + cos (2 * π * j * ((k : ℤ) + l : ℤ) / (2 * N : ℕ))) / 2 := by
    intro j
    have e1 : 2 * π * j * (((k : ℤ) - l : ℤ) : ℝ) / ((2 * N : ℕ) : ℝ) = π * j * k / N - π * j * l / N := by push_cast; field_simp
    have e2 : 2 * π * j * (((k : ℤ) + l : ℤ) : ℝ) / ((2 * N : ℕ) : ℝ) = π * j * k / N + π * j * l / N := by push_cast; field_simp
    rw [e1, e2, cos_sub, cos_add]; ring
  rw [sum_congr rfl fun j _ => e j, ← sum_div, sum_add_distrib, sum_cos _ (by omega), sum_cos _ (by omega)]
  have z1 : (k : ℤ) ≤ N := by exact_mod_cast hk
  have z2 : (l : ℤ) ≤ N := by exact_mod_cast hl
  have z3 : (1 : ℤ) ≤ N := by omega
  have z4 : (0 : ℤ) ≤ k := by omega
  have z5 : (0 : ℤ) ≤ l := by omega
  have d1 : ((2 * N : ℕ) : ℤ) ∣ (k : ℤ) - l ↔ k = l := by
    constructor
    · rintro ⟨q, hq⟩
      have : q = 0 := by
        by_contra h
        rcases lt_or_gt_of_ne h with h | h
        · have : q ≤ -1 := by omega
          push_cast at hq; nlinarith only [this, hq, z1, z2, z3, z4, z5]
        · have : 1 ≤ q := by omega
          push_cast at hq; nlinarith only [this, hq, z1, z2, z3, z4, z5]
      subst this; omega
    · rintro rfl; simp
  have d2 : ((2 * N : ℕ) : ℤ) ∣ (k : ℤ) + l ↔ (k = 0 ∧ l = 0) ∨ (k = N ∧ l = N) := by
    constructor
    · rintro ⟨q, hq⟩
      push_cast at hq
      have h0 : 0 ≤ q := by by_contra h; have : q ≤ -1 := by omega
                            nlinarith only [this, hq, z1, z2, z3, z4, z5]
      have h1 : q ≤ 1 := by by_contra h; have : 2 ≤ q := by omega
                            nlinarith only [this, hq, z1, z2, z3, z4, z5]
      interval_cases q <;> omega
    · rintro (⟨rfl, rfl⟩ | ⟨rfl, rfl⟩)
      · simp
      · exact ⟨1, by push_cast; ring⟩
  simp only [d1, d2]
  by_cases h : k = l
  · subst h
    by_cases h0 : k = 0 ∨ k = N
    · rw [if_pos rfl, if_pos (by tauto), if_pos rfl, if_pos h0]; push_cast; ring
    · rw [if_pos rfl, if_neg (by tauto), if_pos rfl, if_neg h0]; push_cast; ring
  · rw [if_neg h, if_neg (by omega), if_neg h]; ring

/-- Folding an even sum. -/
theorem fold (N : ℕ) (hN : N ≠ 0) (g : ℕ → ℝ) : ∑ k ∈ range (2 * N), g k = g 0 + g N + ∑ k ∈ Ico 1 N, (g k + g (2 * N - k)) := by
  have h1 : ∑ k ∈ range (2 * N), g k = ∑ k ∈ Ico 0 N, g k + ∑ k ∈ Ico N (2 * N), g k := by
    rw [range_eq_Ico, sum_Ico_consecutive g (by omega) (by omega)]
  have h2 : ∑ k ∈ Ico 0 N, g k = g 0 + ∑ k ∈ Ico 1 N, g k := sum_eq_sum_Ico_succ_bot (by omega) g
  have h3 : ∑ k ∈ Ico N (2 * N), g k = g N + ∑ k ∈ Ico (N + 1) (2 * N), g k := sum_eq_sum_Ico_succ_bot (by omega) g
  have h4 : ∑ k ∈ Ico (N + 1) (2 * N), g k = ∑ k ∈ Ico 1 N, g (2 * N - k) := by
    have := sum_Ico_reflect g 1 (m := N) (n := 2 * N) (by omega)
    rw [this]
    congr 1
    congr 1 <;> omega
  rw [h1, h2, h3, h4, sum_add_distrib]; ring

end Verif.Dct
