import Verif.Props.Chebfun
import Mathlib.Analysis.Calculus.Deriv.Polynomial
import Mathlib.Analysis.Calculus.IteratedDeriv.Lemmas
import Mathlib.MeasureTheory.Integral.IntervalIntegral.FundThmCalculus
import Mathlib.Analysis.SpecialFunctions.Integrals.Basic
import Mathlib.Data.Complex.Basic
import Mathlib.Topology.Algebra.Polynomial

/-! # C130: Chebyshev interpolants — integral, derivative, sum and roots -/

namespace Verif.Chebfun
open Real Finset Verif.Dct Verif.Spec Polynomial

local notation "𝕋" => Polynomial.Chebyshev.T
local notation "𝕌" => Polynomial.Chebyshev.U

/-! ### roots -/

theorem chebSeriesC_eval (ak : List ℝ) (n : ℕ) (hl : ak.length = n + 1) (z : ℂ) :
    (chebSeries (ak.map fun r : ℝ => (r : ℂ))).eval z = ∑ k ∈ range n, (ak.getD k 0 : ℂ) * (𝕋 ℂ (k : ℤ)).eval z + (ak.getD n 0 : ℂ) * (𝕋 ℂ (n : ℤ)).eval z := by
  rw [Chebyshev.chebSeries_eq_ser _ (n + 1) (by simp [hl])]
  unfold Chebyshev.ser
  rw [eval_finsetSum, sum_range_succ]
  have : ∀ k < n + 1, (ak.map fun r : ℝ => (r : ℂ)).getD k 0 = (ak.getD k 0 : ℂ) := by
    intro k hk
    simp [List.getD_eq_getElem?_getD, List.getElem?_map, List.getElem?_eq_getElem (show k < ak.length by omega)]
  congr 1
  · refine sum_congr rfl fun k hk => ?_
    rw [eval_mul, eval_C]
    exact congrArg (· * _) (this k (by have := mem_range.1 hk; omega))
  · rw [eval_mul, eval_C]
    exact congrArg (· * _) (this n (by omega))

theorem colleague_first (ak : List ℝ) (m : ℕ) (v : ℕ → ℂ) :
    ∑ j : Fin (m + 2), ((colleague ak (m + 2) 0 j : ℝ) : ℂ) * v j = v 1 := by
  rw [sum_eq_single (1 : Fin (m + 2))]
  · simp [colleague]
  · intro j _ hj
    have : (j : ℕ) ≠ 1 := fun h => hj (Fin.ext (by simpa using h))
    simp [colleague, this]
  · simp

theorem colleague_mid (ak : List ℝ) (m i : ℕ) (hi : i + 1 < m + 1) (v : ℕ → ℂ) :
    ∑ j : Fin (m + 2), ((colleague ak (m + 2) ⟨i + 1, by omega⟩ j : ℝ) : ℂ) * v j = (v i + v (i + 2)) / 2 := by
  refine (Fin.sum_univ_eq_sum_range (fun j => (((if (i + 1 : ℕ) = 0 ∧ j = 1 then 1 else if (i + 1 : ℕ) = j + 1 ∨ j = (i + 1) + 1 then 0.5 else 0) -
    0.5 / ak.getD (m + 2) 0 * (if (i + 1 : ℕ) + 1 = m + 2 then ak.getD j 0 else 0) : ℝ) : ℂ) * v j) (m + 2)).trans ?_
  have : ∀ j ∈ range (m + 2), (((if (i + 1 : ℕ) = 0 ∧ j = 1 then 1 else if (i + 1 : ℕ) = j + 1 ∨ j = (i + 1) + 1 then 0.5 else 0) -
      0.5 / ak.getD (m + 2) 0 * (if (i + 1 : ℕ) + 1 = m + 2 then ak.getD j 0 else 0) : ℝ) : ℂ) * v j = (if j = i then v i / 2 else 0) + (if j = i + 2 then v (i + 2) / 2 else 0) := by
    intro j _
    rw [if_neg (show ¬ (i + 1 = 0 ∧ j = 1) by omega), if_neg (show ¬ (i + 1 + 1 = m + 2) by omega)]
    by_cases h1 : j = i
    · subst h1; rw [if_pos (by omega), if_pos rfl, if_neg (by omega)]; push_cast; norm_num; ring
    · by_cases h2 : j = i + 2
      · subst h2; rw [if_pos (by omega), if_neg h1, if_pos rfl]; push_cast; norm_num; ring
      · rw [if_neg (by omega), if_neg h1, if_neg h2]; push_cast; ring
  rw [sum_congr rfl this, sum_add_distrib, sum_ite_eq' (range (m + 2)) i, sum_ite_eq' (range (m + 2)) (i + 2), if_pos (by simp; omega), if_pos (by simp; omega)]
  ring

theorem colleague_last (ak : List ℝ) (m : ℕ) (v : ℕ → ℂ) :
    ∑ j : Fin (m + 2), ((colleague ak (m + 2) ⟨m + 1, by omega⟩ j : ℝ) : ℂ) * v j = v m / 2 - 1 / (2 * (ak.getD (m + 2) 0 : ℂ)) * ∑ j ∈ range (m + 2), (ak.getD j 0 : ℂ) * v j := by
  refine (Fin.sum_univ_eq_sum_range (fun j => (((if (m + 1 : ℕ) = 0 ∧ j = 1 then 1 else if (m + 1 : ℕ) = j + 1 ∨ j = (m + 1) + 1 then 0.5 else 0) -
    0.5 / ak.getD (m + 2) 0 * (if (m + 1 : ℕ) + 1 = m + 2 then ak.getD j 0 else 0) : ℝ) : ℂ) * v j) (m + 2)).trans ?_
  have : ∀ j ∈ range (m + 2), (((if (m + 1 : ℕ) = 0 ∧ j = 1 then 1 else if (m + 1 : ℕ) = j + 1 ∨ j = (m + 1) + 1 then 0.5 else 0) -
      0.5 / ak.getD (m + 2) 0 * (if (m + 1 : ℕ) + 1 = m + 2 then ak.getD j 0 else 0) : ℝ) : ℂ) * v j =
      (if j = m then v m / 2 else 0) - 1 / (2 * (ak.getD (m + 2) 0 : ℂ)) * ((ak.getD j 0 : ℂ) * v j) := by
    intro j hj
    have hj := mem_range.1 hj
    have hh : (0.5 / ak.getD (m + 2) 0 : ℝ) = 1 / (2 * ak.getD (m + 2) 0) := by rw [show (0.5 : ℝ) = 1 / 2 by norm_num, div_div]
    rw [hh]
    by_cases h : j = m
    · subst h
      rw [if_neg (by omega), if_pos (by omega), if_pos rfl, if_pos rfl]; push_cast; norm_num; ring
    · rw [if_neg (by omega), if_neg (by omega), if_pos rfl, if_neg h]; push_cast; ring
  rw [sum_congr rfl this, sum_sub_distrib, ← mul_sum, sum_ite_eq' (range (m + 2)) m, if_pos (by simp)]

/-- C130: roots. For a function with at least three coefficients and a nonzero last one, a complex number is an eigenvalue of the matrix whose eigenvalues are taken exactly when it is a zero of the Chebyshev series. -/
theorem C130_roots (f : Fun) (hs : 3 ≤ f.values.length) (h0 : (coefficients f).getD (f.values.length - 1) 0 ≠ 0) :
    ∃ M, rootsMatrix f = .ok (some M) ∧ ∀ z : ℂ, (∃ v, v ≠ 0 ∧ (M.map fun r : ℝ => (r : ℂ)).mulVec v = z • v) ↔ (chebSeries ((coefficients f).map fun r : ℝ => (r : ℂ))).eval z = 0 := by
  refine ⟨colleague (coefficients f) (f.values.length - 1), by unfold rootsMatrix; rw [if_neg (by omega), if_neg (by omega)], fun z => ?_⟩
  have hl : (coefficients f).length = f.values.length := polyfit_length (by omega)
  obtain ⟨m, hm⟩ : ∃ m, f.values.length = m + 3 := ⟨f.values.length - 3, by omega⟩
  generalize coefficients f = ak at *
  generalize f.values = vals at *
  have hn : vals.length - 1 = m + 2 := by omega
  rw [hn] at h0 ⊢
  have ha : (ak.getD (m + 2) 0 : ℂ) ≠ 0 := by exact_mod_cast h0
  rw [chebSeriesC_eval ak (m + 2) (by omega)]
  have Trec : ∀ i : ℕ, (𝕋 ℂ ((i + 2 : ℕ) : ℤ)).eval z = 2 * z * (𝕋 ℂ ((i + 1 : ℕ) : ℤ)).eval z - (𝕋 ℂ (i : ℤ)).eval z := by
    intro i
    have := congrArg (eval z) (Polynomial.Chebyshev.T_add_two ℂ (i : ℤ))
    push_cast
    simpa using this
  constructor
  · rintro ⟨v, hv0, hv⟩
    -- the entries as a function of a natural number
    obtain ⟨w, hw⟩ : ∃ w : ℕ → ℂ, w = fun i => if h : i < m + 2 then v ⟨i, h⟩ else 0 := ⟨_, rfl⟩
    have hwv : ∀ j : Fin (m + 2), v j = w j := fun j => by rw [hw]; simp
    have row : ∀ i : Fin (m + 2), ∑ j : Fin (m + 2), ((colleague ak (m + 2) i j : ℝ) : ℂ) * w j = z * w i := by
      intro i
      have := congrFun hv i
      rw [Pi.smul_apply, smul_eq_mul, hwv] at this
      rw [← this]
      simp only [Matrix.mulVec, dotProduct, Matrix.map_apply, hwv]
    have r0 := row 0
    rw [colleague_first] at r0
    have rm : ∀ i, i + 1 < m + 1 → w (i + 2) = 2 * z * w (i + 1) - w i := by
      intro i hi
      have := row ⟨i + 1, by omega⟩
      rw [colleague_mid ak m i hi] at this
      simp only at this
      linear_combination 2 * this
    have rl := row ⟨m + 1, by omega⟩
    rw [colleague_last] at rl
    simp only at rl
    have hT : ∀ i, i < m + 2 → w i = (𝕋 ℂ (i : ℤ)).eval z * w 0 := by
      intro i
      induction i using Nat.strong_induction_on with
      | _ i ih =>
        intro hi
        match i, ih, hi with
        | 0, _, _ => simp
        | 1, _, _ => simpa using r0
        | i + 2, ih, hi =>
          rw [rm i (by omega), ih (i + 1) (by omega) (by omega), ih i (by omega) (by omega), Trec]
          ring
    have hw0 : w 0 ≠ 0 := by
      intro h
      apply hv0
      funext j
      rw [hwv, hT j j.2, h]
      simp
    have hsum : ∑ j ∈ range (m + 2), (ak.getD j 0 : ℂ) * w j = (∑ j ∈ range (m + 2), (ak.getD j 0 : ℂ) * (𝕋 ℂ (j : ℤ)).eval z) * w 0 := by
      rw [sum_mul]
      exact sum_congr rfl fun j hj => by rw [hT j (mem_range.1 hj)]; ring
    rw [hsum, hT m (by omega), hT (m + 1) (by omega)] at rl
    have hfin := Trec m
    have : (∑ k ∈ range (m + 2), (ak.getD k 0 : ℂ) * (𝕋 ℂ (k : ℤ)).eval z + (ak.getD (m + 2) 0 : ℂ) * (𝕋 ℂ ((m + 2 : ℕ) : ℤ)).eval z) * w 0 = 0 := by
      rw [hfin]
      field_simp at rl
      linear_combination (-w 0) * rl
    rcases mul_eq_zero.1 this with h | h
    · exact h
    · exact absurd h hw0
  · intro hz
    refine ⟨fun i => (𝕋 ℂ ((i : ℕ) : ℤ)).eval z, fun h => ?_, ?_⟩
    · have := congrFun h 0
      simp at this
    · funext i
      simp only [Matrix.mulVec, dotProduct, Matrix.map_apply, Pi.smul_apply, smul_eq_mul]
      obtain ⟨i, hi⟩ := i
      by_cases hi0 : i = 0
      · subst hi0
        refine (colleague_first ak m fun i => (𝕋 ℂ (i : ℤ)).eval z).trans ?_
        simp
      by_cases hil : i = m + 1
      · subst hil
        refine (colleague_last ak m fun i => (𝕋 ℂ (i : ℤ)).eval z).trans ?_
        have hfin := Trec m
        rw [hfin] at hz
        field_simp
        linear_combination (-1 : ℂ) * hz
      · obtain ⟨k, rfl⟩ : ∃ k, i = k + 1 := ⟨i - 1, by omega⟩
        refine (colleague_mid ak m k (by omega) fun i => (𝕋 ℂ (i : ℤ)).eval z).trans ?_
        rw [Trec k]
        ring

/-- C130: a constant has no roots; with two coefficients, a straight line, the search for roots raises an index error. -/
theorem C130_roots_short (f : Fun) : (f.values.length = 1 → rootsMatrix f = .ok none) ∧ (f.values.length = 2 → rootsMatrix f = .error .indexError) := by
  unfold rootsMatrix
  exact ⟨fun h => by rw [if_pos h], fun h => by rw [if_neg (by omega), if_pos h]⟩

/-! ### derivative -/

theorem getD_set (l : List ℝ) (i j : ℕ) (x : ℝ) (hi : i < l.length) : (l.set i x).getD j 0 = if j = i then x else l.getD j 0 := by
  rw [List.getD_eq_getElem?_getD, List.getElem?_set, List.getD_eq_getElem?_getD]
  by_cases h : j = i
  · subst h; simp [hi]
  · simp [h, Ne.symm h]

theorem diffLoop_length (SA : List ℝ) (m : ℕ) : ∀ n j DA, (diffLoop SA m j n DA).length = DA.length := by
  intro n
  induction n with
  | zero => intro j DA; rfl
  | succ n ih => intro j DA; rw [diffLoop]; simp [ih]

theorem diffLoop_spec (SA : List ℝ) (m : ℕ) : ∀ n j DA, DA.length = m → 2 * j + 2 * n + 2 ≤ m → (∀ i, m - 2 - 2 * j ≤ i → DA.getD i 0 = SA.getD (i + 1) 0 + DA.getD (i + 2) 0) →
    ∀ i, m - 2 - 2 * (j + n) ≤ i → (diffLoop SA m j n DA).getD i 0 = SA.getD (i + 1) 0 + (diffLoop SA m j n DA).getD (i + 2) 0 := by
  intro n
  induction n with
  | zero => intro j DA _ _ h i hi; exact h i (by omega)
  | succ n ih =>
    intro j DA hl hj h i hi
    rw [diffLoop]
    refine ih (j + 1) _ (by simp [hl]) (by omega) ?_ i (by omega)
    intro i hi
    obtain ⟨k, hk⟩ : ∃ k, m - 3 - 2 * j = k + 1 := ⟨m - 3 - 2 * j - 1, by omega⟩
    rw [hk, Nat.add_sub_cancel]
    have hkm : k + 1 + 2 * j + 3 = m := by omega
    obtain ⟨Xv, hX⟩ : ∃ Xv, Xv = SA.getD (k + 1 + 1) 0 + DA.getD (k + 1 + 2) 0 := ⟨_, rfl⟩
    rw [← hX]
    have g1 : ∀ i, (DA.set (k + 1) Xv).getD i 0 = if i = k + 1 then Xv else DA.getD i 0 := fun i => getD_set _ _ _ _ (by omega)
    obtain ⟨Y, hY⟩ : ∃ Y, Y = SA.getD (k + 1) 0 + (DA.set (k + 1) Xv).getD (k + 1 + 1) 0 := ⟨_, rfl⟩
    rw [← hY]
    have g2 : ∀ i, ((DA.set (k + 1) Xv).set k Y).getD i 0 = if i = k then Y else if i = k + 1 then Xv else DA.getD i 0 := fun i => by
      rw [getD_set _ _ _ _ (by rw [List.length_set]; omega), g1]
    rw [g1, if_neg (by omega)] at hY
    rw [g2, g2]
    by_cases e1 : i = k
    · subst e1
      rw [if_pos rfl, if_neg (by omega), if_neg (by omega), hY]
    · by_cases e2 : i = k + 1
      · subst e2
        rw [if_neg e1, if_pos rfl, if_neg (by omega), if_neg (by omega), hX]
      · rw [if_neg e1, if_neg e2, if_neg (by omega), if_neg (by omega)]
        exact h i (by omega)

theorem differentiator_length (A : List ℝ) (h : A ≠ []) : differentiator A ≠ [] ∧ (differentiator A).length ≤ A.length := by
  have := List.length_pos_iff.2 h
  unfold differentiator
  simp only
  split_ifs with h1 h2
  · simp [h1]
  · simp [h2]
  · constructor
    · intro hh
      have := congrArg List.length hh
      rw [List.length_set, diffLoop_length, List.length_set, List.length_set, List.length_replicate, List.length_nil] at this
      omega
    · simp [diffLoop_length]

/-- the coefficients of the derivative -/
theorem differentiator_spec (A : List ℝ) (h : A ≠ []) : chebSeries (differentiator A) = derivative (chebSeries A) := by
  have hl := List.length_pos_iff.2 h
  by_cases h1 : A.length = 1
  · obtain ⟨x, rfl⟩ := List.length_eq_one_iff.1 h1
    simp [differentiator, chebSeries]
  by_cases h2 : A.length = 2
  · obtain ⟨x, y, rfl⟩ := List.length_eq_two.1 h2
    rw [Chebyshev.chebSeries_eq_ser [x, y] 2 le_rfl, Chebyshev.chebSeries_eq_ser (differentiator [x, y]) 1 (by simp [differentiator])]
    simp [differentiator, Chebyshev.ser, sum_range_succ]
  obtain ⟨m, hm⟩ : ∃ m, A.length = m + 3 := ⟨A.length - 3, by omega⟩
  -- the entries of the result
  obtain ⟨D, hD⟩ : ∃ D, D = differentiator A := ⟨_, rfl⟩
  have key : D.length = m + 3 ∧ D.getD 0 0 = (2 * A.getD 1 0 + D.getD 2 0) / 2 ∧ (∀ i, 1 ≤ i → D.getD i 0 = 2 * ((i : ℝ) + 1) * A.getD (i + 1) 0 + D.getD (i + 2) 0) := by
    unfold differentiator at hD
    simp only at hD
    rw [if_neg h1, if_neg h2, hm] at hD
    have hSA : ∀ i, ((List.range (m + 3)).map fun i : ℕ => A.getD i 0 * 2 * i).getD i 0 = A.getD i 0 * 2 * i := by
      intro i
      by_cases hi : i < m + 3
      · rw [range_map_getD _ hi]
      · rw [List.getD_eq_default _ _ (by simp; omega), List.getD_eq_default _ _ (by omega)]; simp
    obtain ⟨SA, hSAe⟩ : ∃ SA, SA = (List.range (m + 3)).map fun i : ℕ => A.getD i 0 * 2 * i := ⟨_, rfl⟩
    rw [← hSAe] at hD hSA
    obtain ⟨D0, hD0⟩ : ∃ D0, D0 = ((List.replicate (m + 3) (0 : ℝ)).set (m + 3 - 3) (SA.getD (m + 3 - 2) 0)).set (m + 3 - 2) (SA.getD (m + 3 - 1) 0) := ⟨_, rfl⟩
    rw [← hD0] at hD
    have hD0l : D0.length = m + 3 := by simp [hD0]
    have hD0g : ∀ i, D0.getD i 0 = if i = m + 1 then SA.getD (m + 2) 0 else if i = m then SA.getD (m + 1) 0 else 0 := by
      intro i
      rw [hD0, getD_set _ _ _ _ (by simp), getD_set _ _ _ _ (by simp)]
      simp only [show m + 3 - 2 = m + 1 by omega, show m + 3 - 3 = m by omega, show m + 3 - 1 = m + 2 by omega]
      congr 2
      simp [List.getD_eq_getElem?_getD, List.getElem?_replicate]
      split_ifs <;> rfl
    have hz : ∀ i, m + 3 ≤ i → SA.getD i 0 = 0 := fun i hi => by rw [hSA, List.getD_eq_default _ _ (by omega)]; simp
    obtain ⟨D1, hD1⟩ : ∃ D1, D1 = diffLoop SA (m + 3) 0 ((m + 3) / 2 - 1) D0 := ⟨_, rfl⟩
    rw [← hD1] at hD
    have hD1l : D1.length = m + 3 := by rw [hD1, diffLoop_length, hD0l]
    have loop := diffLoop_spec SA (m + 3) ((m + 3) / 2 - 1) 0 D0 hD0l (by omega) (by
      intro i hi
      rw [hD0g, hD0g]
      by_cases e1 : i = m + 1
      · subst e1; simp; intro hh; omega
      · by_cases e2 : i = m
        · omega
        · rw [if_neg e1, if_neg e2, if_neg (by omega), if_neg (by omega), hz _ (by omega), add_zero])
    rw [← hD1] at loop
    have hDg : ∀ i, D.getD i 0 = if i = 0 then (SA.getD 1 0 + D1.getD 2 0) * 0.5 else D1.getD i 0 := by
      intro i
      rw [hD, getD_set _ _ _ _ (by omega)]
    refine ⟨by rw [hD]; simp [hD1l], ?_, ?_⟩
    · rw [hDg 0, hDg 2, if_pos rfl, if_neg (by omega), hSA]; push_cast; ring
    · intro i hi
      rw [hDg i, hDg (i + 2), if_neg (by omega), if_neg (by omega), loop i (by omega), hSA]; push_cast; ring
  obtain ⟨k1, k2, k3⟩ := key
  rw [← hD, Chebyshev.chebSeries_eq_ser D (m + 3) k1.le, Chebyshev.chebSeries_eq_ser A (m + 4) (by omega)]
  unfold Chebyshev.ser
  -- twice each side, in the polynomials of the second kind
  have hA : derivative (∑ i ∈ range (m + 4), C (A.getD i 0) * 𝕋 ℝ (i : ℤ)) = ∑ k ∈ range (m + 3), C (((k : ℝ) + 1) * A.getD (k + 1) 0) * 𝕌 ℝ (k : ℤ) := by
    rw [derivative_sum, sum_range_succ']
    simp only [derivative_mul, derivative_C, zero_mul, zero_add, Polynomial.Chebyshev.T_derivative_eq_U]
    rw [show (((0 : ℕ) : ℤ) : ℝ[X]) = 0 by simp, zero_mul, mul_zero, add_zero]
    refine sum_congr rfl fun k _ => ?_
    rw [show (((k + 1 : ℕ) : ℤ) - 1) = (k : ℤ) by push_cast; ring, show (((k + 1 : ℕ) : ℤ) : ℝ[X]) = C ((k : ℝ) + 1) by simp, ← mul_assoc, ← C_mul, mul_comm (A.getD (k + 1) 0)]
  rw [hA]
  have h2 : (2 : ℝ[X]) ≠ 0 := two_ne_zero
  apply mul_left_cancel₀ h2
  have lhs : 2 * ∑ i ∈ range (m + 3), C (D.getD i 0) * 𝕋 ℝ (i : ℤ) = ∑ i ∈ range (m + 3), C (D.getD i 0) * 𝕌 ℝ (i : ℤ) - ∑ i ∈ range (m + 3), C (D.getD i 0) * 𝕌 ℝ ((i : ℤ) - 2) := by
    rw [mul_sum, ← sum_sub_distrib]
    refine sum_congr rfl fun i _ => ?_
    have := Polynomial.Chebyshev.two_mul_T_eq_U_sub_U ℝ ((i : ℤ) - 2)
    rw [show (i : ℤ) - 2 + 2 = i by ring] at this
    linear_combination C (D.getD i 0) * this
  have shift : ∑ i ∈ range (m + 3), C (D.getD i 0) * 𝕌 ℝ ((i : ℤ) - 2) = ∑ i ∈ range (m + 3), C (D.getD (i + 2) 0) * 𝕌 ℝ (i : ℤ) - C (D.getD 0 0) := by
    have e1 : ∑ i ∈ range (m + 5), C (D.getD i 0) * 𝕌 ℝ ((i : ℤ) - 2) = ∑ i ∈ range (m + 3), C (D.getD i 0) * 𝕌 ℝ ((i : ℤ) - 2) := by
      rw [sum_range_succ, sum_range_succ, List.getD_eq_default _ _ (show D.length ≤ m + 3 by omega), List.getD_eq_default _ _ (show D.length ≤ m + 4 by omega)]
      simp
    rw [← e1, sum_range_succ', sum_range_succ']
    have u1 : 𝕌 ℝ (((0 + 1 : ℕ) : ℤ) - 2) = 0 := by simp
    have u2 : 𝕌 ℝ (((0 : ℕ) : ℤ) - 2) = -1 := by simp
    rw [u1, u2, mul_zero, add_zero, mul_neg, mul_one, ← sub_eq_add_neg]
    congr 1
    refine sum_congr rfl fun i _ => ?_
    rw [show (((i + 1 + 1 : ℕ) : ℤ) - 2) = (i : ℤ) by push_cast; ring]
  rw [lhs, shift, sum_range_succ', sum_range_succ' (fun i => C (D.getD (i + 2) 0) * 𝕌 ℝ (i : ℤ)), sum_range_succ' (fun k : ℕ => C (((k : ℝ) + 1) * A.getD (k + 1) 0) * 𝕌 ℝ (k : ℤ))]
  have hmid : 2 * ∑ k ∈ range (m + 2), C ((((k + 1 : ℕ) : ℝ) + 1) * A.getD (k + 1 + 1) 0) * 𝕌 ℝ ((k + 1 : ℕ) : ℤ) =
      ∑ k ∈ range (m + 2), C (D.getD (k + 1) 0) * 𝕌 ℝ ((k + 1 : ℕ) : ℤ) - ∑ k ∈ range (m + 2), C (D.getD (k + 1 + 2) 0) * 𝕌 ℝ ((k + 1 : ℕ) : ℤ) := by
    rw [mul_sum, ← sum_sub_distrib]
    refine sum_congr rfl fun k _ => ?_
    rw [← sub_mul, ← C_sub, ← mul_assoc, show (2 : ℝ[X]) = C 2 from (map_ofNat C 2).symm, ← C_mul]
    congr 2
    rw [k3 (k + 1) (by omega)]
    ring
  rw [mul_add, hmid]
  have h00 : 2 * (C ((((0 : ℕ) : ℝ) + 1) * A.getD (0 + 1) 0) * 𝕌 ℝ ((0 : ℕ) : ℤ)) = C (D.getD 0 0) * 𝕌 ℝ ((0 : ℕ) : ℤ) - C (D.getD (0 + 2) 0) * 𝕌 ℝ ((0 : ℕ) : ℤ) + C (D.getD 0 0) := by
    have : (𝕌 ℝ ((0 : ℕ) : ℤ)) = 1 := by simp
    rw [this, mul_one, mul_one, mul_one, ← C_sub, ← C_add, show (2 : ℝ[X]) = C 2 from (map_ofNat C 2).symm, ← C_mul]
    congr 1
    rw [k2]
    simp
    ring
  rw [h00]
  ring

theorem differentiator_iterate (A : List ℝ) (h : A ≠ []) (n : ℕ) : differentiator^[n] A ≠ [] ∧ (differentiator^[n] A).length ≤ A.length ∧ chebSeries (differentiator^[n] A) = derivative^[n] (chebSeries A) := by
  induction n with
  | zero => exact ⟨h, le_rfl, rfl⟩
  | succ n ih =>
    rw [Function.iterate_succ_apply', Function.iterate_succ_apply']
    obtain ⟨i1, i2, i3⟩ := ih
    have := differentiator_length _ i1
    exact ⟨this.1, this.2.trans i2, by rw [differentiator_spec _ i1, i3]⟩

theorem chebSeries_map_mul (s : ℝ) (c : List ℝ) : chebSeries (c.map (s * ·)) = C s * chebSeries c := by
  rw [Chebyshev.chebSeries_eq_ser _ c.length (by simp), Chebyshev.chebSeries_eq_ser c c.length le_rfl]
  unfold Chebyshev.ser
  rw [mul_sum]
  refine sum_congr rfl fun i hi => ?_
  have := mem_range.1 hi
  simp [List.getD_eq_getElem?_getD, List.getElem?_map, List.getElem?_eq_getElem this]
  ring

theorem iteratedDeriv_affine (P : ℝ[X]) (a b : ℝ) (n : ℕ) : iteratedDeriv n (fun x => P.eval ((2 * x - a - b) / (b - a))) = fun x => (2 / (b - a)) ^ n * (derivative^[n] P).eval ((2 * x - a - b) / (b - a)) := by
  induction n with
  | zero => simp
  | succ n ih =>
    rw [iteratedDeriv_succ, ih]
    funext x
    have h1 : HasDerivAt (fun x : ℝ => (2 * x - a - b) / (b - a)) (2 / (b - a)) x := by
      have := (((hasDerivAt_id x).const_mul 2).sub_const a).sub_const b |>.div_const (b - a)
      simpa using this
    have h2 := (((derivative^[n] P).hasDerivAt ((2 * x - a - b) / (b - a))).comp x h1).const_mul ((2 / (b - a)) ^ n)
    have := h2.deriv
    simp only [Function.comp_def] at this
    rw [this, Function.iterate_succ_apply']
    ring

/-- C130: derivative. The `n`-th derivative of the interpolant is, on the domain, the derivative of the function it computes, up to the pruning of the coefficients. -/
theorem C130_differentiate (f : Fun) (hv : f.values ≠ []) (hab : f.a < f.b) (n : ℕ) (F : ℝ → ℝ) (hF : ∀ x, call f x = .ok (F x)) :
    ∃ g, differentiate f n = .ok g ∧ g.a = f.a ∧ g.b = f.b ∧ ∀ x ∈ Set.Icc f.a f.b, ∃ y, call g x = .ok y ∧ |y - iteratedDeriv n F x| ≤ (f.values.length - 1 : ℕ) * (128 * 2 ^ (-52 : ℤ)) := by
  have hba : f.b - f.a ≠ 0 := by linarith [hab]
  have hl := List.length_pos_iff.2 hv
  have hcl : (coefficients f).length = f.values.length := polyfit_length (by omega)
  have hcn : coefficients f ≠ [] := fun h => by rw [h] at hcl; simp at hcl; omega
  have hFe : F = fun x => (chebSeries (coefficients f)).eval ((2 * x - f.a - f.b) / (f.b - f.a)) := by
    funext x
    have := (hF x).symm.trans (C130_call f hv hab.ne x)
    exact Except.ok.inj this
  obtain ⟨i1, i2, i3⟩ := differentiator_iterate (coefficients f) hcn n
  unfold differentiate
  simp only
  rw [pdiv_ok hba]
  refine ⟨_, rfl, rfl, rfl, fun x hx => ?_⟩
  obtain ⟨y, y1, y2⟩ := C130_pruned ((differentiator^[n] (coefficients f)).map ((2 / (f.b - f.a)) ^ n * ·)) (by simpa using i1) f.a f.b hab 1 one_pos x hx
  refine ⟨y, y1, ?_⟩
  rw [chebSeries_map_mul, i3, eval_mul, eval_C] at y2
  rw [hFe, iteratedDeriv_affine]
  refine y2.trans ?_
  rw [mul_one]
  refine mul_le_mul_of_nonneg_right ?_ (by positivity)
  rw [List.length_map]
  exact_mod_cast (by omega)

/-! ### definite integral -/

theorem integral_T (k : ℕ) : ∫ t in (-1 : ℝ)..1, (𝕋 ℝ (k : ℤ)).eval t = if k % 2 = 0 then 2 / (1 - (k : ℝ) ^ 2) else 0 := by
  have ev : ∀ n : ℕ, (𝕋 ℝ (n : ℤ)).eval (-1) = (-1) ^ n := by
    intro n
    have := Polynomial.Chebyshev.T_real_cos π n
    rw [cos_pi] at this
    rw [this]
    push_cast
    exact cos_nat_mul_pi n
  have ev1 : ∀ n : ℕ, (𝕋 ℝ (n : ℤ)).eval 1 = 1 := by
    intro n
    have := Polynomial.Chebyshev.T_real_cos 0 n
    rw [cos_zero, mul_zero, cos_zero] at this
    exact this
  match k with
  | 0 => norm_num
  | 1 => simp
  | k + 2 =>
    have h := Chebyshev.T_int_rec (K := ℝ) k
    have hd : ∀ t, HasDerivAt (fun t => (1 / (2 * (((k + 2 : ℕ) : ℝ) + 1))) * (𝕋 ℝ ((k + 3 : ℕ) : ℤ)).eval t - (1 / (2 * (((k + 2 : ℕ) : ℝ) - 1))) * (𝕋 ℝ ((k + 1 : ℕ) : ℤ)).eval t)
        ((𝕋 ℝ ((k + 2 : ℕ) : ℤ)).eval t) t := by
      intro t
      rw [← h]
      simp only [eval_sub, eval_mul, eval_C]
      exact ((Polynomial.hasDerivAt _ t).const_mul _).sub ((Polynomial.hasDerivAt _ t).const_mul _)
    rw [intervalIntegral.integral_eq_sub_of_hasDerivAt (fun t _ => hd t) ((Polynomial.continuous _).intervalIntegrable _ _), ev1, ev1, ev, ev]
    have k1 : ((k : ℝ) + 1) ≠ 0 := by positivity
    have k3 : ((k : ℝ) + 3) ≠ 0 := by positivity
    have q : (1 - ((k + 2 : ℕ) : ℝ) ^ 2) = - (((k : ℝ) + 1) * (k + 3)) := by push_cast; ring
    rw [q]
    push_cast
    rw [show (k : ℝ) + 2 + 1 = k + 3 by ring, show (k : ℝ) + 2 - 1 = k + 1 by ring]
    rcases Nat.even_or_odd k with e | e
    · rw [if_pos (by rw [Nat.even_iff] at e; omega), (show Odd (k + 3) by rw [Nat.even_iff] at e; rw [Nat.odd_iff]; omega).neg_one_pow,
        (show Odd (k + 1) by rw [Nat.even_iff] at e; rw [Nat.odd_iff]; omega).neg_one_pow]
      field_simp; ring
    · rw [if_neg (by rw [Nat.odd_iff] at e; omega), (show Even (k + 3) by rw [Nat.odd_iff] at e; rw [Nat.even_iff]; omega).neg_one_pow,
        (show Even (k + 1) by rw [Nat.odd_iff] at e; rw [Nat.even_iff]; omega).neg_one_pow]
      ring

theorem sum_even (g : ℕ → ℝ) (n : ℕ) : ∑ k ∈ range n, (if k % 2 = 0 then g k else 0) = ∑ k ∈ range ((n + 1) / 2), g (2 * k) := by
  induction n with
  | zero => simp
  | succ n ih =>
    rw [sum_range_succ, ih]
    rcases Nat.even_or_odd n with e | e
    · rw [Nat.even_iff] at e
      rw [if_pos e, show (n + 1 + 1) / 2 = (n + 1) / 2 + 1 by omega, sum_range_succ, show 2 * ((n + 1) / 2) = n by omega]
    · rw [Nat.odd_iff] at e
      rw [if_neg (by omega), add_zero, show (n + 1 + 1) / 2 = (n + 1) / 2 by omega]

/-- C130: definite integral. The sum of the interpolant is the integral over its domain of the function it computes. -/
theorem C130_sum (f : Fun) (hv : f.values ≠ []) (hab : f.a ≠ f.b) (F : ℝ → ℝ) (hF : ∀ x, call f x = .ok (F x)) : sum f = ∫ x in f.a..f.b, F x := by
  have hba : f.b - f.a ≠ 0 := sub_ne_zero.2 hab.symm
  have hFe : F = fun x => (chebSeries (coefficients f)).eval ((2 * x - f.a - f.b) / (f.b - f.a)) := by
    funext x
    exact Except.ok.inj ((hF x).symm.trans (C130_call f hv hab x))
  have hc : (2 / (f.b - f.a)) ≠ 0 := by positivity
  have hsub := intervalIntegral.integral_comp_mul_add (a := f.a) (b := f.b) (fun t => (chebSeries (coefficients f)).eval t) hc (-(f.a + f.b) / (f.b - f.a))
  have e : ∀ x, (2 * x - f.a - f.b) / (f.b - f.a) = 2 / (f.b - f.a) * x + -(f.a + f.b) / (f.b - f.a) := fun x => by field_simp; ring
  rw [hFe]
  simp only [e]
  rw [hsub, show 2 / (f.b - f.a) * f.a + -(f.a + f.b) / (f.b - f.a) = -1 by field_simp; ring, show 2 / (f.b - f.a) * f.b + -(f.a + f.b) / (f.b - f.a) = 1 by field_simp; ring]
  rw [Chebyshev.chebSeries_eq_ser _ (coefficients f).length le_rfl]
  unfold Chebyshev.ser
  simp only [eval_finsetSum, eval_mul, eval_C]
  rw [intervalIntegral.integral_finset_sum fun i _ => (((Polynomial.continuous _).intervalIntegrable _ _).const_mul _)]
  simp only [intervalIntegral.integral_const_mul, integral_T, mul_ite, mul_zero]
  rw [sum_even]
  unfold sum
  simp only [smul_eq_mul]
  have : (2 / (f.b - f.a))⁻¹ = 0.5 * (f.b - f.a) := by field_simp; norm_num
  rw [this]
  congr 1
  refine sum_congr rfl fun k _ => ?_
  push_cast
  ring

/-! ### addition -/

theorem chebSeries_zipWith (c d : List ℝ) (h : c.length = d.length) : chebSeries (List.zipWith (· + ·) c d) = chebSeries c + chebSeries d := by
  rw [Chebyshev.chebSeries_eq_ser _ c.length (by simp [h]), Chebyshev.chebSeries_eq_ser c c.length le_rfl, Chebyshev.chebSeries_eq_ser d c.length h.ge]
  unfold Chebyshev.ser
  rw [← sum_add_distrib]
  refine sum_congr rfl fun i hi => ?_
  have h1 := mem_range.1 hi
  simp [List.getD_eq_getElem?_getD, List.getElem?_zipWith, List.getElem?_eq_getElem h1, List.getElem?_eq_getElem (h ▸ h1)]
  ring

theorem chebSeries_pad (c : List ℝ) (n : ℕ) : chebSeries (c ++ List.replicate n 0) = chebSeries c := by
  rw [Chebyshev.chebSeries_eq_ser _ (c.length + n) (by simp), Chebyshev.chebSeries_eq_ser c (c.length + n) (by omega)]
  refine Chebyshev.ser_congr fun i hi => ?_
  by_cases h : i < c.length
  · exact List.getD_append _ _ _ _ h
  · rw [List.getD_append_right _ _ _ _ (by omega), List.getD_eq_default _ _ (show c.length ≤ i by omega)]
    simp [List.getD_eq_getElem?_getD, List.getElem?_replicate]
    split_ifs <;> rfl

/-- C130: addition. The sum of two interpolants on one domain computes the sum of the two functions there, up to the pruning of the coefficients. -/
theorem C130_add (f g : Fun) (hf : f.values ≠ []) (hg : g.values ≠ []) (hab : f.a < f.b) (ha : g.a = f.a) (hb : g.b = f.b) (hs : 0 < max f.vscale g.vscale) (F G : ℝ → ℝ)
    (hF : ∀ x, call f x = .ok (F x)) (hG : ∀ x, call g x = .ok (G x)) (x : ℝ) (hx : x ∈ Set.Icc f.a f.b) :
    ∃ y, call (add f g) x = .ok y ∧ |y - (F x + G x)| ≤ (max f.values.length g.values.length - 1 : ℕ) * (128 * 2 ^ (-52 : ℤ) * max f.vscale g.vscale) := by
  have hfl := List.length_pos_iff.2 hf
  have hgl := List.length_pos_iff.2 hg
  have hfc : (coefficients f).length = f.values.length := polyfit_length (by omega)
  have hgc : (coefficients g).length = g.values.length := polyfit_length (by omega)
  have hFx : F x = (chebSeries (coefficients f)).eval ((2 * x - f.a - f.b) / (f.b - f.a)) := Except.ok.inj ((hF x).symm.trans (C130_call f hf hab.ne x))
  have hGx : G x = (chebSeries (coefficients g)).eval ((2 * x - f.a - f.b) / (f.b - f.a)) := by
    have := Except.ok.inj ((hG x).symm.trans (C130_call g hg (by rw [ha, hb]; exact hab.ne) x))
    rwa [ha, hb] at this
  rw [hFx, hGx, ← eval_add]
  unfold add
  simp only
  by_cases hd : (g.values.length : ℤ) - f.values.length > 0
  · rw [if_pos hd, if_pos hd]
    have hlen : (coefficients g).length = (coefficients f ++ List.replicate ((coefficients g).length - (coefficients f).length) 0).length := by
      simp; omega
    obtain ⟨y, y1, y2⟩ := C130_pruned (List.zipWith (· + ·) (coefficients g) (coefficients f ++ List.replicate ((coefficients g).length - (coefficients f).length) 0))
      (fun h => by have := congrArg List.length h; rw [List.length_zipWith, ← hlen] at this; simp at this; rw [this] at hgc; simp at hgc; omega) f.a f.b hab _ hs x hx
    refine ⟨y, y1, ?_⟩
    rw [chebSeries_zipWith _ _ hlen, chebSeries_pad, List.length_zipWith, ← hlen, min_self, hgc] at y2
    rw [max_eq_right (show f.values.length ≤ g.values.length by omega), add_comm]
    exact y2
  · rw [if_neg hd, if_neg hd]
    have hlen : (coefficients f).length = (coefficients g ++ List.replicate ((coefficients f).length - (coefficients g).length) 0).length := by
      simp; omega
    obtain ⟨y, y1, y2⟩ := C130_pruned (List.zipWith (· + ·) (coefficients f) (coefficients g ++ List.replicate ((coefficients f).length - (coefficients g).length) 0))
      (fun h => by have := congrArg List.length h; rw [List.length_zipWith, ← hlen] at this; simp at this; rw [this] at hfc; simp at hfc; omega) f.a f.b hab _ hs x hx
    refine ⟨y, y1, ?_⟩
    rw [chebSeries_zipWith _ _ hlen, chebSeries_pad, List.length_zipWith, ← hlen, min_self, hfc] at y2
    rw [max_eq_left (show g.values.length ≤ f.values.length by omega)]
    exact y2

/-! ### special functions -/

/-- C130: the identity on a domain and the basis functions are what they are called. -/
theorem C130_basis (n : ℕ) (x : ℝ) : call (basis n) x = .ok ((𝕋 ℝ (n : ℤ)).eval x) ∧ ∀ a b : ℝ, a ≠ b → call (identity a b) x = .ok x := by
  constructor
  · have hd : (List.replicate n (0 : ℝ) ++ [1]) ≠ [] := by simp
    have hser : chebSeries (List.replicate n (0 : ℝ) ++ [1]) = 𝕋 ℝ (n : ℤ) := by
      rw [Chebyshev.chebSeries_eq_ser _ (n + 1) (by simp), Chebyshev.ser_succ]
      have : Chebyshev.ser (fun i => (List.replicate n (0 : ℝ) ++ [1]).getD i 0) n = Chebyshev.ser (fun _ => (0 : ℝ)) n := by
        refine Chebyshev.ser_congr fun i hi => ?_
        rw [List.getD_append _ _ _ _ (by simpa using hi)]
        simp [List.getD_eq_getElem?_getD, List.getElem?_replicate, hi]
      rw [this]
      simp [Chebyshev.ser, List.getD_eq_getElem?_getD]
    have hvals : (basis n).values = polyval (List.replicate n (0 : ℝ) ++ [1]) := by
      unfold basis
      by_cases h0 : n = 0
      · subst h0; simp [ofValues, polyval]
      · rw [if_neg h0]
        apply List.ext_getElem
        · simp [ofValues, polyval_length]
        intro j h1 h2
        have hj : j < n + 1 := by simpa [ofValues] using h1
        have := C130_values (List.replicate n (0 : ℝ) ++ [1]) hd j (by simpa using hj)
        rw [List.getD_eq_getElem?_getD, List.getElem?_eq_getElem h2, Option.getD_some, hser] at this
        rw [this]
        simp only [ofValues, List.getElem_map, List.getElem_range, List.length_append, List.length_replicate, List.length_cons, List.length_nil]
        have hn : (n : ℝ) ≠ 0 := by exact_mod_cast h0
        have hp : point (n + (0 + 1)) j = cos (j * π / n) := by simp [point, h0]
        rw [hp, Polynomial.Chebyshev.T_real_cos, show (((n : ℕ) : ℤ) : ℝ) * (j * π / n) = j * π by push_cast; field_simp, cos_nat_mul_pi]
        rcases Nat.even_or_odd j with e | e
        · rw [if_neg (by rw [Nat.even_iff] at e; omega), e.neg_one_pow]
        · rw [if_pos (Nat.odd_iff.1 e), e.neg_one_pow]
    have ha : (basis n).a = -1 := by unfold basis; split_ifs <;> rfl
    have hb : (basis n).b = 1 := by unfold basis; split_ifs <;> rfl
    rw [C130_call _ (fun h => by
      have := congrArg List.length (hvals.symm.trans h)
      simp [polyval_length] at this) (by rw [ha, hb]; norm_num)]
    rw [ha, hb]
    unfold coefficients
    rw [hvals, C130_polyfit_polyval _ hd, hser]
    congr 2
    ring
  · intro a b hab
    have hba : b - a ≠ 0 := sub_ne_zero.2 hab.symm
    have hv : polyval [(a + b) / 2, (b - a) / 2] = [b, a] := by
      apply List.ext_getElem
      · simp [polyval_length]
      intro j h1 h2
      have := C130_values [(a + b) / 2, (b - a) / 2] (by simp) j (by simpa using h2)
      rw [List.getD_eq_getElem?_getD, List.getElem?_eq_getElem h1, Option.getD_some] at this
      rw [this]
      have hj : j = 0 ∨ j = 1 := by simp at h2; omega
      rcases hj with rfl | rfl
      · simp [chebSeries, point]; ring
      · simp [chebSeries, point]; ring
    have : identity a b = from_coeff [(a + b) / 2, (b - a) / 2] a b false (maxAbs [b, a]) := by
      unfold identity ofValues from_coeff
      simp only [Bool.false_eq_true, if_false, hv]
    rw [this, C130_from_coeff _ (by simp) a b hab]
    simp [chebSeries]
    field_simp
    ring

/-! ### antiderivative -/

theorem chebint_length (c : List ℝ) (hc : c ≠ []) (r : List ℝ) (h : Chebyshev.chebint c 1 0 1 = .ok r) : r ≠ [] ∧ r.length ≤ c.length + 1 := by
  have hl := List.length_pos_iff.2 hc
  unfold Chebyshev.chebint at h
  rw [if_neg (by omega), if_neg (by omega)] at h
  by_cases hz : c.length = 1 ∧ c.getD 0 0 = 0
  · rw [if_pos hz] at h
    obtain rfl := Except.ok.inj h
    exact ⟨hc, by omega⟩
  · rw [if_neg hz] at h
    have gr : ∀ (i n : ℕ), (List.replicate n (0 : ℝ)).getD i 0 = 0 := fun i n => by
      simp [List.getD_eq_getElem?_getD, List.getElem?_replicate]; split_ifs <;> rfl
    obtain ⟨r', r1, r2, -, -⟩ := Chebyshev.chebintPasses_spec (0 : ℝ) 1 1 (c ++ List.replicate 1 0)
      (List.replicate (c.length + 1) 0) c.length (by simp) (by simp) (by simp; omega)
      (fun i hi => by rw [List.getD_append_right _ _ _ _ hi, gr]) (fun i hi => gr _ _)
    have : r = r' := Except.ok.inj (h.symm.trans (by simpa using r1))
    subst this
    rw [List.length_append, List.length_replicate] at r2
    exact ⟨fun hh => by rw [hh] at r2; simp at r2, r2.le⟩

theorem call_neg_const (v a b : ℝ) (hab : a ≠ b) (x : ℝ) : call (neg (ofValues [v] a b)) x = .ok (-v) := by
  rw [C130_call _ (by simp [neg, ofValues]) hab]
  have : coefficients (neg (ofValues [v] a b)) = [-v] := by simp [neg, ofValues, coefficients, polyfit]
  rw [this, Chebyshev.chebSeries_eq_ser [-v] 1 (by simp)]
  simp [Chebyshev.ser]

/-- C130: antiderivative. The result of integrating computes on the domain the integral from its left end, up to the prunings of the coefficients. -/
theorem C130_integrate (f : Fun) (hv : f.values ≠ []) (hab : f.a < f.b) (F : ℝ → ℝ) (hF : ∀ x, call f x = .ok (F x)) :
    let τ : ℝ := f.values.length * (128 * 2 ^ (-52 : ℤ));
    ∃ G, integrate f = .ok G ∧ ∀ x ∈ Set.Icc f.a f.b, ∃ y, call G x = .ok y ∧ |y - ∫ u in f.a..x, F u| ≤ τ * (3 + |∫ u in f.a..(f.a + f.b) / 2, F u| + τ) := by
  intro τ
  have hba : f.b - f.a ≠ 0 := by linarith [hab]
  have hl := List.length_pos_iff.2 hv
  have hcl : (coefficients f).length = f.values.length := polyfit_length (by omega)
  have hcn : coefficients f ≠ [] := fun h => by rw [h] at hcl; simp at hcl; omega
  have hFe : F = fun x => (chebSeries (coefficients f)).eval ((2 * x - f.a - f.b) / (f.b - f.a)) := by
    funext x
    exact Except.ok.inj ((hF x).symm.trans (C130_call f hv hab.ne x))
  obtain ⟨ic, e1, e2, e3⟩ := Chebyshev.chebint_spec (coefficients f) 1 (0 : ℝ) 1 (fun h => hcn h.1)
  have e1 : Chebyshev.chebint (coefficients f) 1 0 1 = .ok ic := by simpa using e1
  have e2 : derivative (chebSeries ic) = chebSeries (coefficients f) := by simpa using e2
  have e3 : (chebSeries ic).eval 0 = 0 := by simpa using e3 0 one_pos
  obtain ⟨l1, l2⟩ := chebint_length _ hcn ic e1
  -- the exact antiderivative
  obtain ⟨H, hH⟩ : ∃ H : ℝ → ℝ, H = fun x => 0.5 * (f.b - f.a) * (chebSeries ic).eval ((2 * x - f.a - f.b) / (f.b - f.a)) := ⟨_, rfl⟩
  have hder : ∀ x, HasDerivAt H (F x) x := by
    intro x
    have h1 : HasDerivAt (fun x : ℝ => (2 * x - f.a - f.b) / (f.b - f.a)) (2 / (f.b - f.a)) x := by
      have := (((hasDerivAt_id x).const_mul 2).sub_const f.a).sub_const f.b |>.div_const (f.b - f.a)
      simpa using this
    have h2 := (((chebSeries ic).hasDerivAt ((2 * x - f.a - f.b) / (f.b - f.a))).comp x h1).const_mul (0.5 * (f.b - f.a))
    rw [hH, hFe]
    simp only [Function.comp_def, e2] at h2
    refine h2.congr_deriv ?_
    have hone : 0.5 * (f.b - f.a) * (2 / (f.b - f.a)) = 1 := by field_simp; norm_num
    linear_combination ((chebSeries (coefficients f)).eval ((2 * x - f.a - f.b) / (f.b - f.a))) * hone
  have hcont : Continuous F := by
    rw [hFe]
    exact (Polynomial.continuous _).comp (by fun_prop)
  have hint : ∀ p q, ∫ u in p..q, F u = H q - H p := fun p q =>
    intervalIntegral.integral_eq_sub_of_hasDerivAt (fun t _ => hder t) (hcont.intervalIntegrable _ _)
  have hmid : H ((f.a + f.b) / 2) = 0 := by
    rw [hH]
    simp only
    rw [show (2 * ((f.a + f.b) / 2) - f.a - f.b) / (f.b - f.a) = 0 by rw [show 2 * ((f.a + f.b) / 2) - f.a - f.b = 0 by ring, zero_div], e3, mul_zero]
  have hτ : 0 ≤ τ := by positivity
  have cn : (ic.map (0.5 * (f.b - f.a) * ·)) ≠ [] := by simpa using l1
  -- the pruned one
  have prune : ∀ x ∈ Set.Icc f.a f.b, ∃ y, call (from_coeff (ic.map (0.5 * (f.b - f.a) * ·)) f.a f.b) x = .ok y ∧ |y - H x| ≤ τ := by
    intro x hx
    obtain ⟨y, y1, y2⟩ := C130_pruned _ cn f.a f.b hab 1 one_pos x hx
    refine ⟨y, y1, ?_⟩
    rw [chebSeries_map_mul, eval_mul, eval_C, List.length_map] at y2
    rw [hH]
    refine y2.trans ?_
    rw [mul_one]
    refine mul_le_mul_of_nonneg_right ?_ (by positivity)
    exact_mod_cast (by omega)
  obtain ⟨A, hA⟩ : ∃ A, A = from_coeff (ic.map (0.5 * (f.b - f.a) * ·)) f.a f.b := ⟨_, rfl⟩
  rw [← hA] at prune
  obtain ⟨va, va1, va2⟩ := prune f.a ⟨le_rfl, hab.le⟩
  have hAa : A.a = f.a := by rw [hA]; rfl
  have hAb : A.b = f.b := by rw [hA]; rfl
  have hAs : A.vscale = 1 := by rw [hA]; rfl
  have hAl : A.values ≠ [] ∧ A.values.length ≤ f.values.length + 1 := by
    have hl1 := List.length_pos_iff.2 l1
    have : A.values = polyval ((ic.map (0.5 * (f.b - f.a) * ·)).take (cutoff (ic.map (0.5 * (f.b - f.a) * ·)) 1)) := by rw [hA]; rfl
    have hk : 1 ≤ cutoff (ic.map (0.5 * (f.b - f.a) * ·)) 1 := by unfold cutoff; omega
    have hlen : A.values.length = min (cutoff (ic.map (0.5 * (f.b - f.a) * ·)) 1) ic.length := by rw [this, polyval_length, List.length_take, List.length_map]
    exact ⟨fun h => by rw [h] at hlen; simp at hlen; omega, by omega⟩
  have callA : ∀ x, call A x = .ok ((chebSeries (coefficients A)).eval ((2 * x - A.a - A.b) / (A.b - A.a))) := C130_call A hAl.1 (by rw [hAa, hAb]; exact hab.ne)
  refine ⟨add A (neg (ofValues [va] f.a f.b)), ?_, fun x hx => ?_⟩
  · unfold integrate
    rw [e1, Py.ok_bind]
    simp only [← hA]
    rw [va1]
    rfl
  · have hnv : (neg (ofValues [va] f.a f.b)).vscale = |va| := by simp [neg, ofValues, maxAbs]
    obtain ⟨y, y1, y2⟩ := C130_add A (neg (ofValues [va] f.a f.b)) hAl.1 (by simp [neg, ofValues]) (by rw [hAa, hAb]; exact hab) hAa.symm hAb.symm
      (by rw [hAs]; exact lt_max_of_lt_left one_pos) _ _ callA (call_neg_const va f.a f.b hab.ne) x (by rw [hAa, hAb]; exact hx)
    refine ⟨y, y1, ?_⟩
    obtain ⟨ya, ya1, ya2⟩ := prune x hx
    have hya : ya = (chebSeries (coefficients A)).eval ((2 * x - A.a - A.b) / (A.b - A.a)) := Except.ok.inj (ya1.symm.trans (callA x))
    rw [← hya, hnv, hAs] at y2
    have hy : |y - (ya + -va)| ≤ τ * max 1 |va| := by
      refine y2.trans ?_
      rw [← mul_assoc]
      refine mul_le_mul_of_nonneg_right ?_ (le_max_of_le_left zero_le_one)
      refine mul_le_mul_of_nonneg_right ?_ (by positivity)
      have : (neg (ofValues [va] f.a f.b)).values.length = 1 := by simp [neg, ofValues]
      have h2 := hAl.2
      exact_mod_cast (by omega)
    have hva : |va| ≤ |∫ u in f.a..(f.a + f.b) / 2, F u| + τ := by
      rw [hint, hmid, zero_sub, abs_neg]
      have := abs_sub_abs_le_abs_sub va (H f.a)
      linarith
    rw [hint f.a x]
    have hmax : max 1 |va| ≤ 1 + |va| := max_le (by linarith [abs_nonneg va]) (by linarith)
    have t1 : |y - (H x - H f.a)| ≤ |y - (ya + -va)| + |ya - H x| + |va - H f.a| := by
      have : y - (H x - H f.a) = (y - (ya + -va)) + (ya - H x) - (va - H f.a) := by ring
      rw [this]
      exact (abs_sub _ _).trans (add_le_add (abs_add_le _ _) le_rfl)
    generalize |∫ u in f.a..(f.a + f.b) / 2, F u| = I at *
    nlinarith

example : ∃ y, call (add (ofValues [4, 1, 0, 1, 4] (-2) 2) (identity (-2) 2)) 1 = .ok y ∧
    |y - ((chebSeries (coefficients (ofValues [4, 1, 0, 1, 4] (-2) 2))).eval ((2 * 1 - -2 - 2) / (2 - -2)) + 1)| ≤
      (max 5 2 - 1 : ℕ) * (128 * 2 ^ (-52 : ℤ) * max (maxAbs [4, 1, 0, 1, 4]) (maxAbs [2, -2])) :=
  C130_add (ofValues [4, 1, 0, 1, 4] (-2) 2) (identity (-2) 2) (by simp [ofValues]) (by simp [identity, ofValues]) (by norm_num [ofValues]) rfl rfl
    (by simp [ofValues, identity, maxAbs]) _ _ (C130_call _ (by simp [ofValues]) (by norm_num [ofValues])) (fun x => (C130_basis 0 x).2 _ _ (by norm_num)) 1 (by constructor <;> norm_num [ofValues])

example : sum (basis 2) = ∫ x in (basis 2).a..(basis 2).b, (𝕋 ℝ ((2 : ℕ) : ℤ)).eval x :=
  C130_sum (basis 2) (by simp [basis, ofValues]) (by norm_num [basis, ofValues]) _ fun x => (C130_basis 2 x).1

example : let τ : ℝ := (basis 3).values.length * (128 * 2 ^ (-52 : ℤ));
    ∃ G, integrate (basis 3) = .ok G ∧ ∀ x ∈ Set.Icc (basis 3).a (basis 3).b, ∃ y, call G x = .ok y ∧
      |y - ∫ u in (basis 3).a..x, (𝕋 ℝ ((3 : ℕ) : ℤ)).eval u| ≤ τ * (3 + |∫ u in (basis 3).a..((basis 3).a + (basis 3).b) / 2, (𝕋 ℝ ((3 : ℕ) : ℤ)).eval u| + τ) :=
  C130_integrate (basis 3) (by simp [basis, ofValues]) (by norm_num [basis, ofValues]) _ fun x => (C130_basis 3 x).1

example : ∃ g, differentiate (basis 3) 1 = .ok g ∧ g.a = (basis 3).a ∧ g.b = (basis 3).b ∧ ∀ x ∈ Set.Icc (basis 3).a (basis 3).b, ∃ y, call g x = .ok y ∧
    |y - iteratedDeriv 1 (fun x => (𝕋 ℝ ((3 : ℕ) : ℤ)).eval x) x| ≤ ((basis 3).values.length - 1 : ℕ) * (128 * 2 ^ (-52 : ℤ)) :=
  C130_differentiate (basis 3) (by simp [basis, ofValues]) (by norm_num [basis, ofValues]) 1 _ fun x => (C130_basis 3 x).1

example : ∃ M, rootsMatrix (from_coeff [0, 0, 1] 0 1 false) = .ok (some M) ∧ ∀ z : ℂ, (∃ v, v ≠ 0 ∧ (M.map fun r : ℝ => (r : ℂ)).mulVec v = z • v) ↔
    (chebSeries ((coefficients (from_coeff [0, 0, 1] 0 1 false)).map fun r : ℝ => (r : ℂ))).eval z = 0 := by
  have hl : (from_coeff [0, 0, 1] 0 1 false).values.length = 3 := by simp [from_coeff, polyval_length]
  have hc : coefficients (from_coeff [0, 0, 1] 0 1 false) = [0, 0, 1] := by simp [from_coeff, coefficients, C130_polyfit_polyval]
  exact C130_roots _ (by omega) (by rw [hl, hc]; simp)

end Verif.Chebfun
