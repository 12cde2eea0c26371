import Verif.Model.Chebfun
import Verif.Lemmas.Dct
import Verif.Lemmas.Chebyshev
import Mathlib.Analysis.SpecialFunctions.Trigonometric.Chebyshev.Basic

/-! # C130: Chebyshev interpolants — values and coefficients

Specification: `Spec.chebSeries c = ∑ₖ cₖ Tₖ` with Mathlib's Chebyshev polynomials.
-/

namespace Verif.Chebfun
open Real Finset Verif.Dct Verif.Spec

theorem even_length {l : List ℝ} (h : 2 ≤ l.length) : (even_data l).length = 2 * (l.length - 1) := by
  unfold even_data
  simp
  omega

theorem even_getD {l : List ℝ} (h : 2 ≤ l.length) {j : ℕ} (hj : j < 2 * (l.length - 1)) :
    (even_data l).getD j 0 = if j < l.length then l.getD j 0 else l.getD (2 * (l.length - 1) - j) 0 := by
  unfold even_data
  by_cases hl : j < l.length
  · rw [if_pos hl, List.getD_append _ _ _ _ hl]
  · rw [if_neg hl, List.getD_append_right _ _ _ _ (by omega), List.getD_eq_getElem?_getD, List.getD_eq_getElem?_getD, List.getElem?_reverse (by simp; omega)]
    simp only [List.length_dropLast, List.length_drop]
    rw [List.getElem?_dropLast, if_pos (by simp; omega), List.getElem?_drop]
    congr 2
    omega

theorem range_map_getD (f : ℕ → ℝ) {n k : ℕ} (h : k < n) : ((List.range n).map f).getD k 0 = f k := by
  simp [List.getD_eq_getElem?_getD, List.getElem?_map, List.getElem?_range h]

theorem polyval_length (c : List ℝ) : (polyval c).length = c.length := by
  unfold polyval
  by_cases h : c.length = 1
  · simp [h]
  · simp [h]

/-- the values are the cosine sums of the coefficients -/
theorem polyval_getD {c : List ℝ} (hc : 2 ≤ c.length) {j : ℕ} (hj : j < c.length) :
    (polyval c).getD j 0 = ∑ k ∈ range c.length, c.getD k 0 * cos (π * j * k / (c.length - 1 : ℕ)) := by
  obtain ⟨N, hN⟩ : ∃ N, c.length = N + 1 := ⟨c.length - 1, by omega⟩
  have hN0 : N ≠ 0 := by omega
  have hNr : (N : ℝ) ≠ 0 := by exact_mod_cast hN0
  unfold polyval
  simp only
  rw [if_neg (by omega), range_map_getD _ hj]
  unfold dftRe
  simp only [List.length_modify, List.length_map, even_length hc, hN, Nat.add_sub_cancel]
  have data : ∀ k < 2 * N, ((((even_data c).map (· / 2)).modify 0 (· * 2)).modify N (· * 2)).getD k 0 =
      if k = 0 ∨ k = N then c.getD k 0 else if k ≤ N then c.getD k 0 / 2 else c.getD (2 * N - k) 0 / 2 := by
    intro k hk
    have hl : k < (even_data c).length := by rw [even_length hc, hN]; omega
    have he := even_getD hc (j := k) (by omega)
    rw [hN, Nat.add_sub_cancel] at he
    rw [List.getD_eq_getElem?_getD, List.getElem?_modify, List.getElem?_modify, List.getElem?_map, List.getElem?_eq_getElem hl]
    rw [List.getD_eq_getElem?_getD, List.getElem?_eq_getElem hl, Option.getD_some] at he
    rw [he]
    by_cases h0 : k = 0
    · subst h0; simp [hN0]
    · by_cases h1 : k = N
      · subst h1; simp [h0, Ne.symm h0]
      · by_cases h2 : k < N + 1
        · simp [h0, h1, Ne.symm h0, Ne.symm h1, h2, Nat.lt_succ_iff.1 h2]
        · simp [h0, h1, Ne.symm h0, Ne.symm h1, h2, show ¬ k ≤ N by omega]
  rw [sum_congr rfl fun k hk => by rw [data k (mem_range.1 hk)], fold N hN0, if_pos (.inl rfl), if_pos (.inr rfl), sum_range_succ, range_eq_Ico,
    sum_eq_sum_Ico_succ_bot (by omega : 0 < N)]
  have mid : ∀ k ∈ Ico 1 N, ((if k = 0 ∨ k = N then c.getD k 0 else if k ≤ N then c.getD k 0 / 2 else c.getD (2 * N - k) 0 / 2) * cos (2 * π * (k : ℕ) * j / (2 * N : ℕ)) +
      (if 2 * N - k = 0 ∨ 2 * N - k = N then c.getD (2 * N - k) 0 else if 2 * N - k ≤ N then c.getD (2 * N - k) 0 / 2 else c.getD (2 * N - (2 * N - k)) 0 / 2) *
        cos (2 * π * ((2 * N - k : ℕ) : ℝ) * j / (2 * N : ℕ))) = c.getD k 0 * cos (π * j * k / N) := by
    intro k hk
    rw [mem_Ico] at hk
    rw [if_neg (by omega), if_pos (by omega), if_neg (by omega), if_neg (by omega), show 2 * N - (2 * N - k) = k by omega, Nat.cast_sub (by omega)]
    have e1 : 2 * π * (k : ℝ) * j / ((2 * N : ℕ) : ℝ) = π * j * k / N := by push_cast; field_simp
    have e2 : 2 * π * (((2 * N : ℕ) : ℝ) - k) * j / ((2 * N : ℕ) : ℝ) = (j : ℝ) * (2 * π) - π * j * k / N := by push_cast; field_simp
    rw [e1, e2, cos_nat_mul_two_pi_sub]
    ring
  rw [sum_congr rfl mid]
  have e0 : 2 * π * ((0 : ℕ) : ℝ) * j / ((2 * N : ℕ) : ℝ) = π * j * ((0 : ℕ) : ℝ) / N := by simp
  have eN : 2 * π * (N : ℝ) * j / ((2 * N : ℕ) : ℝ) = π * j * N / N := by push_cast; field_simp
  rw [e0, eN]
  ring

theorem polyfit_length {v : List ℝ} (h : 1 ≤ v.length) : (polyfit v).length = v.length := by
  unfold polyfit
  by_cases h1 : v.length = 1
  · rw [if_pos h1]
  · rw [if_neg h1]
    unfold dct
    simp [even_length (show 2 ≤ v.length by omega)]
    omega

theorem polyfit_getD {v : List ℝ} (h : 2 ≤ v.length) {k : ℕ} (hk : k < v.length) :
    (polyfit v).getD k 0 = (if k = 0 ∨ k = v.length - 1 then 1 / 2 else 1) / ((v.length - 1 : ℕ) : ℝ) *
      ∑ j ∈ range (2 * (v.length - 1)), (if j < v.length then v.getD j 0 else v.getD (2 * (v.length - 1) - j) 0) * cos (π * j * k / (v.length - 1 : ℕ)) := by
  obtain ⟨N, hN⟩ : ∃ N, v.length = N + 1 := ⟨v.length - 1, by omega⟩
  have hN0 : N ≠ 0 := by omega
  have hNr : (N : ℝ) ≠ 0 := by exact_mod_cast hN0
  unfold polyfit
  rw [if_neg (by omega)]
  unfold dct
  simp only
  have hd : dftRe (even_data v) k = ∑ j ∈ range (2 * (v.length - 1)), (if j < v.length then v.getD j 0 else v.getD (2 * (v.length - 1) - j) 0) * cos (π * j * k / (v.length - 1 : ℕ)) := by
    unfold dftRe
    rw [even_length h]
    refine sum_congr rfl fun j hj => ?_
    rw [even_getD h (mem_range.1 hj)]
    congr 2
    rw [hN, Nat.add_sub_cancel]
    push_cast
    field_simp
  rw [← hd, even_length h, hN, Nat.add_sub_cancel, show 2 * N / 2 = N by omega]
  rw [List.getD_eq_getElem?_getD, List.getElem?_modify, List.getElem?_modify, List.getElem?_map, List.getElem?_range (by omega)]
  by_cases h0 : k = 0
  · subst h0; simp [hN0]; ring
  · by_cases h1 : k = N
    · subst h1; simp [h0, Ne.symm h0]; ring
    · simp [h0, h1, Ne.symm h0, Ne.symm h1]; ring

/-- C130: coefficients are recovered from values: for every coefficient list the transform of its values gives it back. -/
theorem C130_polyfit_polyval (c : List ℝ) (hc : c ≠ []) : polyfit (polyval c) = c := by
  have hl : 1 ≤ c.length := List.length_pos_iff.2 hc
  by_cases h1 : c.length = 1
  · simp [polyfit, polyval, h1]
  have h2 : 2 ≤ c.length := by omega
  have hv := polyval_length c
  apply List.ext_getElem
  · rw [polyfit_length (by omega), hv]
  intro k hk _
  rw [polyfit_length (by omega), hv] at hk
  have := polyfit_getD (v := polyval c) (by omega) (k := k) (by omega)
  rw [List.getD_eq_getElem?_getD, List.getElem?_eq_getElem (by rw [polyfit_length (by omega), hv]; exact hk), Option.getD_some] at this
  rw [this, hv]
  obtain ⟨N, hN⟩ : ∃ N, c.length = N + 1 := ⟨c.length - 1, by omega⟩
  have hN0 : N ≠ 0 := by omega
  have hNr : (N : ℝ) ≠ 0 := by exact_mod_cast hN0
  rw [hN, Nat.add_sub_cancel]
  have val : ∀ j ∈ range (2 * N), (if j < N + 1 then (polyval c).getD j 0 else (polyval c).getD (2 * N - j) 0) * cos (π * j * k / N) =
      ∑ l ∈ range (N + 1), c.getD l 0 * (cos (π * j * l / N) * cos (π * j * k / N)) := by
    intro j hj
    rw [mem_range] at hj
    have hsum : (if j < N + 1 then (polyval c).getD j 0 else (polyval c).getD (2 * N - j) 0) = ∑ l ∈ range (N + 1), c.getD l 0 * cos (π * j * l / N) := by
      by_cases hjN : j < N + 1
      · rw [if_pos hjN, polyval_getD h2 (by omega), hN, Nat.add_sub_cancel]
      · rw [if_neg hjN, polyval_getD h2 (by omega), hN, Nat.add_sub_cancel]
        refine sum_congr rfl fun l _ => ?_
        rw [Nat.cast_sub (by omega)]
        have : π * (((2 * N : ℕ) : ℝ) - j) * l / N = (l : ℝ) * (2 * π) - π * j * l / N := by push_cast; field_simp
        rw [this, cos_nat_mul_two_pi_sub]
    rw [hsum, sum_mul]
    exact sum_congr rfl fun l _ => by ring
  rw [sum_congr rfl val, sum_comm]
  simp only [← mul_sum]
  rw [sum_congr rfl fun l hl => by rw [orthogonal N hN0 (show l ≤ N by have := mem_range.1 hl; omega) (show k ≤ N by omega)]]
  simp only [mul_ite, mul_zero, sum_ite_eq', mem_range]
  rw [if_pos (by omega), List.getD_eq_getElem?_getD, List.getElem?_eq_getElem (by omega), Option.getD_some]
  by_cases h0 : k = 0 ∨ k = N
  · rw [if_pos h0, if_pos h0]; field_simp
  · rw [if_neg h0, if_neg h0]; field_simp

/-- C130: values are recovered from coefficients: for every list of values the values of its transform are it. -/
theorem C130_polyval_polyfit (v : List ℝ) (hv : v ≠ []) : polyval (polyfit v) = v := by
  have hl : 1 ≤ v.length := List.length_pos_iff.2 hv
  by_cases h1 : v.length = 1
  · simp [polyfit, polyval, h1]
  have h2 : 2 ≤ v.length := by omega
  obtain ⟨n, hn⟩ : ∃ n, v.length = n := ⟨_, rfl⟩
  -- the transform as a linear map on vectors, injective, hence onto
  let G : (Fin n → ℝ) →ₗ[ℝ] (Fin n → ℝ) := Matrix.mulVecLin (Matrix.of fun (j k : Fin n) => cos (π * (j : ℕ) * (k : ℕ) / (n - 1 : ℕ)))
  have hG : ∀ x : Fin n → ℝ, polyval (List.ofFn x) = List.ofFn (G x) := by
    intro x
    have hx : (List.ofFn x).length = n := List.length_ofFn
    apply List.ext_getElem
    · rw [polyval_length]; simp
    intro j hj hj'
    have hjn : j < n := by simpa using hj'
    have := polyval_getD (c := List.ofFn x) (by omega) (j := j) (by omega)
    rw [List.getD_eq_getElem?_getD, List.getElem?_eq_getElem hj, Option.getD_some] at this
    rw [this, List.getElem_ofFn, hx, Finset.sum_range]
    show _ = ∑ k : Fin n, cos (π * ((⟨j, hjn⟩ : Fin n) : ℕ) * (k : ℕ) / (n - 1 : ℕ)) * x k
    refine sum_congr rfl fun k _ => ?_
    rw [List.getD_eq_getElem?_getD, List.getElem?_eq_getElem (by simp), Option.getD_some, List.getElem_ofFn, mul_comm]
  have inj : Function.Injective G := by
    intro x y hxy
    have : polyval (List.ofFn x) = polyval (List.ofFn y) := by rw [hG, hG, hxy]
    have hne : ∀ z : Fin n → ℝ, List.ofFn z ≠ [] := fun z hz => by
      have := congrArg List.length hz
      simp at this; omega
    have := congrArg polyfit this
    rw [C130_polyfit_polyval _ (hne x), C130_polyfit_polyval _ (hne y)] at this
    exact List.ofFn_injective this
  obtain ⟨x, hx⟩ := (LinearMap.injective_iff_surjective.1 inj) fun i => v.getD i 0
  have hv' : v = polyval (List.ofFn x) := by
    rw [hG, hx]
    apply List.ext_getElem
    · simp [hn]
    intro i h _
    rw [List.getElem_ofFn, List.getD_eq_getElem?_getD, List.getElem?_eq_getElem h, Option.getD_some]
  have hne : List.ofFn x ≠ [] := fun hz => by
    have := congrArg List.length hz
    simp at this; omega
  rw [hv', C130_polyfit_polyval _ hne]

example : polyfit (polyval [1, 2, 3, 4, 5]) = [1, 2, 3, 4, 5] := C130_polyfit_polyval _ (by simp)

/-- C130: the values are those of the Chebyshev series at the interpolation points, in the order of the code (from 1 down to -1). -/
theorem C130_values (c : List ℝ) (hc : c ≠ []) (j : ℕ) (hj : j < c.length) : (polyval c).getD j 0 = (chebSeries c).eval (point c.length j) := by
  have hl : 1 ≤ c.length := List.length_pos_iff.2 hc
  by_cases h1 : c.length = 1
  · obtain ⟨x, rfl⟩ := List.length_eq_one_iff.1 h1
    have : j = 0 := by simpa using hj
    subst this
    simp [polyval, chebSeries]
  have h2 : 2 ≤ c.length := by omega
  rw [polyval_getD h2 hj]
  unfold chebSeries point
  rw [if_neg h1, Polynomial.eval_finsetSum, Finset.sum_range]
  refine sum_congr rfl fun k _ => ?_
  rw [Polynomial.eval_mul, Polynomial.eval_C, Polynomial.Chebyshev.T_real_cos, List.getD_eq_getElem?_getD, List.getElem?_eq_getElem k.2, Option.getD_some]
  congr 2
  push_cast
  ring

/-- C130: a polynomial sampled at enough points is recovered exactly: for a Chebyshev series with at most `N + 1` coefficients, the samples on any interval transform to those coefficients, padded with zeros. -/
theorem C130_sample_exact (c : List ℝ) (N : ℕ) (hc : c.length ≤ N + 1) (a b : ℝ) (hab : a ≠ b) (f : ℝ → ℝ) (hf : ∀ x, f x = (chebSeries c).eval ((2 * x - a - b) / (b - a))) :
    polyfit (sample f a b N) = c ++ List.replicate (N + 1 - c.length) 0 := by
  set d := c ++ List.replicate (N + 1 - c.length) 0 with hd
  have hdl : d.length = N + 1 := by simp [hd]; omega
  have hdn : d ≠ [] := fun h => by simp [h] at hdl
  have hser : chebSeries d = chebSeries c := by
    rw [Chebyshev.chebSeries_eq_ser d (N + 1) hdl.le, Chebyshev.chebSeries_eq_ser c (N + 1) hc]
    refine Chebyshev.ser_congr fun i hi => ?_
    rw [hd]
    by_cases h : i < c.length
    · exact List.getD_append _ _ _ _ h
    · rw [List.getD_append_right _ _ _ _ (by omega)]
      simp [List.getD_eq_getElem?_getD, List.getElem?_replicate, show ¬ i < c.length by omega, List.getElem?_eq_none (show c.length ≤ i by omega)]
      split_ifs <;> rfl
  have : sample f a b N = polyval d := by
    apply List.ext_getElem
    · rw [polyval_length, hdl]; simp [sample]
    intro j hj hj'
    have hjN : j < N + 1 := by simpa [sample] using hj
    have h1 := C130_values d hdn j (by omega)
    rw [List.getD_eq_getElem?_getD, List.getElem?_eq_getElem hj', Option.getD_some] at h1
    rw [h1, hser, hdl]
    simp only [sample, List.getElem_map, List.getElem_range]
    rw [hf]
    congr 1
    have : b - a ≠ 0 := sub_ne_zero.2 hab.symm
    field_simp
    ring
  rw [this, C130_polyfit_polyval d hdn]

example : polyfit (sample (fun x => 2 * x ^ 2 - 1) (-1) 1 4) = [0, 0, 1] ++ List.replicate 2 0 :=
  C130_sample_exact [0, 0, 1] 4 (by simp) (-1) 1 (by norm_num) _ fun x => by
    simp [chebSeries, Fin.sum_univ_three, Polynomial.Chebyshev.T_two]; ring

end Verif.Chebfun
