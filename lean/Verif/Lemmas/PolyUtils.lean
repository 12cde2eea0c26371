import Verif.Lemmas.PolyCalc
import Verif.Model.PolyUtils
import Verif.Lemmas.ListSum
import Mathlib.Algebra.Polynomial.Coeff
import Mathlib.Data.Nat.Choose.Sum
import Mathlib.Data.List.GetD

namespace Verif.Spec
open Polynomial
variable {K : Type _} [CommRing K]

theorem coeff_polyAsc (c : List K) (k : ℕ) : (polyAsc c).coeff k = c.getD k 0 := by
  induction c generalizing k with
  | nil => simp
  | cons a c ih =>
    rw [polyAsc_cons]
    cases k with
    | zero => simp
    | succ k => simp [coeff_X_mul, ih]

theorem polyDesc_eq_sum (c : List K) :
    polyDesc c = ∑ i ∈ Finset.range c.length, C (c.getD i 0) * X ^ (c.length - 1 - i) := by
  rw [polyDesc, Finset.sum_range]
  refine Finset.sum_congr rfl fun i _ => ?_
  simp

theorem polyAsc_eq_sum (c : List K) :
    polyAsc c = ∑ i ∈ Finset.range c.length, C (c.getD i 0) * X ^ i := by
  rw [polyAsc, Finset.sum_range]
  refine Finset.sum_congr rfl fun i _ => ?_
  simp

theorem polyAsc_replicate_zero (n : ℕ) : polyAsc (List.replicate n (0 : K)) = 0 := by
  ext k; rw [coeff_polyAsc]; simp [List.getD_eq_getElem?_getD, List.getElem?_replicate]
  split <;> simp

theorem polyAsc_modify (l : List K) (k : ℕ) (v : K) (h : k < l.length) :
    polyAsc (l.modify k (· + v)) = polyAsc l + C v * X ^ k := by
  ext j
  rw [coeff_add, coeff_polyAsc, coeff_polyAsc, coeff_C_mul, coeff_X_pow]
  simp only [List.getD_eq_getElem?_getD, List.getElem?_modify]
  by_cases hj : k = j
  · subst hj; simp [List.getElem?_eq_getElem h]
  · simp [hj, Ne.symm hj]

theorem polyDesc_append_zero (l : List K) : polyDesc (l ++ [0]) = X * polyDesc l := by
  rw [polyDesc_append_singleton]; simp
end Verif.Spec

namespace Verif.PolyUtils
open Polynomial Verif.Spec
variable {K : Type _} [Field K] [DecidableEq K]

theorem polyAsc_add (p q : List K) : polyAsc (poly_add p q) = polyAsc p + polyAsc q := by
  ext k
  rw [coeff_add, coeff_polyAsc, coeff_polyAsc, coeff_polyAsc, poly_add]
  by_cases hk : k < max p.length q.length
  · simp [List.getD_eq_getElem?_getD, List.getElem?_map, List.getElem?_range hk]
  · have h1 : p.length ≤ k := by omega
    have h2 : q.length ≤ k := by omega
    simp [List.getD_eq_getElem?_getD, h1, h2]

theorem fold_modify (l : List K) (is : List ℕ) (idx : ℕ → ℕ) (v : ℕ → K) (h : ∀ i ∈ is, idx i < l.length) :
    (is.foldl (fun r i => r.modify (idx i) (· + v i)) l).length = l.length ∧
    polyAsc (is.foldl (fun r i => r.modify (idx i) (· + v i)) l)
      = polyAsc l + (is.map fun i => C (v i) * X ^ idx i).sum := by
  induction is generalizing l with
  | nil => simp
  | cons i is ih =>
    have h0 : idx i < l.length := h i (by simp)
    have := ih (l.modify (idx i) (· + v i)) (by
      intro j hj; simpa using h j (by simp [hj]))
    simp only [List.foldl_cons, List.map_cons, List.sum_cons]
    refine ⟨by rw [this.1]; simp, ?_⟩
    rw [this.2, polyAsc_modify _ _ _ h0]; ring

theorem poly_mul_aux (p q : List K) (r : List K) (m : ℕ) (hm : m ≤ p.length) (hr : p.length + q.length - 1 ≤ r.length) :
    let g := (List.range m).foldl (fun result i =>
      (List.range q.length).foldl (fun result j =>
        result.modify (i + j) (· + p.getD i 0 * q.getD j 0)) result) r
    g.length = r.length ∧ polyAsc g = polyAsc r + (∑ i ∈ Finset.range m, C (p.getD i 0) * X ^ i) * polyAsc q := by
  induction m with
  | zero => simp
  | succ m ih =>
    obtain ⟨h1, h2⟩ := ih (by omega)
    rw [List.range_succ, List.foldl_append]
    simp only [List.foldl_cons, List.foldl_nil]
    have h3 := fold_modify ((List.range m).foldl (fun result i =>
      (List.range q.length).foldl (fun result j =>
        result.modify (i + j) (· + p.getD i 0 * q.getD j 0)) result) r) (List.range q.length)
        (fun j => m + j) (fun j => p.getD m 0 * q.getD j 0) (by
          intro j hj; rw [h1]; have := List.mem_range.mp hj; show m + j < _; omega)
    refine ⟨h3.1.trans h1, h3.2.trans ?_⟩
    rw [h2, Finset.sum_range_succ, sum_map_range]
    conv_rhs => rw [add_mul, ← add_assoc]
    congr 1
    rw [polyAsc_eq_sum q, Finset.mul_sum]
    refine Finset.sum_congr rfl fun j _ => ?_
    simp only [C_mul, pow_add]; ring

theorem polyAsc_mul (p q : List K) : polyAsc (poly_mul p q) = polyAsc p * polyAsc q := by
  have := (poly_mul_aux p q (List.replicate (p.length + q.length - 1) 0) p.length le_rfl (by simp)).2
  rw [poly_mul, this, polyAsc_replicate_zero, zero_add, ← polyAsc_eq_sum]

theorem polyDesc_dropWhile (c : List K) : polyDesc (c.dropWhile (· = 0)) = polyDesc c := by
  induction c with
  | nil => simp
  | cons a c ih =>
    by_cases h : a = 0
    · simp [h, polyDesc_cons, ih]
    · simp [h]

theorem polyDesc_strip (c : List K) : polyDesc (strip_leading c) = polyDesc c := by
  unfold strip_leading
  split
  · rfl
  · exact polyDesc_dropWhile c

theorem coeff_polyDesc (c : List K) (k : ℕ) : (polyDesc c).coeff k = c.reverse.getD k 0 := by
  rw [← polyAsc_reverse, coeff_polyAsc]

theorem powersLoop_eq (x : K) (n : ℕ) : powersLoop x n = ((List.range (n + 1)).map (x ^ ·), x ^ n) := by
  induction n with
  | zero => simp [powersLoop]
  | succ n ih => rw [powersLoop, ih, List.range_succ (n := n + 1)]; simp [pow_succ]

theorem powers_getD (x : K) (n k : ℕ) (h : k ≤ n) : (powers x n).getD k 0 = x ^ k := by
  rw [powers, powersLoop_eq]
  simp [List.getD_eq_getElem?_getD, List.getElem?_range (show k < n + 1 by omega)]

theorem comb_eq (n k : ℕ) : comb n k = n.choose k := by
  unfold comb
  split
  · rw [Nat.choose_eq_zero_of_lt (by omega)]
  · rw [Nat.choose_eq_factorial_div_factorial (by omega)]

end Verif.PolyUtils
