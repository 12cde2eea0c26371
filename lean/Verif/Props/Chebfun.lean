import Verif.Props.ChebfunTransform
import Verif.Lemmas.Tactic
import Mathlib.LinearAlgebra.Lagrange
import Mathlib.Analysis.SpecialFunctions.Trigonometric.Chebyshev.Extremal
import Mathlib.Analysis.SpecialFunctions.Trigonometric.Chebyshev.RootsExtrema

/-! # C130: Chebyshev interpolants — evaluation and construction -/

namespace Verif.Chebfun
open Real Finset Verif.Dct Verif.Spec Polynomial

local notation "𝕋" => Polynomial.Chebyshev.T

theorem chebSeries_degree (c : List ℝ) (hc : c ≠ []) : (chebSeries c).degree < c.length := by
  unfold chebSeries
  refine (degree_sum_le _ _).trans_lt ?_
  rw [Finset.sup_lt_iff (by exact WithBot.bot_lt_coe _)]
  intro k _
  refine (degree_mul_le _ _).trans_lt ?_
  have h1 : (C c[k] : ℝ[X]).degree ≤ 0 := degree_C_le
  have h2 : (𝕋 ℝ ((k : ℕ) : ℤ)).degree = ((k : ℕ) : WithBot ℕ) := by rw [Polynomial.Chebyshev.degree_T]; simp
  refine (add_le_add_left h1 _).trans_lt ?_
  rw [zero_add, h2]
  exact WithBot.coe_lt_coe.2 k.2

theorem point_injOn (n : ℕ) : Set.InjOn (point n) (range n : Finset ℕ) := by
  rcases Nat.lt_or_ge n 2 with h | h
  · intro i hi j hj _
    simp at hi hj; omega
  · intro i hi j hj hij
    simp only [coe_range, Set.mem_Iio] at hi hj
    unfold point at hij
    rw [if_neg (by omega), if_neg (by omega)] at hij
    exact (Polynomial.Chebyshev.strictAntiOn_node (n - 1)).injOn (by simp; omega) (by simp; omega) hij

/-- every polynomial of degree under `m` is a Chebyshev series with `m` coefficients -/
theorem exists_cheb (q : ℝ[X]) (m : ℕ) (hm : 1 ≤ m) (hq : q.degree < m) : ∃ c : List ℝ, c.length = m ∧ chebSeries c = q := by
  set v := (List.range m).map fun j => q.eval (point m j) with hv
  have hvl : v.length = m := by simp [hv]
  have hvn : v ≠ [] := fun h => by rw [h] at hvl; simp at hvl; omega
  have hcl : (polyfit v).length = m := by rw [polyfit_length (by omega), hvl]
  have hcn : polyfit v ≠ [] := fun h => by rw [h] at hcl; simp at hcl; omega
  refine ⟨polyfit v, hcl, ?_⟩
  refine Polynomial.eq_of_degrees_lt_of_eval_index_eq (range m) (point_injOn m) ?_ ?_ ?_
  · rw [card_range, ← hcl]; exact chebSeries_degree _ hcn
  · rw [card_range]; exact hq
  · intro j hj
    have hj := mem_range.1 hj
    have := C130_values (polyfit v) hcn j (by omega)
    rw [hcl, C130_polyval_polyfit v hvn, hv, range_map_getD _ hj] at this
    exact this.symm

theorem weight_sum (N : ℕ) (hN : N ≠ 0) (g : ℕ → ℝ) (hg : ∀ j ≤ N, g (2 * N - j) = g j) :
    ∑ j ∈ range (N + 1), weight (N + 1) j * g j = (∑ j ∈ range (2 * N), (-1) ^ j * g j) / 2 := by
  rw [fold N hN, sum_range_succ, range_eq_Ico, sum_eq_sum_Ico_succ_bot (by omega : 0 < N)]
  have h0 : weight (N + 1) 0 = 1 / 2 := by simp [weight, Ne.symm hN]; norm_num
  have hNw : weight (N + 1) N = (-1) ^ N / 2 := by
    unfold weight
    rcases Nat.even_or_odd N with h | h
    · simp [h.neg_one_pow, Nat.even_iff.1 h, hN]; norm_num
    · simp [h.neg_one_pow, Nat.odd_iff.1 h]; norm_num
  have mid : ∑ j ∈ Ico 1 N, weight (N + 1) j * g j = ∑ j ∈ Ico 1 N, (((-1) ^ j * g j + (-1) ^ (2 * N - j) * g (2 * N - j)) / 2) := by
    refine sum_congr rfl fun j hj => ?_
    rw [mem_Ico] at hj
    rw [hg j (by omega)]
    have hw : weight (N + 1) j = (-1) ^ j := by
      unfold weight
      rcases Nat.even_or_odd j with h | h
      · simp [h.neg_one_pow, Nat.even_iff.1 h, show j ≠ 0 by omega, show j ≠ N by omega]
      · simp [h.neg_one_pow, Nat.odd_iff.1 h, show j ≠ N by omega]
    have hp : ((-1 : ℝ)) ^ (2 * N - j) = (-1) ^ j := by
      rcases Nat.even_or_odd j with h | h
      · rw [h.neg_one_pow, (show Even (2 * N - j) by rw [Nat.even_iff] at h ⊢; omega).neg_one_pow]
      · rw [h.neg_one_pow, (show Odd (2 * N - j) by rw [Nat.odd_iff] at h ⊢; omega).neg_one_pow]
    rw [hw, hp]; ring
  rw [mid, h0, hNw, ← sum_div]
  ring

/-- the barycentric weights annihilate the polynomials of degree under `N` -/
theorem weight_annihilates (N : ℕ) (hN : N ≠ 0) (q : ℝ[X]) (hq : q.degree < N) :
    ∑ j ∈ range (N + 1), weight (N + 1) j * q.eval (point (N + 1) j) = 0 := by
  obtain ⟨c, hc, rfl⟩ := exists_cheb q N (by omega) hq
  have hNr : (N : ℝ) ≠ 0 := by exact_mod_cast hN
  have hp : ∀ j, point (N + 1) j = cos (π * j / N) := by
    intro j
    simp [point, hN]
    ring_nf
  unfold chebSeries
  simp only [hp, eval_finsetSum, eval_mul, eval_C, Polynomial.Chebyshev.T_real_cos]
  simp only [mul_sum]
  rw [sum_comm]
  refine sum_eq_zero fun k _ => ?_
  have e : ∀ j : ℕ, weight (N + 1) j * (c[k] * cos (((k : ℕ) : ℤ) * (π * j / N))) = c[k] * (weight (N + 1) j * cos (π * j * (k : ℕ) / N)) := by
    intro j
    rw [show ((((k : ℕ) : ℤ) : ℝ) * (π * j / N)) = π * j * (k : ℕ) / N by push_cast; ring]
    ring
  simp only [e]
  rw [← mul_sum, weight_sum N hN]
  · have o := orthogonal N hN (k := N) (l := k) le_rfl (by omega)
    rw [if_neg (by omega)] at o
    have : ∑ j ∈ range (2 * N), (-1 : ℝ) ^ j * cos (π * j * (k : ℕ) / N) = ∑ j ∈ range (2 * N), cos (π * j * N / N) * cos (π * j * (k : ℕ) / N) := by
      refine sum_congr rfl fun j _ => ?_
      rw [mul_div_assoc (π * (j : ℝ)) (N : ℝ), div_self hNr, mul_one, mul_comm π (j : ℝ), cos_nat_mul_pi]
    rw [this, o]
    simp
  · intro j hj
    rw [Nat.cast_sub (by omega)]
    have : π * (((2 * N : ℕ) : ℝ) - j) * (k : ℕ) / N = ((k : ℕ) : ℝ) * (2 * π) - π * j * (k : ℕ) / N := by push_cast; field_simp
    rw [this, cos_nat_mul_two_pi_sub]

theorem bary_identity (N : ℕ) (P : ℝ[X]) (hP : P.degree < (N + 1 : ℕ)) (t : ℝ) (ht : ∀ j < N + 1, t ≠ point (N + 1) j) :
    ∑ j ∈ range (N + 1), weight (N + 1) j / (t - point (N + 1) j) * P.eval (point (N + 1) j) =
      P.eval t * ∑ j ∈ range (N + 1), weight (N + 1) j / (t - point (N + 1) j) := by
  obtain ⟨q, hq⟩ : ∃ q, q = P /ₘ (X - C t) := ⟨_, rfl⟩
  have hdiv : P = C (P.eval t) + (X - C t) * q := by
    rw [hq]
    conv_lhs => rw [← modByMonic_add_div P (X - C t), modByMonic_X_sub_C_eq_C_eval]
  have hev : ∀ x, P.eval x = P.eval t + (x - t) * q.eval x := by
    intro x
    conv_lhs => rw [hdiv]
    simp
  have term : ∀ j ∈ range (N + 1), weight (N + 1) j / (t - point (N + 1) j) * P.eval (point (N + 1) j) =
      P.eval t * (weight (N + 1) j / (t - point (N + 1) j)) - weight (N + 1) j * q.eval (point (N + 1) j) := by
    intro j hj
    have : t - point (N + 1) j ≠ 0 := sub_ne_zero.2 (ht j (mem_range.1 hj))
    rw [hev (point (N + 1) j)]
    field_simp
    ring
  rw [sum_congr rfl term, sum_sub_distrib, ← mul_sum]
  have : ∑ j ∈ range (N + 1), weight (N + 1) j * q.eval (point (N + 1) j) = 0 := by
    by_cases hN : N = 0
    · subst hN
      have : q = 0 := by
        rw [hq, divByMonic_eq_zero_iff (monic_X_sub_C t), degree_X_sub_C]
        simpa using hP
      simp [this]
    · refine weight_annihilates N hN q ?_
      by_cases h0 : q = 0
      · rw [h0, degree_zero]; exact WithBot.bot_lt_coe _
      · rw [hq] at h0 ⊢
        have hd := (divByMonic_eq_zero_iff (monic_X_sub_C t) (p := P)).not.1 h0
        have := degree_add_divByMonic (monic_X_sub_C t) (not_lt.1 hd)
        rw [degree_X_sub_C] at this
        rw [← this] at hP
        rw [degree_eq_natDegree h0] at hP ⊢
        have hh : ((1 + (P /ₘ (X - C t)).natDegree : ℕ) : WithBot ℕ) < (N + 1 : ℕ) := by exact_mod_cast hP
        have hh := WithBot.coe_lt_coe.1 hh
        exact WithBot.coe_lt_coe.2 (by simp at hh ⊢; omega)
  rw [this, sub_zero]

theorem bary_den (N : ℕ) (t : ℝ) (ht : ∀ j < N + 1, t ≠ point (N + 1) j) : ∑ j ∈ range (N + 1), weight (N + 1) j / (t - point (N + 1) j) ≠ 0 := by
  intro h0
  set P : ℝ[X] := ∏ i ∈ Ico 1 (N + 1), (X - C (point (N + 1) i)) with hP
  have hd : P.degree < (N + 1 : ℕ) := by
    rw [hP, degree_prod]
    simp only [degree_X_sub_C]
    simp
    exact_mod_cast Nat.lt_succ_self N
  have h := bary_identity N P hd t ht
  rw [h0, mul_zero, sum_eq_single 0] at h
  · have w0 : weight (N + 1) 0 ≠ 0 := by
      unfold weight
      simp only [Nat.zero_mod, zero_ne_one, if_false, if_true]
      split_ifs <;> norm_num
    have p0 : P.eval (point (N + 1) 0) ≠ 0 := by
      rw [hP, eval_prod, prod_ne_zero_iff]
      intro i hi
      rw [mem_Ico] at hi
      simp only [eval_sub, eval_X, eval_C, sub_ne_zero]
      intro hh
      have := point_injOn (N + 1) (by simp) (by simp; omega) hh
      omega
    rcases mul_eq_zero.1 h with h | h
    · rcases div_eq_zero_iff.1 h with h | h
      · exact w0 h
      · exact ht 0 (by omega) (sub_eq_zero.1 h)
    · exact p0 h
  · intro i hi hi0
    have : P.eval (point (N + 1) i) = 0 := by
      rw [hP, eval_prod]
      exact prod_eq_zero (i := i) (by have := mem_range.1 hi; simp; omega) (by simp)
    rw [this, mul_zero]
  · simp

/-- C130: evaluation. Calling the interpolant anywhere gives the value of the Chebyshev series of its coefficients, in the variable mapped from the domain to [-1, 1]. -/
theorem C130_call (f : Fun) (hv : f.values ≠ []) (hab : f.a ≠ f.b) (x : ℝ) :
    call f x = .ok ((chebSeries (coefficients f)).eval ((2 * x - f.a - f.b) / (f.b - f.a))) := by
  have hba : f.b - f.a ≠ 0 := sub_ne_zero.2 hab.symm
  unfold call toUnit
  rw [pdiv_ok hba, Py.ok_bind]
  set t := (2 * x - f.a - f.b) / (f.b - f.a)
  clear_value t
  unfold coefficients
  obtain ⟨N, hN⟩ : ∃ N, f.values.length = N + 1 := ⟨f.values.length - 1, by have := List.length_pos_iff.2 hv; omega⟩
  have hcl : (polyfit f.values).length = N + 1 := by rw [polyfit_length (by omega), hN]
  have hcn : polyfit f.values ≠ [] := fun h => by rw [h] at hcl; simp at hcl
  have val : ∀ j < N + 1, f.values.getD j 0 = (chebSeries (polyfit f.values)).eval (point (N + 1) j) := by
    intro j hj
    have := C130_values (polyfit f.values) hcn j (by omega)
    rwa [hcl, C130_polyval_polyfit _ hv] at this
  unfold bary
  simp only [hN]
  split_ifs with h
  · obtain ⟨h1, h2⟩ := Nat.find_spec h
    rw [val _ h1, ← h2]
  · push Not at h
    rw [sum_congr rfl fun j hj => by rw [val j (mem_range.1 hj)], bary_identity N _ (hcl ▸ chebSeries_degree _ hcn) t h, pdiv_ok (bary_den N t h),
      mul_div_assoc, div_self (bary_den N t h), mul_one]

example : call (ofValues [4, 1, 0, 1, 4] (-2) 2) 1 = .ok ((chebSeries (coefficients (ofValues [4, 1, 0, 1, 4] (-2) 2))).eval ((2 * 1 - -2 - 2) / (2 - -2))) :=
  C130_call _ (by simp [ofValues]) (by norm_num [ofValues]) 1

/-- C130: the interpolant takes the given values at the interpolation points of its domain. -/
theorem C130_interpolates (f : Fun) (hab : f.a ≠ f.b) (j : ℕ) (hj : j < f.values.length) :
    call f (0.5 * (f.b - f.a) * point f.values.length j + 0.5 * (f.a + f.b)) = .ok f.values[j] := by
  have hv : f.values ≠ [] := fun h => by simp [h] at hj
  have hba : f.b - f.a ≠ 0 := sub_ne_zero.2 hab.symm
  rw [C130_call f hv hab]
  have : (2 * (0.5 * (f.b - f.a) * point f.values.length j + 0.5 * (f.a + f.b)) - f.a - f.b) / (f.b - f.a) = point f.values.length j := by
    field_simp; ring
  have hcl : (polyfit f.values).length = f.values.length := polyfit_length (by omega)
  have h := C130_values (polyfit f.values) (fun h => by rw [h] at hcl; simp at hcl; omega) j (by omega)
  rw [hcl, C130_polyval_polyfit _ hv, List.getD_eq_getElem?_getD, List.getElem?_eq_getElem hj, Option.getD_some] at h
  rw [this, h]
  rfl

example : call (ofValues [4, 1, 0, 1, 4] (-2) 2) (0.5 * (2 - -2) * point 5 1 + 0.5 * (-2 + 2)) = .ok 1 :=
  C130_interpolates (ofValues [4, 1, 0, 1, 4] (-2) 2) (by norm_num [ofValues]) 1 (by simp [ofValues])

/-- C130: a function built from coefficients without pruning has exactly their Chebyshev series as its value. -/
theorem C130_from_coeff (c : List ℝ) (hc : c ≠ []) (a b : ℝ) (hab : a ≠ b) (vscale x : ℝ) :
    call (from_coeff c a b false vscale) x = .ok ((chebSeries c).eval ((2 * x - a - b) / (b - a))) := by
  have hl := polyval_length c
  rw [C130_call _ (fun h => by
    have : (polyval c).length = 0 := by
      have : polyval c = [] := h
      simp [this]
    have := List.length_pos_iff.2 hc; omega) hab]
  simp [from_coeff, coefficients, C130_polyfit_polyval c hc]

theorem threshold_pos {v : ℝ} (hv : 0 < v) : 0 < threshold v := by unfold threshold; positivity

theorem cutoff_spec (c : List ℝ) (v : ℝ) (i : ℕ) (h1 : cutoff c v ≤ i) (h2 : i < c.length) : |c.getD i 0| < threshold v := by
  classical
  by_contra h
  push Not at h
  unfold cutoff at h1
  set l := (List.range c.length).filter fun i => decide (threshold v ≤ |c.getD i 0|) with hl
  have hi : i ∈ l := by simp only [hl, List.mem_filter, List.mem_range, decide_eq_true_eq]; exact ⟨h2, h⟩
  have hs : l.Pairwise (· < ·) := List.Pairwise.filter _ List.pairwise_lt_range
  have hne : l ≠ [] := List.ne_nil_of_mem hi
  have hlast : i ≤ l.getLast hne := by
    rw [← List.dropLast_append_getLast hne, List.pairwise_append] at hs
    rw [← List.dropLast_append_getLast hne, List.mem_append] at hi
    rcases hi with hi | hi
    · exact (hs.2.2 i hi _ (by simp)).le
    · simp at hi; omega
  rw [List.getLast?_eq_some_getLast hne, Option.getD_some] at h1
  omega

theorem chebSeries_take (c : List ℝ) (n : ℕ) (v t : ℝ) (ht : |t| ≤ 1) (hv : ∀ i, n ≤ i → i < c.length → |c.getD i 0| < v) :
    |(chebSeries (c.take n)).eval t - (chebSeries c).eval t| ≤ (c.length - n : ℕ) * v := by
  rcases Nat.lt_or_ge n c.length with hn | hn
  swap
  · rw [List.take_of_length_le hn, sub_self, abs_zero, Nat.sub_eq_zero_of_le hn]; simp
  rw [Chebyshev.chebSeries_eq_ser (c.take n) n (by simp), Chebyshev.chebSeries_eq_ser c c.length le_rfl]
  have hcong : Chebyshev.ser (fun i => (c.take n).getD i 0) n = Chebyshev.ser (fun i => c.getD i 0) n :=
    Chebyshev.ser_congr fun i hi => by simp [List.getD_eq_getElem?_getD, List.getElem?_take, hi]
  rw [hcong]
  unfold Chebyshev.ser
  have hsplit : ∑ i ∈ range c.length, C (c.getD i 0) * 𝕋 ℝ (i : ℤ) = ∑ i ∈ range n, C (c.getD i 0) * 𝕋 ℝ (i : ℤ) + ∑ i ∈ Ico n c.length, C (c.getD i 0) * 𝕋 ℝ (i : ℤ) := by
    rw [range_eq_Ico, range_eq_Ico, sum_Ico_consecutive _ (by omega) hn.le]
  rw [hsplit, eval_add, sub_add_cancel_left, abs_neg, eval_finsetSum]
  refine (abs_sum_le_sum_abs _ _).trans ((sum_le_sum (g := fun _ => v) fun i hi => ?_).trans ?_)
  · rw [mem_Ico] at hi
    rw [eval_mul, eval_C, abs_mul]
    have h1 := hv i hi.1 hi.2
    have h2 := Polynomial.Chebyshev.abs_eval_T_real_le_one i ht
    nlinarith [abs_nonneg (c.getD i 0), abs_nonneg ((𝕋 ℝ (i : ℤ)).eval t)]
  · simp

theorem unit_le {a b x : ℝ} (hab : a < b) (hx : x ∈ Set.Icc a b) : |(2 * x - a - b) / (b - a)| ≤ 1 := by
  have : 0 < b - a := by linarith
  rw [abs_le, le_div_iff₀ this, div_le_iff₀ this]
  constructor <;> linarith [hx.1, hx.2]

/-- C130: pruning. By default the trailing coefficients below 128·2⁻⁵² times the scale are dropped; on the domain the value then differs from the series by at most that much for each coefficient. -/
theorem C130_pruned (c : List ℝ) (hc : c ≠ []) (a b : ℝ) (hab : a < b) (vscale : ℝ) (hv : 0 < vscale) (x : ℝ) (hx : x ∈ Set.Icc a b) :
    ∃ v, call (from_coeff c a b true vscale) x = .ok v ∧ |v - (chebSeries c).eval ((2 * x - a - b) / (b - a))| ≤ (c.length - 1 : ℕ) * (128 * 2 ^ (-52 : ℤ) * vscale) := by
  have hk : 1 ≤ cutoff c vscale := by unfold cutoff; omega
  have hl := List.length_pos_iff.2 hc
  have htn : c.take (cutoff c vscale) ≠ [] := by
    intro h
    have := congrArg List.length h
    rw [List.length_take, List.length_nil] at this
    omega
  have := C130_from_coeff (c.take (cutoff c vscale)) htn a b hab.ne vscale x
  refine ⟨_, this, ?_⟩
  refine (chebSeries_take c _ (threshold vscale) _ (unit_le hab hx) fun i h1 h2 => cutoff_spec c vscale i h1 h2).trans ?_
  have : ((c.length - cutoff c vscale : ℕ) : ℝ) ≤ (c.length - 1 : ℕ) := by exact_mod_cast (by omega)
  exact mul_le_mul_of_nonneg_right this (threshold_pos hv).le

/-- C130: sampling. A polynomial of degree at most `N`, sampled for that `N`, is reproduced on the domain up to the pruning of its coefficients. -/
theorem C130_from_function (c : List ℝ) (N : ℕ) (hc : c.length ≤ N + 1) (a b : ℝ) (hab : a < b) (f : ℝ → ℝ)
    (hf : ∀ x, f x = (chebSeries c).eval ((2 * x - a - b) / (b - a))) (x : ℝ) (hx : x ∈ Set.Icc a b) :
    ∃ v, call (from_function_N f a b N) x = .ok v ∧ |v - f x| ≤ (2 ^ (Nat.log 2 N + 1) : ℕ) * (128 * 2 ^ (-52 : ℤ)) := by
  have hN : N < 2 ^ (Nat.log 2 N + 1) := Nat.lt_pow_succ_log_self (by norm_num) N
  have hs := C130_sample_exact c (2 ^ (Nat.log 2 N + 1)) (by omega) a b hab.ne f hf
  set d := c ++ List.replicate (2 ^ (Nat.log 2 N + 1) + 1 - c.length) 0 with hd
  have hdl : d.length = 2 ^ (Nat.log 2 N + 1) + 1 := by simp [hd]; omega
  have hdn : d ≠ [] := fun h => by simp [h] at hdl
  obtain ⟨v, h1, h2⟩ := C130_pruned d hdn a b hab 1 one_pos x hx
  refine ⟨v, ?_, ?_⟩
  · unfold from_function_N; rw [hs]; exact h1
  · have hser : chebSeries d = chebSeries c := by
      rw [Chebyshev.chebSeries_eq_ser d _ hdl.le, Chebyshev.chebSeries_eq_ser c (2 ^ (Nat.log 2 N + 1) + 1) (by omega)]
      refine Chebyshev.ser_congr fun i hi => ?_
      rw [hd]
      by_cases h : i < c.length
      · exact List.getD_append _ _ _ _ h
      · rw [List.getD_append_right _ _ _ _ (by omega), List.getD_eq_default _ _ (show c.length ≤ i by omega)]
        simp [List.getD_eq_getElem?_getD, List.getElem?_replicate]
        split_ifs <;> rfl
    rw [hser, ← hf, hdl] at h2
    simpa using h2

example : ∃ v, call (from_function_N (fun x => 2 * x ^ 2 - 1) (-1) 1 5) (1 / 3) = .ok v ∧ |v - (2 * (1 / 3) ^ 2 - 1)| ≤ (2 ^ (Nat.log 2 5 + 1) : ℕ) * (128 * 2 ^ (-52 : ℤ) : ℝ) :=
  C130_from_function [0, 0, 1] 5 (by simp) (-1) 1 (by norm_num) (fun x => 2 * x ^ 2 - 1) (fun x => by
    simp [chebSeries, Fin.sum_univ_three, Polynomial.Chebyshev.T_two]; ring) (1 / 3) (by constructor <;> norm_num)

/-- C130: finding. The scale of the pruning is 1 whatever the size of the function: when every coefficient is below 128·2⁻⁵² the result is the constant first coefficient. -/
theorem C130_small_collapse (c : List ℝ) (hc : c ≠ []) (hs : ∀ i < c.length, |c.getD i 0| < 128 * 2 ^ (-52 : ℤ)) (a b : ℝ) (hab : a ≠ b) (x : ℝ) :
    call (from_coeff c a b) x = .ok (c.getD 0 0) := by
  classical
  have hk : cutoff c 1 = 1 := by
    unfold cutoff
    have : ((List.range c.length).filter fun i => decide (threshold 1 ≤ |c.getD i 0|)) = [] := by
      rw [List.filter_eq_nil_iff]
      intro i hi
      have := hs i (List.mem_range.1 hi)
      unfold threshold
      simp only [mul_one, decide_eq_true_eq, not_le]
      exact this
    rw [this]; rfl
  obtain ⟨c0, r, rfl⟩ := List.exists_cons_of_ne_nil hc
  have := C130_from_coeff [c0] (by simp) a b hab 1 x
  unfold from_coeff at this ⊢
  simp only [if_true, hk, List.take_succ_cons, List.take_zero] at this ⊢
  rw [show (if false = true then ([c0] : List ℝ).take (cutoff [c0] 1) else [c0]) = [c0] from rfl] at this
  rw [this]
  simp [chebSeries]

example : call (from_coeff [0, 1 / 10 ^ 14] 0 1) 1 = .ok 0 :=
  C130_small_collapse [0, 1 / 10 ^ 14] (by simp) (by
    intro i hi
    have : i = 0 ∨ i = 1 := by simp at hi; omega
    rcases this with rfl | rfl <;> norm_num [abs_of_pos]) 0 1 (by norm_num) 1

end Verif.Chebfun
