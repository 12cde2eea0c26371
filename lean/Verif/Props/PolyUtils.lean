import Verif.Lemmas.PolyUtils
import Verif.Lemmas.PolyCalc
import Mathlib.Data.List.TakeWhile
import Mathlib.Algebra.BigOperators.Field

/-! # C10 (conversion), C11, C13: polynomial utilities -/

namespace Verif
open Polynomial Verif.Spec Verif.PolyEval Verif.PolyUtils

/-- C11: list addition and multiplication (lowest power first) are polynomial addition and multiplication. -/
theorem C11_poly_ring {K : Type _} [Field K] (p q : List K) :
    polyAsc (poly_add p q) = polyAsc p + polyAsc q ∧ polyAsc (poly_mul p q) = polyAsc p * polyAsc q := by
  classical
  exact ⟨polyAsc_add p q, polyAsc_mul p q⟩

example : poly_mul [1, 2] [3, (4 : ℚ)] = [3, 10, 8] := by decide +kernel

private theorem C10_aux {K : Type _} [Field K] [DecidableEq K] (r : List K) (cs : List K) (a b x : K) :
    (polyAsc (cs.foldl (fun result c => poly_add (poly_mul result [b, a]) [c]) r)).eval x
      = cs.foldl (fun tot c => tot * (b + a * x) + c) ((polyAsc r).eval x) := by
  induction cs generalizing r with
  | nil => simp
  | cons c cs ih =>
    simp only [List.foldl_cons]
    rw [ih, polyAsc_add, polyAsc_mul]
    congr 1
    simp [polyAsc_cons]

theorem polynomial_offset_scale_ok {K : Type _} [Field K] [DecidableEq K] {low high : K} (h : low ≠ high) :
    polynomial_offset_scale low high = .ok (-(high + low) / (high - low), 2 / (high - low)) := by
  have h' : high - low ≠ 0 := sub_ne_zero.mpr (Ne.symm h)
  simp only [polynomial_offset_scale, pdiv_ok h', Py.ok_bind, Py.pure_eq, Except.ok.injEq, Prod.mk.injEq]
  constructor <;> ring

/-- C10: the coefficients returned by `stable_poly_to_unstable` describe, evaluated plainly, the same function as the
scaled form over `[low, high]`; with `low = high` the polynomial itself is unchanged. The result has no leading zero unless
every coefficient is zero. -/
theorem C10_stable_poly_to_unstable {K : Type _} [Field K] [DecidableEq K] (c : List K) (low high : K) :
    ∃ r, stable_poly_to_unstable c low high = .ok r ∧
      (low = high → ∀ x, horner r x = horner c x) ∧
      (low ≠ high → ∃ offset scale, polynomial_offset_scale low high = .ok (offset, scale) ∧
        ∀ x, horner r x = horner_stable x c offset scale) ∧
      (r.head? = some 0 → ∀ x ∈ r, x = 0) := by
  have hstrip : ∀ l : List K, (strip_leading l).head? = some 0 → ∀ x ∈ strip_leading l, x = 0 := by
    intro l h
    unfold strip_leading at h ⊢
    split at h
    · next hd =>
      intro x hx
      have := List.dropWhile_eq_nil_iff.mp hd x hx
      simpa using this
    · next hd =>
      exfalso
      have h1 : l.dropWhile (· = 0) ≠ [] := by intro h0; exact hd h0
      have := List.head_dropWhile_not (p := fun x : K => decide (x = 0)) (l := l) h1
      rw [List.head?_eq_some_head h1] at h
      simp only [Option.some.injEq] at h
      simp [h] at this
  cases c with
  | nil => 
    refine ⟨[], rfl, fun _ _ => rfl, fun h => ?_, by simp⟩
    exact ⟨_, _, polynomial_offset_scale_ok h, fun x => rfl⟩
  | cons c0 cs =>
    by_cases h : high = low
    · subst h
      refine ⟨strip_leading (c0 :: cs), by simp [stable_poly_to_unstable], fun _ x => ?_, fun h => absurd rfl h, hstrip _⟩
      rw [horner_eq_eval, horner_eq_eval, polyDesc_strip]
    · have h' : high - low ≠ 0 := sub_ne_zero.mpr h
      refine ⟨_, by simp only [stable_poly_to_unstable, ne_eq, h, not_false_eq_true, if_true, pdiv_ok h', Py.ok_bind,
        Py.pure_eq]; rfl, fun h0 => absurd h0.symm h, fun h0 => ?_, hstrip _⟩
      refine ⟨_, _, polynomial_offset_scale_ok h0, fun x => ?_⟩
      rw [horner_eq_eval, polyDesc_strip, polyDesc_reverse, C10_aux]
      simp [horner_stable, polyAsc_cons]

example : stable_poly_to_unstable [1, 0, (0 : ℚ)] 1 3 = .ok [1, -4, 4] := by decide +kernel

/-- C11: `polyint` returns the coefficients of the antiderivative that vanishes at zero. -/
theorem C11_polyint {K : Type _} [Field K] [CharZero K] (c : List K) :
    derivative (polyDesc (polyint c)) = polyDesc c ∧ (polyDesc (polyint c)).eval 0 = 0 := by
  rw [polyint, polyDesc_append_zero]
  refine ⟨?_, by simp⟩
  rw [polyDesc_eq_sum, polyDesc_eq_sum c]
  simp only [List.length_map, List.length_range, Finset.mul_sum, derivative_sum]
  refine Finset.sum_congr rfl fun i hi => ?_
  have hi := Finset.mem_range.mp hi
  have hN : ((c.length - i : ℕ) : K) ≠ 0 := by
    rw [Nat.cast_ne_zero]; omega
  have e : X * (C (((List.range c.length).map fun i => c.getD i 0 / ((c.length - i : ℕ) : K)).getD i 0)
      * X ^ (c.length - 1 - i)) = C (c.getD i 0 / ((c.length - i : ℕ) : K)) * X ^ (c.length - i) := by
    have e2 : (X : K[X]) ^ (c.length - i) = X * X ^ (c.length - 1 - i) := by
      rw [← pow_succ', show c.length - i = c.length - 1 - i + 1 by omega]
    rw [e2]
    simp [List.getD_eq_getElem?_getD, hi]; ring
  rw [e, derivative_C_mul, derivative_X_pow, ← mul_assoc, ← C_mul]
  rw [div_mul_cancel₀ _ hN, show c.length - i - 1 = c.length - 1 - i by omega]

example : polyint [3, 2, (1 : ℚ)] = [1, 1, 1, 0] := by decide +kernel

/-- C11: evaluated with `horner`, `polyint` gives a function whose derivative is the original polynomial. -/
theorem C11_polyint_hasDerivAt (c : List ℝ) (x : ℝ) : HasDerivAt (fun t => horner (polyint c) t) (horner c x) x := by
  have h := (polyDesc (polyint c)).hasDerivAt x
  rw [(C11_polyint c).1] at h
  simpa only [horner_eq_eval] using h

/-- C11: `polyint_over_x` integrates `p(x)/x`: `horner poly_terms x + log_coeff * log x` is an antiderivative on `x > 0`. -/
theorem C11_polyint_over_x (c : List ℝ) (x : ℝ) (hx : 0 < x) :
    HasDerivAt (fun t => horner (polyint_over_x c).1 t + (polyint_over_x c).2 * Real.log t) (horner c x / x) x := by
  rcases List.eq_nil_or_concat c with rfl | ⟨l, a, rfl⟩
  · simpa [polyint_over_x, horner] using hasDerivAt_const x (0 : ℝ)
  · have e1 : (polyint_over_x (l ++ [a])).1 = polyint l := by
      simp only [polyint_over_x, polyint, List.length_append, List.length_singleton]
      simp only [Nat.add_eq_zero_iff, one_ne_zero, and_false, if_false, Nat.add_sub_cancel]
      congr 1
      refine List.map_congr_left fun i hi => ?_
      have := List.mem_range.mp hi
      rw [List.getD_append _ _ _ _ this]
    have e2 : (polyint_over_x (l ++ [a])).2 = a := by simp [polyint_over_x]
    simp only [List.concat_eq_append, e1, e2]
    have h := (C11_polyint_hasDerivAt l x).add ((Real.hasDerivAt_log hx.ne').const_mul a)
    refine h.congr_deriv ?_
    rw [horner_eq_eval, horner_eq_eval, polyDesc_append_singleton]
    simp; field_simp

example : (0 : ℝ) < 2 := by norm_num

/-- C11: `polyint_stable` integrates the offset/scale form with respect to the caller's variable. -/
theorem C11_polyint_stable (c : List ℝ) (xmin xmax : ℝ) :
    (xmin = xmax → polyint_stable c xmin xmax = .error .zeroDivisionError) ∧
    (xmin ≠ xmax → ∃ r o s, polyint_stable c xmin xmax = .ok r ∧ polynomial_offset_scale xmin xmax = .ok (o, s) ∧
      ∀ x, HasDerivAt (fun t => horner_stable t r o s) (horner_stable x c o s) x) := by
  constructor
  · rintro rfl; simp [polyint_stable, polynomial_offset_scale]
  intro h
  have h' : xmax - xmin ≠ 0 := sub_ne_zero.mpr (Ne.symm h)
  have hs : (2 : ℝ) / (xmax - xmin) ≠ 0 := div_ne_zero two_ne_zero h'
  refine ⟨_, _, _, by simp only [polyint_stable, polynomial_offset_scale_ok h, Py.ok_bind, pdiv_ok hs, Py.pure_eq]; rfl,
    polynomial_offset_scale_ok h, fun x => ?_⟩
  generalize -(xmax + xmin) / (xmax - xmin) = o
  generalize (2 : ℝ) / (xmax - xmin) = s at *
  have e : ∀ t, horner_stable t ((List.range c.length).map (fun i => 1 / s * c.getD i 0 / ((c.length - i : ℕ) : ℝ)) ++ [0]) o s
      = 1 / s * horner (polyint c) (o + s * t) := by
    intro t
    show horner _ (o + s * t) = _
    rw [horner_eq_eval, horner_eq_eval, polyint, polyDesc_append_zero, polyDesc_append_zero, polyDesc_eq_sum,
      polyDesc_eq_sum]
    simp only [eval_mul, eval_finsetSum, List.length_map, List.length_range, Finset.mul_sum]
    refine Finset.sum_congr rfl fun i hi => ?_
    have hi := Finset.mem_range.mp hi
    simp [List.getD_eq_getElem?_getD, hi]; ring
  simp only [e]
  have hlin : HasDerivAt (fun t : ℝ => o + s * t) s x := by
    simpa using ((hasDerivAt_id x).const_mul s).const_add o
  have h1 := ((C11_polyint_hasDerivAt c (o + s * x)).comp x hlin).const_mul (1 / s)
  refine h1.congr_deriv ?_
  show _ = horner c (o + s * x)
  field_simp

example : (1 : ℝ) ≠ 3 := by norm_num

theorem polyAsc_polyder_once {K : Type _} [Field K] (c : List K) :
    polyAsc (polyder_once c) = derivative (polyAsc c) := by
  ext k
  rw [coeff_polyAsc, coeff_derivative, coeff_polyAsc, polyder_once]
  by_cases hk : k < c.length - 1
  · simp [List.getD_eq_getElem?_getD, List.getElem?_range hk]; ring
  · have : c.length ≤ k + 1 := by omega
    have h2 : c.length - 1 ≤ k := by omega
    simp [List.getD_eq_getElem?_getD, this, h2]

theorem derivative_short {K : Type _} [Field K] (c : List K) (m : ℕ) (h : c.length ≤ m) :
    derivative^[m] (polyAsc c) = 0 := by
  ext k
  rw [coeff_iterate_derivative, coeff_polyAsc, List.getD_eq_getElem?_getD, List.getElem?_eq_none (by omega)]
  simp

/-- C11: `polyder c m` (coefficients lowest power first) are the coefficients of the `m`-th derivative, every `m`. -/
theorem C11_polyder {K : Type _} [Field K] (c : List K) (m : ℕ) :
    polyAsc (polyder c m) = derivative^[m] (polyAsc c) := by
  unfold polyder
  split
  · next h => simp [h]
  split
  · next h => rw [derivative_short c m h]; simp
  · clear * -
    induction m with
    | zero => simp
    | succ m ih => rw [Function.iterate_succ_apply', Function.iterate_succ_apply', polyAsc_polyder_once, ih]

example : polyder [1, 2, 3, (4 : ℚ)] 2 = [6, 24] := by decide +kernel

/-- C11: differentiating an antiderivative gives back the coefficients (orders reversed as the two routines expect). -/
theorem C11_polyder_polyint {K : Type _} [Field K] [CharZero K] (c : List K) :
    polyAsc (polyder (polyint c).reverse 1) = polyAsc c.reverse := by
  rw [C11_polyder, polyAsc_reverse, polyAsc_reverse, Function.iterate_one, (C11_polyint c).1]

/-! ### change of variable -/

/-- expansion of `(o + s X)^j` -/
theorem affine_pow {K : Type _} [Field K] (o s : K) (j n : ℕ) (h : j < n) :
    (C o + C s * X) ^ j = ∑ i ∈ Finset.range n, C (s ^ i * ((j.choose i : ℕ) : K) * o ^ (j - i)) * (X : K[X]) ^ i := by
  rw [add_comm, add_pow]
  have : ∑ i ∈ Finset.range n, C (s ^ i * ((j.choose i : ℕ) : K) * o ^ (j - i)) * (X : K[X]) ^ i
      = ∑ i ∈ Finset.range (j + 1), C (s ^ i * ((j.choose i : ℕ) : K) * o ^ (j - i)) * (X : K[X]) ^ i := by
    symm
    refine Finset.sum_subset (by intro i hi; simp at hi ⊢; omega) fun i _ hi => ?_
    have : j < i := by simpa using hi
    simp [Nat.choose_eq_zero_of_lt this]
  rw [this]
  refine Finset.sum_congr rfl fun i _ => ?_
  simp [mul_pow]; ring

/-- C11: `polyint_over_x_stable` integrates `p(offset + scale·x)/x` and returns plain `horner` coefficients and the
coefficient of the logarithm. -/
theorem C11_polyint_over_x_stable (c : List ℝ) (xmin xmax : ℝ) (h : xmin ≠ xmax) :
    ∃ terms lc o s, polyint_over_x_stable c xmin xmax = .ok (terms, lc) ∧
      polynomial_offset_scale xmin xmax = .ok (o, s) ∧
      ∀ x, 0 < x → HasDerivAt (fun t => horner terms t + lc * Real.log t) (horner_stable x c o s / x) x := by
  let o := -(xmax + xmin) / (xmax - xmin)
  let s := 2 / (xmax - xmin)
  let n := c.length
  -- coefficient of x^i in p(o + s x)
  let A : ℕ → ℝ := fun i => s ^ i * ∑ j ∈ Finset.range n, ((j.choose i : ℕ) : ℝ) * c.getD (n - 1 - j) 0 * o ^ (j - i)
  have hhelp : ∀ i ∈ List.range (n - 1), polyint_over_x_stable_helper c (i + 1) n (powers s n) (powers o n)
      = .ok (A (i + 1) / ((i + 1 : ℕ) : ℝ)) := by
    intro i hi
    have hi' := List.mem_range.mp hi
    have hne : ((i + 1 : ℕ) : ℝ) ≠ 0 := by positivity
    have hs : ∑ j ∈ Finset.range n, (comb j (i + 1) : ℝ) * c.getD (n - 1 - j) 0 * (powers o n).getD (j - (i + 1)) 0
        = ∑ j ∈ Finset.range n, ((j.choose (i + 1) : ℕ) : ℝ) * c.getD (n - 1 - j) 0 * o ^ (j - (i + 1)) := by
      refine Finset.sum_congr rfl fun j hj => ?_
      have hj := Finset.mem_range.mp hj
      rw [powers_getD _ _ _ (by omega), comb_eq]
    rw [polyint_over_x_stable_helper, pdiv_ok hne, foldl_add_range (M := ℝ), powers_getD _ _ _ (by omega), hs]
    simp only [A, zero_add]
  have hmap : (List.range (n - 1)).mapM (m := Py) (fun i => polyint_over_x_stable_helper c (i + 1) n (powers s n) (powers o n))
      = .ok ((List.range (n - 1)).map fun i => A (i + 1) / ((i + 1 : ℕ) : ℝ)) := by
    have : ∀ l : List ℕ, (∀ i ∈ l, i ∈ List.range (n - 1)) → l.mapM (m := Py) (fun i => polyint_over_x_stable_helper c (i + 1) n
        (powers s n) (powers o n)) = .ok (l.map fun i => A (i + 1) / ((i + 1 : ℕ) : ℝ)) := by
      intro l hl
      induction l with
      | nil => rfl
      | cons a l ih =>
        rw [List.mapM_cons, hhelp a (hl a (by simp)), Py.ok_bind, ih (fun i hi => hl i (by simp [hi]))]
        rfl
    exact this _ fun _ h => h
  have hrev : ∀ i, i < n → c.reverse.getD i 0 = c.getD (n - 1 - i) 0 := by
    intro i hi
    rw [List.getD_eq_getElem?_getD, List.getD_eq_getElem?_getD, List.getElem?_reverse hi]
  have hlog : (List.range n).foldl (fun acc i => acc + c.reverse.getD i 0 * (powers o n).getD i 0) 0 = A 0 := by
    rw [foldl_add_range]
    simp only [A, zero_add, pow_zero, one_mul, Nat.choose_zero_right, Nat.cast_one, Nat.sub_zero]
    refine Finset.sum_congr rfl fun j hj => ?_
    have hj := Finset.mem_range.mp hj
    rw [powers_getD _ _ _ (by omega), hrev j hj]
  refine ⟨(0 :: (List.range (n - 1)).map fun i => A (i + 1) / ((i + 1 : ℕ) : ℝ)).reverse, A 0, o, s, ?_,
    polynomial_offset_scale_ok h, fun x hx => ?_⟩
  · rw [polyint_over_x_stable, polynomial_offset_scale_ok h]
    simp only [Py.ok_bind]
    show (do
      let terms ← (List.range (n - 1)).mapM fun i => polyint_over_x_stable_helper c (i + 1) n (powers s n) (powers o n)
      Except.ok ((0 :: terms).reverse, (List.range n).foldl (fun acc i => acc + c.reverse.getD i 0 * (powers o n).getD i 0) 0) : Py _) = _
    rw [hmap, hlog]; rfl
  -- the polynomial identity
  have hpoly : ∀ t, horner_stable t c o s = ∑ i ∈ Finset.range n, A i * t ^ i := by
    intro t
    show horner c (o + s * t) = _
    rw [horner_eq_eval, ← polyAsc_reverse, polyAsc_eq_sum]
    simp only [List.length_reverse, eval_finsetSum, eval_mul, eval_C, eval_pow, eval_X]
    have e : ∀ j ∈ Finset.range c.length, c.reverse.getD j 0 * (o + s * t) ^ j
        = ∑ i ∈ Finset.range n, (s ^ i * (((j.choose i : ℕ) : ℝ) * c.getD (n - 1 - j) 0 * o ^ (j - i))) * t ^ i := by
      intro j hj
      have hj := Finset.mem_range.mp hj
      have := congrArg (eval t) (affine_pow o s j n hj)
      simp only [eval_pow, eval_add, eval_C, eval_mul, eval_X, eval_finsetSum] at this
      rw [this, hrev j hj, Finset.mul_sum]
      refine Finset.sum_congr rfl fun i _ => by ring
    rw [Finset.sum_congr rfl e, Finset.sum_comm]
    refine Finset.sum_congr rfl fun i _ => ?_
    simp only [A, Finset.mul_sum, Finset.sum_mul]
    rfl
  have hterms : ∀ t, horner (0 :: (List.range (n - 1)).map fun i => A (i + 1) / ((i + 1 : ℕ) : ℝ)).reverse t
      = ∑ i ∈ Finset.range (n - 1), A (i + 1) / ((i + 1 : ℕ) : ℝ) * t ^ (i + 1) := by
    intro t
    rw [horner_eq_eval, polyDesc_reverse, polyAsc_cons, polyAsc_eq_sum]
    simp only [List.length_map, List.length_range, map_zero, zero_add, eval_mul, eval_X, eval_finsetSum, eval_C,
      eval_pow, Finset.mul_sum]
    refine Finset.sum_congr rfl fun i hi => ?_
    have hi := Finset.mem_range.mp hi
    simp [List.getD_eq_getElem?_getD, hi, pow_succ]; ring
  simp only [hterms]
  have hd : HasDerivAt (fun t : ℝ => ∑ i ∈ Finset.range (n - 1), A (i + 1) / ((i + 1 : ℕ) : ℝ) * t ^ (i + 1))
      (∑ i ∈ Finset.range (n - 1), A (i + 1) * x ^ i) x := by
    refine HasDerivAt.fun_sum fun i _ => ?_
    refine ((hasDerivAt_pow (i + 1) x).const_mul _).congr_deriv ?_
    have : ((i + 1 : ℕ) : ℝ) ≠ 0 := by positivity
    rw [Nat.add_sub_cancel]
    field_simp
  refine (hd.add ((Real.hasDerivAt_log hx.ne').const_mul (A 0))).congr_deriv ?_
  rw [hpoly]
  rcases Nat.eq_zero_or_pos n with hn | hn
  · have : A 0 = 0 := by simp [A, hn]
    simp [hn, this]
  · obtain ⟨m, hm⟩ : ∃ m, n = m + 1 := ⟨n - 1, by omega⟩
    rw [hm, Finset.sum_range_succ', Nat.add_sub_cancel, add_div, Finset.sum_div]
    simp only [pow_zero, mul_one]
    congr 1
    refine Finset.sum_congr rfl fun i _ => ?_
    field_simp
    ring

example : (280 : ℝ) ≠ 400 := by norm_num

/-- inner-loop invariant of `poly_convert` -/
private theorem convert_inner {K : Type _} [Field K] [CharZero K] (ci : K) (i n : ℕ) (o s : K) (Q : List K) (hi : i < n) (hQ : Q.length = n)
    (m : ℕ) (hm : m ≤ i + 1) :
    let st := (List.range m).foldl (poly_convert_inner ci i (powers o (n - 1)) (powers s (n - 1))) (Q, 1)
    st.1.length = n ∧ st.2 = ((i.choose m : ℕ) : K) ∧
      polyAsc st.1 = polyAsc Q + ∑ k ∈ Finset.range m, C (ci * ((i.choose k : ℕ) : K) * o ^ (i - k) * s ^ k) * X ^ k := by
  classical
  induction m with
  | zero => simp [hQ]
  | succ m ih =>
    obtain ⟨h1, h2, h3⟩ := ih (by omega)
    rw [List.range_succ, List.foldl_append]
    simp only [List.foldl_cons, List.foldl_nil]
    generalize (List.range m).foldl (poly_convert_inner ci i (powers o (n - 1)) (powers s (n - 1))) (Q, 1) = st at *
    obtain ⟨l, b⟩ := st
    simp only at h1 h2 h3
    subst h2
    refine ⟨by simp [poly_convert_inner, h1], ?_, ?_⟩
    · simp only [poly_convert_inner]
      have hne : (m : K) + 1 ≠ 0 := by exact_mod_cast Nat.succ_ne_zero m
      have := Nat.choose_succ_right_eq i m
      have hc : ((i.choose (m + 1) : ℕ) : K) * ((m : K) + 1) = ((i.choose m : ℕ) : K) * ((i - m : ℕ) : K) := by
        exact_mod_cast this
      field_simp
      rw [← hc]; ring
    · simp only [poly_convert_inner]
      rw [polyAsc_modify _ _ _ (by omega), h3, Finset.sum_range_succ, powers_getD _ _ _ (by omega),
        powers_getD _ _ _ (by omega)]
      ring

/-- C10: `poly_convert` re-expresses a polynomial in the normalised variable: its coefficients (lowest power first) are those
of `P((Tmin+Tmax)/2 + (Tmax-Tmin)/2 · x)`. -/
theorem C10_poly_convert {K : Type _} [Field K] [CharZero K] (c : List K) (Tmin Tmax : K) :
    polyAsc (poly_convert c Tmin Tmax) = (polyAsc c).comp (C ((Tmin + Tmax) / 2) + C ((Tmax - Tmin) / 2) * X) := by
  classical
  let o := 1 / 2 * (Tmin + Tmax)
  let s := 1 / 2 * (Tmax - Tmin)
  have main : ∀ m ≤ c.length,
      let Q := (List.range m).foldl (fun Q i =>
        ((List.range (i + 1)).foldl (poly_convert_inner (c.getD i 0) i (powers o (c.length - 1)) (powers s (c.length - 1))) (Q, 1)).1)
        (List.replicate c.length 0)
      Q.length = c.length ∧ polyAsc Q = ∑ i ∈ Finset.range m, C (c.getD i 0) * (C o + C s * X) ^ i := by
    intro m
    induction m with
    | zero => intro _; simp [polyAsc_replicate_zero]
    | succ m ih =>
      intro hm
      obtain ⟨h1, h2⟩ := ih (by omega)
      rw [List.range_succ, List.foldl_append]
      simp only [List.foldl_cons, List.foldl_nil]
      obtain ⟨g1, -, g3⟩ := convert_inner (c.getD m 0) m c.length o s _ (by omega) h1 (m + 1) le_rfl
      refine ⟨g1, ?_⟩
      rw [g3, h2, Finset.sum_range_succ (fun i => C (c.getD i 0) * (C o + C s * X) ^ i)]
      congr 1
      rw [affine_pow o s m (m + 1) (by omega), Finset.mul_sum]
      refine Finset.sum_congr rfl fun k _ => ?_
      rw [← mul_assoc, ← C_mul]; congr 2; ring
  have h := (main c.length le_rfl).2
  have e1 : (Tmin + Tmax) / 2 = o := by simp only [o]; ring
  have e2 : (Tmax - Tmin) / 2 = s := by simp only [s]; ring
  rw [e1, e2]
  refine h.trans ?_
  rw [polyAsc_eq_sum c, Polynomial.sum_comp]
  refine Finset.sum_congr rfl fun i _ => ?_
  simp

example : poly_convert [1, 1, (1 : ℚ)] 0 4 = [7, 10, 4] := by decide +kernel

/-! ### C13 -/

/-- C13: through three points with distinct abscissae `quadratic_from_points` returns the only quadratic. Two equal
abscissae raise ZeroDivisionError. -/
theorem C13_quadratic_from_points {K : Type _} [Field K] [DecidableEq K] (x0 x1 x2 f0 f1 f2 : K) :
    (x0 ≠ x1 ∧ x0 ≠ x2 ∧ x1 ≠ x2 → ∃ a b c, quadratic_from_points x0 x1 x2 f0 f1 f2 = .ok (a, b, c) ∧
      (∀ a' b' c', (a' * x0 ^ 2 + b' * x0 + c' = f0 ∧ a' * x1 ^ 2 + b' * x1 + c' = f1 ∧ a' * x2 ^ 2 + b' * x2 + c' = f2)
        ↔ (a', b', c') = (a, b, c))) ∧
    (x0 = x1 ∨ x0 = x2 ∨ x1 = x2 → quadratic_from_points x0 x1 x2 f0 f1 f2 = .error .zeroDivisionError) := by
  constructor
  · rintro ⟨h01, h02, h12⟩
    have d01 := sub_ne_zero.mpr h01
    have d02 := sub_ne_zero.mpr h02
    have d12 := sub_ne_zero.mpr h12
    have hD : x2 * x2 * x0 + x0 * x0 * x1 + x1 * x1 * x2 - (x2 * x2 * x1 + x0 * x0 * x2 + x1 * x1 * x0) ≠ 0 := by
      have : x2 * x2 * x0 + x0 * x0 * x1 + x1 * x1 * x2 - (x2 * x2 * x1 + x0 * x0 * x2 + x1 * x1 * x0)
        = (x0 - x1) * (x0 - x2) * (x1 - x2) := by ring
      rw [this]; exact mul_ne_zero (mul_ne_zero d01 d02) d12
    refine ⟨_, _, _, by simp only [quadratic_from_points, pdiv_ok hD, Py.ok_bind, Py.pure_eq]; rfl, fun a' b' c' => ?_⟩
    rw [show x2 * x2 * x0 + x0 * x0 * x1 + x1 * x1 * x2 - (x2 * x2 * x1 + x0 * x0 * x2 + x1 * x1 * x0)
        = (x0 - x1) * (x0 - x2) * (x1 - x2) by ring]
    constructor
    · rintro ⟨rfl, rfl, rfl⟩
      simp only [Prod.mk.injEq]
      refine ⟨?_, ?_, ?_⟩ <;> field_simp <;> ring
    · simp only [Prod.mk.injEq]
      rintro ⟨rfl, rfl, rfl⟩
      refine ⟨?_, ?_, ?_⟩ <;> field_simp <;> ring
  · intro h
    have hD : x2 * x2 * x0 + x0 * x0 * x1 + x1 * x1 * x2 - (x2 * x2 * x1 + x0 * x0 * x2 + x1 * x1 * x0) = 0 := by
      rcases h with rfl | rfl | rfl <;> ring
    simp [quadratic_from_points, hD]

example : quadratic_from_points 0 1 (2 : ℚ) 1 2 5 = .ok (1, 0, 1) := by decide +kernel

/-- C13: `quadratic_from_f_ders` returns the only quadratic with the requested value, slope and curvature at `x`. -/
theorem C13_quadratic_from_f_ders {K : Type _} [Field K] [CharZero K] (x v d1 d2 a b c : K) :
    (a * x ^ 2 + b * x + c = v ∧ 2 * a * x + b = d1 ∧ 2 * a = d2) ↔ (a, b, c) = quadratic_from_f_ders x v d1 d2 := by
  simp only [quadratic_from_f_ders, Prod.mk.injEq]
  constructor
  · rintro ⟨rfl, rfl, rfl⟩; refine ⟨?_, ?_, ?_⟩ <;> ring
  · rintro ⟨rfl, rfl, rfl⟩; refine ⟨?_, ?_, ?_⟩ <;> ring

example : quadratic_from_f_ders (2 : ℚ) 7 5 2 = (1, 1, 1) := by decide +kernel

private theorem two_coeff_aux (c0 c1 T Tc : ℝ) (hc : 0 < Tc) (hT : T < Tc) :
    deriv (fun t => Real.exp (c0 * Real.log (1 - t / Tc) + c1)) T
      = -Real.exp (c0 * Real.log (1 - T / Tc) + c1) * c0 / (Tc - T) := by
  have h := (exp_lntau_poly_ders (C c0 * X + C c1) hc hT).1
  simp at h
  rw [h]; ring

private theorem three_coeff_aux (a b c T Tc : ℝ) (hc : 0 < Tc) (hT : T < Tc) :
    let L := Real.log (1 - T / Tc)
    let F := fun t => Real.exp (a * Real.log (1 - t / Tc) ^ 2 + b * Real.log (1 - t / Tc) + c)
    deriv F T = -F T * (2 * a * L + b) / (Tc - T) ∧
    iteratedDeriv 2 F T = ((2 * a * L + b) * (2 * a * L + b) - (2 * a * L + b) + 2 * a) * F T / (Tc - T) ^ 2 := by
  intro L F
  obtain ⟨h1, h2⟩ := exp_lntau_poly_ders (C a * X ^ 2 + C b * X + C c) hc hT
  have e : (derivative^[2] (C a * X ^ 2 + C b * X + C c)) = C (2 * a) := by
    rw [Function.iterate_succ_apply', Function.iterate_succ_apply', Function.iterate_zero_apply]
    simp; ring_nf; rfl
  rw [e] at h2
  have e1 : (derivative (C a * X ^ 2 + C b * X + C c)).eval (Real.log (1 - T / Tc)) = 2 * a * L + b := by
    simp [L]; ring
  rw [e1] at h1 h2
  simp only [eval_add, eval_mul, eval_C, eval_X, eval_pow] at h1 h2
  exact ⟨h1, h2⟩

/-- C13: the two coefficients returned are the only ones for which `exp(c₀·ln(1-T/Tc) + c₁)` has the requested
value and slope at `T`. -/
theorem C13_exp_poly_ln_tau_coeffs2 (T Tc val der : ℝ) (hc : 0 < Tc) (hT : T < Tc) (hv : 0 < val) :
    ∃ a0 a1, exp_poly_ln_tau_coeffs2 T Tc val der = .ok (a0, a1) ∧ ∀ c0 c1 : ℝ,
      (let F := fun t => Real.exp (c0 * Real.log (1 - t / Tc) + c1)
       F T = val ∧ deriv F T = der) ↔ (c0, c1) = (a0, a1) := by
  have hr : (0 : ℝ) < -(T - Tc) / Tc := by apply div_pos <;> linarith
  have hd : Tc - T ≠ 0 := by linarith
  have hL : -(T - Tc) / Tc = 1 - T / Tc := by field_simp; ring
  refine ⟨_, _, by
    simp only [exp_poly_ln_tau_coeffs2, pdiv_ok hv.ne', pdiv_ok hc.ne', plog_ok hr, plog_ok hv, Py.ok_bind,
      Py.pure_eq]; rfl, fun c0 c1 => ?_⟩
  simp only [two_coeff_aux c0 c1 T Tc hc hT, hL]
  generalize Real.log (1 - T / Tc) = L
  simp only [Prod.mk.injEq]
  constructor
  · rintro ⟨h1, h2⟩
    rw [h1] at h2
    have hl : c0 * L + c1 = Real.log val := by rw [← h1, Real.log_exp]
    rw [← hl, ← h2]
    constructor <;> field_simp <;> ring
  · rintro ⟨rfl, rfl⟩
    have e : der * (1 / val) * (T - Tc) * L + 1 / val * (-T * (der * L) + Tc * (der * L) + val * Real.log val)
      = Real.log val := by field_simp; ring
    rw [e, Real.exp_log hv]
    refine ⟨rfl, ?_⟩
    field_simp; ring

/-- C13: the three coefficients returned are the only ones for which `exp(a·ln²τ + b·lnτ + c)` has the requested
value, slope and second derivative at `T`. -/
theorem C13_exp_poly_ln_tau_coeffs3 (T Tc val der der2 : ℝ) (hc : 0 < Tc) (hT : T < Tc) (hv : 0 < val) :
    ∃ r, exp_poly_ln_tau_coeffs3 T Tc val der der2 = .ok r ∧ ∀ a b c : ℝ,
      (let F := fun t => Real.exp (a * Real.log (1 - t / Tc) ^ 2 + b * Real.log (1 - t / Tc) + c)
       F T = val ∧ deriv F T = der ∧ iteratedDeriv 2 F T = der2) ↔ (a, b, c) = r := by
  have hr : (0 : ℝ) < -(T - Tc) / Tc := by apply div_pos <;> linarith
  have hd : Tc - T ≠ 0 := by linarith
  have hL : -(T - Tc) / Tc = 1 - T / Tc := by field_simp; ring
  refine ⟨(_, _, _), by
    simp only [exp_poly_ln_tau_coeffs3, pdiv_ok (mul_ne_zero hv.ne' hv.ne'), pdiv_ok hc.ne', plog_ok hr, plog_ok hv,
      Py.ok_bind, Py.pure_eq]; rfl, fun a b c => ?_⟩
  obtain ⟨d1, d2⟩ := three_coeff_aux a b c T Tc hc hT
  simp only [d1, d2, hL]
  generalize Real.log (1 - T / Tc) = L
  simp only [Prod.mk.injEq]
  constructor
  · rintro ⟨h1, h2, h3⟩
    rw [h1] at h2 h3
    have hl : a * L ^ 2 + b * L + c = Real.log val := by rw [← h1, Real.log_exp]
    rw [← hl, ← h2, ← h3]
    refine ⟨?_, ?_, ?_⟩ <;> field_simp <;> ring
  · rintro ⟨ha, hb, hc'⟩
    have e : a * L ^ 2 + b * L + c = Real.log val := by
      rw [ha, hb, hc']; field_simp; ring
    have e1 : 2 * a * L + b = der * (T - Tc) / val := by rw [ha, hb]; field_simp; ring
    rw [e, Real.exp_log hv, e1]
    refine ⟨rfl, ?_, ?_⟩
    · field_simp; ring
    · rw [ha]; field_simp; ring

example : (0 : ℝ) < 647 ∧ (300 : ℝ) < 647 ∧ (0 : ℝ) < 0.07 := by norm_num

/-- C13: given one nonzero real root of a monic cubic, `deflate_cubic_real_roots` returns the two others when they are
real; otherwise it returns `(0, 0)` and the given root is the only real one. A zero root raises ZeroDivisionError. -/
theorem C13_deflate_cubic_real_roots (b c d x0 : ℝ) (hr : x0 ^ 3 + b * x0 ^ 2 + c * x0 + d = 0) :
    (x0 ≠ 0 → ∃ y1 y2, deflate_cubic_real_roots b c d x0 = .ok (y1, y2) ∧
      ((∀ x : ℝ, x ^ 3 + b * x ^ 2 + c * x + d = (x - x0) * (x - y1) * (x - y2)) ∨
       ((y1, y2) = (0, 0) ∧ ∀ x : ℝ, x ^ 3 + b * x ^ 2 + c * x + d = 0 → x = x0))) ∧
    (x0 = 0 → deflate_cubic_real_roots b c d x0 = .error .zeroDivisionError) := by
  refine ⟨fun h0 => ?_, fun h0 => by simp [deflate_cubic_real_roots, h0]⟩
  have hc : c = -d / x0 - x0 * (b + x0) := by field_simp; linear_combination hr
  have hfac : ∀ x : ℝ, x ^ 3 + b * x ^ 2 + c * x + d = (x - x0) * (x ^ 2 + (b + x0) * x + -d / x0) := by
    intro x; rw [hc]; field_simp; ring
  by_cases hD : (b + x0) * (b + x0) - 4 * (-d / x0) < 0
  · refine ⟨0, 0, by simp [deflate_cubic_real_roots, pdiv_ok h0]; intro h; linarith, Or.inr ⟨rfl, fun x hx => ?_⟩⟩
    rw [hfac x] at hx
    rcases mul_eq_zero.mp hx with h | h
    · linarith
    · exfalso; nlinarith [sq_nonneg (2 * x + (b + x0))]
  · have hD' := not_lt.mp hD
    refine ⟨_, _, by
      simp only [deflate_cubic_real_roots, pdiv_ok h0, Py.ok_bind, Py.pure_eq, if_neg hD, psqrt_ok hD']; rfl,
      Or.inl fun x => ?_⟩
    have hs := Real.mul_self_sqrt hD'
    rw [hfac x]
    linear_combination (x - x0) * (1 / 4) * hs

example : (2 : ℝ) ^ 3 + (-6) * 2 ^ 2 + 11 * 2 + (-6) = 0 ∧ (2 : ℝ) ≠ 0 := by norm_num

end Verif
