import Verif.Model.Special
import Verif.Props.Roots
import Mathlib.Data.Nat.Choose.Basic
import Mathlib.Analysis.SpecialFunctions.Complex.Arg
import Mathlib.Analysis.SpecialFunctions.Trigonometric.Arctan
import Mathlib.Tactic

/-! C109: replacements of `math` and `cmath` functions (`fluids/numerics/special.py`). -/

open Complex

namespace Verif.Special

/-! ### factorials -/

lemma factorialLoop_eq (m : ℕ) : ∀ (a : ℕ) (acc : ℤ), factorialLoop acc (List.range' (a + 1) m) * (a.factorial : ℤ) = acc * ((a + m).factorial : ℤ) := by
  induction m with
  | zero => intro a acc; simp [factorialLoop]
  | succ m ih =>
    intro a acc
    rw [List.range'_succ, factorialLoop]
    have := ih (a + 1) (acc * ((a + 1 : ℕ) : ℤ))
    rw [Nat.factorial_succ] at this
    have h2 : a + 1 + m = a + (m + 1) := by ring
    rw [h2] at this
    push_cast at this ⊢
    have h0 : (a : ℤ) + 1 ≠ 0 := by positivity
    refine mul_left_cancel₀ h0 ?_
    linear_combination this

/-- C109: `py_factorial` is the factorial; negative arguments raise ValueError. -/
theorem C109_factorial (n : ℕ) : py_factorial n = .ok (n.factorial : ℤ) := by
  unfold py_factorial
  rw [if_neg (by omega)]
  have h := factorialLoop_eq ((n : ℤ).toNat + 1 - 2) 1 1
  simp only [Int.toNat_natCast, Nat.factorial_one, Nat.cast_one, mul_one, one_mul] at h ⊢
  rw [h]
  rcases n with _ | _ | n
  · rfl
  · rfl
  · congr 3; omega

theorem C109_factorial_negative (n : ℤ) (h : n < 0) : py_factorial n = .error .valueError := by
  unfold py_factorial; rw [if_pos h]

/-- C109: `py_comb` is the binomial coefficient for every pair of integers, and never fails: 0 outside `0 ≤ k ≤ n`. -/
theorem C109_comb (n k : ℤ) : py_comb n k = .ok (if 0 ≤ k ∧ k ≤ n then (n.toNat.choose k.toNat : ℤ) else 0) := by
  unfold py_comb
  by_cases h : k < 0 ∨ k > n
  · rw [if_pos h, if_neg (by omega)]; rfl
  · rw [if_neg h, if_pos (by omega)]
    obtain ⟨n, rfl⟩ := Int.eq_ofNat_of_zero_le (show 0 ≤ n by omega)
    obtain ⟨k, rfl⟩ := Int.eq_ofNat_of_zero_le (show 0 ≤ k by omega)
    have hk : k ≤ n := by omega
    have e : (n : ℤ) - k = ((n - k : ℕ) : ℤ) := by omega
    rw [e, C109_factorial, C109_factorial, C109_factorial]
    simp only [Py.ok_bind, Py.pure_eq, Int.toNat_natCast]
    refine congrArg Except.ok ?_
    rw [Nat.choose_eq_factorial_div_factorial hk]
    rw [Int.fdiv_eq_ediv_of_nonneg _ (by positivity)]
    push_cast
    rfl

example : py_comb 5 2 = .ok 10 := by rw [C109_comb]; rfl

/-! ### hypotenuse -/

/-- C109: `py_hypot` is the Euclidean norm, for every pair of numbers. -/
theorem C109_hypot (x y : ℝ) : py_hypot x y = .ok (Real.sqrt (x ^ 2 + y ^ 2)) := by
  have key : ∀ X Y : ℝ, 0 ≤ X → X ≠ 0 → X * Real.sqrt (1 + Y / X * (Y / X)) = Real.sqrt (X ^ 2 + Y ^ 2) := by
    intro X Y h0 h1
    have : X ^ 2 + Y ^ 2 = X ^ 2 * (1 + Y / X * (Y / X)) := by field_simp
    rw [this, Real.sqrt_mul (sq_nonneg _), Real.sqrt_sq h0]
  unfold py_hypot
  simp only
  by_cases h : |x| < |y|
  · simp only [if_pos h]
    have hy : |y| ≠ 0 := ((abs_nonneg x).trans_lt h).ne'
    rw [if_neg hy, pdiv_ok hy, Py.ok_bind, psqrt_ok (by positivity), Py.ok_bind, key _ _ (abs_nonneg _) hy, sq_abs, sq_abs, add_comm]
    rfl
  · simp only [if_neg h]
    by_cases hx : |x| = 0
    · rw [if_pos hx]
      have hy : |y| = 0 := le_antisymm (hx ▸ not_lt.1 h) (abs_nonneg _)
      rw [abs_eq_zero.1 hx, abs_eq_zero.1 hy]
      norm_num
    · rw [if_neg hx, pdiv_ok hx, Py.ok_bind, psqrt_ok (by positivity), Py.ok_bind, key _ _ (abs_nonneg _) hx, sq_abs, sq_abs]
      rfl

/-! ### inverse tangent -/

lemma tan_of_exp {w z : ℂ} (h1 : 1 - I * z ≠ 0) (h : Complex.exp (2 * (I * w)) = (1 + I * z) / (1 - I * z)) : Complex.tan w = z := by
  have he : Complex.exp (I * w) ≠ 0 := Complex.exp_ne_zero _
  have h2 : Complex.exp (2 * (I * w)) = Complex.exp (I * w) ^ 2 := by rw [← Complex.exp_nat_mul]; norm_num
  rw [h2] at h
  have hc : Complex.exp (w * I) = Complex.exp (I * w) := by rw [mul_comm]
  have hn : Complex.exp (-w * I) = (Complex.exp (I * w))⁻¹ := by rw [← Complex.exp_neg]; congr 1; ring
  rw [Complex.tan, Complex.sin, Complex.cos, hc, hn]
  generalize Complex.exp (I * w) = E at *
  rw [eq_div_iff h1] at h
  have hI := Complex.I_sq
  have hne : E + E⁻¹ ≠ 0 := by
    intro h0
    have : E ^ 2 = -1 := by field_simp at h0; linear_combination h0
    rw [this] at h
    have : (2 : ℂ) = 0 := by linear_combination -h
    norm_num at this
  rw [div_eq_iff (div_ne_zero hne two_ne_zero)]
  field_simp
  linear_combination (-I) * h - (z * E ^ 2 + z) * hI

/-- C109: `py_catan` inverts the tangent at every complex number but ±i, where it raises ValueError. -/
theorem C109_catan (z : ℂ) : (z ≠ I ∧ z ≠ -I → ∃ w, py_catan z = .ok w ∧ Complex.tan w = z) ∧ (z = I ∨ z = -I → py_catan z = .error .valueError) := by
  have hI : I * I = -1 := Complex.I_mul_I
  have e1 : 1 - I * z = 0 ↔ z = -I := by
    constructor
    · intro h; linear_combination I * h + z * hI
    · rintro rfl; linear_combination hI
  have e2 : 1 + I * z = 0 ↔ z = I := by
    constructor
    · intro h; linear_combination (-I) * h + z * hI
    · rintro rfl; linear_combination hI
  unfold py_catan
  constructor
  · rintro ⟨h1, h2⟩
    have n1 : 1 - I * z ≠ 0 := fun h => h2 (e1.1 h)
    have n2 : 1 + I * z ≠ 0 := fun h => h1 (e2.1 h)
    rw [if_neg n1, if_neg n2]
    refine ⟨_, rfl, tan_of_exp n1 ?_⟩
    rw [show 2 * (I * (0.5 * I * (Complex.log (1 - I * z) - Complex.log (1 + I * z)))) = Complex.log (1 + I * z) - Complex.log (1 - I * z) by
      linear_combination (Complex.log (1 - I * z) - Complex.log (1 + I * z)) * hI]
    rw [Complex.exp_sub, Complex.exp_log n2, Complex.exp_log n1]
  · intro h
    by_cases h1 : 1 - I * z = 0
    · rw [if_pos h1]
    · rw [if_neg h1, if_pos]
      rcases h with h | h
      · exact e2.2 h
      · exact absurd (e1.2 h) h1

/-! ### inverse hyperbolic tangent -/

lemma tanh_of_exp {w z : ℂ} (h1 : 1 - z ≠ 0) (h : Complex.exp (2 * w) = (1 + z) / (1 - z)) : Complex.tanh w = z := by
  have he : Complex.exp w ≠ 0 := Complex.exp_ne_zero _
  have h2 : Complex.exp (2 * w) = Complex.exp w ^ 2 := by rw [← Complex.exp_nat_mul]; norm_num
  rw [h2] at h
  rw [Complex.tanh_eq_sinh_div_cosh, Complex.sinh, Complex.cosh, Complex.exp_neg]
  generalize Complex.exp w = E at *
  rw [eq_div_iff h1] at h
  have hne : E + E⁻¹ ≠ 0 := by
    intro h0
    have : E ^ 2 = -1 := by field_simp at h0; linear_combination h0
    rw [this] at h
    have : (2 : ℂ) = 0 := by linear_combination -h
    norm_num at this
  rw [div_eq_iff (div_ne_zero hne two_ne_zero)]
  field_simp
  linear_combination h

/-- `exp(2 w)` from its modulus and argument. -/
lemma exp_two {z : ℂ} {r : ℝ} (h1 : 1 - z ≠ 0) (h2 : 1 + z ≠ 0) (hr : Real.exp (4 * r) = ‖1 + z‖ ^ 2 / ‖1 - z‖ ^ 2) :
    Complex.exp (2 * ((r : ℂ) + ((Complex.arg ((1 + z) * (starRingEnd ℂ) (1 - z)) / 2 : ℝ) : ℂ) * I)) = (1 + z) / (1 - z) := by
  have n1 : ‖1 - z‖ ≠ 0 := norm_ne_zero_iff.2 h1
  have n2 : ‖1 + z‖ ≠ 0 := norm_ne_zero_iff.2 h2
  have hr2 : Real.exp (2 * r) = ‖1 + z‖ / ‖1 - z‖ := by
    have : Real.exp (4 * r) = Real.exp (2 * r) ^ 2 := by rw [← Real.exp_nat_mul]; congr 1; push_cast; ring
    rw [this, ← div_pow] at hr
    exact (pow_left_inj₀ (Real.exp_pos _).le (by positivity) two_ne_zero).1 hr
  set N := (1 + z) * (starRingEnd ℂ) (1 - z) with hN
  have hNn : ‖N‖ = ‖1 + z‖ * ‖1 - z‖ := by rw [hN, norm_mul, RCLike.norm_conj]
  have harg : Complex.exp ((Complex.arg N : ℂ) * I) = N / ‖N‖ := by
    have h := Complex.norm_mul_exp_arg_mul_I N
    have hn : (‖N‖ : ℂ) ≠ 0 := by rw [hNn]; exact_mod_cast mul_ne_zero n2 n1
    rw [eq_div_iff hn, mul_comm]; exact h
  have : 2 * ((r : ℂ) + ((Complex.arg N / 2 : ℝ) : ℂ) * I) = ((2 * r : ℝ) : ℂ) + (Complex.arg N : ℂ) * I := by push_cast; ring
  rw [this, Complex.exp_add, harg, ← Complex.ofReal_exp, hr2, hNn, hN]
  have hc : (starRingEnd ℂ) (1 - z) * (1 - z) = (‖1 - z‖ : ℂ) ^ 2 := by
    rw [mul_comm, Complex.mul_conj, Complex.normSq_eq_norm_sq]; push_cast; rfl
  have c1 : (‖1 - z‖ : ℂ) ≠ 0 := by exact_mod_cast n1
  have c2 : (‖1 + z‖ : ℂ) ≠ 0 := by exact_mod_cast n2
  push_cast
  rw [div_mul_div_comm, div_eq_div_iff (mul_ne_zero c1 (mul_ne_zero c2 c1)) h1]
  linear_combination (‖1 + z‖ : ℂ) * (1 + z) * hc

lemma normSq_one_sub (z : ℂ) : ‖1 - z‖ ^ 2 = (1 - z.re) * (1 - z.re) + z.im * z.im := by
  rw [← Complex.normSq_eq_norm_sq, Complex.normSq_apply]; simp

lemma normSq_one_add (z : ℂ) : ‖1 + z‖ ^ 2 = (1 + z.re) * (1 + z.re) + z.im * z.im := by
  rw [← Complex.normSq_eq_norm_sq, Complex.normSq_apply]; simp

lemma num_eq (z : ℂ) : (1 + z) * (starRingEnd ℂ) (1 - z) = (((1 - z.re) * (1 + z.re) - z.im * z.im : ℝ) : ℂ) + ((2 * z.im : ℝ) : ℂ) * I := by
  apply Complex.ext <;> simp <;> ring

/-- The right half plane. -/
lemma catanhRight_ok {z : ℂ} (hx : 0 ≤ z.re) (h1 : z ≠ 1) (hl : z.re ≤ CM_SQRT_LARGE_DOUBLE ∧ |z.im| ≤ CM_SQRT_LARGE_DOUBLE) :
    ∃ w, catanhRight z.re z.im = .ok (some w) ∧ Complex.tanh w = z ∧ -(Real.pi / 2) ≤ w.im ∧ w.im ≤ Real.pi / 2 := by
  have n1 : 1 - z ≠ 0 := sub_ne_zero.2 (Ne.symm h1)
  have n2 : 1 + z ≠ 0 := by
    intro h
    have := congrArg Complex.re h
    simp at this
    linarith
  have m1 : 0 < ‖1 - z‖ := norm_pos_iff.2 n1
  have m2 : 0 < ‖1 + z‖ := norm_pos_iff.2 n2
  unfold catanhRight
  rw [if_neg (by push_neg; exact hl)]
  by_cases ht : z.re = 1 ∧ |z.im| < CM_SQRT_DBL_MIN
  · rw [if_pos ht]
    have hy : |z.im| ≠ 0 := by
      intro h0
      apply h1
      apply Complex.ext
      · rw [ht.1]; rfl
      · rw [abs_eq_zero.1 h0]; rfl
    have hy0 : 0 < |z.im| := lt_of_le_of_ne (abs_nonneg _) (Ne.symm hy)
    have hh : 0 < Real.sqrt (|z.im| ^ 2 + 2 ^ 2) := Real.sqrt_pos.2 (by positivity)
    have hsh : 0 < Real.sqrt (Real.sqrt (|z.im| ^ 2 + 2 ^ 2)) := Real.sqrt_pos.2 hh
    rw [if_neg hy, C109_hypot, Py.ok_bind, psqrt_ok hh.le, Py.ok_bind, pdiv_ok hsh.ne', Py.ok_bind, plog_ok (div_pos (Real.sqrt_pos.2 hy0) hsh), Py.ok_bind]
    refine ⟨_, rfl, ?_⟩
    -- the argument
    have harg : (if z.im < 0 then -|atan2 2 (-|z.im|) / 2| else |atan2 2 (-|z.im|) / 2|) = Complex.arg ((1 + z) * (starRingEnd ℂ) (1 - z)) / 2 := by
      rw [num_eq, ht.1]
      unfold atan2
      have hpos : 0 ≤ Complex.arg (((-|z.im| : ℝ) : ℂ) + ((2 : ℝ) : ℂ) * I) := by
        rw [Complex.arg_nonneg_iff]; simp
      rcases lt_trichotomy z.im 0 with h | h | h
      · rw [if_pos h, abs_of_nonneg (by linarith : 0 ≤ Complex.arg (((-|z.im| : ℝ) : ℂ) + ((2 : ℝ) : ℂ) * I) / 2), abs_of_neg h, ← neg_div]
        congr 1
        have e : ((((1 - 1) * (1 + 1) - z.im * z.im : ℝ) : ℂ) + ((2 * z.im : ℝ) : ℂ) * I) = ((-z.im : ℝ) : ℂ) * (starRingEnd ℂ) (((- -z.im : ℝ) : ℂ) + ((2 : ℝ) : ℂ) * I) := by
          apply Complex.ext <;> simp <;> ring
        rw [e, Complex.arg_real_mul _ (by linarith), Complex.arg_conj, if_neg]
        intro hpi
        have := (Complex.arg_eq_pi_iff.1 hpi).2
        simp at this
      · exact absurd (by rw [h]; simp) hy
      · rw [if_neg (by linarith), abs_of_nonneg (by linarith : 0 ≤ Complex.arg (((-|z.im| : ℝ) : ℂ) + ((2 : ℝ) : ℂ) * I) / 2), abs_of_pos h]
        congr 1
        have e : ((((1 - 1) * (1 + 1) - z.im * z.im : ℝ) : ℂ) + ((2 * z.im : ℝ) : ℂ) * I) = ((z.im : ℝ) : ℂ) * (((-z.im : ℝ) : ℂ) + ((2 : ℝ) : ℂ) * I) := by
          apply Complex.ext <;> simp <;> ring
        rw [e, Complex.arg_real_mul _ h]
    rw [harg]
    refine ⟨tanh_of_exp n1 (exp_two n1 n2 ?_), ?_⟩
    · rw [show 4 * -Real.log (Real.sqrt |z.im| / Real.sqrt (Real.sqrt (|z.im| ^ 2 + 2 ^ 2))) = Real.log ((Real.sqrt |z.im| / Real.sqrt (Real.sqrt (|z.im| ^ 2 + 2 ^ 2)))⁻¹ ^ 4) by
        rw [Real.log_pow, Real.log_inv]; push_cast; ring]
      rw [Real.exp_log (by have := Real.sqrt_pos.2 hy0; positivity), normSq_one_sub, normSq_one_add, ht.1, inv_div, div_pow]
      have s1 : Real.sqrt |z.im| ^ 4 = z.im * z.im := by
        rw [show Real.sqrt |z.im| ^ 4 = (Real.sqrt |z.im| ^ 2) ^ 2 by ring, Real.sq_sqrt hy0.le, sq_abs]; ring
      have s2 : Real.sqrt (Real.sqrt (|z.im| ^ 2 + 2 ^ 2)) ^ 4 = z.im * z.im + 4 := by
        rw [show ∀ t : ℝ, Real.sqrt t ^ 4 = (Real.sqrt t ^ 2) ^ 2 from fun t => by ring, Real.sq_sqrt hh.le, Real.sq_sqrt (by positivity), sq_abs]; ring
      rw [s1, s2]
      congr 1 <;> ring
    · have ha := Complex.arg_le_pi ((1 + z) * (starRingEnd ℂ) (1 - z))
      have hb := Complex.neg_pi_lt_arg ((1 + z) * (starRingEnd ℂ) (1 - z))
      simp only [Complex.add_im, Complex.ofReal_im, Complex.mul_im, Complex.ofReal_re, Complex.I_im, Complex.I_re, mul_one, mul_zero, zero_add, add_zero]
      constructor <;> linarith
  · rw [if_neg ht]
    have hd : (1 - z.re) * (1 - z.re) + |z.im| * |z.im| = ‖1 - z‖ ^ 2 := by rw [abs_mul_abs_self, normSq_one_sub]
    have hd0 : (1 - z.re) * (1 - z.re) + |z.im| * |z.im| ≠ 0 := by rw [hd]; positivity
    have hq : 1 + 4 * z.re / ((1 - z.re) * (1 - z.re) + |z.im| * |z.im|) = ‖1 + z‖ ^ 2 / ‖1 - z‖ ^ 2 := by
      rw [hd, eq_div_iff (by positivity), add_mul, div_mul_cancel₀ _ (by positivity), normSq_one_sub, normSq_one_add]; ring
    rw [pdiv_ok hd0, Py.ok_bind, hq, plog_ok (by positivity), Py.ok_bind]
    refine ⟨_, rfl, ?_⟩
    have harg : atan2 (2 * z.im) ((1 - z.re) * (1 + z.re) - |z.im| * |z.im|) = Complex.arg ((1 + z) * (starRingEnd ℂ) (1 - z)) := by
      unfold atan2; rw [num_eq, abs_mul_abs_self]
    rw [harg]
    refine ⟨tanh_of_exp n1 (exp_two n1 n2 ?_), ?_⟩
    · rw [show 4 * (Real.log (‖1 + z‖ ^ 2 / ‖1 - z‖ ^ 2) / 4) = Real.log (‖1 + z‖ ^ 2 / ‖1 - z‖ ^ 2) by ring, Real.exp_log (by positivity)]
    · have ha := Complex.arg_le_pi ((1 + z) * (starRingEnd ℂ) (1 - z))
      have hb := Complex.neg_pi_lt_arg ((1 + z) * (starRingEnd ℂ) (1 - z))
      simp only [Complex.add_im, Complex.ofReal_im, Complex.mul_im, Complex.ofReal_re, Complex.I_im, Complex.I_re, mul_one, mul_zero, zero_add, add_zero]
      constructor <;> linarith

/-- C109: `py_catanh` inverts the hyperbolic tangent, with an imaginary part between -π/2 and π/2, at every complex number other than ±1 whose parts are below 6.7e153
(beyond it the code uses an asymptotic formula). -/
theorem C109_catanh (z : ℂ) (h1 : z ≠ 1) (h2 : z ≠ -1) (hl : |z.re| ≤ CM_SQRT_LARGE_DOUBLE ∧ |z.im| ≤ CM_SQRT_LARGE_DOUBLE) :
    ∃ w, py_catanh z = .ok (some w) ∧ Complex.tanh w = z ∧ -(Real.pi / 2) ≤ w.im ∧ w.im ≤ Real.pi / 2 := by
  unfold py_catanh
  by_cases h : z.re < 0
  · rw [if_pos h]
    have hz : (-(starRingEnd ℂ) z).re = -z.re ∧ (-(starRingEnd ℂ) z).im = z.im := by constructor <;> simp
    obtain ⟨w, hw, ht, hb⟩ := catanhRight_ok (z := -(starRingEnd ℂ) z) (by rw [hz.1]; linarith)
      (by
        intro hc
        apply h2
        have := congrArg (fun t => -(starRingEnd ℂ) t) hc
        simpa using this)
      (by rw [hz.1, hz.2]; exact ⟨by rw [← abs_of_neg h]; exact hl.1, hl.2⟩)
    rw [hz.1, hz.2] at hw
    rw [hw, Py.ok_bind]
    refine ⟨_, rfl, ?_, ?_⟩
    · have e : (-(w.re : ℂ) + w.im * I) = -(starRingEnd ℂ) w := by apply Complex.ext <;> simp
      show Complex.tanh (-(w.re : ℂ) + w.im * I) = z
      rw [e, Complex.tanh_neg, Complex.tanh_conj, ht]
      simp
    · simpa using hb
  · rw [if_neg h]
    exact catanhRight_ok (not_lt.1 h) h1 ⟨by rw [← abs_of_nonneg (not_lt.1 h)]; exact hl.1, hl.2⟩

example : ∃ w, py_catanh (1 / 2) = .ok (some w) ∧ Complex.tanh w = 1 / 2 := by
  have h1 : (1 : ℝ) ≤ CM_SQRT_LARGE_DOUBLE := by
    unfold CM_SQRT_LARGE_DOUBLE
    rw [Real.one_le_sqrt]; norm_num
  have e : (1 / 2 : ℂ) = ((1 / 2 : ℝ) : ℂ) := by push_cast; rfl
  obtain ⟨w, h, h', -⟩ := C109_catanh (1 / 2) (by norm_num) (by norm_num) (by
    rw [e, Complex.ofReal_re, Complex.ofReal_im]
    constructor
    · rw [abs_of_pos (by norm_num)]; linarith
    · rw [abs_zero]; linarith)
  exact ⟨w, h, h'⟩

/-! ### inverse cosine -/

lemma csqrt_re_nonneg (z : ℂ) : 0 ≤ (Roots.csqrt z).re := by
  unfold Roots.csqrt
  by_cases hz : z = 0
  · rw [hz, Complex.zero_cpow (by norm_num)]; simp
  · rw [Complex.cpow_def_of_ne_zero hz, Complex.exp_re]
    refine mul_nonneg (Real.exp_pos _).le ?_
    have him : (Complex.log z * (1 / 2)).im = Complex.arg z / 2 := by
      rw [show (1 / 2 : ℂ) = ((1 / 2 : ℝ) : ℂ) by push_cast; rfl, Complex.mul_im]
      simp [Complex.log_im]; ring
    rw [him]
    have h1 := Complex.arg_le_pi z
    have h2 := Complex.neg_pi_lt_arg z
    exact Real.cos_nonneg_of_neg_pi_div_two_le_of_le (by linarith) (by linarith)

/-- C109: `py_cacos` inverts the cosine at every complex number, with a real part between 0 and π; on the real line above 1 its imaginary part is not negative. -/
theorem C109_cacos (z : ℂ) : Complex.cos (py_cacos z) = z ∧ 0 ≤ (py_cacos z).re ∧ (py_cacos z).re ≤ Real.pi ∧ (z.im = 0 → 1 < z.re → 0 ≤ (py_cacos z).im) := by
  have e1 : (1 : ℂ) - z.re - z.im * I = 1 - z := by
    apply Complex.ext <;> simp
  have e2 : (1 : ℂ) + z.re + z.im * I = 1 + z := by
    apply Complex.ext <;> simp
  unfold py_cacos
  rw [e1, e2]
  have q1 := Roots.csqrt_sq (1 - z)
  have q2 := Roots.csqrt_sq (1 + z)
  have p1 := csqrt_re_nonneg (1 - z)
  have p2 := csqrt_re_nonneg (1 + z)
  generalize Roots.csqrt (1 - z) = s1 at *
  generalize Roots.csqrt (1 + z) = s2 at *
  obtain ⟨x, y⟩ := z
  obtain ⟨a, b⟩ := s1
  obtain ⟨c, d⟩ := s2
  have a1 : a * a - b * b = 1 - x := by have := congrArg Complex.re q1; simpa using this
  have a2 : a * b + b * a = -y := by have := congrArg Complex.im q1; simpa using this
  have a3 : c * c - d * d = 1 + x := by have := congrArg Complex.re q2; simpa using this
  have a4 : c * d + d * c = y := by have := congrArg Complex.im q2; simpa using this
  simp only at p1 p2 ⊢
  clear q1 q2 e1 e2
  set S : ℝ := c * c + a * a with hS
  have hS2 : 2 ≤ S := by nlinarith [mul_self_nonneg b, mul_self_nonneg d]
  have hz0 : ((c : ℂ) + (a : ℂ) * I) ≠ 0 := by
    intro h
    have h1 := congrArg Complex.re h
    have h2 := congrArg Complex.im h
    simp at h1 h2
    rw [h1, h2] at hS
    linarith
  have hn : ‖(c : ℂ) + (a : ℂ) * I‖ ^ 2 = S := by
    rw [← Complex.normSq_eq_norm_sq, Complex.normSq_apply]; simp [hS]
  have hn0 : 0 < ‖(c : ℂ) + (a : ℂ) * I‖ := norm_pos_iff.2 hz0
  have hcos : Real.cos (atan2 a c) = c / ‖(c : ℂ) + (a : ℂ) * I‖ := by unfold atan2; rw [Complex.cos_arg hz0]; simp
  have hsin : Real.sin (atan2 a c) = a / ‖(c : ℂ) + (a : ℂ) * I‖ := by unfold atan2; rw [Complex.sin_arg]; simp
  have h0 : 0 ≤ atan2 a c := by unfold atan2; rw [Complex.arg_nonneg_iff]; simpa using p1
  have hpi : atan2 a c ≤ Real.pi / 2 := by
    unfold atan2
    have : |Complex.arg ((c : ℂ) + (a : ℂ) * I)| ≤ Real.pi / 2 := by rw [Complex.abs_arg_le_pi_div_two_iff]; simpa using p2
    exact (abs_le.1 this).2
  generalize ‖(c : ℂ) + (a : ℂ) * I‖ = n at *
  generalize atan2 a c = θ at *
  set t : ℝ := c * b - d * a with ht
  have hab : a * b + c * d = 0 := by linarith
  -- sinh² and cosh
  have ht2 : t ^ 2 = S ^ 2 - 2 * S := by
    have hbd : b * b + d * d = S - 2 := by rw [hS]; linarith
    have : t ^ 2 + (a * b + c * d) ^ 2 = S * (b * b + d * d) := by rw [ht, hS]; ring
    rw [hab, hbd] at this
    linear_combination this
  have hcosh : Real.cosh (Real.arsinh t) = S - 1 := by
    rw [Real.cosh_arsinh, show 1 + t ^ 2 = (S - 1) ^ 2 by rw [ht2]; ring, Real.sqrt_sq (by linarith)]
  have hsinh : Real.sinh (Real.arsinh t) = t := Real.sinh_arsinh t
  have hcos2 : Real.cos (2 * θ) = (c * c - a * a) / S := by
    have hS0 : S ≠ 0 := by linarith
    rw [Real.cos_two_mul, hcos, div_pow, hn, eq_div_iff hS0, sub_mul, mul_assoc, div_mul_cancel₀ _ hS0]
    linarith [hS, sq c]
  have hsin2 : Real.sin (2 * θ) = 2 * a * c / S := by
    rw [Real.sin_two_mul, hsin, hcos, ← hn]; field_simp
  have hS0 : S ≠ 0 := by linarith
  -- the value before the correction
  have main : ∀ σ : ℝ, σ = Real.arsinh t ∨ (y = 0 ∧ σ = -Real.arsinh t) → Complex.cos (((2 * θ : ℝ) : ℂ) + (σ : ℂ) * I) = ⟨x, y⟩ := by
    intro σ hσ
    have hx : (c * c - a * a) / S * (S - 1) = x := by
      rw [div_mul_eq_mul_div, div_eq_iff hS0]
      have k1 : c * c - a * a = 2 * x + (d * d - b * b) := by linarith
      -- (c² - a²)(b² + d²) = (c² + a²)(b² - d²)  since ab = -cd
      have k2 : (c * c - a * a) * (b * b + d * d) = (c * c + a * a) * (b * b - d * d) := by
        have : (a * b) ^ 2 = (c * d) ^ 2 := by rw [show a * b = -(c * d) by linarith]; ring
        linear_combination -2 * this
      have hbd : b * b + d * d = S - 2 := by rw [hS]; linarith
      rw [hbd, ← hS] at k2
      linear_combination (1 / 2 : ℝ) * k2 + (1 / 2 : ℝ) * S * k1
    have hy : -(2 * a * c / S) * t = y := by
      rw [neg_mul, div_mul_eq_mul_div, neg_eq_iff_eq_neg, div_eq_iff hS0, ht, hS]
      linear_combination (-(2 * c * c)) * hab * 0 + (c * c) * a2 * (-1) * (-1) - (a * a) * a4 * (1)
    have hcs : Real.cosh σ = S - 1 := by rcases hσ with rfl | ⟨-, rfl⟩ <;> simp [hcosh]
    have hsn : Real.sin (2 * θ) * Real.sinh σ = -y := by
      rcases hσ with rfl | ⟨hy0, rfl⟩
      · rw [hsinh, hsin2]; linarith
      · rw [Real.sinh_neg, hsinh, hsin2]; rw [hy0] at hy ⊢; linarith
    rw [Complex.cos_add_mul_I]
    rw [← Complex.ofReal_cos, ← Complex.ofReal_sin, ← Complex.ofReal_cosh, ← Complex.ofReal_sinh, hcs, hcos2]
    apply Complex.ext
    · simp only [Complex.sub_re, Complex.mul_re, Complex.ofReal_re, Complex.ofReal_im, Complex.I_re, Complex.I_im, Complex.mul_im, mul_zero, zero_mul, sub_zero, add_zero, mul_one]
      exact hx
    · simp only [Complex.sub_im, Complex.mul_re, Complex.ofReal_re, Complex.ofReal_im, Complex.I_re, Complex.I_im, Complex.mul_im, mul_zero, zero_mul, sub_zero, add_zero, mul_one, zero_add, zero_sub]
      linarith
  have er : (2 * (θ : ℂ) + (Real.arsinh t : ℂ) * I).re = 2 * θ := by simp
  have ei : (2 * (θ : ℂ) + (Real.arsinh t : ℂ) * I).im = Real.arsinh t := by simp
  rw [er, ei]
  by_cases hc : y = 0 ∧ x > 1 ∧ Real.arsinh t < 0
  · rw [if_pos hc]
    refine ⟨?_, ?_, ?_, ?_⟩
    · have := main (-Real.arsinh t) (Or.inr ⟨hc.1, rfl⟩)
      rw [← this]; congr 1; push_cast; ring
    · simp; linarith
    · simp; linarith
    · intro _ _; simp; simpa using hc.2.2.le
  · rw [if_neg hc]
    refine ⟨?_, ?_, ?_, ?_⟩
    · have := main (Real.arsinh t) (Or.inl rfl)
      rw [← this]; congr 1; push_cast; ring
    · rw [er]; linarith
    · rw [er]; linarith
    · intro hy hx
      rw [ei]
      by_contra hneg
      exact hc ⟨hy, hx, not_le.1 hneg⟩

end Verif.Special
