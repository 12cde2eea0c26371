import Verif.Props.DoubleDoubleExp

/-! C127: logarithms, powers, cube roots and complex arithmetic of double-double numbers, when the operations themselves are exact. -/

namespace Verif.DD

/-- Halley's step for the logarithm has a cubic error -/
lemma halley_log {t a : ℝ} (h : |t - 1| ≤ a) (ha : a ≤ 1 / 10) : |Real.log t - 2 * ((t - 1) / (t + 1))| ≤ a ^ 3 := by
  set s : Set ℝ := Set.Icc (1 - a) (1 + a)
  obtain ⟨h1, h2⟩ := abs_le.1 h
  have a0 : 0 ≤ a := (abs_nonneg _).trans h
  have hd : ∀ y ∈ s, HasDerivWithinAt (fun y => Real.log y - 2 * ((y - 1) / (y + 1))) ((y - 1) ^ 2 / (y * (y + 1) ^ 2)) s y := by
    rintro y ⟨hy1, hy2⟩
    have hy : y ≠ 0 := by linarith
    have hy' : y + 1 ≠ 0 := by linarith
    have d := (Real.hasDerivAt_log hy).sub ((((hasDerivAt_id y).sub_const 1).div ((hasDerivAt_id y).add_const 1) hy').const_mul 2)
    refine (HasDerivAt.congr_deriv d ?_).hasDerivWithinAt
    simp only [id]
    field_simp
    ring
  have hb : ∀ y ∈ s, ‖(y - 1) ^ 2 / (y * (y + 1) ^ 2)‖ ≤ a ^ 2 := by
    rintro y ⟨hy1, hy2⟩
    have hy : 0 < y := by linarith
    have k : 1 ≤ y * (y + 1) ^ 2 := by nlinarith [mul_pos hy hy, mul_pos hy (mul_pos hy hy)]
    rw [Real.norm_eq_abs, abs_of_nonneg (by positivity), div_le_iff₀ (by positivity)]
    have : (y - 1) ^ 2 ≤ a ^ 2 := sq_le_sq' (by linarith) (by linarith)
    nlinarith [sq_nonneg a]
  have m := (convex_Icc (1 - a) (1 + a)).norm_image_sub_le_of_norm_hasDerivWithin_le hd hb (x := 1) (y := t) ⟨by linarith, by linarith⟩ ⟨by linarith, by linarith⟩
  simp only [Real.log_one, sub_self, zero_div, mul_zero, sub_zero, Real.norm_eq_abs] at m
  refine m.trans ?_
  have : a ^ 2 * |t - 1| ≤ a ^ 2 * a := by gcongr
  linarith [pow_succ a 2]

/-- C127: the logarithm: a positive number gets its logarithm to 33 digits, up to a term of third order in the ratio of the parts; no other number has one. -/
theorem C127_log {r e : ℝ} (he : |e| ≤ r / 100) (hl : |Real.log r| ≤ 100000) :
    (0 < r → ∃ y, log_dd id r e = .ok (y, 0) ∧ |y - Real.log (r + e)| ≤ (|Real.log r| + 2) / 10 ^ 33 + 5 * (|e| / r) ^ 3) ∧
    (r ≤ 0 → log_dd id r e = .error .valueError) := by
  refine ⟨fun hr => ?_, fun hr => ?_⟩
  · obtain ⟨n, d, hn, hd, hx⟩ := C127_exp (Real.log r) 0 (by norm_num)
    rw [add_zero, Real.exp_add, Real.exp_log hr] at hx
    obtain ⟨e1, e2⟩ := abs_le.1 he
    have hX : 0 < r + e := by linarith
    have hu : 0 < r * Real.exp d := by positivity
    refine ⟨Real.log r - 2 * ((r * Real.exp d - (r + e)) / (r * Real.exp d + (r + e))), ?_, ?_⟩
    · simp only [log_dd, plog_ok hr, Py.ok_bind, id, hx, add_id]
      rw [div_id (by positivity)]
      simp only [Py.ok_bind, mul_id, Py.pure_eq]
      congr 2
      ring
    · have hd' : |d| ≤ (|Real.log r| + 1.5) / 10 ^ 33 := by
        refine hd.trans ?_
        have h3 := abs_sub_abs_le_abs_sub (n : ℝ) (Real.log r)
        rw [abs_sub_comm] at h3
        have h4 : |(n : ℝ)| + 1 ≤ |Real.log r| + 1.5 := by norm_num at h3 ⊢; linarith
        exact div_le_div_of_nonneg_right h4 (by norm_num)
      have hb0 := abs_nonneg d
      have hb1 : |d| ≤ 1 / 10 ^ 27 := hd'.trans (by rw [div_le_div_iff₀ (by norm_num) (by norm_num)]; linarith)
      have hexp : |Real.exp d - 1| ≤ 1.01 * |d| := by
        have h1 := Real.abs_exp_sub_one_sub_id_le (x := d) (by linarith)
        have h2 : d ^ 2 ≤ 0.01 * |d| := by rw [← sq_abs]; nlinarith
        have h3 := abs_add_le (Real.exp d - 1 - d) d
        rw [sub_add_cancel] at h3
        linarith
      set a := |e| / r with ha
      have a0 : 0 ≤ a := by positivity
      have a1 : a ≤ 1 / 100 := by rw [ha, div_le_iff₀ hr]; linarith
      set t := r * Real.exp d / (r + e) with ht
      have ht1 : |t - 1| ≤ 1.03 * (a + |d|) := by
        have : t - 1 = ((Real.exp d - 1) - e / r) / (1 + e / r) := by rw [ht]; field_simp; ring
        rw [this, abs_div]
        have her : |e / r| = a := by rw [abs_div, abs_of_pos hr]
        have k1 : 0.99 ≤ |1 + e / r| := by
          rw [abs_of_pos] <;> [skip; skip] <;> norm_num <;> linarith [(abs_le.1 her.le).1]
        rw [div_le_iff₀ (by linarith)]
        have k2 := abs_sub (Real.exp d - 1) (e / r)
        rw [her] at k2
        have : 1.03 * (a + |d|) * 0.99 ≤ 1.03 * (a + |d|) * |1 + e / r| := by gcongr
        linarith
      have hh := halley_log ht1 (by linarith)
      have htl : Real.log t = Real.log r + d - Real.log (r + e) := by
        rw [ht, Real.log_div hu.ne' hX.ne', Real.log_mul hr.ne' (Real.exp_pos d).ne', Real.log_exp]
      have htr : (t - 1) / (t + 1) = (r * Real.exp d - (r + e)) / (r * Real.exp d + (r + e)) := by
        rw [ht]; field_simp
      rw [← htr]
      have hc : (1.03 * (a + |d|)) ^ 3 ≤ 5 * a ^ 3 + 5 * |d| ^ 3 := by
        have : 0 ≤ (a + |d|) * (a - |d|) ^ 2 := by positivity
        have : 0 ≤ a ^ 3 := by positivity
        have : 0 ≤ |d| ^ 3 := by positivity
        nlinarith
      have hd3 : 5 * |d| ^ 3 ≤ 0.5 / 10 ^ 33 := by
        have := pow_le_pow_left₀ hb0 hb1 3
        norm_num at this ⊢
        linarith
      have e3 : Real.log r - 2 * ((t - 1) / (t + 1)) - Real.log (r + e) = (Real.log t - 2 * ((t - 1) / (t + 1))) - d := by rw [htl]; ring
      rw [e3]
      have := abs_sub (Real.log t - 2 * ((t - 1) / (t + 1))) d
      have : (|Real.log r| + 1.5) / 10 ^ 33 + 0.5 / 10 ^ 33 = (|Real.log r| + 2) / 10 ^ 33 := by ring
      linarith
  · simp only [log_dd]
    rw [show plog r = .error .valueError by simp [plog, not_lt.2 hr]]
    rfl

/-- C127: powers: an int exponent multiplies, a float that is a whole number raises TypeError (finding), any other exponent goes through the logarithm, which a positive base has and no other. -/
theorem C127_pow (r e : ℝ) (nr ne : ℝ) :
    (∀ (rd : ℝ → ℝ) (n : ℤ), pow_dd rd r e (.int n) 0 = intpow_dd rd r e n) ∧
    (∀ (rd : ℝ → ℝ) (n : ℤ), pow_dd rd r e (.float n) 0 = .error .typeError) ∧
    (¬(ne = 0 ∧ ∃ n : ℤ, nr = n) → ∀ y, log_dd id r e = .ok (y, 0) →
      ∃ (n : ℤ) (d : ℝ), |y * (nr + ne) - n| ≤ 1 / 2 ∧ |d| ≤ (|(n : ℝ)| + 1) / 10 ^ 33 ∧ pow_dd id r e (.float nr) ne = .ok (Real.exp (y * (nr + ne) + d), 0)) ∧
    (¬(ne = 0 ∧ ∃ n : ℤ, nr = n) → r ≤ 0 → pow_dd id r e (.float nr) ne = .error .valueError) := by
  have hfr : ¬(ne = 0 ∧ ∃ n : ℤ, nr = n) → ¬(ne = 0 ∧ Int.fract nr = 0) := fun h c => h ⟨c.1, ⌊nr⌋, (Int.fract_eq_iff.1 c.2).2.2.elim fun z hz => by
    have := Int.floor_add_fract nr
    rw [c.2] at this; linarith⟩
  refine ⟨fun rd n => by simp [pow_dd], fun rd n => by simp [pow_dd], fun h y hy => ?_, fun h hr => ?_⟩
  · obtain ⟨n, d, h1, h2, h3⟩ := C127_exp (y * (nr + ne)) 0 (by norm_num)
    refine ⟨n, d, h1, h2, ?_⟩
    simp only [pow_dd, if_neg (hfr h), powGeneral, hy, Py.ok_bind, mul_id]
    rw [add_zero] at h3
    simpa using h3
  · simp only [pow_dd, if_neg (hfr h), powGeneral, log_dd]
    rw [show plog r = .error .valueError by simp [plog, not_lt.2 hr]]
    rfl

lemma cbrt_res1 {d : ℝ} (hd : |d| ≤ 1 / 100) : |-2 * d + 2 * d ^ 3 - d ^ 4| ≤ 2.001 * |d| := by
  have a1 : |d ^ 3| ≤ 1 / 10000 * |d| := by
    rw [pow_succ, abs_mul, abs_of_nonneg (sq_nonneg d), ← sq_abs]
    have : |d| ^ 2 ≤ (1 / 100) ^ 2 := pow_le_pow_left₀ (abs_nonneg _) hd 2
    nlinarith [abs_nonneg d]
  have a2 : |d ^ 4| ≤ 1 / 1000000 * |d| := by
    rw [pow_succ, abs_mul]
    have : |d ^ 3| ≤ 1 / 1000000 := a1.trans (by linarith)
    nlinarith [abs_nonneg d]
  have k1 := abs_add_le (-2 * d) (2 * d ^ 3)
  have k2 := abs_sub (-2 * d + 2 * d ^ 3) (d ^ 4)
  rw [abs_mul, abs_mul, show |(-2 : ℝ)| = 2 by norm_num, show |(2 : ℝ)| = 2 by norm_num] at k1
  have := abs_nonneg d
  linarith

lemma cbrt_res2 {d d1 : ℝ} (hd : |d| ≤ 1 / 100) (b1 : |d1| ≤ 2.001 * |d|) : |(1 + d1) * (1 - d1 / 3) ^ 3 - 1| ≤ 2.8 * d ^ 2 := by
  have b2 : |d1| ≤ 0.0201 := by linarith
  rw [show (1 + d1) * (1 - d1 / 3) ^ 3 - 1 = d1 ^ 2 * (-2 / 3 + 8 / 27 * d1 - d1 ^ 2 / 27) by ring]
  have k1 : |(-2 / 3 + 8 / 27 * d1 - d1 ^ 2 / 27)| ≤ 0.68 := by
    have q : d1 ^ 2 ≤ 0.0201 ^ 2 := by rw [← sq_abs]; exact pow_le_pow_left₀ (abs_nonneg _) b2 2
    have q0 := sq_nonneg d1
    rw [abs_le] at b2 ⊢
    constructor <;> linarith [b2.1, b2.2]
  have k2 : d1 ^ 2 ≤ 4.01 * d ^ 2 := by
    have := pow_le_pow_left₀ (abs_nonneg _) b1 2
    rw [mul_pow, sq_abs, sq_abs] at this
    have := sq_nonneg d
    linarith
  rw [abs_mul, abs_of_nonneg (sq_nonneg d1)]
  calc d1 ^ 2 * |(-2 / 3 + 8 / 27 * d1 - d1 ^ 2 / 27)| ≤ (4.01 * d ^ 2) * 0.68 := by gcongr
    _ ≤ _ := by linarith [sq_nonneg d]

lemma step1_id (xr xe y : ℝ) : cbrtStep1 id (xr, xe) (y, 0) = (y * (1 - ((xr + xe) * y ^ 3 - 1)), 0) := by
  simp only [cbrtStep1, cube_id, mul_id, add_id, Prod.mk.injEq, and_true]
  ring

lemma step2_id (xr xe y : ℝ) : cbrtStep2 id (xr, xe) (y, 0) = (y * (1 - ((xr + xe) * y ^ 3 - 1) / 3), 0) := by
  simp only [cbrtStep2, cube_id, mul_id, add_id, Prod.mk.injEq, and_true, third, id]
  ring

lemma cbrt_close {X y2 d : ℝ} (hd : |d| ≤ 1 / 100) (b3 : |X * y2 ^ 3 - 1| ≤ 2.8 * d ^ 2) : y2 ≠ 0 ∧ |(1 / y2) ^ 3 - X| ≤ 3 * d ^ 2 * |X| := by
  have b4 : d ^ 2 ≤ 1 / 10000 := by
    rw [← sq_abs]
    exact (pow_le_pow_left₀ (abs_nonneg _) hd 2).trans (by norm_num)
  have b5 : |X * y2 ^ 3 - 1| ≤ 0.0003 := by linarith
  have hy2 : y2 ≠ 0 := by
    rintro rfl
    norm_num at b5
  refine ⟨hy2, ?_⟩
  obtain ⟨ρ, hρ⟩ : ∃ ρ, ρ = X * y2 ^ 3 - 1 := ⟨_, rfl⟩
  rw [← hρ] at b3 b5
  have h9 : 0.9997 ≤ 1 + ρ := by linarith [(abs_le.1 b5).1]
  have hp : 0 < 1 + ρ := by linarith
  have e : (1 / y2) ^ 3 - X = X * (-ρ / (1 + ρ)) := by
    have : 1 + ρ = X * y2 ^ 3 := by rw [hρ]; ring
    rw [this, hρ]
    rw [this] at hp
    have hX : X ≠ 0 := fun h => by rw [h, zero_mul] at hp; exact hp.false
    field_simp
    ring
  rw [e, abs_mul, abs_div, abs_neg, abs_of_pos hp, mul_comm]
  gcongr
  rw [div_le_iff₀ hp]
  have : 3 * d ^ 2 * 0.9997 ≤ 3 * d ^ 2 * (1 + ρ) := by gcongr
  linarith [sq_nonneg d]

/-- C127: cube roots. From a guess `y` of the reciprocal root with residual `d = x y³ - 1` the first step of cbrt_dd moves to the residual `-2d + 2d³ - d⁴`: it doubles the error (finding: the factor 1/3 of
Newton's step is missing). The second one squares it, so that the cube of the result is the number to `3 d²`. -/
theorem C127_cbrt {xr xe y : ℝ} (hd : |(xr + xe) * y ^ 3 - 1| ≤ 1 / 100) :
    let d := (xr + xe) * y ^ 3 - 1;
    (∃ y1, cbrtStep1 id (xr, xe) (y, 0) = (y1, 0) ∧ (xr + xe) * y1 ^ 3 - 1 = -2 * d + 2 * d ^ 3 - d ^ 4) ∧
    ∃ c, cbrt_dd id y xr xe = .ok (c, 0) ∧ |c ^ 3 - (xr + xe)| ≤ 3 * d ^ 2 * |xr + xe| := by
  extract_lets d
  have r1 : (xr + xe) * (y * (1 - d)) ^ 3 - 1 = -2 * d + 2 * d ^ 3 - d ^ 4 := by
    have : (xr + xe) * (y * (1 - d)) ^ 3 = (d + 1) * (1 - d) ^ 3 := by simp only [d]; ring
    rw [this]; ring
  refine ⟨⟨_, step1_id xr xe y, r1⟩, ?_⟩
  have h1 : cbrtStep1 id (xr, xe) (y, 0) = (y * (1 - d), 0) := step1_id xr xe y
  generalize hy1 : y * (1 - d) = y1 at h1 r1
  have h2 := step2_id xr xe y1
  have b1 := cbrt_res1 hd
  change |-2 * d + 2 * d ^ 3 - d ^ 4| ≤ 2.001 * |d| at b1
  rw [← r1] at b1
  have b3 := cbrt_res2 hd b1
  change _ ≤ 2.8 * d ^ 2 at b3
  rw [show (1 + ((xr + xe) * y1 ^ 3 - 1)) * (1 - ((xr + xe) * y1 ^ 3 - 1) / 3) ^ 3 = (xr + xe) * (y1 * (1 - ((xr + xe) * y1 ^ 3 - 1) / 3)) ^ 3 by ring] at b3
  obtain ⟨k1, k2⟩ := cbrt_close (d := d) hd b3
  refine ⟨_, ?_, k2⟩
  unfold cbrt_dd
  dsimp only
  rw [h1, h2, div_id k1, add_zero]

/-! ### Complex numbers -/

/-- the complex number a quadruple stands for -/
def DDC.val (x : DDC) : ℂ := ⟨x.rr + x.re, x.cr + x.ce⟩
/-- the sum of its second parts -/
def DDC.err (x : DDC) : ℂ := ⟨x.re, x.ce⟩

/-- C127: sums are exact, products lack only the product of the second parts, those of doubles nothing. -/
theorem C127_complex_ring (x y : DDC) :
    (add_imag_dd id x y).val = x.val + y.val ∧
    (mul_imag_dd id x y).val = x.val * y.val - x.err * y.err ∧
    (mul_imag_noerrors_dd id x.rr x.cr y.rr y.cr).val = (⟨x.rr, x.cr⟩ : ℂ) * ⟨y.rr, y.cr⟩ := by
  refine ⟨?_, ?_, ?_⟩ <;> apply Complex.ext <;>
    simp [add_imag_dd, mul_imag_dd, mul_imag_noerrors_dd, DDC.val, DDC.err, add_id, mul_id, mulne_id, Complex.mul_re, Complex.mul_im] <;> ring

/-- C127: quotients and inverses: numerator and denominator of `x ȳ / |y|²` lack the products of the second parts; division by zero raises ZeroDivisionError. -/
theorem C127_complex_div (x y : DDC) :
    (Complex.normSq y.val - Complex.normSq y.err ≠ 0 →
      (∃ q, div_imag_dd id x y = .ok q ∧ q.val = (x.val * star y.val - x.err * star y.err) / ((Complex.normSq y.val - Complex.normSq y.err : ℝ) : ℂ)) ∧
      (∃ q, imag_inv_dd id y = .ok q ∧ q.val = star y.val / ((Complex.normSq y.val - Complex.normSq y.err : ℝ) : ℂ))) ∧
    (y.val ≠ 0 → y.err = 0 → (∃ q, div_imag_dd id x y = .ok q ∧ q.val = x.val / y.val) ∧ ∃ q, imag_inv_dd id y = .ok q ∧ q.val = 1 / y.val) ∧
    (y.val = 0 → y.err = 0 → div_imag_dd id x y = .error .zeroDivisionError ∧ imag_inv_dd id y = .error .zeroDivisionError) := by
  have hw : y.rr * y.rr = y.rr * y.rr := rfl
  have e : (y.rr + y.re) ^ 2 - y.re ^ 2 + 0 + ((y.cr + y.ce) ^ 2 - y.ce ^ 2 + 0) = Complex.normSq y.val - Complex.normSq y.err := by
    simp [DDC.val, DDC.err, Complex.normSq_apply]; ring
  have key : Complex.normSq y.val - Complex.normSq y.err ≠ 0 →
      (∃ q, div_imag_dd id x y = .ok q ∧ q.val = (x.val * star y.val - x.err * star y.err) / ((Complex.normSq y.val - Complex.normSq y.err : ℝ) : ℂ)) ∧
      (∃ q, imag_inv_dd id y = .ok q ∧ q.val = star y.val / ((Complex.normSq y.val - Complex.normSq y.err : ℝ) : ℂ)) := by
    intro h
    constructor
    · simp only [div_imag_dd, square_id, add_id, mul_id]
      rw [e, div_id h, div_id h]
      refine ⟨_, rfl, ?_⟩
      apply Complex.ext
      · rw [Complex.div_ofReal_re]
        simp [DDC.val, DDC.err, Complex.mul_re]
        congr 1; ring
      · rw [Complex.div_ofReal_im]
        simp [DDC.val, DDC.err, Complex.mul_im]
        congr 1; ring
    · simp only [imag_inv_dd, square_id, add_id]
      rw [e, div_id h, div_id h]
      refine ⟨_, rfl, ?_⟩
      apply Complex.ext
      · rw [Complex.div_ofReal_re]
        simp [DDC.val]
      · rw [Complex.div_ofReal_im]
        simp [DDC.val]
        try ring
  refine ⟨key, fun h h0 => ?_, fun h h0 => ?_⟩
  · have hn : Complex.normSq y.val ≠ 0 := by simpa using h
    have k := key (by rw [h0, map_zero, sub_zero]; exact hn)
    rw [h0, map_zero, star_zero, mul_zero, sub_zero, sub_zero] at k
    have hs : ∀ z : ℂ, z * star y.val / ((Complex.normSq y.val : ℝ) : ℂ) = z / y.val := by
      intro z
      rw [div_eq_div_iff (by exact_mod_cast hn) h, mul_assoc]
      congr 1
      rw [mul_comm, Complex.star_def, Complex.mul_conj]
    refine ⟨by rw [← hs]; exact k.1, ?_⟩
    have := hs 1
    rw [one_mul] at this
    rw [← this]; exact k.2
  · have e0 : (y.rr + y.re) ^ 2 - y.re ^ 2 + 0 + ((y.cr + y.ce) ^ 2 - y.ce ^ 2 + 0) = 0 := by rw [e, h, h0]; simp
    simp only [div_imag_dd, imag_inv_dd, square_id, add_id, mul_id]
    rw [e0]
    constructor <;> simp [div_dd]

/-- C127: square roots of complex doubles: the square of the result is the number when its imaginary part is not negative, and its conjugate otherwise (finding: the root of 3 - 4i is given as 2 + i); both
parts of the result are nonnegative. -/
theorem C127_complex_sqrt (a b : ℝ) :
    (∃ q, sqrt_imag_dd id ⟨a, 0, b, 0⟩ = .ok q ∧ 0 ≤ q.val.re ∧ 0 ≤ q.val.im ∧ q.val ^ 2 = if 0 ≤ b then (⟨a, b⟩ : ℂ) else ⟨a, -b⟩) ∧
    sqrt_imag_dd id ⟨3, 0, -4, 0⟩ = .ok ⟨2, 0, 1, 0⟩ := by
  have gen : ∀ a b : ℝ, sqrtImagGeneral id ⟨a, 0, b, 0⟩ = .ok ⟨√((√(a ^ 2 + b ^ 2) + a) * 0.5), 0, √((√(a ^ 2 + b ^ 2) - a) * 0.5), 0⟩ := by
    intro a b
    have h0 : 0 ≤ a ^ 2 + b ^ 2 := by positivity
    have h1 : |a| ≤ √(a ^ 2 + b ^ 2) := Real.abs_le_sqrt (by nlinarith [sq_nonneg b])
    obtain ⟨h2, h3⟩ := abs_le.1 h1
    simp only [sqrtImagGeneral, square_id, add_id, add_zero, sub_zero, neg_zero, id, ne_eq, OfNat.ofNat_ne_zero, not_false_eq_true, zero_pow, zero_mul]
    rw [sqrt_id h0]
    simp only [Py.ok_bind, add_zero]
    rw [sqrt_id (by nlinarith), sqrt_id (by nlinarith)]
    rfl
  refine ⟨?_, ?_⟩
  · by_cases hb : b = 0
    · subst hb
      by_cases ha : a > 0
      · simp only [sqrt_imag_dd, if_true, if_pos ha, sqrtImagPos]
        rw [sqrt_id ha.le]
        refine ⟨_, rfl, ?_, ?_, ?_⟩
        · simp [DDC.val]
        · simp [DDC.val]
        · rw [if_pos le_rfl]
          apply Complex.ext <;> simp [DDC.val, pow_two, Complex.mul_re, Complex.mul_im, Real.mul_self_sqrt ha.le]
      · have ha' : 0 ≤ -a := by linarith
        simp only [sqrt_imag_dd, if_true, if_neg ha, sqrtImagNeg, neg_zero]
        rw [sqrt_id ha']
        refine ⟨_, rfl, ?_, ?_, ?_⟩
        · simp [DDC.val]
        · simp [DDC.val]
        · rw [if_pos le_rfl]
          apply Complex.ext <;> simp [DDC.val, pow_two, Complex.mul_re, Complex.mul_im, Real.mul_self_sqrt ha']
    · simp only [sqrt_imag_dd, if_neg hb, gen]
      have h0 : 0 ≤ a ^ 2 + b ^ 2 := by positivity
      have h1 : |a| ≤ √(a ^ 2 + b ^ 2) := Real.abs_le_sqrt (by nlinarith [sq_nonneg b])
      obtain ⟨h2, h3⟩ := abs_le.1 h1
      have hs := Real.mul_self_sqrt h0
      set w := √(a ^ 2 + b ^ 2)
      have k1 : 0 ≤ (w + a) * 0.5 := by nlinarith
      have k2 : 0 ≤ (w - a) * 0.5 := by nlinarith
      refine ⟨_, rfl, ?_, ?_, ?_⟩
      · simp [DDC.val]
      · simp [DDC.val]
      · have hp : √((w + a) * 0.5) * √((w - a) * 0.5) = |b| / 2 := by
          rw [← Real.sqrt_mul k1, show (w + a) * 0.5 * ((w - a) * 0.5) = (|b| / 2) ^ 2 by rw [div_pow, sq_abs]; norm_num; linarith, Real.sqrt_sq (by positivity)]
        have : (if 0 ≤ b then (⟨a, b⟩ : ℂ) else ⟨a, -b⟩) = ⟨a, |b|⟩ := by
          split_ifs with c
          · rw [abs_of_nonneg c]
          · rw [abs_of_neg (not_le.1 c)]
        rw [this]
        apply Complex.ext
        · simp only [DDC.val, pow_two, Complex.mul_re, add_zero, Real.mul_self_sqrt k1, Real.mul_self_sqrt k2]
          ring
        · simp only [DDC.val, pow_two, Complex.mul_im, add_zero]
          linarith [mul_comm (√((w + a) * 0.5)) (√((w - a) * 0.5))]
  · simp only [sqrt_imag_dd, gen]
    rw [if_neg (by norm_num)]
    have h5 : √((3 : ℝ) ^ 2 + (-4) ^ 2) = 5 := by
      rw [show (3 : ℝ) ^ 2 + (-4) ^ 2 = 5 ^ 2 by norm_num, Real.sqrt_sq (by norm_num)]
    have h4 : √((5 + 3 : ℝ) * 0.5) = 2 := by
      rw [show (5 + 3 : ℝ) * 0.5 = 2 ^ 2 by norm_num, Real.sqrt_sq (by norm_num)]
    have h1 : √((5 - 3 : ℝ) * 0.5) = 1 := by norm_num
    rw [h5, h4, h1]

/-- C127: complex cube roots: Newton's step from a guess `y` of the reciprocal root, `1 / (y (1 - T (x y³ - 1)))` with a `T` within `2^-106` of a third. -/
theorem C127_complex_cbrt (x : DDC) (yr yc : ℝ) :
    ∃ T : ℝ, |T - 1 / 3| ≤ 1 / 2 ^ 106 ∧
    let y : ℂ := ⟨yr, yc⟩;
    (y * (1 - T * (x.val * y ^ 3 - 1)) ≠ 0 → ∃ q, cbrt_imag_dd id yr yc x = .ok q ∧ q.val = 1 / (y * (1 - T * (x.val * y ^ 3 - 1)))) ∧
    (y * (1 - T * (x.val * y ^ 3 - 1)) = 0 → cbrt_imag_dd id yr yc x = .error .zeroDivisionError) := by
  refine ⟨thirdHi + thirdLo, ?_, ?_⟩
  · rw [abs_le]; unfold thirdHi thirdLo; norm_num
  extract_lets y
  let ofC : ℂ → DDC := fun z => ⟨z.re, 0, z.im, 0⟩
  have hv : ∀ z, (ofC z).val = z := fun z => by apply Complex.ext <;> simp [ofC, DDC.val]
  have he : ∀ z, (ofC z).err = 0 := fun z => by apply Complex.ext <;> simp [ofC, DDC.err]
  have hm : ∀ a b : DDC, mul_imag_dd id a b = ofC (a.val * b.val - a.err * b.err) := by
    intro a b
    rw [← (C127_complex_ring a b).2.1]
    simp only [ofC, mul_imag_dd, add_id, DDC.val, add_zero]
  have ha : ∀ a b : DDC, add_imag_dd id a b = ofC (a.val + b.val) := by
    intro a b
    rw [← (C127_complex_ring a b).1]
    simp only [ofC, add_imag_dd, add_id, DDC.val, add_zero]
  have hne : mul_imag_noerrors_dd id yr yc yr yc = ofC (y * y) := by
    have := (C127_complex_ring (ofC y) (ofC y)).2.2
    rw [show y * y = (⟨(ofC y).rr, (ofC y).cr⟩ : ℂ) * ⟨(ofC y).rr, (ofC y).cr⟩ from rfl, ← this]
    simp only [ofC, mul_imag_noerrors_dd, add_id, DDC.val, add_zero, y]
  have hT : (⟨thirdHi, thirdLo, 0, 0⟩ : DDC).val = ((thirdHi + thirdLo : ℝ) : ℂ) := by apply Complex.ext <;> simp [DDC.val]
  have hy : (⟨yr, 0, yc, 0⟩ : DDC) = ofC y := rfl
  have ho : ∀ z, (⟨(add_dd id 1 0 (-(ofC z).rr) (-(ofC z).re)).1, (add_dd id 1 0 (-(ofC z).rr) (-(ofC z).re)).2, -(ofC z).cr, -(ofC z).ce⟩ : DDC) = ofC (1 - z) := by
    intro z
    simp [ofC, add_id, sub_eq_add_neg]
  have key : cbrt_imag_dd id yr yc x = imag_inv_dd id (ofC (y * (1 - (thirdHi + thirdLo : ℝ) * (x.val * y ^ 3 - 1)))) := by
    unfold cbrt_imag_dd
    extract_lets w t1 t2 t3 o t4 t5 t6
    have w0 : w = ofC y := hy
    have e1 : t1 = ofC (y * y) := hne
    have e2 : t2 = ofC (y * y * y) := by simp only [t2, hm, e1, w0, hv, he, zero_mul, sub_zero]
    have e3 : t3 = ofC (y * y * y * x.val) := by simp only [t3, hm, e2, hv, he, zero_mul, sub_zero]
    have e4 : t4 = ofC (y * (1 - y * y * y * x.val)) := by simp only [t4, o, e3, ho, hm, w0, hv, he, zero_mul, sub_zero]
    have e5 : t5 = ofC (y * (1 - y * y * y * x.val) * (thirdHi + thirdLo : ℝ)) := by simp only [t5, e4, hm, hv, he, hT, zero_mul, sub_zero]
    have e6 : t6 = ofC (y * (1 - (thirdHi + thirdLo : ℝ) * (x.val * y ^ 3 - 1))) := by
      simp only [t6, ha, w0, e5, hv]
      congr 1
      ring
    rw [e6]
  have hd := C127_complex_div (ofC 0) (ofC (y * (1 - (thirdHi + thirdLo : ℝ) * (x.val * y ^ 3 - 1))))
  rw [hv, he] at hd
  rw [key]
  exact ⟨fun h => (hd.2.1 h rfl).2, fun h => (hd.2.2 h rfl).2⟩

/-- the number 1.01 is within the domain of the cube roots (guess 1), of logarithms and powers -/
example : |((1 : ℝ) + 1 / 2 ^ 60) * 1 ^ 3 - 1| ≤ 1 / 100 ∧ |(1 / 2 ^ 60 : ℝ)| ≤ 1 / 100 ∧ |Real.log 1| ≤ 100000 := by
  refine ⟨?_, ?_, ?_⟩ <;> norm_num

end Verif.DD
