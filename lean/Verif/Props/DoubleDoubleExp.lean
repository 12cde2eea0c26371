import Verif.Model.DoubleDouble
import Verif.Lemmas.Tactic
import Mathlib.Analysis.SpecialFunctions.Log.Deriv
import Mathlib.Analysis.Calculus.MeanValue
import Mathlib.Analysis.SpecialFunctions.Complex.Log

/-! C127: the elementary functions of double-double numbers, when the operations themselves are exact. What remains is the error of the algorithms. -/

namespace Verif.DD

lemma hi_id (x : ℝ) : hi id x = x := by simp [hi]
lemma prodErr_id (x y : ℝ) : prodErr id x y (x * y) = 0 := by simp [prodErr, hi_id]
lemma sqErr_id (x : ℝ) : sqErr id x (x * x) = 0 := by simp [sqErr, hi_id]
lemma renorm_id (r e : ℝ) : renorm id r e = (r + e, 0) := by simp [renorm]
lemma twoSum_id (x y : ℝ) : twoSum id x y = (x + y, 0) := by simp [twoSum]
lemma add_id (x0 y0 x1 y1 : ℝ) : add_dd id x0 y0 x1 y1 = (x0 + y0 + (x1 + y1), 0) := by
  simp [add_dd, twoSum_id, renorm_id]; ring
lemma mul_id (x0 y0 x1 y1 : ℝ) : mul_dd id x0 y0 x1 y1 = ((x0 + y0) * (x1 + y1) - y0 * y1, 0) := by
  simp [mul_dd, prodErr_id, renorm_id]; ring
lemma mulne_id (x0 x1 : ℝ) : mul_noerrors_dd id x0 x1 = (x0 * x1, 0) := by
  simp [mul_noerrors_dd, prodErr_id]
lemma square_id (x0 y0 : ℝ) : square_dd id x0 y0 = ((x0 + y0) ^ 2 - y0 ^ 2, 0) := by
  simp [square_dd, sqErr_id, renorm_id]; ring
lemma cube_id (x0 y0 : ℝ) : cube_dd id x0 y0 = ((x0 + y0) ^ 3 - y0 ^ 2 * (x0 + y0), 0) := by
  simp [cube_dd, prodErr_id, square_id, renorm_id]; ring
lemma div_id {x0 y0 x1 : ℝ} (h : x1 ≠ 0) : div_dd id x0 y0 x1 0 = .ok ((x0 + y0) / x1, 0) := by
  have e : x0 / x1 * x1 = x0 := div_mul_cancel₀ _ h
  have p := prodErr_id (x0 / x1) x1
  simp only [div_dd, pdiv_ok h, Py.ok_bind, id]
  rw [p, e, renorm_id]
  simp only [sub_self, sub_zero, zero_add, mul_zero, Py.pure_eq]
  rw [add_div]
lemma sqrt_id {x : ℝ} (h : 0 ≤ x) : sqrt_dd id x 0 = .ok (√x, 0) := by
  rcases h.eq_or_lt with rfl | h
  · simp [sqrt_dd]
  · have hs : √x ≠ 0 := (Real.sqrt_pos.2 h).ne'
    have p := sqErr_id (√x)
    simp only [sqrt_dd, if_neg h.ne', psqrt_ok h.le, Py.ok_bind, id]
    rw [p, Real.mul_self_sqrt h.le, pdiv_ok hs]
    simp only [Py.ok_bind, renorm_id]
    simp

/-- the numerator of the [12/12] Padé approximant of the exponential function -/
noncomputable def pade (x : ℝ) : ℝ := x ^ 12 + 156 * x ^ 11 + 12012 * x ^ 10 + 600600 * x ^ 9 + 21621600 * x ^ 8 + 588107520 * x ^ 7 + 12350257920 * x ^ 6 + 201132771840 * x ^ 5 + 2514159648000 * x ^ 4 + 23465490048000 * x ^ 3 + 154872234316800 * x ^ 2 + 647647525324800 * x + 1295295050649600
/-- its derivative -/
noncomputable def pade' (x : ℝ) : ℝ := 12 * x ^ 11 + 1716 * x ^ 10 + 120120 * x ^ 9 + 5405400 * x ^ 8 + 172972800 * x ^ 7 + 4116752640 * x ^ 6 + 74101547520 * x ^ 5 + 1005663859200 * x ^ 4 + 10056638592000 * x ^ 3 + 70396470144000 * x ^ 2 + 309744468633600 * x + 647647525324800

lemma hasDerivAt_pade (x : ℝ) : HasDerivAt pade (pade' x) x := by
  have h := (((((((((((((hasDerivAt_pow 12 x).add ((hasDerivAt_pow 11 x).const_mul (156 : ℝ))).add ((hasDerivAt_pow 10 x).const_mul (12012 : ℝ))).add ((hasDerivAt_pow 9 x).const_mul (600600 : ℝ))).add ((hasDerivAt_pow 8 x).const_mul (21621600 : ℝ))).add ((hasDerivAt_pow 7 x).const_mul (588107520 : ℝ))).add ((hasDerivAt_pow 6 x).const_mul (12350257920 : ℝ))).add ((hasDerivAt_pow 5 x).const_mul (201132771840 : ℝ))).add ((hasDerivAt_pow 4 x).const_mul (2514159648000 : ℝ))).add ((hasDerivAt_pow 3 x).const_mul (23465490048000 : ℝ))).add ((hasDerivAt_pow 2 x).const_mul (154872234316800 : ℝ))).add ((hasDerivAt_id x).const_mul (647647525324800 : ℝ))).add_const (1295295050649600 : ℝ))
  refine HasDerivAt.congr_deriv h ?_
  unfold pade'
  push_cast
  ring

/-- the identity behind the approximant: all terms but the last cancel -/
lemma pade_wronskian (x : ℝ) : pade x * pade (-x) - pade' (-x) * pade x - pade' x * pade (-x) = x ^ 24 := by
  unfold pade pade'
  ring

lemma pade_ge {x : ℝ} (h : |x| ≤ 0.51) : 900000000000000 ≤ pade x := by
  obtain ⟨h1, h2⟩ := abs_le.1 h
  have e : pade x = (1295295050649600 + 647647525324800 * x) + x ^ 2 * (154872234316800 + 23465490048000 * x) + x ^ 4 * (2514159648000 + 201132771840 * x) + x ^ 6 * (12350257920 + 588107520 * x) + x ^ 8 * (21621600 + 600600 * x) + x ^ 10 * (12012 + 156 * x) + x ^ 12 := by
    unfold pade; ring
  have k1 : 0 ≤ x ^ 2 * (154872234316800 + 23465490048000 * x) := mul_nonneg (by positivity) (by linarith)
  have k2 : 0 ≤ x ^ 4 * (2514159648000 + 201132771840 * x) := mul_nonneg (by positivity) (by linarith)
  have k3 : 0 ≤ x ^ 6 * (12350257920 + 588107520 * x) := mul_nonneg (by positivity) (by linarith)
  have k4 : 0 ≤ x ^ 8 * (21621600 + 600600 * x) := mul_nonneg (by positivity) (by linarith)
  have k5 : 0 ≤ x ^ 10 * (12012 + 156 * x) := mul_nonneg (by positivity) (by linarith)
  have k6 : 0 ≤ x ^ 12 := by positivity
  rw [e]
  linarith

lemma pade_exp {x : ℝ} (h : |x| ≤ 0.51) : |x + Real.log (pade (-x)) - Real.log (pade x)| ≤ 1 / 10 ^ 36 := by
  set s : Set ℝ := Set.Icc (-0.51) 0.51
  have hs : ∀ y ∈ s, |y| ≤ 0.51 := fun y hy => abs_le.2 hy
  have hd : ∀ y ∈ s, HasDerivWithinAt (fun y => y + Real.log (pade (-y)) - Real.log (pade y)) (y ^ 24 / (pade y * pade (-y))) s y := by
    intro y hy
    have p1 := pade_ge (hs y hy)
    have p2 : 900000000000000 ≤ pade (-y) := pade_ge (by rw [abs_neg]; exact hs y hy)
    have n1 : pade y ≠ 0 := by linarith
    have n2 : pade (-y) ≠ 0 := by linarith
    have d1 : HasDerivAt (fun y => pade (-y)) (-pade' (-y)) y := by
      have := (hasDerivAt_pade (-y)).comp y (hasDerivAt_neg y)
      rwa [mul_neg_one] at this
    have d := ((hasDerivAt_id y).add (d1.log n2)).sub ((hasDerivAt_pade y).log n1)
    refine (HasDerivAt.congr_deriv d ?_).hasDerivWithinAt
    rw [← pade_wronskian y]
    field_simp
    ring
  have hb : ∀ y ∈ s, ‖y ^ 24 / (pade y * pade (-y))‖ ≤ 1 / 10 ^ 36 := by
    intro y hy
    have p1 := pade_ge (hs y hy)
    have p2 : 900000000000000 ≤ pade (-y) := pade_ge (by rw [abs_neg]; exact hs y hy)
    have h24 : |y| ^ 24 ≤ 0.51 ^ 24 := pow_le_pow_left₀ (abs_nonneg _) (hs y hy) _
    have hp : (900000000000000 : ℝ) * 900000000000000 ≤ pade y * pade (-y) := mul_le_mul p1 p2 (by norm_num) (by linarith)
    rw [Real.norm_eq_abs, abs_div, abs_pow, abs_of_pos (show 0 < pade y * pade (-y) by linarith), div_le_iff₀ (by linarith)]
    calc |y| ^ 24 ≤ 0.51 ^ 24 := h24
      _ ≤ 1 / 10 ^ 36 * (900000000000000 * 900000000000000) := by norm_num
      _ ≤ _ := by gcongr
  have h0 : (0 : ℝ) ∈ s := ⟨by norm_num, by norm_num⟩
  have hx : x ∈ s := abs_le.1 h
  have := (convex_Icc (-0.51 : ℝ) 0.51).norm_image_sub_le_of_norm_hasDerivWithin_le hd hb h0 hx
  rw [Real.norm_eq_abs, Real.norm_eq_abs] at this
  simp only [neg_zero, zero_add, sub_self, sub_zero] at this
  refine this.trans ?_
  nlinarith

lemma expNum_id (x : ℝ) : expNum id (x, 0) expCoeffs (add_dd id x 0 156 0) = (pade x, 0) := by
  simp only [expNum, expCoeffs, mul_id, add_id, Prod.mk.injEq, and_true, pade]
  ring
lemma expDen_id (x : ℝ) : expDen id (x, 0) expCoeffs 1 (add_dd id x 0 (-156) 0) = (pade (-x), 0) := by
  simp only [expDen, expCoeffs, mul_id, add_id, Prod.mk.injEq, and_true, pade, id]
  ring

/-- a number close to 1 has a small logarithm -/
lemma log_near {z d : ℝ} (h : |z - 1| ≤ d) (hd : d ≤ 1 / 2) : |Real.log z| ≤ 2 * d := by
  obtain ⟨h1, h2⟩ := abs_le.1 h
  have hz : 0 < z := by linarith
  have k1 := Real.log_le_sub_one_of_pos hz
  have k2 := Real.one_sub_inv_le_log_of_pos hz
  have k3 : 1 - z⁻¹ ≥ -(2 * d) := by
    have : z⁻¹ ≤ 1 + 2 * d := by
      rw [inv_le_iff_one_le_mul₀ hz]
      nlinarith
    linarith
  rw [abs_le]
  constructor <;> linarith

/-- the same with the sharper constant for tiny deviations -/
lemma log_near' {z d : ℝ} (h : |z - 1| ≤ d) (hd : d ≤ 1 / 100) : |Real.log z| ≤ 1.02 * d := by
  obtain ⟨h1, h2⟩ := abs_le.1 h
  have hz : 0 < z := by linarith
  have k1 := Real.log_le_sub_one_of_pos hz
  have k2 := Real.one_sub_inv_le_log_of_pos hz
  have k3 : 1 - z⁻¹ ≥ -(1.02 * d) := by
    have : z⁻¹ ≤ 1 + 1.02 * d := by
      rw [inv_le_iff_one_le_mul₀ hz]
      nlinarith
    linarith
  rw [abs_le]
  constructor <;> linarith

lemma half_log : |1 - 2 * Real.log (pade (1 / 2) / pade (-(1 / 2)))| ≤ 2 / 10 ^ 36 := by
  have h := pade_exp (x := 1 / 2) (by rw [abs_of_pos] <;> norm_num)
  have p1 : 900000000000000 ≤ pade (1 / 2) := pade_ge (by rw [abs_of_pos] <;> norm_num)
  have p2 : 900000000000000 ≤ pade (-(1 / 2)) := pade_ge (by rw [abs_neg, abs_of_pos] <;> norm_num)
  rw [Real.log_div (by linarith) (by linarith)]
  rw [abs_le] at h ⊢
  constructor <;> linarith [h.1, h.2]

/-- the constant of the code is e to 33 digits -/
lemma e_log : |Real.log (eHi + eLo) - 1| ≤ 1 / 10 ^ 33 := by
  have h := half_log
  set q := pade (1 / 2) / pade (-(1 / 2)) with hq
  have hq0 : 0 < q := by rw [hq]; unfold pade; norm_num
  have hn : |(eHi + eLo) / q ^ 2 - 1| ≤ 8 / 10 ^ 34 := by
    rw [hq, abs_le]; unfold pade eHi eLo; norm_num
  have hl := log_near' hn (by norm_num)
  rw [Real.log_div (by unfold eHi eLo; positivity) (by positivity), Real.log_pow] at hl
  clear_value q
  push_cast at hl
  rw [abs_le] at *
  constructor <;> linarith [h.1, h.2, hl.1, hl.2]

/-- the square that mul_dd forms of it, without the square of the second part -/
lemma e2_log : |Real.log ((eHi + eLo) * (eHi + eLo) - eLo * eLo) - 2| ≤ 2 / 10 ^ 33 := by
  have h := half_log
  set q := pade (1 / 2) / pade (-(1 / 2)) with hq
  have hq0 : 0 < q := by rw [hq]; unfold pade; norm_num
  have hn : |((eHi + eLo) * (eHi + eLo) - eLo * eLo) / q ^ 4 - 1| ≤ 15 / 10 ^ 34 := by
    rw [hq, abs_le]; unfold pade eHi eLo; norm_num
  have hl := log_near' hn (by norm_num)
  rw [Real.log_div (by unfold eHi eLo; norm_num) (by positivity), Real.log_pow] at hl
  clear_value q
  push_cast at hl
  rw [abs_le] at *
  constructor <;> linarith [h.1, h.2, hl.1, hl.2]

lemma intpowLoop_id (i : ℕ) (b p : ℝ) : intpowLoop id i (b, 0) (p, 0) = (p * b ^ i, 0) := by
  induction i using Nat.strong_induction_on generalizing b p with
  | _ i ih =>
    rw [intpowLoop]
    by_cases h : i ≤ 1
    · interval_cases i <;> simp [mul_id]
    · rw [dif_neg h]
      have hd := Nat.div_add_mod i 2
      simp only [mul_id, add_zero, mul_zero, sub_zero]
      rcases Nat.mod_two_eq_zero_or_one i with c | c
      · rw [if_neg (by omega), ih _ (by omega)]
        nth_rw 2 [← hd]
        rw [c, add_zero, pow_mul, pow_two]
      · rw [if_pos c, ih _ (by omega)]
        nth_rw 2 [← hd]
        rw [c, pow_succ, pow_mul, pow_two]
        ring_nf

lemma intpow_e (n : ℕ) : ∃ P, intpowLoop id n (eHi, eLo) (1, 0) = (P, 0) ∧ 0 < P ∧ |Real.log P - n| ≤ n / 10 ^ 33 := by
  have hE : 0 < eHi + eLo := by unfold eHi eLo; positivity
  have hB : 0 < (eHi + eLo) * (eHi + eLo) - eLo * eLo := by unfold eHi eLo; norm_num
  have h1 := e_log
  have h2 := e2_log
  have hd := Nat.div_add_mod n 2
  set E := eHi + eLo
  set B := E * E - eLo * eLo
  have key : intpowLoop id n (eHi, eLo) (1, 0) = (E ^ (n % 2) * B ^ (n / 2), 0) := by
    rw [intpowLoop]
    by_cases h : n ≤ 1
    · interval_cases n <;> simp [mul_id, E]
    · rw [dif_neg h]
      simp only [mul_id]
      rcases Nat.mod_two_eq_zero_or_one n with c | c
      · rw [if_neg (by omega), intpowLoop_id, c, pow_zero]
      · rw [if_pos c]
        simp only [add_zero, one_mul, zero_mul, sub_zero]
        rw [intpowLoop_id, c, pow_one]
  refine ⟨_, key, by positivity, ?_⟩
  rw [Real.log_mul (by positivity) (by positivity), Real.log_pow, Real.log_pow]
  have hn : (n : ℝ) = 2 * (n / 2 : ℕ) + (n % 2 : ℕ) := by exact_mod_cast hd.symm
  have m0 : (0 : ℝ) ≤ (n / 2 : ℕ) := Nat.cast_nonneg _
  have r0 : (0 : ℝ) ≤ (n % 2 : ℕ) := Nat.cast_nonneg _
  clear_value E B
  generalize ((n / 2 : ℕ) : ℝ) = m at *
  generalize ((n % 2 : ℕ) : ℝ) = k at *
  rw [hn]
  rw [abs_le] at *
  constructor <;> nlinarith [mul_le_mul_of_nonneg_left h1.1 r0, mul_le_mul_of_nonneg_left h1.2 r0, mul_le_mul_of_nonneg_left h2.1 m0, mul_le_mul_of_nonneg_left h2.2 m0]

lemma intpow_e_int (n : ℤ) : ∃ P, intpow_dd id eHi eLo n = .ok (P, 0) ∧ 0 < P ∧ |Real.log P - n| ≤ |(n : ℝ)| / 10 ^ 33 := by
  obtain ⟨P, h1, h2, h3⟩ := intpow_e n.natAbs
  rw [Nat.cast_natAbs, Int.cast_abs] at h3
  unfold intpow_dd
  extract_lets p
  have hp : p = (P, 0) := h1
  rw [hp]
  split_ifs with c
  · rw [div_id h2.ne']
    refine ⟨_, rfl, by positivity, ?_⟩
    rw [add_zero, one_div, Real.log_inv]
    have c' : (n : ℝ) < 0 := by exact_mod_cast c
    rw [abs_of_neg c'] at h3 ⊢
    rw [← abs_neg]
    convert h3 using 2
    ring
  · refine ⟨P, rfl, h2, ?_⟩
    have c' : (0 : ℝ) ≤ n := by exact_mod_cast not_lt.1 c
    rw [abs_of_nonneg c'] at h3 ⊢
    exact h3

lemma pyRound_near (x : ℝ) : |x - pyRound x| ≤ 1 / 2 := by
  have h0 := Int.floor_le x
  have h1 := Int.lt_floor_add_one x
  unfold pyRound
  rw [abs_le]
  split_ifs <;> push_cast <;> constructor <;> linarith

/-- C127: with exact operations the exponential function of a double-double number is right to 33 digits: `exp_dd` never fails and is the exponential of an argument that differs by at most `(|n| + 1) 10^-33`, with `n` an integer
nearest to the first part. -/
theorem C127_exp (r e : ℝ) (he : |e| ≤ 1 / 100) :
    ∃ (n : ℤ) (d : ℝ), |r - n| ≤ 1 / 2 ∧ |d| ≤ (|(n : ℝ)| + 1) / 10 ^ 33 ∧ exp_dd id r e = .ok (Real.exp (r + e + d), 0) := by
  have hn := pyRound_near r
  obtain ⟨P, hP, hP0, hPl⟩ := intpow_e_int (pyRound r)
  set n := pyRound r with hnn
  have hx : |r + e - n| ≤ 0.51 := by
    rw [abs_le] at *
    constructor <;> norm_num <;> linarith [hn.1, hn.2, he.1, he.2]
  have p1 := pade_ge hx
  have p2 : 900000000000000 ≤ pade (-(r + e - n)) := pade_ge (by rw [abs_neg]; exact hx)
  have hpe := pade_exp hx
  set x := r + e - n with hxx
  refine ⟨n, Real.log (P * pade x / pade (-x)) - (r + e), hn, ?_, ?_⟩
  · rw [Real.log_div (by positivity) (by linarith), Real.log_mul hP0.ne' (by linarith)]
    have : |Real.log P - n| + 1 / 10 ^ 36 ≤ (|(n : ℝ)| + 1) / 10 ^ 33 := by linarith
    refine le_trans ?_ this
    rw [show Real.log P + Real.log (pade x) - Real.log (pade (-x)) - (r + e) = (Real.log P - n) - (x + Real.log (pade (-x)) - Real.log (pade x)) by rw [hxx]; ring]
    exact (abs_sub _ _).trans (by linarith)
  · have hq : 0 < P * pade x / pade (-x) := by
      have : 0 < pade x := by linarith
      have : 0 < pade (-x) := by linarith
      positivity
    rw [add_sub_cancel, Real.exp_log hq]
    unfold exp_dd
    extract_lets x' u v
    have hx' : x' = (x, 0) := by
      simp only [x', add_id, hxx]; simp; ring
    have hu : u = (pade x, 0) := by simp only [u, hx', expNum_id]
    have hv : v = (pade (-x), 0) := by simp only [v, hx', expDen_id]
    rw [hu, hv, hP, Py.ok_bind]
    simp only [mul_id]
    rw [div_id (by linarith)]
    simp

end Verif.DD
