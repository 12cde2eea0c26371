import Mathlib.Algebra.Order.Round
import Mathlib.Data.Real.Basic
import Mathlib.Data.Int.Log
import Mathlib.Tactic

/-! Binary floating-point numbers with 53 binary digits and an unbounded range of exponents, and rounding to nearest. -/

namespace Verif.Float

/-- the numbers `k 2^q` with `|k| ≤ 2^53`: the doubles, but for overflow and underflow -/
def IsFloat (x : ℝ) : Prop := ∃ k q : ℤ, |k| ≤ 2 ^ 53 ∧ x = k * 2 ^ q

/-- `rd` rounds to a nearest float, with any rule for ties -/
structure Nearest (rd : ℝ → ℝ) : Prop where
  float : ∀ x, IsFloat (rd x)
  nearest : ∀ x y, IsFloat y → |rd x - x| ≤ |y - x|

/-- `x` is an integer multiple of `2^q` -/
def Mult (x : ℝ) (q : ℤ) : Prop := ∃ m : ℤ, x = m * 2 ^ q

lemma two_pos (q : ℤ) : (0 : ℝ) < 2 ^ q := by positivity

lemma two_add (q : ℤ) (n : ℕ) : (2 : ℝ) ^ (q + n) = 2 ^ n * 2 ^ q := by
  rw [zpow_add₀ (by norm_num), zpow_natCast, mul_comm]

lemma two_sub_one (q : ℤ) : (2 : ℝ) ^ (q - 1) = 2 ^ q / 2 := by
  rw [zpow_sub₀ (by norm_num), zpow_one]

lemma Mult.add {x y : ℝ} {q : ℤ} (hx : Mult x q) (hy : Mult y q) : Mult (x + y) q := by
  obtain ⟨m, rfl⟩ := hx; obtain ⟨n, rfl⟩ := hy
  exact ⟨m + n, by push_cast; ring⟩
lemma Mult.neg {x : ℝ} {q : ℤ} (hx : Mult x q) : Mult (-x) q := by
  obtain ⟨m, rfl⟩ := hx
  exact ⟨-m, by push_cast; ring⟩
lemma Mult.sub {x y : ℝ} {q : ℤ} (hx : Mult x q) (hy : Mult y q) : Mult (x - y) q := by
  rw [sub_eq_add_neg]; exact hx.add hy.neg
lemma Mult.mul {x y : ℝ} {q q' : ℤ} (hx : Mult x q) (hy : Mult y q') : Mult (x * y) (q + q') := by
  obtain ⟨m, rfl⟩ := hx; obtain ⟨n, rfl⟩ := hy
  exact ⟨m * n, by push_cast; rw [zpow_add₀ (by norm_num)]; ring⟩
lemma Mult.weaken {x : ℝ} {q q' : ℤ} (hx : Mult x q) (h : q' ≤ q) : Mult x q' := by
  obtain ⟨m, rfl⟩ := hx
  obtain ⟨n, rfl⟩ := Int.le.dest h
  exact ⟨m * 2 ^ n, by push_cast; rw [two_add]; ring⟩
lemma mult_zero (q : ℤ) : Mult 0 q := ⟨0, by simp⟩

lemma Mult.isFloat {x : ℝ} {q : ℤ} (hx : Mult x q) (h : |x| ≤ 2 ^ 53 * 2 ^ q) : IsFloat x := by
  obtain ⟨m, rfl⟩ := hx
  refine ⟨m, q, ?_, rfl⟩
  rw [abs_mul, abs_of_pos (two_pos q)] at h
  have h := le_of_mul_le_mul_right h (two_pos q)
  exact_mod_cast h

lemma isFloat_zero : IsFloat 0 := ⟨0, 0, by norm_num, by simp⟩

lemma IsFloat.neg {x : ℝ} (h : IsFloat x) : IsFloat (-x) := by
  obtain ⟨k, q, hk, rfl⟩ := h
  exact ⟨-k, q, by rwa [abs_neg], by push_cast; ring⟩

/-- the exponent of a number -/
lemma exists_exp {x : ℝ} (hx : x ≠ 0) : ∃ q : ℤ, 2 ^ 52 * 2 ^ q ≤ |x| ∧ |x| < 2 ^ 53 * 2 ^ q := by
  have h := Int.zpow_log_le_self (b := 2) (by norm_num) (abs_pos.2 hx)
  have h' := Int.lt_zpow_succ_log_self (b := 2) (by norm_num) |x|
  refine ⟨Int.log 2 |x| - 52, ?_, ?_⟩
  · have : (2 : ℝ) ^ 52 * 2 ^ (Int.log 2 |x| - 52) = ((2 : ℕ) : ℝ) ^ Int.log 2 |x| := by
      rw [zpow_sub₀ (by norm_num)]; push_cast; field_simp
    rw [this]; exact h
  · have : (2 : ℝ) ^ 53 * 2 ^ (Int.log 2 |x| - 52) = ((2 : ℕ) : ℝ) ^ (Int.log 2 |x| + 1) := by
      rw [zpow_sub₀ (by norm_num), zpow_add₀ (by norm_num)]; push_cast; field_simp
    rw [this]; exact h'

/-- a float of at least `2^52 2^q` is a multiple of `2^q` -/
lemma IsFloat.mult {x : ℝ} {q : ℤ} (hx : IsFloat x) (h : 2 ^ 52 * 2 ^ q ≤ |x|) : Mult x q := by
  obtain ⟨k, e, hk, rfl⟩ := hx
  rcases le_or_gt q e with c | c
  · exact Mult.weaken ⟨k, rfl⟩ c
  · have hk' : (|k| : ℝ) ≤ 2 ^ 53 := by exact_mod_cast hk
    rw [abs_mul, abs_of_pos (two_pos e)] at h
    have hpe := two_pos e
    have hq : (2 : ℝ) ^ q ≤ 2 ^ (e + 1) := by
      rw [zpow_add₀ (by norm_num), zpow_one]; nlinarith
    have hqe : q ≤ e + 1 := (zpow_le_zpow_iff_right₀ (by norm_num : (1 : ℝ) < 2)).1 hq
    obtain rfl : q = e + 1 := by omega
    rw [zpow_add₀ (by norm_num), zpow_one] at h
    have hk2 : (2 : ℝ) ^ 53 ≤ |(k : ℝ)| := by
      by_contra hc
      push Not at hc
      nlinarith
    have hk3 : |k| = 2 ^ 53 := le_antisymm hk (by exact_mod_cast hk2)
    rcases abs_choice k with h1 | h1
    · exact ⟨2 ^ 52, by rw [← h1, hk3, zpow_add₀ (by norm_num)]; push_cast; ring⟩
    · exact ⟨-2 ^ 52, by rw [show k = -|k| by omega, hk3, zpow_add₀ (by norm_num)]; push_cast; ring⟩

lemma isFloat_pow (n : ℕ) (hn : n ≤ 53) (q : ℤ) : IsFloat (2 ^ n * 2 ^ q) :=
  ⟨2 ^ n, q, by rw [abs_of_pos (by positivity)]; exact pow_le_pow_right₀ (by norm_num) hn, by push_cast; rfl⟩

variable {rd : ℝ → ℝ} (hr : Nearest rd)
include hr

lemma Nearest.exact {x : ℝ} (h : IsFloat x) : rd x = x := by
  have := hr.nearest x x h
  rw [sub_self, abs_zero] at this
  exact sub_eq_zero.1 (abs_eq_zero.1 (le_antisymm this (abs_nonneg _)))

lemma Nearest.zero : rd 0 = 0 := hr.exact isFloat_zero

lemma Nearest.le {x y : ℝ} (hy : IsFloat y) (h : y ≤ x) : y ≤ rd x := by
  by_contra c
  push Not at c
  have := hr.nearest x y hy
  rw [abs_of_nonpos (by linarith), abs_of_nonpos (by linarith)] at this
  linarith

lemma Nearest.ge {x y : ℝ} (hy : IsFloat y) (h : x ≤ y) : rd x ≤ y := by
  by_contra c
  push Not at c
  have := hr.nearest x y hy
  rw [abs_of_nonneg (by linarith), abs_of_nonneg (by linarith)] at this
  linarith

lemma Nearest.abs_le {x y : ℝ} (hy : IsFloat y) (h : y ≤ |x|) : y ≤ |rd x| := by
  rcases abs_choice x with c | c
  · rw [c] at h; exact (hr.le hy h).trans (le_abs_self _)
  · rw [c] at h
    have := hr.ge hy.neg (show x ≤ -y by linarith)
    exact (show y ≤ -rd x by linarith).trans (neg_le_abs _)

lemma Nearest.abs_ge {x y : ℝ} (hy : IsFloat y) (h : |x| ≤ y) : |rd x| ≤ y := by
  rw [_root_.abs_le] at h ⊢
  exact ⟨hr.le hy.neg h.1, hr.ge hy h.2⟩

/-- the error is at most half the distance of the floats around -/
lemma Nearest.err {x : ℝ} {q : ℤ} (h : |x| ≤ 2 ^ 53 * 2 ^ q) : |rd x - x| ≤ 2 ^ q / 2 := by
  have hp := two_pos q
  have hn : |x / 2 ^ q - round (x / 2 ^ q)| ≤ 1 / 2 := abs_sub_round _
  have hb : |x / 2 ^ q| ≤ 2 ^ 53 := by
    rw [abs_div, abs_of_pos hp, div_le_iff₀ hp]; exact h
  have hk : |round (x / 2 ^ q)| ≤ (2 : ℤ) ^ 53 := by
    rw [_root_.abs_le] at hb hn ⊢
    constructor
    · by_contra c
      push Not at c
      have : (round (x / 2 ^ q) : ℝ) ≤ -2 ^ 53 - 1 := by exact_mod_cast Int.le_sub_one_of_lt c
      linarith [hn.2, hb.1]
    · by_contra c
      push Not at c
      have : (2 : ℝ) ^ 53 + 1 ≤ (round (x / 2 ^ q) : ℝ) := by exact_mod_cast Int.add_one_le_of_lt c
      linarith [hn.1, hb.2]
  refine (hr.nearest x _ ⟨round (x / 2 ^ q), q, hk, rfl⟩).trans ?_
  rw [show (round (x / 2 ^ q) : ℝ) * 2 ^ q - x = -((x / 2 ^ q - round (x / 2 ^ q)) * 2 ^ q) by field_simp; ring, abs_neg, abs_mul, abs_of_pos hp]
  nlinarith

/-- rounding keeps multiples of a power of two -/
lemma Nearest.mult {x : ℝ} {q : ℤ} (h : Mult x q) : Mult (rd x) q := by
  rcases le_or_gt |x| (2 ^ 53 * 2 ^ q) with c | c
  · rwa [hr.exact (h.isFloat c)]
  · have hf : IsFloat ((2 : ℝ) ^ 53 * 2 ^ q) := isFloat_pow 53 (by norm_num) q
    have := hr.abs_le hf c.le
    have hp := two_pos q
    exact (hr.float x).mult (by linarith)

/-- the relative error -/
lemma Nearest.rel (x : ℝ) : |rd x - x| ≤ |x| / 2 ^ 53 ∧ |rd x - x| ≤ |rd x| / 2 ^ 53 := by
  by_cases h0 : x = 0
  · rw [h0, hr.zero]; simp
  · obtain ⟨q, h1, h2⟩ := exists_exp h0
    have he := hr.err h2.le
    have hf : IsFloat ((2 : ℝ) ^ 52 * 2 ^ q) := isFloat_pow 52 (by norm_num) q
    have h3 := hr.abs_le hf h1
    constructor
    · rw [le_div_iff₀ (by positivity)]; linarith
    · rw [le_div_iff₀ (by positivity)]; linarith

/-- a smaller addend: the difference of the rounded sum and the larger one is a float, and so is the error -/
lemma Nearest.fast {a b : ℝ} (ha : IsFloat a) (hb : IsFloat b) (h : |b| ≤ |a|) : IsFloat (rd (a + b) - a) ∧ IsFloat (a + b - rd (a + b)) := by
  by_cases hb0 : b = 0
  · rw [hb0, add_zero, hr.exact ha, sub_self]; exact ⟨isFloat_zero, isFloat_zero⟩
  obtain ⟨q, h1, h2⟩ := exists_exp hb0
  have hbm := hb.mult h1
  have ham := ha.mult (h1.trans h)
  have hm := hbm.add ham
  rw [add_comm] at hm
  have hrm := hr.mult hm
  have herr : |rd (a + b) - (a + b)| ≤ |b| := by
    have := hr.nearest (a + b) a ha
    rwa [show a - (a + b) = -b by ring, abs_neg] at this
  refine ⟨?_, (hm.sub hrm).isFloat (by rw [abs_sub_comm]; exact herr.trans h2.le)⟩
  by_cases hd : rd (a + b) = a + b
  · rw [hd, add_sub_cancel_left]; exact hb
  have hs : a + b ≠ 0 := fun h0 => hd (by rw [h0, hr.zero])
  obtain ⟨q', h3, h4⟩ := exists_exp hs
  have hqq : q < q' := by
    by_contra c
    push Not at c
    exact hd (hr.exact ((hm.weaken c).isFloat h4.le))
  have hf : IsFloat ((2 : ℝ) ^ 52 * 2 ^ q') := isFloat_pow 52 (by norm_num) q'
  have hrq : Mult (rd (a + b)) q' := (hr.float _).mult (hr.abs_le hf h3)
  have ha2 : (2 : ℝ) ^ 52 * 2 ^ (q' - 1) ≤ |a| := by
    have := abs_add_le a b
    rw [two_sub_one]; linarith
  have hmm : Mult (rd (a + b) - a) (q' - 1) := (hrq.weaken (by omega)).sub (ha.mult ha2)
  refine hmm.isFloat ?_
  have he := hr.err h4.le
  have hbb : |b| ≤ (2 ^ 53 - 1) * 2 ^ q := by
    obtain ⟨m, rfl⟩ := hbm
    rw [abs_mul, abs_of_pos (two_pos q)] at h2 ⊢
    have h5 := lt_of_mul_lt_mul_right h2 (two_pos q).le
    have h6 : |m| < 2 ^ 53 := by exact_mod_cast h5
    have h7 : |m| ≤ 2 ^ 53 - 1 := by omega
    have h8 : |(m : ℝ)| ≤ 2 ^ 53 - 1 := by exact_mod_cast h7
    exact mul_le_mul_of_nonneg_right h8 (two_pos q).le
  have hq2 : (2 : ℝ) ^ q ≤ 2 ^ (q' - 1) := zpow_le_zpow_right₀ (by norm_num) (by omega)
  have h9 : |rd (a + b) - a| ≤ |rd (a + b) - (a + b)| + |b| := by
    rw [show rd (a + b) - a = (rd (a + b) - (a + b)) + b by ring]; exact abs_add_le _ _
  rw [two_sub_one] at *
  nlinarith

omit hr in
/-- rounding to nearest exists -/
theorem exists_nearest : ∃ rd, Nearest rd := by
  have key : ∀ x : ℝ, ∃ z, IsFloat z ∧ ∀ y, IsFloat y → |z - x| ≤ |y - x| := by
    intro x
    by_cases h0 : x = 0
    · exact ⟨0, isFloat_zero, fun y _ => by rw [h0, sub_self, abs_zero]; exact abs_nonneg _⟩
    obtain ⟨q, h1, h2⟩ := exists_exp h0
    have hp := two_pos q
    have near : ∀ m : ℤ, |(round (x / 2 ^ q) : ℝ) * 2 ^ q - x| ≤ |(m : ℝ) * 2 ^ q - x| := by
      intro m
      have := round_le (x / 2 ^ q) m
      have e : ∀ c : ℝ, |c * 2 ^ q - x| = |x / 2 ^ q - c| * 2 ^ q := by
        intro c
        rw [← abs_of_pos hp, ← abs_mul, abs_of_pos hp, ← abs_neg]
        congr 1
        field_simp
        ring
      rw [e, e]
      exact mul_le_mul_of_nonneg_right this hp.le
    have hb : |x / 2 ^ q| ≤ 2 ^ 53 := by
      rw [abs_div, abs_of_pos hp, div_le_iff₀ hp]; exact h2.le
    have hk : |round (x / 2 ^ q)| ≤ (2 : ℤ) ^ 53 := by
      have hn : |x / 2 ^ q - round (x / 2 ^ q)| ≤ 1 / 2 := abs_sub_round _
      rw [_root_.abs_le] at hb hn ⊢
      constructor
      · by_contra c
        push Not at c
        have : (round (x / 2 ^ q) : ℝ) ≤ -2 ^ 53 - 1 := by exact_mod_cast Int.le_sub_one_of_lt c
        linarith [hn.2, hb.1]
      · by_contra c
        push Not at c
        have : (2 : ℝ) ^ 53 + 1 ≤ (round (x / 2 ^ q) : ℝ) := by exact_mod_cast Int.add_one_le_of_lt c
        linarith [hn.1, hb.2]
    refine ⟨(round (x / 2 ^ q) : ℝ) * 2 ^ q, ⟨_, _, hk, rfl⟩, fun y hy => ?_⟩
    rcases le_or_gt (2 ^ 52 * 2 ^ q) |y| with c | c
    · obtain ⟨m, rfl⟩ := hy.mult c
      exact near m
    · rw [abs_lt] at c
      rcases abs_choice x with hx | hx
      · refine (near (2 ^ 52)).trans ?_
        rw [hx] at h1
        push_cast
        rw [abs_of_nonpos (by linarith), abs_of_nonpos (by linarith)]
        linarith
      · refine (near (-2 ^ 52)).trans ?_
        rw [hx] at h1
        push_cast
        rw [abs_of_nonneg (by linarith), abs_of_nonneg (by linarith)]
        linarith
  exact ⟨fun x => (key x).choose, fun x => (key x).choose_spec.1, fun x y hy => (key x).choose_spec.2 y hy⟩

end Verif.Float
