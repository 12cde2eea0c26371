import Verif.Props.DoubleDouble
import Mathlib.Tactic

/-! C126, continued: roots and powers of double-doubles in floating point. -/

namespace Verif.DD
open Verif Verif.Float

variable {rd : ℝ → ℝ} (hr : Nearest rd)
include hr

/-- half of a float is a float -/
lemma half_float {x : ℝ} (h : IsFloat x) : IsFloat (x * 0.5) := by
  obtain ⟨k, q, hk, rfl⟩ := h
  exact ⟨k, q - 1, hk, by rw [two_sub_one]; ring⟩

omit hr in
/-- a square close to a number is that of a root close to its root -/
lemma root_close {v X c : ℝ} (hv : 0 < v) (hX : 0 < X) (h : |v ^ 2 - X| ≤ c * X) : |v - √X| ≤ c * √X := by
  have hq : 0 < √X := Real.sqrt_pos.2 hX
  have hqq : √X * √X = X := Real.mul_self_sqrt hX.le
  have hf : v ^ 2 - X = (v - √X) * (v + √X) := by
    have : v ^ 2 - √X * √X = (v - √X) * (v + √X) := by ring
    rwa [hqq] at this
  rw [hf, abs_mul, abs_of_pos (by linarith : 0 < v + √X)] at h
  have h5 : |v - √X| * √X ≤ |v - √X| * (v + √X) := by
    gcongr; linarith
  have h6 : c * X = c * √X * √X := by rw [mul_assoc, hqq]
  rw [h6] at h
  exact le_of_mul_le_mul_right (h5.trans h) hq

omit hr in
lemma root_pos {r e x : ℝ} (hrpos : 0 < r) (b5 : |e * r| ≤ (1.5 / 2 ^ 53 + 8 / 2 ^ 106) * x) (hr2 : (1 - 3 / 2 ^ 53) * x ≤ r * r) (hx : 0 < x) : 0 < r + e := by
  have h1 : |e * r| < r * r := by linarith
  rw [abs_mul, abs_of_pos hrpos] at h1
  have h2 := lt_of_mul_lt_mul_right h1 hrpos.le
  linarith [neg_abs_le e]

/-- C126: the square root of a positive number: its square is within `14 / 2^106` of the number, relatively, and so is the root of the exact root; it is normalised. The root of 0 is 0 and a negative
number raises ValueError. -/
theorem C126_sqrt {x y : ℝ} (h : IsDD rd x y) :
    (0 < x → ∃ a b, sqrt_dd rd x y = .ok (a, b) ∧ IsDD rd a b ∧ 0 < a + b ∧ |(a + b) ^ 2 - (x + y)| ≤ 14 / 2 ^ 106 * (x + y) ∧ |a + b - √(x + y)| ≤ 14 / 2 ^ 106 * √(x + y)) ∧
    (x = 0 → sqrt_dd rd x y = .ok (0, 0)) ∧ (x < 0 → sqrt_dd rd x y = .error .valueError) := by
  refine ⟨fun hx => ?_, fun h => by unfold sqrt_dd; rw [if_pos h], fun h => by
    unfold sqrt_dd; rw [if_neg h.ne]; unfold psqrt; rw [if_pos h]; rfl⟩
  have s0 := h.small hr
  rw [abs_of_pos hx] at s0
  unfold sqrt_dd
  rw [if_neg hx.ne', psqrt_ok hx.le, Py.ok_bind]
  dsimp only
  set p := √x with hp
  have hpp : 0 < p := Real.sqrt_pos.2 hx
  have hsq : p * p = x := Real.mul_self_sqrt hx.le
  set r := rd p with hrr
  have j := (hr.rel p).1
  rw [← hrr, abs_of_pos hpp, abs_le] at j
  have hrpos : 0 < r := by linarith [j.1]
  rw [sqErr_exact hr (hr.float p)]
  have j0 : |r * r - x| ≤ (2 / 2 ^ 53 + 1 / 2 ^ 106) * x := by
    rw [← hsq, abs_le]
    constructor
    · have : ((1 - 1 / 2 ^ 53) * p) * ((1 - 1 / 2 ^ 53) * p) ≤ r * r := mul_self_le_mul_self (by linarith) (by linarith)
      nlinarith [mul_pos hpp hpp]
    · have : r * r ≤ ((1 + 1 / 2 ^ 53) * p) * ((1 + 1 / 2 ^ 53) * p) := mul_self_le_mul_self hrpos.le (by linarith)
      nlinarith [mul_pos hpp hpp]
  have hRb : |r * r| ≤ (1 + 3 / 2 ^ 53) * x := by
    rw [abs_le] at *
    constructor <;> linarith [j0.1, j0.2]
  set s := rd (r * r) with hs
  have j1 := round_within hr hRb
  rw [← hs] at j1
  have b1 : |x - s| ≤ (3 / 2 ^ 53 + 4 / 2 ^ 106) * x := by
    rw [abs_le] at *
    constructor <;> linarith [j0.1, j0.2, j1.1, j1.2]
  have j2 := round_within hr b1
  set d1 := rd (x - s)
  have b2 : |d1 - (r * r - s)| ≤ (2 / 2 ^ 53 + 5 / 2 ^ 106) * x := by
    rw [abs_le] at *
    constructor <;> linarith [j0.1, j0.2, j2.1, j2.2]
  have j3 := round_within hr b2
  set d2 := rd (d1 - (r * r - s))
  have b3 : |d2 + y| ≤ (3 / 2 ^ 53 + 8 / 2 ^ 106) * x := by
    rw [abs_le] at *
    constructor <;> linarith [j3.1, j3.2, b2.1, b2.2, s0.1, s0.2]
  have j4 := round_within hr b3
  have fd3 : IsFloat (rd (d2 + y)) := hr.float _
  set d3 := rd (d2 + y)
  have b4 : |d3| ≤ (3 / 2 ^ 53 + 12 / 2 ^ 106) * x := by
    rw [abs_le] at *
    constructor <;> linarith [j4.1, j4.2, b3.1, b3.2]
  rw [hr.exact (half_float hr fd3), pdiv_ok hrpos.ne', Py.ok_bind]
  set e := rd (d3 * 0.5 / r) with he
  have j5 : |2 * (e * r) - d3| ≤ (3 / 2 ^ 106 + 12 / 2 ^ 159) * x := by
    have := (hr.rel (d3 * 0.5 / r)).1
    rw [show 2 * (e * r) - d3 = (e - d3 * 0.5 / r) * (2 * r) by field_simp; ring, abs_mul, abs_of_pos (by positivity : 0 < 2 * r)]
    calc |e - d3 * 0.5 / r| * (2 * r) ≤ |d3 * 0.5 / r| / 2 ^ 53 * (2 * r) := by gcongr
      _ = |d3| / 2 ^ 53 := by
        rw [abs_div, abs_mul, abs_of_pos hrpos, abs_of_pos (by norm_num : (0 : ℝ) < 0.5)]; field_simp; ring
      _ ≤ _ := by linarith
  have b5 : |e * r| ≤ (1.5 / 2 ^ 53 + 8 / 2 ^ 106) * x := by
    rw [abs_le] at *
    constructor <;> linarith [j5.1, j5.2, b4.1, b4.2]
  have hr2 : (1 - 3 / 2 ^ 53) * x ≤ r * r := by
    rw [abs_le] at j0; linarith [j0.1]
  have hsm : |e| ≤ |r| := by
    have h2 : |e * r| ≤ |r * r| := by
      rw [abs_of_pos (mul_pos hrpos hrpos)]; linarith
    rw [abs_mul, abs_mul] at h2
    exact le_of_mul_le_mul_right h2 (abs_pos.2 hrpos.ne')
  have be : e * e ≤ 2.3 / 2 ^ 106 * x := by
    clear_value d3 d2 d1 s r p e
    have h1 : (e * r) * (e * r) ≤ ((1.5 / 2 ^ 53 + 8 / 2 ^ 106) * x) * ((1.5 / 2 ^ 53 + 8 / 2 ^ 106) * x) := by
      have := abs_mul_abs_self (e * r)
      rw [← this]
      exact mul_self_le_mul_self (abs_nonneg _) b5
    by_contra hc
    push Not at hc
    have h2 : 2.3 / 2 ^ 106 * x * ((1 - 3 / 2 ^ 53) * x) < e * e * (r * r) := mul_lt_mul_of_pos_of_nonneg' hc hr2 (by positivity) (mul_self_nonneg _)
    have h3 : e * e * (r * r) = (e * r) * (e * r) := by ring
    nlinarith [mul_pos hx hx]
  obtain ⟨a, b, hab, hd, hv⟩ := renorm_dd hr (hr.float p) (hr.float (d3 * 0.5 / r)) hsm
  rw [← hrr, ← he] at hab hv
  have hN : |(a + b) ^ 2 - (x + y)| ≤ (13.3 / 2 ^ 106 + 100 / 2 ^ 159) * x := by
    rw [hv]
    have : (r + e) ^ 2 - (x + y) = (2 * (e * r) - d3) + (d3 - (d2 + y)) + (d2 - (d1 - (r * r - s))) + (d1 - (x - s)) + e * e := by ring
    rw [this]
    have := mul_self_nonneg e
    rw [abs_le] at *
    constructor <;> linarith [j5.1, j5.2, j4.1, j4.2, j3.1, j3.2, j2.1, j2.2]
  rw [abs_le] at s0
  have hX : (1 - 1 / 2 ^ 53) * x ≤ x + y := by linarith [s0.1]
  have hXp : 0 < x + y := lt_of_lt_of_le (mul_pos (by norm_num) hx) hX
  have hN' : |(a + b) ^ 2 - (x + y)| ≤ 14 / 2 ^ 106 * (x + y) := hN.trans (by
    clear_value d3 d2 d1 s r p e
    linarith)
  have hab0 : 0 < a + b := by
    rw [hv]
    exact root_pos hrpos b5 hr2 hx
  exact ⟨a, b, by rw [hab]; rfl, hd, hab0, hN', root_close hab0 hXp hN'⟩

/-! ### Powers -/

omit hr in
/-- `v` is `X` but for a factor made of `k` relative errors of at most `9 / 2^106` -/
def Approx (v X : ℝ) (k : ℕ) : Prop := ∃ p : ℝ, v = X * p ∧ (1 - 9 / 2 ^ 106) ^ k ≤ p ∧ p ≤ (1 + 9 / 2 ^ 106) ^ k

omit hr in
lemma Approx.mul {v w X Y z : ℝ} {k l : ℕ} (hv : Approx v X k) (hw : Approx w Y l) (hz : |z - v * w| ≤ 9 / 2 ^ 106 * |v * w|) : Approx z (X * Y) (k + l + 1) := by
  obtain ⟨p, rfl, p1, p2⟩ := hv
  obtain ⟨q, rfl, q1, q2⟩ := hw
  have hp : 0 < p := lt_of_lt_of_le (by positivity) p1
  have hq : 0 < q := lt_of_lt_of_le (by positivity) q1
  have l1 : (1 - 9 / 2 ^ 106 : ℝ) ^ k * (1 - 9 / 2 ^ 106) ^ l ≤ p * q := mul_le_mul p1 q1 (by positivity) hp.le
  have l2 : p * q ≤ (1 + 9 / 2 ^ 106 : ℝ) ^ k * (1 + 9 / 2 ^ 106) ^ l := mul_le_mul p2 q2 hq.le (by positivity)
  have hpq := mul_pos hp hq
  by_cases h0 : X * Y = 0
  · have e : X * p * (Y * q) = 0 := by rw [show X * p * (Y * q) = X * Y * (p * q) by ring, h0, zero_mul]
    rw [e, abs_zero, mul_zero, sub_zero] at hz
    have : z = 0 := abs_eq_zero.1 (le_antisymm hz (abs_nonneg _))
    refine ⟨p * q, by rw [this, h0, zero_mul], ?_, ?_⟩
    · rw [pow_succ, pow_add]
      exact le_trans (mul_le_of_le_one_right (by positivity) (by norm_num)) l1
    · rw [pow_succ, pow_add]
      exact l2.trans (le_mul_of_one_le_right (by positivity) (by norm_num))
  · have hW : X * p * (Y * q) ≠ 0 := by
      rw [show X * p * (Y * q) = X * Y * (p * q) by ring]
      exact mul_ne_zero h0 hpq.ne'
    have hc : |z / (X * p * (Y * q)) - 1| ≤ 9 / 2 ^ 106 := by
      rw [show z / (X * p * (Y * q)) - 1 = (z - X * p * (Y * q)) / (X * p * (Y * q)) by rw [sub_div, div_self hW], abs_div, div_le_iff₀ (abs_pos.2 hW)]
      exact hz
    rw [abs_le] at hc
    set c := z / (X * p * (Y * q)) with hcd
    refine ⟨p * q * c, ?_, ?_, ?_⟩
    · rw [show X * Y * (p * q * c) = X * p * (Y * q) * c by ring, hcd, mul_div_cancel₀ _ hW]
    · rw [pow_succ, pow_add]
      exact mul_le_mul l1 (by linarith) (by norm_num) hpq.le
    · rw [pow_succ, pow_add]
      exact mul_le_mul l2 (by linarith) (by linarith) (by positivity)

/-- the loop of the integer power: `k` errors for the product so far, `l` for each factor left, and one for each multiplication -/
lemma loop_approx (i : ℕ) : ∀ {b p : ℝ × ℝ} {B P : ℝ} {k l : ℕ}, IsDD rd b.1 b.2 → IsDD rd p.1 p.2 → Approx (b.1 + b.2) B l → Approx (p.1 + p.2) P k →
    IsDD rd (intpowLoop rd i b p).1 (intpowLoop rd i b p).2 ∧ Approx ((intpowLoop rd i b p).1 + (intpowLoop rd i b p).2) (P * B ^ i) (k + i * (l + 1)) := by
  induction i using Nat.strong_induction_on with
  | _ i ih =>
    intro b p B P k l db dp hb hp
    rw [intpowLoop]
    set p' := if i % 2 = 1 then mul_dd rd p.1 p.2 b.1 b.2 else p with hp'
    have key : IsDD rd p'.1 p'.2 ∧ Approx (p'.1 + p'.2) (P * B ^ (i % 2)) (k + (i % 2) * (l + 1)) := by
      rcases Nat.mod_two_eq_zero_or_one i with h | h
      · rw [hp', if_neg (by omega), h]
        simpa using ⟨dp, hp⟩
      · rw [hp', if_pos h, h]
        have := C126_mul hr dp db
        refine ⟨this.2, ?_⟩
        have h3 := hp.mul hb this.1
        simpa [add_assoc] using h3
    split_ifs with h
    · have : i % 2 = i := by omega
      rwa [this] at key
    · have hsq := C126_mul hr db db
      have h3 := hb.mul hb hsq.1
      have h4 := ih (i / 2) (by omega) hsq.2 key.1 h3 key.2
      refine ⟨h4.1, ?_⟩
      have e1 : P * B ^ (i % 2) * (B * B) ^ (i / 2) = P * B ^ i := by
        rw [← pow_two, ← pow_mul, mul_assoc, ← pow_add, Nat.mod_add_div]
      have e2 : k + i % 2 * (l + 1) + i / 2 * (l + l + 1 + 1) = k + i * (l + 1) := by
        have := Nat.mod_add_div i 2
        calc k + i % 2 * (l + 1) + i / 2 * (l + l + 1 + 1) = k + (i % 2 + 2 * (i / 2)) * (l + 1) := by ring
          _ = _ := by rw [this]
      rw [e1, e2] at h4
      exact h4.2

lemma dd_one : IsDD rd 1 0 := by
  have h1 : IsFloat (1 : ℝ) := ⟨1, 0, by norm_num, by simp⟩
  exact ⟨isFloat_zero, by rw [add_zero, hr.exact h1]⟩

/-- C126: integer powers of a normalised number: `n ≥ 0` makes at most `n` relative errors of `9 / 2^106`; a negative power is the reciprocal of the positive one, with one more of `16 / 2^106`; the 0th
power is 1; a negative power of zero raises ZeroDivisionError. -/
theorem C126_intpow {r e : ℝ} (h : IsDD rd r e) (n : ℕ) :
    (∃ a b, intpow_dd rd r e n = .ok (a, b) ∧ IsDD rd a b ∧ Approx (a + b) ((r + e) ^ n) n) ∧
    intpow_dd rd r e 0 = .ok (1, 0) ∧
    (0 < n → r ≠ 0 → ∃ a b w, intpow_dd rd r e (-n) = .ok (a, b) ∧ IsDD rd a b ∧ Approx w ((r + e) ^ n) n ∧ w ≠ 0 ∧ |a + b - 1 / w| ≤ 16 / 2 ^ 106 * |1 / w|) ∧
    (0 < n → r = 0 → intpow_dd rd r e (-n) = .error .zeroDivisionError) := by
  have hl := loop_approx hr n (b := (r, e)) (p := (1, 0)) (B := r + e) (P := 1) (k := 0) (l := 0) h (dd_one hr) ⟨1, by simp, by simp, by simp⟩ ⟨1, by simp, by simp, by simp⟩
  rw [zero_add, zero_add, mul_one, one_mul] at hl
  set v := intpowLoop rd n (r, e) (1, 0) with hv
  refine ⟨⟨v.1, v.2, ?_, hl⟩, ?_, fun hn hne => ?_, fun hn h0 => ?_⟩
  · unfold intpow_dd
    simp only [Int.natAbs_natCast]
    rw [if_neg (by omega)]
  · unfold intpow_dd
    rw [intpowLoop]
    simp
  · have hw : v.1 + v.2 ≠ 0 := by
      obtain ⟨q, hq, q1, -⟩ := hl.2
      have hqp : 0 < q := lt_of_lt_of_le (by positivity) q1
      have hre : r + e ≠ 0 := by
        intro h0
        have := h.2
        rw [h0, hr.zero] at this
        exact hne this
      rw [hq]
      exact mul_ne_zero (pow_ne_zero _ hre) hqp.ne'
    have hv1 : v.1 ≠ 0 := by
      intro h0
      have h2 := hl.1.small hr
      rw [h0, abs_zero, zero_div] at h2
      have : v.2 = 0 := abs_eq_zero.1 (le_antisymm h2 (abs_nonneg _))
      exact hw (by rw [h0, this, add_zero])
    obtain ⟨a, b, h1, h2, h3⟩ := (C126_div hr (dd_one hr) hl.1).1 hv1
    refine ⟨a, b, v.1 + v.2, ?_, h2, hl.2, hw, by simpa using h3⟩
    unfold intpow_dd
    simp only [Int.natAbs_neg, Int.natAbs_natCast]
    rw [if_pos (by omega), ← hv, h1]
  · have hv0 : v.1 = 0 := by
      have he : e = 0 := by
        have h2 := h.small hr
        rw [h0, abs_zero, zero_div] at h2
        exact abs_eq_zero.1 (le_antisymm h2 (abs_nonneg _))
      obtain ⟨q, hq, -, -⟩ := hl.2
      rw [h0, he, add_zero, zero_pow (by omega), zero_mul] at hq
      rw [hl.1.2, hq, hr.zero]
    unfold intpow_dd
    simp only [Int.natAbs_neg, Int.natAbs_natCast]
    rw [if_pos (by omega), ← hv, hv0]
    unfold div_dd
    rw [pdiv_zero]
    rfl

/-- C126: the cube: the relative error is at most `17 / 2^106` and the result is normalised; `cbrt_explicit_dd` is `cbrt_dd` with this function written out, for every rounding. -/
theorem C126_cube {x y : ℝ} (h : IsDD rd x y) :
    let v := cube_dd rd x y;
    |v.1 + v.2 - (x + y) ^ 3| ≤ 17 / 2 ^ 106 * |(x + y) ^ 3| ∧ IsDD rd v.1 v.2 := by
  have hx := h.float hr
  have s0 := h.small hr
  extract_lets v
  obtain ⟨hq, dq⟩ := C126_square hr h
  set a := (square_dd rd x y).1 with ha
  set b := (square_dd rd x y).2 with hb
  have hqa := dq.float hr
  have s1 := dq.small hr
  have hvd : v = renorm rd (rd (x * a)) (rd (rd (x * a - rd (x * a) + rd (x * b)) + rd (y * a))) := by
    simp only [v, cube_dd]
    rw [← ha, ← hb, prodErr_exact hr hx hqa]
  clear_value v a b
  set A := |x * a| with hA
  have hA0 : 0 ≤ A := abs_nonneg _
  have hA' : A = |x| * |a| := abs_mul _ _
  have c1 : |x * b| ≤ A / 2 ^ 53 := by
    rw [abs_mul, hA', mul_div_assoc]; gcongr
  have c2 : |y * a| ≤ A / 2 ^ 53 := by
    rw [abs_mul, hA', mul_div_right_comm]; gcongr
  have c3 : |y * b| ≤ A / 2 ^ 106 := by
    rw [abs_mul, hA', show |x| * |a| / 2 ^ 106 = (|x| / 2 ^ 53) * (|a| / 2 ^ 53) by ring]
    gcongr
  have k0 := round_within hr hA.ge
  have k1 := round_within hr c1
  have k2 := round_within hr c2
  set r := rd (x * a) with hrr
  set p1 := rd (x * b)
  set p2 := rd (y * a)
  have k3 : |x * a - r + p1| ≤ (2 / 2 ^ 53 + 1 / 2 ^ 106) * A := by
    rw [abs_le] at *
    constructor <;> linarith [k0.1, k0.2, k1.1, k1.2, c1.1, c1.2]
  have k4 := round_within hr k3
  set t := rd (x * a - r + p1)
  have k5 : |t + p2| ≤ (3 / 2 ^ 53 + 5 / 2 ^ 106) * A := by
    rw [abs_le] at *
    constructor <;> linarith [k3.1, k3.2, k4.1, k4.2, k2.1, k2.2, c2.1, c2.2]
  have k6 := round_within hr k5
  have fe : IsFloat (rd (t + p2)) := hr.float _
  have fr : IsFloat r := hr.float _
  set e := rd (t + p2) with hee
  have hsm : |e| ≤ |r| := by
    have h1 : A ≤ |r - x * a| + |r| := by
      have h3 := abs_add_le (x * a - r) r
      rw [sub_add_cancel, abs_sub_comm] at h3
      exact h3
    have h2 : |e| ≤ 4 / 2 ^ 53 * A := by
      rw [abs_le] at *
      constructor <;> linarith [k5.1, k5.2, k6.1, k6.2]
    linarith
  obtain ⟨z, w, hab, hd, hv⟩ := renorm_dd hr fr fe hsm
  rw [hvd, hab]
  refine ⟨?_, hd⟩
  dsimp only
  rw [hv]
  have hX : (1 - 3 / 2 ^ 53) * A ≤ |(x + y) * (a + b)| := by
    have h1 : A ≤ |(x + y) * (a + b)| + |x * b + y * a + y * b| := by
      have h3 := abs_sub ((x + y) * (a + b)) (x * b + y * a + y * b)
      rwa [show (x + y) * (a + b) - (x * b + y * a + y * b) = x * a by ring] at h3
    have h2 : |x * b + y * a + y * b| ≤ (2 / 2 ^ 53 + 1 / 2 ^ 106) * A := by
      rw [abs_le] at *
      constructor <;> linarith [c1.1, c1.2, c2.1, c2.2, c3.1, c3.2]
    linarith
  have hE : |r + e - (x + y) * (a + b)| ≤ (8 / 2 ^ 106 + 7 / 2 ^ 159) * A := by
    have : r + e - (x + y) * (a + b) = (e - (t + p2)) + (t - (x * a - r + p1)) + (p1 - x * b) + (p2 - y * a) - y * b := by ring
    rw [this]
    clear_value e t p1 p2 r
    rw [abs_le] at *
    constructor <;> linarith [k6.1, k6.2, k4.1, k4.2, k1.1, k1.2, k2.1, k2.2, c3.1, c3.2]
  clear_value e t p1 p2 r
  have h9 : |r + e - (x + y) * (a + b)| ≤ 9 / 2 ^ 106 * |(x + y) * (a + b)| := by linarith
  have h7 : |(x + y) * (a + b) - (x + y) ^ 3| ≤ 7 / 2 ^ 106 * |(x + y) ^ 3| := by
    rw [show (x + y) * (a + b) - (x + y) ^ 3 = (x + y) * (a + b - (x + y) ^ 2) by ring, abs_mul, show |(x + y) ^ 3| = |x + y| * (x + y) ^ 2 by rw [pow_succ', abs_mul, abs_of_nonneg (sq_nonneg (x + y))],
      show 7 / 2 ^ 106 * (|x + y| * (x + y) ^ 2) = |x + y| * (7 / 2 ^ 106 * (x + y) ^ 2) by ring]
    gcongr
  have h8 : |(x + y) * (a + b)| ≤ (1 + 7 / 2 ^ 106) * |(x + y) ^ 3| := by
    have h3 := abs_add_le ((x + y) * (a + b) - (x + y) ^ 3) ((x + y) ^ 3)
    rw [sub_add_cancel] at h3
    linarith
  have h10 := abs_sub_le (r + e) ((x + y) * (a + b)) ((x + y) ^ 3)
  have := abs_nonneg ((x + y) ^ 3)
  linarith

omit hr in
/-- C126: the two cube roots are one function: for every rounding, guess and number. -/
theorem C126_cbrt_explicit (rd : ℝ → ℝ) (y xr xe : ℝ) : cbrt_explicit_dd rd y xr xe = cbrt_dd rd y xr xe := by
  have h : ∀ a b, cubeInline rd a b = cube_dd rd a b := fun a b => by
    simp only [cubeInline, cube_dd, square_dd, sqErr, prodErr, hi, renorm]
  simp only [cbrt_explicit_dd, cbrt_dd, cbrtStep1, cbrtStep2, h]

/-- a normalised number with a nonzero second part -/
lemma dd_example : IsDD rd 1 (1 / 2 ^ 60) := by
  have f1 : IsFloat (1 : ℝ) := ⟨1, 0, by norm_num, by simp⟩
  refine ⟨⟨1, -60, by norm_num, by norm_num⟩, ?_⟩
  have h1 := hr.le f1 (x := 1 + 1 / 2 ^ 60) (by norm_num)
  have h2 := hr.nearest (1 + 1 / 2 ^ 60) 1 f1
  rw [show (1 : ℝ) - (1 + 1 / 2 ^ 60) = -(1 / 2 ^ 60) by ring, abs_neg, abs_of_pos (show (0 : ℝ) < 1 / 2 ^ 60 by norm_num)] at h2
  obtain ⟨m, hm⟩ := (hr.float (1 + 1 / 2 ^ 60)).mult (q := -52) (by
    refine le_trans (le_trans (le_of_eq ?_) h1) (le_abs_self _)
    norm_num)
  rw [abs_le] at h2
  have e : (2 : ℝ) ^ (-52 : ℤ) = 1 / 2 ^ 52 := by norm_num
  rw [e] at hm
  have h3 : (m : ℝ) < 2 ^ 52 + 1 := by
    rw [hm] at h2
    norm_num at h2 ⊢
    linarith [h2.2]
  have h4 : (2 : ℝ) ^ 52 ≤ m := by
    rw [hm] at h1
    norm_num at h1 ⊢
    linarith
  have h5 : m < 2 ^ 52 + 1 := by exact_mod_cast h3
  have h6 : 2 ^ 52 ≤ m := by exact_mod_cast h4
  obtain rfl : m = 2 ^ 52 := by omega
  rw [hm]
  norm_num

omit hr in
/-- the hypotheses are met by round-to-nearest and a number that is no float -/
example : ∃ rd, Nearest rd ∧ IsDD rd 1 (1 / 2 ^ 60) := exists_nearest.imp fun _ h => ⟨h, dd_example h⟩

end Verif.DD
