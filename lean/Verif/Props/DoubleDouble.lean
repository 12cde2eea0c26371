import Verif.Lemmas.Dekker
import Mathlib.Tactic

/-! C126: double-double arithmetic, in binary floating point with 53 digits and rounding to nearest. -/

namespace Verif.DD
open Verif Verif.Float

/-- a normalised double-double: the first part is the float nearest to the value `r + e` -/
def IsDD (rd : ℝ → ℝ) (r e : ℝ) : Prop := IsFloat e ∧ r = rd (r + e)

variable {rd : ℝ → ℝ} (hr : Nearest rd)
include hr

lemma IsDD.float {r e : ℝ} (h : IsDD rd r e) : IsFloat r := by rw [h.2]; exact hr.float _

lemma IsDD.small {r e : ℝ} (h : IsDD rd r e) : |e| ≤ |r| / 2 ^ 53 := by
  have := (hr.rel (r + e)).2
  rwa [← h.2, show r - (r + e) = -e by ring, abs_neg] at this

lemma mono {x y : ℝ} (h : x ≤ y) : rd x ≤ rd y := by
  by_contra c
  push Not at c
  rcases h.lt_or_eq with h | h
  · have h1 := hr.nearest x (rd y) (hr.float y)
    have h2 := hr.nearest y (rd x) (hr.float x)
    have h3 : x ≥ (rd x + rd y) / 2 := by
      by_contra hc
      push Not at hc
      rcases abs_cases (rd x - x) with e | e <;> rcases abs_cases (rd y - x) with e' | e' <;> linarith
    have h4 : y ≤ (rd x + rd y) / 2 := by
      by_contra hc
      push Not at hc
      rcases abs_cases (rd x - y) with e | e <;> rcases abs_cases (rd y - y) with e' | e' <;> linarith
    linarith
  · rw [h] at c; exact lt_irrefl _ c

/-- a renormalised pair is normalised -/
lemma renorm_dd {r e : ℝ} (h0 : IsFloat r) (h1 : IsFloat e) (h : |e| ≤ |r|) : ∃ a b, renorm rd r e = (a, b) ∧ IsDD rd a b ∧ a + b = r + e := by
  refine ⟨_, _, renorm_exact hr h0 h1 h, ⟨(hr.fast h0 h1 h).2, ?_⟩, by ring⟩
  rw [add_sub_cancel]

/-! ### Exact results -/

/-- C126: the sum of two floats is exact: the first part is the rounded sum and the second its rounding error. -/
theorem C126_sum_exact {x0 x1 : ℝ} (h0 : IsFloat x0) (h1 : IsFloat x1) :
    ∃ r e, add_dd rd x0 0 x1 0 = (r, e) ∧ r + e = x0 + x1 ∧ r = rd (x0 + x1) ∧ IsDD rd r e := by
  have f2 : IsFloat (x0 + x1 - rd (x0 + x1)) := by
    rcases le_total |x1| |x0| with c | c
    · exact (hr.fast h0 h1 c).2
    · have := (hr.fast h1 h0 c).2
      rwa [add_comm x1 x0] at this
  have hs : |x0 + x1 - rd (x0 + x1)| ≤ |rd (x0 + x1)| := by
    have := (hr.rel (x0 + x1)).2
    rw [abs_sub_comm] at this
    have h3 := abs_nonneg (rd (x0 + x1))
    exact this.trans (by rw [div_le_iff₀ (by positivity)]; nlinarith)
  have e := renorm_exact hr (hr.float (x0 + x1)) f2 hs
  rw [add_sub_cancel] at e
  refine ⟨rd (x0 + x1), x0 + x1 - rd (x0 + x1), ?_, by ring, rfl, f2, by rw [add_sub_cancel]⟩
  unfold add_dd
  dsimp only
  rw [twoSum_exact hr h0 h1, add_zero, hr.zero, add_zero, hr.exact f2, e]

/-- the error of a product is a float -/
lemma prod_err_float {x y : ℝ} (hx : IsFloat x) (hy : IsFloat y) : IsFloat (x * y - rd (x * y)) := by
  rw [← prodErr_exact hr hx hy]
  unfold prodErr
  exact hr.float _

lemma prod_err_small (z : ℝ) : |z - rd z| ≤ |rd z| := by
  have := (hr.rel z).2
  rw [abs_sub_comm] at this
  have h3 := abs_nonneg (rd z)
  exact this.trans (by rw [div_le_iff₀ (by positivity)]; nlinarith)

/-- C126: the product of two floats is exact, with the same two parts from all three functions that compute it, and the square is the product of a number with itself. -/
theorem C126_product_exact {x0 x1 : ℝ} (h0 : IsFloat x0) (h1 : IsFloat x1) :
    (∃ r e, mul_noerrors_dd rd x0 x1 = (r, e) ∧ r + e = x0 * x1 ∧ r = rd (x0 * x1) ∧ IsDD rd r e) ∧
    mul_dd rd x0 0 x1 0 = mul_noerrors_dd rd x0 x1 ∧ square_dd rd x0 0 = mul_noerrors_dd rd x0 x0 := by
  have key : ∀ {x y : ℝ}, IsFloat x → IsFloat y → renorm rd (rd (x * y)) (x * y - rd (x * y)) = (rd (x * y), x * y - rd (x * y)) := by
    intro x y hx hy
    have e := renorm_exact hr (hr.float (x * y)) (prod_err_float hr hx hy) (prod_err_small hr _)
    rwa [add_sub_cancel] at e
  refine ⟨⟨rd (x0 * x1), x0 * x1 - rd (x0 * x1), ?_, by ring, rfl, prod_err_float hr h0 h1, by rw [add_sub_cancel]⟩, ?_, ?_⟩
  · unfold mul_noerrors_dd
    dsimp only
    rw [prodErr_exact hr h0 h1]
  · unfold mul_noerrors_dd mul_dd
    dsimp only
    rw [prodErr_exact hr h0 h1, mul_zero, zero_mul, hr.zero, add_zero, hr.zero, add_zero, hr.exact (prod_err_float hr h0 h1), key h0 h1]
  · unfold mul_noerrors_dd square_dd
    dsimp only
    rw [prodErr_exact hr h0 h0, sqErr_exact hr h0, mul_zero, hr.zero, add_zero, hr.exact (prod_err_float hr h0 h0), key h0 h0]

/-- C126: the six comparisons of normalised double-doubles are those of their values. -/
theorem C126_compare {r0 e0 r1 e1 : ℝ} (h0 : IsDD rd r0 e0) (h1 : IsDD rd r1 e1) :
    (eq_dd r0 e0 r1 e1 ↔ r0 + e0 = r1 + e1) ∧ (neq_dd r0 e0 r1 e1 ↔ r0 + e0 ≠ r1 + e1) ∧ (lt_dd r0 e0 r1 e1 ↔ r0 + e0 < r1 + e1) ∧
    (le_dd r0 e0 r1 e1 ↔ r0 + e0 ≤ r1 + e1) ∧ (gt_dd r0 e0 r1 e1 ↔ r0 + e0 > r1 + e1) ∧ (ge_dd r0 e0 r1 e1 ↔ r0 + e0 ≥ r1 + e1) := by
  have lt : ∀ {a b c d : ℝ}, IsDD rd a b → IsDD rd c d → a < c → a + b < c + d := by
    intro a b c d ha hc h
    by_contra hn
    push Not at hn
    have := mono hr hn
    rw [← ha.2, ← hc.2] at this
    linarith
  unfold eq_dd neq_dd lt_dd le_dd gt_dd ge_dd
  rcases lt_trichotomy r0 r1 with c | c | c
  · have := lt h0 h1 c
    refine ⟨⟨fun h => by linarith [h.1], fun h => by linarith⟩, ⟨fun _ => by linarith, fun _ => .inl c.ne⟩, ⟨fun _ => this, fun _ => .inl c⟩, ⟨fun _ => this.le, fun _ => .inl c⟩,
      ⟨fun h => ?_, fun h => by linarith⟩, ⟨fun h => ?_, fun h => by linarith⟩⟩
    · rcases h with h | h <;> linarith [h]
    · rcases h with h | h <;> linarith [h]
  · subst c
    simp
  · have := lt h1 h0 c
    refine ⟨⟨fun h => by linarith [h.1], fun h => by linarith⟩, ⟨fun _ => by linarith, fun _ => .inl c.ne'⟩, ⟨fun h => ?_, fun h => by linarith⟩, ⟨fun h => ?_, fun h => by linarith⟩,
      ⟨fun _ => this, fun _ => .inl c⟩, ⟨fun _ => this.le, fun _ => .inl c⟩⟩
    · rcases h with h | h <;> linarith [h]
    · rcases h with h | h <;> linarith [h]

/-! ### Error bounds -/

/-- rounding as a small change -/
lemma round_within {x B : ℝ} (h : |x| ≤ B) : |rd x - x| ≤ B / 2 ^ 53 := (hr.rel x).1.trans (by gcongr)

/-- the sum before the renormalisation -/
lemma add_parts {x0 y0 x1 y1 : ℝ} (h0 : IsDD rd x0 y0) (h1 : IsDD rd x1 y1) {M : ℝ} (hM : |x0| + |x1| ≤ M) (hS : |x0 + x1| ≤ M) :
    ∃ r e, add_dd rd x0 y0 x1 y1 = renorm rd r e ∧ IsFloat r ∧ IsFloat e ∧ r = rd (x0 + x1) ∧ |r + e - (x0 + y0 + (x1 + y1))| ≤ (3 / 2 ^ 106 + 1 / 2 ^ 159) * M ∧ |e| ≤ 3 / 2 ^ 53 * M := by
  have hx0 := h0.float hr
  have hx1 := h1.float hr
  have s0 := h0.small hr
  have s1 := h1.small hr
  have hM0 : 0 ≤ M := (abs_nonneg _).trans hS
  refine ⟨_, _, by unfold add_dd; dsimp only; rw [twoSum_exact hr hx0 hx1], hr.float _, hr.float _, rfl, ?_⟩
  dsimp only
  have hy : |y0 + y1| ≤ M / 2 ^ 53 := by
    have := abs_add_le y0 y1
    have : |x0| / 2 ^ 53 + |x1| / 2 ^ 53 ≤ M / 2 ^ 53 := by rw [← add_div]; gcongr
    linarith
  have k1 := round_within hr hS
  have k2 := round_within hr hy
  have k3 : |x0 + x1 - rd (x0 + x1) + rd (y0 + y1)| ≤ (2 / 2 ^ 53 + 1 / 2 ^ 106) * M := by
    rw [abs_le] at *
    constructor <;> linarith [k1.1, k1.2, k2.1, k2.2, hy.1, hy.2]
  have k4 := round_within hr k3
  rw [abs_le] at k1 k2 k3 k4 hy
  refine ⟨abs_le.2 ⟨?_, ?_⟩, abs_le.2 ⟨?_, ?_⟩⟩ <;> linarith [k1.1, k1.2, k2.1, k2.2, hy.1, hy.2, k3.1, k3.2, k4.1, k4.2]

/-- renormalising changes the value by little even if the second part is the larger one -/
lemma renorm_err {r e : ℝ} (h0 : IsFloat r) (h1 : IsFloat e) : |(renorm rd r e).1 + (renorm rd r e).2 - (r + e)| ≤ 2 / 2 ^ 53 * |e| := by
  rcases le_or_gt |e| |r| with c | c
  · rw [renorm_exact hr h0 h1 c]
    have := abs_nonneg e
    rw [show rd (r + e) + (r + e - rd (r + e)) - (r + e) = 0 by ring, abs_zero]
    positivity
  · unfold renorm
    dsimp only
    set E := |e| with hE
    have hE0 : 0 ≤ E := abs_nonneg e
    have z : |r + e| ≤ 2 * E := (abs_add_le r e).trans (by linarith)
    have k1 := round_within hr z
    have he : -E ≤ e ∧ e ≤ E := abs_le.1 (le_refl |e|)
    have k2 : |rd (r + e) - r| ≤ (1 + 2 / 2 ^ 53) * E := by
      rw [abs_le] at *
      constructor <;> linarith [k1.1, k1.2, he.1, he.2]
    have k3 := round_within hr k2
    have k4 : |e - rd (rd (r + e) - r)| ≤ 4 / 2 ^ 53 * E := by
      rw [abs_le] at *
      constructor <;> linarith [k1.1, k1.2, k3.1, k3.2]
    have k5 := round_within hr k4
    rw [abs_le] at *
    constructor <;> linarith [k1.1, k1.2, k3.1, k3.2, k4.1, k4.2, k5.1, k5.2]

/-- C126: addition. Two numbers of one sign: the relative error is at most `4 / 2^106` and the result is normalised. In general the error is at most `10 / 2^106` of the larger absolute values. -/
theorem C126_add {x0 y0 x1 y1 : ℝ} (h0 : IsDD rd x0 y0) (h1 : IsDD rd x1 y1) :
    let v := add_dd rd x0 y0 x1 y1
    let X := x0 + y0 + (x1 + y1);
    |v.1 + v.2 - X| ≤ 10 / 2 ^ 106 * (|x0| + |x1|) ∧ (0 ≤ x0 * x1 → |v.1 + v.2 - X| ≤ 4 / 2 ^ 106 * |X| ∧ IsDD rd v.1 v.2) := by
  have s0 := h0.small hr
  have s1 := h1.small hr
  extract_lets v X
  have hn : 0 ≤ |x0| + |x1| := by positivity
  constructor
  · obtain ⟨r, e, h, fr, fe, -, b1, b2⟩ := add_parts hr h0 h1 le_rfl (abs_add_le _ _)
    have k := renorm_err hr fr fe
    rw [← h] at k
    have : |v.1 + v.2 - X| ≤ |v.1 + v.2 - (r + e)| + |r + e - X| := abs_sub_le _ _ _
    linarith
  · intro hs
    have hsum : |x0| + |x1| = |x0 + x1| := ((abs_add_eq_add_abs_iff _ _).2 (by
      rcases mul_nonneg_iff.1 hs with c | c
      · exact .inl c
      · exact .inr c)).symm
    obtain ⟨r, e, h, fr, fe, hre, b1, b2⟩ := add_parts hr h0 h1 hsum.le le_rfl
    set S := |x0 + x1| with hS
    have hS0 : 0 ≤ S := abs_nonneg _
    have kr : (1 - 1 / 2 ^ 53) * S ≤ |r| := by
      have := (hr.rel (x0 + x1)).1
      rw [← hre] at this
      have h2 : |x0 + x1| ≤ |r - (x0 + x1)| + |r| := by
        have := abs_sub_comm r (x0 + x1)
        have h3 := abs_add_le (x0 + x1 - r) r
        rw [sub_add_cancel] at h3
        linarith
      rw [← hS] at h2 this
      linarith
    obtain ⟨a, b, hab, hd, hv⟩ := renorm_dd hr fr fe (by linarith)
    have hX : (1 - 1 / 2 ^ 53) * S ≤ |X| := by
      have h2 : |x0 + x1| ≤ |X| + (|y0| + |y1|) := by
        have h3 := abs_sub X (y0 + y1)
        rw [show X - (y0 + y1) = x0 + x1 by simp only [X]; ring] at h3
        linarith [abs_add_le y0 y1]
      rw [← hS] at h2
      have : |x0| / 2 ^ 53 + |x1| / 2 ^ 53 = S / 2 ^ 53 := by rw [← add_div, hsum]
      linarith
    have hv1 : v.1 = a := by simp only [v, h, hab]
    have hv2 : v.2 = b := by simp only [v, h, hab]
    rw [hv1, hv2]
    refine ⟨?_, hd⟩
    rw [hv]
    linarith

/-- C126: multiplication of normalised numbers: the relative error is at most `9 / 2^106` and the result is normalised. -/
theorem C126_mul {x0 y0 x1 y1 : ℝ} (h0 : IsDD rd x0 y0) (h1 : IsDD rd x1 y1) :
    let v := mul_dd rd x0 y0 x1 y1
    let X := (x0 + y0) * (x1 + y1);
    |v.1 + v.2 - X| ≤ 9 / 2 ^ 106 * |X| ∧ IsDD rd v.1 v.2 := by
  have hx0 := h0.float hr
  have hx1 := h1.float hr
  have s0 := h0.small hr
  have s1 := h1.small hr
  extract_lets v X
  have hvd : v = renorm rd (rd (x0 * x1)) (rd (x0 * x1 - rd (x0 * x1) + rd (rd (x0 * y1) + rd (y0 * x1)))) := by
    simp only [v, mul_dd]
    rw [prodErr_exact hr hx0 hx1]
  set A := |x0 * x1| with hA
  have hA0 : 0 ≤ A := abs_nonneg _
  have a0 := abs_nonneg x0
  have a1 := abs_nonneg x1
  have hA' : A = |x0| * |x1| := abs_mul _ _
  have c1 : |x0 * y1| ≤ A / 2 ^ 53 := by
    rw [abs_mul, hA', mul_div_assoc]; gcongr
  have c2 : |y0 * x1| ≤ A / 2 ^ 53 := by
    rw [abs_mul, hA', mul_div_right_comm]; gcongr
  have c3 : |y0 * y1| ≤ A / 2 ^ 106 := by
    rw [abs_mul, hA', show |x0| * |x1| / 2 ^ 106 = (|x0| / 2 ^ 53) * (|x1| / 2 ^ 53) by ring]
    gcongr
  have k0 := round_within hr hA.ge
  have k1 := round_within hr c1
  have k2 := round_within hr c2
  have k3 : |rd (x0 * y1) + rd (y0 * x1)| ≤ (2 / 2 ^ 53 + 2 / 2 ^ 106) * A := by
    rw [abs_le] at *
    constructor <;> linarith [k1.1, k1.2, k2.1, k2.2, c1.1, c1.2, c2.1, c2.2]
  have k4 := round_within hr k3
  have k5 : |x0 * x1 - rd (x0 * x1) + rd (rd (x0 * y1) + rd (y0 * x1))| ≤ (3 / 2 ^ 53 + 5 / 2 ^ 106) * A := by
    rw [abs_le] at *
    constructor <;> linarith [k0.1, k0.2, k3.1, k3.2, k4.1, k4.2]
  have k6 := round_within hr k5
  set r := rd (x0 * x1) with hrr
  set e := rd (x0 * x1 - r + rd (rd (x0 * y1) + rd (y0 * x1))) with hee
  have hsm : |e| ≤ |r| := by
    have h1 : A ≤ |r - x0 * x1| + |r| := by
      have h3 := abs_add_le (x0 * x1 - r) r
      rw [sub_add_cancel, abs_sub_comm] at h3
      exact h3
    have h2 : |e| ≤ 4 / 2 ^ 53 * A := by
      rw [abs_le] at *
      constructor <;> linarith [k5.1, k5.2, k6.1, k6.2]
    linarith
  obtain ⟨a, b, hab, hd, hv⟩ := renorm_dd hr (hr.float (x0 * x1)) (hr.float (x0 * x1 - r + rd (rd (x0 * y1) + rd (y0 * x1)))) hsm
  rw [hvd, hab]
  refine ⟨?_, hd⟩
  dsimp only
  rw [hv]
  have hX : (1 - 3 / 2 ^ 53) * A ≤ |X| := by
    have h1 : A ≤ |X| + |x0 * y1 + y0 * x1 + y0 * y1| := by
      have h3 := abs_sub X (x0 * y1 + y0 * x1 + y0 * y1)
      rwa [show X - (x0 * y1 + y0 * x1 + y0 * y1) = x0 * x1 by simp only [X]; ring] at h3
    have h2 : |x0 * y1 + y0 * x1 + y0 * y1| ≤ (2 / 2 ^ 53 + 1 / 2 ^ 106) * A := by
      rw [abs_le] at *
      constructor <;> linarith [c1.1, c1.2, c2.1, c2.2, c3.1, c3.2]
    linarith
  have hE : |r + e - X| ≤ (8 / 2 ^ 106 + 7 / 2 ^ 159) * A := by
    have : r + e - X = (e - (x0 * x1 - r + rd (rd (x0 * y1) + rd (y0 * x1)))) + (rd (rd (x0 * y1) + rd (y0 * x1)) - (rd (x0 * y1) + rd (y0 * x1))) + (rd (x0 * y1) - x0 * y1) +
        (rd (y0 * x1) - y0 * x1) - y0 * y1 := by simp only [X]; ring
    rw [this]
    rw [abs_le] at *
    constructor <;> linarith [k6.1, k6.2, k4.1, k4.2, k1.1, k1.2, k2.1, k2.2, c3.1, c3.2]
  linarith

/-- C126: the square: the relative error is at most `7 / 2^106` and the result is normalised. -/
theorem C126_square {x y : ℝ} (h : IsDD rd x y) :
    let v := square_dd rd x y
    let X := (x + y) ^ 2;
    |v.1 + v.2 - X| ≤ 7 / 2 ^ 106 * X ∧ IsDD rd v.1 v.2 := by
  have hx := h.float hr
  have s := h.small hr
  extract_lets v X
  have f2 : IsFloat (2 * x) := by
    obtain ⟨k, q, hk, rfl⟩ := hx
    exact ⟨k, q + 1, hk, by rw [zpow_add₀ (by norm_num), zpow_one]; ring⟩
  have hvd : v = renorm rd (rd (x * x)) (rd (x * x - rd (x * x) + rd (2 * x * y))) := by
    simp only [v, square_dd]
    rw [sqErr_exact hr hx, hr.exact f2]
  set A := |x * x| with hA
  have hA0 : 0 ≤ A := abs_nonneg _
  have a0 := abs_nonneg x
  have hA' : A = |x| * |x| := abs_mul _ _
  have c1 : |2 * x * y| ≤ 2 / 2 ^ 53 * A := by
    rw [abs_mul, abs_mul, hA', abs_of_pos (by norm_num : (0 : ℝ) < 2)]
    nlinarith
  have c3 : |y * y| ≤ A / 2 ^ 106 := by
    rw [abs_mul, hA', show |x| * |x| / 2 ^ 106 = (|x| / 2 ^ 53) * (|x| / 2 ^ 53) by ring]
    gcongr
  have k0 := round_within hr hA.ge
  have k1 := round_within hr c1
  have k5 : |x * x - rd (x * x) + rd (2 * x * y)| ≤ (3 / 2 ^ 53 + 2 / 2 ^ 106) * A := by
    rw [abs_le] at *
    constructor <;> linarith [k0.1, k0.2, k1.1, k1.2, c1.1, c1.2]
  have k6 := round_within hr k5
  set r := rd (x * x) with hrr
  set e := rd (x * x - r + rd (2 * x * y)) with hee
  have hsm : |e| ≤ |r| := by
    have h1 : A ≤ |r - x * x| + |r| := by
      have h3 := abs_add_le (x * x - r) r
      rw [sub_add_cancel, abs_sub_comm] at h3
      exact h3
    have h2 : |e| ≤ 4 / 2 ^ 53 * A := by
      rw [abs_le] at *
      constructor <;> linarith [k5.1, k5.2, k6.1, k6.2]
    linarith
  obtain ⟨a, b, hab, hd, hv⟩ := renorm_dd hr (hr.float (x * x)) (hr.float (x * x - r + rd (2 * x * y))) hsm
  rw [hvd, hab]
  refine ⟨?_, hd⟩
  dsimp only
  rw [hv]
  have hAA : A = x * x := abs_of_nonneg (mul_self_nonneg x)
  have hX : (1 - 3 / 2 ^ 53) * A ≤ X := by
    have : X = x * x + 2 * x * y + y * y := by simp only [X]; ring
    rw [abs_le] at c1 c3
    linarith [c1.1, c3.1]
  have hE : |r + e - X| ≤ (6 / 2 ^ 106 + 2 / 2 ^ 159) * A := by
    have : r + e - X = (e - (x * x - r + rd (2 * x * y))) + (rd (2 * x * y) - 2 * x * y) - y * y := by simp only [X]; ring
    rw [this]
    rw [abs_le] at *
    constructor <;> linarith [k6.1, k6.2, k1.1, k1.2, c3.1, c3.2]
  linarith

/-- C126: division by a nonzero number: the relative error is at most `16 / 2^106` and the result is normalised; division by zero raises ZeroDivisionError. -/
theorem C126_div {x0 y0 x1 y1 : ℝ} (h0 : IsDD rd x0 y0) (h1 : IsDD rd x1 y1) :
    (x1 ≠ 0 → ∃ a b, div_dd rd x0 y0 x1 y1 = .ok (a, b) ∧ IsDD rd a b ∧ |a + b - (x0 + y0) / (x1 + y1)| ≤ 16 / 2 ^ 106 * |(x0 + y0) / (x1 + y1)|) ∧
    (x1 = 0 → div_dd rd x0 y0 x1 y1 = .error .zeroDivisionError) := by
  refine ⟨fun hne => ?_, fun h => by rw [h]; unfold div_dd; rw [pdiv_zero]; rfl⟩
  have hx0 := h0.float hr
  have hx1 := h1.float hr
  have s0 := h0.small hr
  have s1 := h1.small hr
  have hp1 : 0 < |x1| := abs_pos.2 hne
  have hX1 : x1 + y1 ≠ 0 := by
    intro h
    have : |x1| = |y1| := by rw [show x1 = -y1 by linarith, abs_neg]
    rw [this] at s1 hp1
    linarith
  unfold div_dd
  rw [pdiv_ok hne, Py.ok_bind]
  dsimp only
  set r := rd (x0 / x1) with hrr
  rw [prodErr_exact hr (hr.float _) hx1]
  set A := |x0| with hA
  have hA0 : 0 ≤ A := abs_nonneg _
  have j0 : |r * x1 - x0| ≤ A / 2 ^ 53 := by
    have := (hr.rel (x0 / x1)).1
    rw [show r * x1 - x0 = (r - x0 / x1) * x1 by field_simp, abs_mul]
    calc |r - x0 / x1| * |x1| ≤ |x0 / x1| / 2 ^ 53 * |x1| := by gcongr
      _ = A / 2 ^ 53 := by rw [abs_div]; field_simp; exact hA.symm
  have hRb : |r * x1| ≤ (1 + 1 / 2 ^ 53) * A := by
    have h3 := abs_add_le (r * x1 - x0) x0
    rw [sub_add_cancel] at h3
    linarith
  set s := rd (r * x1) with hs
  have j1 := round_within hr hRb
  rw [← hs] at j1
  have b1 : |x0 - s| ≤ (2 / 2 ^ 53 + 1 / 2 ^ 106) * A := by
    rw [abs_le] at *
    constructor <;> linarith [j0.1, j0.2, j1.1, j1.2]
  have j2 := round_within hr b1
  set d1 := rd (x0 - s)
  have b2 : |d1 - (r * x1 - s)| ≤ (1 / 2 ^ 53 + 3 / 2 ^ 106) * A := by
    rw [abs_le] at *
    constructor <;> linarith [j0.1, j0.2, j2.1, j2.2]
  have j3 := round_within hr b2
  set d2 := rd (d1 - (r * x1 - s))
  have b3 : |d2 + y0| ≤ (2 / 2 ^ 53 + 5 / 2 ^ 106) * A := by
    rw [abs_le] at *
    constructor <;> linarith [j3.1, j3.2, b2.1, b2.2, s0.1, s0.2]
  have j4 := round_within hr b3
  set d3 := rd (d2 + y0)
  have bm : |r * y1| ≤ (1 / 2 ^ 53 + 1 / 2 ^ 106) * A := by
    rw [abs_mul] at hRb ⊢
    have : |r| * |y1| ≤ |r| * (|x1| / 2 ^ 53) := by gcongr
    linarith
  have j5 := round_within hr bm
  set m := rd (r * y1)
  have b4 : |d3 - m| ≤ (3 / 2 ^ 53 + 10 / 2 ^ 106) * A := by
    rw [abs_le] at *
    constructor <;> linarith [j4.1, j4.2, b3.1, b3.2, j5.1, j5.2, bm.1, bm.2]
  have j6 := round_within hr b4
  set d4 := rd (d3 - m)
  have b5 : |d4| ≤ (3 / 2 ^ 53 + 14 / 2 ^ 106) * A := by
    rw [abs_le] at *
    constructor <;> linarith [j6.1, j6.2, b4.1, b4.2]
  rw [pdiv_ok hne, Py.ok_bind]
  set e := rd (d4 / x1) with he
  have j7 : |e * x1 - d4| ≤ (3 / 2 ^ 106 + 14 / 2 ^ 159) * A := by
    have := (hr.rel (d4 / x1)).1
    rw [show e * x1 - d4 = (e - d4 / x1) * x1 by field_simp, abs_mul]
    calc |e - d4 / x1| * |x1| ≤ |d4 / x1| / 2 ^ 53 * |x1| := by gcongr
      _ = |d4| / 2 ^ 53 := by rw [abs_div]; field_simp
      _ ≤ _ := by linarith
  have b6 : |e * x1| ≤ (3 / 2 ^ 53 + 18 / 2 ^ 106) * A := by
    rw [abs_le] at *
    constructor <;> linarith [j7.1, j7.2, b5.1, b5.2]
  have hsm : |e| ≤ |r| := by
    have h1 : (1 - 1 / 2 ^ 53) * A ≤ |r * x1| := by
      have h3 := abs_add_le (x0 - r * x1) (r * x1)
      rw [sub_add_cancel, abs_sub_comm] at h3
      linarith
    have h2 : |e * x1| ≤ |r * x1| := by linarith
    rw [abs_mul, abs_mul] at h2
    exact le_of_mul_le_mul_right h2 hp1
  have b7 : |e * y1| ≤ 4 / 2 ^ 106 * A := by
    rw [abs_mul] at b6 ⊢
    have : |e| * |y1| ≤ |e| * (|x1| / 2 ^ 53) := by gcongr
    linarith
  obtain ⟨a, b, hab, hd, hv⟩ := renorm_dd hr (hr.float (x0 / x1)) (hr.float (d4 / x1)) hsm
  refine ⟨a, b, by rw [← hrr, ← he] at hab; rw [hab]; rfl, hd, ?_⟩
  rw [hv, ← hrr, ← he]
  have hb7' : |e * y1| ≤ (3 / 2 ^ 106 + 18 / 2 ^ 159) * A := by
    rw [abs_mul] at b6 ⊢
    have : |e| * |y1| ≤ |e| * (|x1| / 2 ^ 53) := by gcongr
    linarith
  have hN : |(r + e) * (x1 + y1) - (x0 + y0)| ≤ (15 / 2 ^ 106 + 100 / 2 ^ 159) * A := by
    have : (r + e) * (x1 + y1) - (x0 + y0) = (e * x1 - d4) + (d4 - (d3 - m)) + (d3 - (d2 + y0)) - (m - r * y1) + (d2 - (d1 - (r * x1 - s))) + (d1 - (x0 - s)) + e * y1 := by ring
    rw [this]
    rw [abs_le] at *
    constructor <;> linarith [j7.1, j7.2, j6.1, j6.2, j5.1, j5.2, j4.1, j4.2, j3.1, j3.2, j2.1, j2.2, hb7'.1, hb7'.2]
  have hX : (1 - 1 / 2 ^ 53) * A ≤ |x0 + y0| := by
    have h3 := abs_sub (x0 + y0) y0
    rw [add_sub_cancel_right] at h3
    linarith
  have hpos : 0 < |x1 + y1| := abs_pos.2 hX1
  rw [show r + e - (x0 + y0) / (x1 + y1) = ((r + e) * (x1 + y1) - (x0 + y0)) / (x1 + y1) by field_simp, abs_div, abs_div, ← mul_div_assoc]
  gcongr
  linarith

end Verif.DD
