import Verif.Model.DoubleDouble
import Verif.Lemmas.Floats
import Mathlib.Tactic

/-! The error-free transformations behind the double-double operations: Knuth's sum, Veltkamp's splitting and Dekker's product. -/

namespace Verif.DD
open Verif Verif.Float

variable {rd : ℝ → ℝ} (hr : Nearest rd)
include hr

/-- Knuth's sum: the error of the rounded sum is computed exactly -/
lemma twoSum_exact {x0 x1 : ℝ} (h0 : IsFloat x0) (h1 : IsFloat x1) : twoSum rd x0 x1 = (rd (x0 + x1), x0 + x1 - rd (x0 + x1)) := by
  unfold twoSum
  dsimp only
  congr 1
  set r := rd (x0 + x1) with hrdef
  rcases le_or_gt |x1| |x0| with c | c
  · obtain ⟨f1, f2⟩ := hr.fast h0 h1 c
    rw [← hrdef] at f1 f2
    rw [hr.exact f1, show r - (r - x0) = x0 by ring, hr.exact h0, sub_self, hr.zero, show x1 - (r - x0) = x0 + x1 - r by ring, hr.exact f2, zero_add, hr.exact f2]
  · have f2 : IsFloat (x0 + x1 - r) := by
      have := (hr.fast h1 h0 c.le).2
      rwa [add_comm x1 x0] at this
    by_cases ex : r = x0 + x1
    · rw [ex, add_sub_cancel_left, hr.exact h1, show x0 + x1 - x1 = x0 by ring, hr.exact h0, sub_self, sub_self, hr.zero]
      simp [hr.zero]
    · have hge : |x0| ≤ |r| := by
        by_contra hc
        push Not at hc
        have h0' : x0 ≠ 0 := by
          rintro rfl
          rw [abs_zero] at hc
          exact absurd hc (not_lt.2 (abs_nonneg _))
        obtain ⟨q, q1, q2⟩ := exists_exp h0'
        have hm := (h0.mult q1).add (h1.mult (q1.trans c.le))
        have hs : |x0 + x1| ≤ |x0| := by
          by_contra hc2
          push Not at hc2
          have habs : IsFloat |x0| := by
            rcases abs_choice x0 with e | e <;> rw [e]
            · exact h0
            · exact h0.neg
          exact absurd (hr.abs_le habs hc2.le) (not_le.2 hc)
        exact ex (hr.exact (hm.isFloat (hs.trans q2.le)))
      set t := rd (r - x0) with ht
      obtain ⟨f3, f4⟩ := hr.fast (hr.float (x0 + x1)) h0.neg (by rw [abs_neg]; exact hge)
      rw [← hrdef, ← sub_eq_add_neg, ← ht] at f3 f4
      have f5 : IsFloat (r - t) := by
        have := f3.neg
        rwa [neg_sub] at this
      have f6 : IsFloat (x0 - (r - t)) := by
        have := f4.neg
        rwa [show -(r - x0 - t) = x0 - (r - t) by ring] at this
      have f7 : IsFloat (x1 - t) := by
        have hx1 : x1 ≠ 0 := by
          rintro rfl
          rw [abs_zero] at c
          exact absurd c (not_lt.2 (abs_nonneg _))
        obtain ⟨q, q1, q2⟩ := exists_exp hx1
        have hp := two_pos q
        have he : |r - (x0 + x1)| ≤ 2 ^ q := by
          have hb : |x0 + x1| ≤ 2 ^ 53 * 2 ^ (q + (1 : ℕ)) := by
            have := abs_add_le x0 x1
            rw [two_add]; linarith
          have := hr.err hb
          rw [two_add] at this
          linarith
        have hd : |x1 - t| ≤ 2 * 2 ^ q := by
          have h2 := hr.nearest (r - x0) x1 h1
          rw [← ht] at h2
          have h3 : |x1 - (r - x0)| = |r - (x0 + x1)| := by rw [← abs_neg]; congr 1; ring
          have h4 : |x1 - t| ≤ |x1 - (r - x0)| + |t - (r - x0)| := by
            rw [show x1 - t = (x1 - (r - x0)) - (t - (r - x0)) by ring]; exact abs_sub _ _
          linarith
        have hlt : 2 ^ 52 * 2 ^ (q - 1) ≤ |t| := by
          have : |x1| ≤ |x1 - t| + |t| := by
            have := abs_add_le (x1 - t) t
            rwa [sub_add_cancel] at this
          rw [two_sub_one]; linarith
        refine (((h1.mult q1).weaken (by omega)).sub ((hr.float (r - x0)).mult hlt)).isFloat ?_
        rw [two_sub_one]
        rw [← ht]
        linarith
      rw [hr.exact f5, hr.exact f6, hr.exact f7, show x0 - (r - t) + (x1 - t) = x0 + x1 - r by ring, hr.exact f2]

/-- the renormalisation is exact if the second part is not the larger one -/
lemma renorm_exact {r e : ℝ} (h0 : IsFloat r) (h1 : IsFloat e) (h : |e| ≤ |r|) : renorm rd r e = (rd (r + e), r + e - rd (r + e)) := by
  obtain ⟨f1, f2⟩ := hr.fast h0 h1 h
  unfold renorm
  dsimp only
  rw [hr.exact f1, show e - (rd (r + e) - r) = r + e - rd (r + e) by ring, hr.exact f2]

/-- Veltkamp's splitting -/
lemma hi_spec {x : ℝ} (hx : IsFloat x) {q : ℤ} (h1 : 2 ^ 52 * 2 ^ q ≤ |x|) (h2 : |x| < 2 ^ 53 * 2 ^ q) :
    Mult (hi rd x) (q + (27 : ℕ)) ∧ |hi rd x| ≤ 2 ^ 53 * 2 ^ q ∧ |x - hi rd x| ≤ 2 ^ 26 * 2 ^ q := by
  have hp := two_pos q
  have hxm := hx.mult h1
  obtain ⟨k, hk⟩ := id hxm
  have hk1 : (2 : ℤ) ^ 52 ≤ |k| := by
    rw [hk, abs_mul, abs_of_pos hp] at h1
    have := le_of_mul_le_mul_right h1 hp
    exact_mod_cast this
  have hk2 : |k| ≤ (2 : ℤ) ^ 53 - 1 := by
    rw [hk, abs_mul, abs_of_pos hp] at h2
    have := lt_of_mul_lt_mul_right h2 hp.le
    have : |k| < (2 : ℤ) ^ 53 := by exact_mod_cast this
    omega
  have hxa : |x| = |(k : ℝ)| * 2 ^ q := by rw [hk, abs_mul, abs_of_pos hp]
  -- it is enough to find the rounded difference
  suffices H : Mult (hi rd x) (q + (27 : ℕ)) ∧ |x - hi rd x| ≤ 2 ^ 26 * 2 ^ q by
    refine ⟨H.1, ?_, H.2⟩
    obtain ⟨m, hm⟩ := H.1
    have hb : |hi rd x| ≤ |x| + 2 ^ 26 * 2 ^ q := by
      have := abs_sub_comm x (hi rd x)
      have h4 := abs_add_le (hi rd x - x) x
      rw [sub_add_cancel] at h4
      linarith [H.2]
    rw [hm, abs_mul, abs_of_pos (two_pos _), two_add] at hb ⊢
    have hm2 : |(m : ℝ)| < 2 ^ 26 + 1 := by
      by_contra hc
      push Not at hc
      nlinarith
    have hm3 : |m| < 2 ^ 26 + 1 := by exact_mod_cast hm2
    have hm4 : |(m : ℝ)| ≤ 2 ^ 26 := by
      have : |m| ≤ 2 ^ 26 := by omega
      exact_mod_cast this
    nlinarith
  unfold hi
  dsimp only
  by_cases hpow : |k| = 2 ^ 52
  · -- a power of two
    have fx : IsFloat (x * 134217729) := by
      refine Mult.isFloat (q := q + (52 : ℕ)) ?_ ?_
      · rcases abs_choice k with e | e
        · exact ⟨134217729, by rw [hk, two_add, ← e, hpow]; push_cast; ring⟩
        · exact ⟨-134217729, by rw [hk, two_add, show k = -|k| by omega, hpow]; push_cast; ring⟩
      · rw [abs_mul, two_add, hxa, show |(k : ℝ)| = 2 ^ 52 by exact_mod_cast hpow, abs_of_pos (by norm_num)]
        nlinarith
    have fd : IsFloat (x * 134217729 - x) := by
      rw [show x * 134217729 - x = (k : ℝ) * 2 ^ (q + (27 : ℕ)) by rw [hk, two_add]; ring]
      exact ⟨k, _, by rw [hpow]; norm_num, rfl⟩
    rw [hr.exact fx, hr.exact fd, sub_sub_cancel, hr.exact hx]
    refine ⟨?_, by rw [sub_self, abs_zero]; positivity⟩
    rcases abs_choice k with e | e
    · exact ⟨2 ^ 25, by rw [hk, two_add, ← e, hpow]; push_cast; ring⟩
    · exact ⟨-2 ^ 25, by rw [hk, two_add, show k = -|k| by omega, hpow]; push_cast; ring⟩
  · have hk3 : (2 : ℝ) ^ 52 + 1 ≤ |(k : ℝ)| := by
      have : (2 : ℤ) ^ 52 + 1 ≤ |k| := by omega
      exact_mod_cast this
    have hk4 : |(k : ℝ)| ≤ 2 ^ 53 - 1 := by exact_mod_cast hk2
    have hC : |x * 134217729| = |(k : ℝ)| * 2 ^ q * 134217729 := by rw [abs_mul, hxa, abs_of_pos (by norm_num : (0 : ℝ) < 134217729)]
    set u := rd (x * 134217729) with hu
    have eu : |u - x * 134217729| ≤ 2 ^ 27 * 2 ^ q := by
      have := hr.err (x := x * 134217729) (q := q + (28 : ℕ)) (by rw [hC, two_add]; nlinarith)
      rw [two_add] at this
      linarith
    have um : Mult u (q + (27 : ℕ)) := by
      refine (hr.float _).mult (hr.abs_le (isFloat_pow 52 (by norm_num) _) ?_)
      rw [hC, two_add]; nlinarith
    have eux : u - x = x * 134217728 + (u - x * 134217729) := by ring
    have hx27 : |x * 134217728| = |(k : ℝ)| * 2 ^ q * 134217728 := by rw [abs_mul, hxa, abs_of_pos (by norm_num : (0 : ℝ) < 134217728)]
    have lo : |x * 134217728| - |u - x * 134217729| ≤ |u - x| := by
      rw [eux]
      have := abs_add_le (x * 134217728 + (u - x * 134217729)) (-(u - x * 134217729))
      rw [abs_neg, add_neg_cancel_right] at this
      linarith
    have up : |u - x| ≤ |x * 134217728| + |u - x * 134217729| := by rw [eux]; exact abs_add_le _ _
    set v := rd (u - x) with hv
    have vm : Mult v (q + (27 : ℕ)) := by
      refine (hr.float _).mult (hr.abs_le (isFloat_pow 52 (by norm_num) _) ?_)
      rw [two_add]; nlinarith
    have ev : |v - (u - x)| ≤ 2 ^ 26 * 2 ^ q := by
      have := hr.err (x := u - x) (q := q + (27 : ℕ)) (by rw [two_add]; nlinarith)
      rw [two_add] at this
      linarith
    have em : Mult (u - v) (q + (27 : ℕ)) := um.sub vm
    have ex : x - (u - v) = v - (u - x) := by ring
    have fe : IsFloat (u - v) := by
      refine em.isFloat ?_
      have h5 : |u - v| ≤ |x| + |v - (u - x)| := by
        rw [show u - v = x - (v - (u - x)) by ring]; exact abs_sub _ _
      rw [two_add]; nlinarith
    rw [hr.exact fe, ex]
    exact ⟨em, ev⟩

lemma hi_zero : hi rd 0 = 0 := by
  unfold hi; simp [hr.zero]

/-- the facts about the two halves that the products use -/
lemma split {x : ℝ} (hx : IsFloat x) {q : ℤ} (h1 : 2 ^ 52 * 2 ^ q ≤ |x|) (h2 : |x| < 2 ^ 53 * 2 ^ q) :
    ∃ s f : ℝ, hi rd x = s ∧ rd (x - s) = f ∧ x = s + f ∧ Mult s (q + (27 : ℕ)) ∧ Mult f q ∧ |s| ≤ 2 ^ 53 * 2 ^ q ∧ |f| ≤ 2 ^ 26 * 2 ^ q := by
  obtain ⟨a, b, c⟩ := hi_spec hr hx h1 h2
  have hp := two_pos q
  have fm : Mult (x - hi rd x) q := (hx.mult h1).sub (a.weaken (by omega))
  have ff : IsFloat (x - hi rd x) := fm.isFloat (by nlinarith)
  exact ⟨_, _, rfl, rfl, by rw [hr.exact ff]; ring, a, by rwa [hr.exact ff], b, by rwa [hr.exact ff]⟩

/-- Dekker's product: the error of the rounded product is computed exactly -/
lemma prodErr_exact {x y : ℝ} (hx : IsFloat x) (hy : IsFloat y) : prodErr rd x y (rd (x * y)) = x * y - rd (x * y) := by
  by_cases hx0 : x = 0
  · unfold prodErr; simp [hx0, hr.zero, hi_zero hr]
  by_cases hy0 : y = 0
  · unfold prodErr; simp [hy0, hr.zero, hi_zero hr]
  obtain ⟨q, x1, x2⟩ := exists_exp hx0
  obtain ⟨p, y1, y2⟩ := exists_exp hy0
  obtain ⟨s, f, hs, hf, hxe, sm, fm, sb, fb⟩ := split hr hx x1 x2
  obtain ⟨t, g, ht, hg, hye, tm, gm, tb, gb⟩ := split hr hy y1 y2
  have hq := two_pos q
  have hp := two_pos p
  have hw : (2 : ℝ) ^ (q + p) = 2 ^ q * 2 ^ p := zpow_add₀ (by norm_num) _ _
  set w : ℝ := 2 ^ q * 2 ^ p with hwdef
  have hwp : 0 < w := mul_pos hq hp
  have habs : |x * y| = |x| * |y| := abs_mul _ _
  have hlo : 2 ^ 104 * w ≤ |x * y| := by
    rw [habs]
    calc 2 ^ 104 * w = (2 ^ 52 * 2 ^ q) * (2 ^ 52 * 2 ^ p) := by rw [hwdef]; ring
      _ ≤ _ := mul_le_mul x1 y1 (by positivity) (abs_nonneg _)
  have hup : |x * y| ≤ 2 ^ 106 * w := by
    rw [habs]
    calc |x| * |y| ≤ (2 ^ 53 * 2 ^ q) * (2 ^ 53 * 2 ^ p) := mul_le_mul x2.le y2.le (abs_nonneg _) (by positivity)
      _ = 2 ^ 106 * w := by rw [hwdef]; ring
  set r := rd (x * y) with hrd
  have er : |r - x * y| ≤ 2 ^ 52 * w := by
    have := hr.err (x := x * y) (q := q + p + (53 : ℕ)) (by rw [two_add, hw]; linarith)
    rw [two_add, hw] at this
    linarith
  have rm : Mult r (q + p + (52 : ℕ)) := by
    refine (hr.float _).mult (hr.abs_le (isFloat_pow 52 (by norm_num) _) ?_)
    rw [two_add, hw]; linarith
  have bst : ∀ {a b A B : ℝ}, |a| ≤ A * 2 ^ q → |b| ≤ B * 2 ^ p → 0 ≤ A → |a * b| ≤ A * B * w := by
    intro a b A B ha hb hA
    rw [abs_mul]
    calc |a| * |b| ≤ (A * 2 ^ q) * (B * 2 ^ p) := mul_le_mul ha hb (abs_nonneg _) (by positivity)
      _ = A * B * w := by rw [hwdef]; ring
  have b1 := bst sb tb (by norm_num)
  have b2 := bst sb gb (by norm_num)
  have b3 := bst fb tb (by norm_num)
  have b4 := bst fb gb (by norm_num)
  have m1 : Mult (s * t) (q + p + (54 : ℕ)) := by
    have := sm.mul tm
    rwa [show q + ((27 : ℕ) : ℤ) + (p + ((27 : ℕ) : ℤ)) = q + p + ((54 : ℕ) : ℤ) by push_cast; ring] at this
  have m2 : Mult (s * g) (q + p + (27 : ℕ)) := by
    have := sm.mul gm
    rwa [show q + ((27 : ℕ) : ℤ) + p = q + p + ((27 : ℕ) : ℤ) by ring] at this
  have m3 : Mult (f * t) (q + p + (27 : ℕ)) := by
    have := fm.mul tm
    rwa [show q + (p + ((27 : ℕ) : ℤ)) = q + p + ((27 : ℕ) : ℤ) by ring] at this
  have m4 : Mult (f * g) (q + p) := fm.mul gm
  have rm' : Mult r (q + p + (27 : ℕ)) := rm.weaken (by push_cast; omega)
  have k1 : IsFloat (s * t) := m1.isFloat (by rw [two_add, hw]; linarith)
  have k2 : IsFloat (s * g) := m2.isFloat (by rw [two_add, hw]; linarith)
  have k3 : IsFloat (f * t) := m3.isFloat (by rw [two_add, hw]; linarith)
  have k4 : IsFloat (f * g) := m4.isFloat (by rw [hw]; linarith)
  have exy : x * y = s * t + s * g + f * t + f * g := by rw [hxe, hye]; ring
  rw [abs_le] at er b2 b3 b4
  have k5 : IsFloat (s * t - r) := by
    refine ((m1.weaken (by push_cast; omega)).sub rm).isFloat ?_
    rw [two_add, hw, abs_le]
    constructor <;> linarith
  have k6 : IsFloat (s * t - r + s * g) := by
    refine (((m1.weaken (by push_cast; omega)).sub rm').add m2).isFloat ?_
    rw [two_add, hw, abs_le]
    constructor <;> linarith
  have k7 : IsFloat (s * t - r + s * g + f * t) := by
    refine ((((m1.weaken (by push_cast; omega)).sub rm').add m2).add m3).isFloat ?_
    rw [two_add, hw, abs_le]
    constructor <;> linarith
  have k8 : IsFloat (s * t - r + s * g + f * t + f * g) := by
    refine (((((m1.weaken (by push_cast; omega)).sub (rm'.weaken (by push_cast; omega))).add (m2.weaken (by push_cast; omega))).add (m3.weaken (by push_cast; omega))).add m4).isFloat ?_
    rw [hw, abs_le]
    constructor <;> linarith
  unfold prodErr
  dsimp only
  rw [hs, ht, hf, hg, hr.exact k1, hr.exact k2, hr.exact k3, hr.exact k4, hr.exact k5, hr.exact k6, hr.exact k7, hr.exact k8, exy]
  ring

/-- the same for the square -/
lemma sqErr_exact {x : ℝ} (hx : IsFloat x) : sqErr rd x (rd (x * x)) = x * x - rd (x * x) := by
  by_cases hx0 : x = 0
  · unfold sqErr; simp [hx0, hr.zero, hi_zero hr]
  obtain ⟨q, x1, x2⟩ := exists_exp hx0
  obtain ⟨s, f, hs, hf, hxe, sm, fm, sb, fb⟩ := split hr hx x1 x2
  have hq := two_pos q
  have hw : (2 : ℝ) ^ (q + q) = 2 ^ q * 2 ^ q := zpow_add₀ (by norm_num) _ _
  set w : ℝ := 2 ^ q * 2 ^ q with hwdef
  have hwp : 0 < w := mul_pos hq hq
  have habs : |x * x| = |x| * |x| := abs_mul _ _
  have hlo : 2 ^ 104 * w ≤ |x * x| := by
    rw [habs]
    calc 2 ^ 104 * w = (2 ^ 52 * 2 ^ q) * (2 ^ 52 * 2 ^ q) := by rw [hwdef]; ring
      _ ≤ _ := mul_le_mul x1 x1 (by positivity) (abs_nonneg _)
  have hup : |x * x| ≤ 2 ^ 106 * w := by
    rw [habs]
    calc |x| * |x| ≤ (2 ^ 53 * 2 ^ q) * (2 ^ 53 * 2 ^ q) := mul_le_mul x2.le x2.le (abs_nonneg _) (by positivity)
      _ = 2 ^ 106 * w := by rw [hwdef]; ring
  set r := rd (x * x) with hrd
  have er : |r - x * x| ≤ 2 ^ 52 * w := by
    have := hr.err (x := x * x) (q := q + q + (53 : ℕ)) (by rw [two_add, hw]; linarith)
    rw [two_add, hw] at this
    linarith
  have rm : Mult r (q + q + (52 : ℕ)) := by
    refine (hr.float _).mult (hr.abs_le (isFloat_pow 52 (by norm_num) _) ?_)
    rw [two_add, hw]; linarith
  have bst : ∀ {a b A B : ℝ}, |a| ≤ A * 2 ^ q → |b| ≤ B * 2 ^ q → 0 ≤ A → |a * b| ≤ A * B * w := by
    intro a b A B ha hb hA
    rw [abs_mul]
    calc |a| * |b| ≤ (A * 2 ^ q) * (B * 2 ^ q) := mul_le_mul ha hb (abs_nonneg _) (by positivity)
      _ = A * B * w := by rw [hwdef]; ring
  have b1 := bst sb sb (by norm_num)
  have b2 := bst sb fb (by norm_num)
  have b4 := bst fb fb (by norm_num)
  have m1 : Mult (s * s) (q + q + (54 : ℕ)) := by
    have := sm.mul sm
    rwa [show q + ((27 : ℕ) : ℤ) + (q + ((27 : ℕ) : ℤ)) = q + q + ((54 : ℕ) : ℤ) by push_cast; ring] at this
  have s2m : Mult (2 * s) (q + (28 : ℕ)) := by
    obtain ⟨m, hm⟩ := sm
    exact ⟨m, by rw [hm, two_add, two_add]; ring⟩
  have m2 : Mult (2 * s * f) (q + q + (28 : ℕ)) := by
    have := s2m.mul fm
    rwa [show q + ((28 : ℕ) : ℤ) + q = q + q + ((28 : ℕ) : ℤ) by ring] at this
  have m4 : Mult (f * f) (q + q) := fm.mul fm
  have rm' : Mult r (q + q + (27 : ℕ)) := rm.weaken (by push_cast; omega)
  have m2' : Mult (2 * s * f) (q + q + (27 : ℕ)) := m2.weaken (by push_cast; omega)
  have k0 : IsFloat (2 * s) := s2m.isFloat (by rw [abs_mul, abs_of_pos (by norm_num : (0 : ℝ) < 2), two_add]; nlinarith)
  have k1 : IsFloat (s * s) := m1.isFloat (by rw [two_add, hw]; linarith)
  have k2 : IsFloat (2 * s * f) := m2.isFloat (by rw [mul_assoc, abs_mul, abs_of_pos (by norm_num : (0 : ℝ) < 2), two_add, hw]; linarith)
  have k4 : IsFloat (f * f) := m4.isFloat (by rw [hw]; linarith)
  have exy : x * x = s * s + 2 * s * f + f * f := by rw [hxe]; ring
  rw [abs_le] at er b2 b4
  have k5 : IsFloat (s * s - r) := by
    refine ((m1.weaken (by push_cast; omega)).sub rm).isFloat ?_
    rw [two_add, hw, abs_le]
    constructor <;> linarith
  have k7 : IsFloat (s * s - r + 2 * s * f) := by
    refine (((m1.weaken (by push_cast; omega)).sub rm').add m2').isFloat ?_
    rw [two_add, hw, abs_le]
    constructor <;> linarith
  have k8 : IsFloat (s * s - r + 2 * s * f + f * f) := by
    refine ((((m1.weaken (by push_cast; omega)).sub (rm'.weaken (by push_cast; omega))).add (m2'.weaken (by push_cast; omega))).add m4).isFloat ?_
    rw [hw, abs_le]
    constructor <;> linarith
  unfold sqErr
  dsimp only
  rw [hs, hf, hr.exact k0, hr.exact k1, hr.exact k2, hr.exact k4, hr.exact k5, hr.exact k7, hr.exact k8, exy]
  ring

end Verif.DD
