import Verif.Model.Separator
import Verif.Lemmas.Tactic
import Mathlib.Analysis.Complex.ExponentialBounds
import Mathlib.Topology.Order.OrderClosed

/-! C74: separator K factors. -/

open Real

noncomputable section

namespace Verif.Separator

/-! ### Auxiliary -/

theorem foot_pos : 0 < foot := by norm_num [foot, Const.foot, Const.inch]
theorem psi_pos : 0 < psi := by norm_num [psi, Const.psi, Const.pound, Const.grain, Const.g, Const.inch, Const.milli, Const.gram]

theorem log_le_of {x : ℝ} {p q : ℕ} (hx : 0 < x) (hq : 0 < q) (h : x ^ q ≤ 2.7182818283 ^ p) : log x ≤ p / q := by
  have h1 : (2.7182818283 : ℝ) ^ p ≤ exp 1 ^ p := pow_le_pow_left₀ (by norm_num) exp_one_gt_d9.le p
  have h2 : log (x ^ q) ≤ log (exp 1 ^ p) := log_le_log (by positivity) (h.trans h1)
  rw [log_pow, log_pow, log_exp, mul_one] at h2
  rw [le_div_iff₀ (by exact_mod_cast hq)]; linarith

theorem le_log_of {x : ℝ} {p q : ℕ} (hq : 0 < q) (h : 2.7182818286 ^ p ≤ x ^ q) : (p : ℝ) / q ≤ log x := by
  have h1 : exp 1 ^ p ≤ (2.7182818286 : ℝ) ^ p := pow_le_pow_left₀ (exp_pos 1).le exp_one_lt_d9.le p
  have h2 : log (exp 1 ^ p) ≤ log (x ^ q) := log_le_log (by positivity) (h1.trans h)
  rw [log_pow, log_pow, log_exp, mul_one] at h2
  rw [div_le_iff₀ (by exact_mod_cast hq)]; linarith

theorem log15 : 2.70 ≤ log 15 ∧ log 15 ≤ 2.71 := by
  constructor
  · have := le_log_of (x := 15) (p := 27) (q := 10) (by norm_num) (by norm_num)
    norm_num at this ⊢; linarith
  · have := log_le_of (x := 15) (p := 65) (q := 24) (by norm_num) (by norm_num) (by norm_num)
    norm_num at this ⊢; linarith

theorem log40 : 3.68 ≤ log 40 ∧ log 40 ≤ 3.69 := by
  constructor
  · have := le_log_of (x := 40) (p := 59) (q := 16) (by norm_num) (by norm_num)
    norm_num at this ⊢; linarith
  · have := log_le_of (x := 40) (p := 107) (q := 29) (by norm_num) (by norm_num) (by norm_num)
    norm_num at this ⊢; linarith

theorem log5500 : log 5500 ≤ 8.62 := by
  have := log_le_of (x := 5500) (p := 112) (q := 13) (by norm_num) (by norm_num) (by norm_num)
  norm_num at this ⊢; linarith

/-! ### Specification -/

/-- the documented demister correlation in ft/s and psia, for 1 to 5500 psia -/
def york (p : ℝ) : ℝ := if p < 15 then 0.1821 + 0.0029 * p + 0.0460 * log p else if p < 40 then 0.35 else 0.430 - 0.023 * log p

/-- the pressure limited to the range of the correlation -/
def limited (p : ℝ) : ℝ := max 1 (min p 5500)

/-! ### The property -/

/-- C74: the K factor at any pressure whatever is the documented correlation at the pressure limited to 1..5500 psia; horizontal vessels get 1.25 times it -/
theorem C74_york (P : ℝ) (horizontal : Bool) :
    K_separator_demister_York P horizontal = .ok (york (limited (P / psi)) * foot * (if horizontal then 1.25 else 1)) := by
  have hft : yorkFt (P / psi) = .ok (york (limited (P / psi))) := by
    generalize P / psi = p
    unfold yorkFt york limited
    by_cases h1 : p < 1
    · have : max 1 (min p 5500) = 1 := max_eq_left ((min_le_left _ _).trans h1.le)
      rw [this, if_pos (by linarith), if_pos h1, if_pos (by norm_num)]
      py_eval []
    · push Not at h1
      by_cases h2 : p < 15
      · have : max 1 (min p 5500) = p := by rw [min_eq_left (by linarith), max_eq_right h1]
        rw [this, if_pos h2, if_neg (not_lt.mpr h1), if_pos h2]
        have : 0 < p := by linarith
        py_eval []
      · by_cases h3 : p < 40
        · have : max 1 (min p 5500) = p := by rw [min_eq_left (by linarith), max_eq_right h1]
          rw [this, if_neg h2, if_pos h3, if_neg h2, if_pos h3, Py.pure_eq]
        · push Not at h2 h3
          by_cases h4 : p > 5500
          · have : max 1 (min p 5500) = 5500 := by rw [min_eq_right h4.le, max_eq_right (by norm_num)]
            rw [this, if_neg (not_lt.mpr h2), if_neg (not_lt.mpr h3), if_pos h4, if_neg (by norm_num), if_neg (by norm_num)]
            py_eval []
          · push Not at h4
            have : max 1 (min p 5500) = p := by rw [min_eq_left h4, max_eq_right h1]
            rw [this, if_neg (not_lt.mpr h2), if_neg (not_lt.mpr h3), if_neg (not_lt.mpr h4), if_neg (not_lt.mpr h2), if_neg (not_lt.mpr h3)]
            have : 0 < p := by linarith
            py_eval []
  unfold K_separator_demister_York
  rw [pdiv_ok psi_pos.ne', Py.ok_bind, hft, Py.ok_bind, Py.pure_eq]
  cases horizontal <;> simp

/-- C74: the factor lies between 0.185 ft/s and 0.351 ft/s (0.23 ft/s above 15 psia) -/
theorem C74_bounded (p : ℝ) : 0.185 ≤ york (limited p) ∧ york (limited p) ≤ 0.351 ∧ (15 ≤ p → 0.23 ≤ york (limited p)) := by
  have l1 : 1 ≤ limited p := le_max_left _ _
  have l2 : limited p ≤ 5500 := max_le (by norm_num) (min_le_right _ _)
  have l3 : 15 ≤ p → 15 ≤ limited p := fun h => le_max_of_le_right (le_min h (by norm_num))
  generalize limited p = x at *
  have a1 : 0 ≤ log x := log_nonneg l1
  have hx : 0 < x := by linarith
  unfold york
  have ⟨b1, b2⟩ := log15; have ⟨b3, b4⟩ := log40; have b5 := log5500
  split_ifs with c1 c2
  · have a2 : log x ≤ log 15 := log_le_log hx c1.le
    norm_num at *
    refine ⟨by linarith, by linarith, fun h => by linarith [l3 h]⟩
  · norm_num
  · push Not at c2
    have a2 : log x ≤ log 5500 := log_le_log hx l2
    have a3 : log 40 ≤ log x := log_le_log (by norm_num) c2
    norm_num at *
    refine ⟨by linarith, by linarith, fun _ => by linarith⟩

/-- C74: it rises up to 15 psia, is constant to 40 psia and then falls -/
theorem C74_shape {p q : ℝ} (hp : 1 ≤ p) (hpq : p < q) :
    (q < 15 → york p < york q) ∧ (15 ≤ p → q < 40 → york p = york q) ∧ (40 ≤ p → york q < york p) := by
  have hl := log_lt_log (by linarith) hpq
  unfold york
  refine ⟨fun h => ?_, fun h h' => ?_, fun h => ?_⟩
  · rw [if_pos (hpq.trans h), if_pos h]; linarith
  · rw [if_neg (by linarith), if_pos (by linarith), if_neg (by linarith), if_pos h']
  · rw [if_neg (by linarith), if_neg (by linarith), if_neg (by linarith), if_neg (by linarith)]; linarith

/-- C74 (finding): the three ranges do not join: just below 15 psia the factor exceeds the value at 15 psia, and at 40 psia it drops by more than 0.004 ft/s -/
theorem C74_jumps : (∀ p, 14.99 < p → p < 15 → york 15 < york p ∧ york p - york 15 < 0.001) ∧
    (∀ p, 15 ≤ p → p < 40 → 0.004 < york p - york 40 ∧ york p - york 40 < 0.006) := by
  have ⟨b1, b2⟩ := log15; have ⟨b3, b4⟩ := log40
  refine ⟨fun p h1 h2 => ?_, fun p h1 h2 => ?_⟩
  · have h3 := le_log_of (x := 14.99) (p := 46) (q := 17) (by norm_num) (by norm_num)
    have h4 : log 14.99 ≤ log p := log_le_log (by norm_num) h1.le
    have h5 : log p ≤ log 15 := log_le_log (by norm_num at h1; linarith) h2.le
    unfold york
    rw [if_neg (by norm_num), if_pos (by norm_num), if_pos h2]
    norm_num at *; constructor <;> linarith
  · unfold york
    rw [if_neg (by linarith), if_pos h2, if_neg (by norm_num), if_neg (by norm_num)]
    norm_num at *; constructor <;> linarith

/-- C74: the Souders-Brown velocity is proportional to K, vanishes with the density difference, and K is recovered from it -/
theorem C74_souders_brown {K rhol rhog : ℝ} (hg : 0 < rhog) (hl : rhog ≤ rhol) :
    ∃ v, v_Souders_Brown K rhol rhog = .ok v ∧ v ^ 2 * rhog = K ^ 2 * (rhol - rhog) ∧ (0 ≤ K → 0 ≤ v) ∧ (rhog < rhol → v / √((rhol - rhog) / rhog) = K) := by
  have h : 0 ≤ (rhol - rhog) / rhog := div_nonneg (by linarith) hg.le
  unfold v_Souders_Brown
  py_eval []
  refine ⟨_, rfl, ?_, fun hK => by positivity, fun h' => ?_⟩
  · rw [mul_pow, sq_sqrt h]; field_simp
  · have : 0 < √((rhol - rhog) / rhog) := sqrt_pos.mpr (div_pos (by linarith) hg)
    field_simp

/-- C74: a gas denser than the liquid has no Souders-Brown velocity -/
theorem C74_souders_brown_error {K rhol rhog : ℝ} (hg : 0 < rhog) (hl : rhol < rhog) : v_Souders_Brown K rhol rhog = .error .valueError := by
  have : (rhol - rhog) / rhog < 0 := div_neg_of_neg_of_pos (by linarith) hg
  unfold v_Souders_Brown
  py_eval [psqrt, if_pos this, Py.error_bind]

/-- C74: the theoretical K is the one with which Souders-Brown balances droplet weight and drag: `Cd K² = 4/3 g D` -/
theorem C74_theoretical {D Cd g : ℝ} (hD : 0 ≤ D) (hC : 0 < Cd) (hg : 0 ≤ g) : ∃ K, K_Souders_Brown_theoretical D Cd g = .ok K ∧ 0 ≤ K ∧ Cd * K ^ 2 = 4 / 3 * g * D := by
  have h : (0:ℝ) ≤ 4.0 / 3.0 * g * D / Cd := by positivity
  unfold K_Souders_Brown_theoretical
  py_eval []
  refine ⟨_, rfl, sqrt_nonneg _, ?_⟩
  rw [sq_sqrt h]; field_simp; norm_num; ring

/-- C74: Watkins' chart: every supported method gives a positive K at every quality strictly between 0 and 1, 1.25 times as large for horizontal vessels, that depends
on the quality and densities through the flow parameter only; other method names are rejected -/
theorem C74_watkins (spline : ℝ → ℝ) {x rhol rhog : ℝ} (hx : 0 < x) (hx' : x < 1) (hl : 0 < rhol) (hg : 0 < rhog) (method : String) :
    (method ∈ ["spline", "blackwell", "branan"] →
      ∃ K, K_separator_Watkins spline x rhol rhog false method = .ok K ∧ 0 < K ∧ K_separator_Watkins spline x rhol rhog true method = .ok (1.25 * K) ∧
        ∀ x' rhol' rhog', 0 < x' → x' < 1 → 0 < rhol' → 0 < rhog' → (1 - x') / x' * √(rhog' / rhol') = (1 - x) / x * √(rhog / rhol) →
          K_separator_Watkins spline x' rhol' rhog' false method = .ok K) ∧
    (method ∉ ["spline", "blackwell", "branan"] → ∀ hz, K_separator_Watkins spline x rhol rhog hz method = .error .valueError) := by
  have run : ∀ x rhol rhog : ℝ, 0 < x → x < 1 → 0 < rhol → 0 < rhog → ∀ hz, K_separator_Watkins spline x rhol rhog hz method =
      (watkinsCurve spline ((1 - x) / x * √(rhog / rhol)) method >>= fun K => pure (if hz then K * foot * 1.25 else K * foot)) := by
    intro x rhol rhog hx _ hl hg hz
    have : 0 ≤ rhog / rhol := by positivity
    unfold K_separator_Watkins
    py_eval []
  have hpos : 0 < (1 - x) / x * √(rhog / rhol) := mul_pos (div_pos (by linarith) hx) (sqrt_pos.mpr (by positivity))
  have hf := foot_pos
  constructor
  · intro hm
    obtain ⟨c, hc, hc0⟩ : ∃ c, watkinsCurve spline ((1 - x) / x * √(rhog / rhol)) method = .ok c ∧ 0 < c := by
      simp only [List.mem_cons, List.not_mem_nil, or_false] at hm
      rcases hm with rfl | rfl | rfl <;>
        (simp only [watkinsCurve, String.reduceEq, if_true, if_false, plog_ok hpos, Py.ok_bind, Py.pure_eq]; exact ⟨_, rfl, exp_pos _⟩)
    refine ⟨c * foot, ?_, by positivity, ?_, fun x' rhol' rhog' g1 g2 g3 g4 g5 => ?_⟩
    · rw [run x rhol rhog hx hx' hl hg, hc]; simp
    · rw [run x rhol rhog hx hx' hl hg, hc]; simp; ring
    · rw [run x' rhol' rhog' g1 g2 g3 g4, g5, hc]; simp
  · intro hm hz
    simp only [List.mem_cons, List.not_mem_nil, or_false, not_or] at hm
    rw [run x rhol rhog hx hx' hl hg, watkinsCurve, if_neg hm.1, if_neg hm.2.1, if_neg hm.2.2, Py.error_bind]

example : ∃ K, K_separator_demister_York 0 false = .ok K ∧ 0 < K := by
  refine ⟨_, C74_york 0 false, ?_⟩
  have := (C74_bounded (0 / psi)).1
  have := foot_pos
  norm_num at *; nlinarith

end Verif.Separator
