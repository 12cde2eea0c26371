import Verif.Lemmas.PolyCalc

/-!
# C09, C10: polynomial evaluation

Specification: `Spec.polyDesc c = ∑ᵢ cᵢ X^(n-1-i)`, Mathlib's formal derivative and `iteratedDeriv`.
-/

namespace Verif
open Polynomial Verif.Spec Verif.PolyEval

/-- C09: `horner` computes `∑ cᵢ x^(n-1-i)` for every coefficient list. -/
theorem C09_horner_value {K : Type _} [CommRing K] (c : List K) (x : K) :
    horner c x = ∑ i : Fin c.length, c[i] * x ^ (c.length - 1 - i) := by
  rw [horner_eq_eval]; simp [polyDesc, eval_finsetSum]

example : horner [3, 2, 1] (10 : ℤ) = 321 := by decide

/-- C09: the value-and-derivative evaluators return the value and the exact first to fourth derivatives of the same
polynomial, in every commutative ring, for every coefficient list. -/
theorem C09_horner_derivatives {K : Type _} [CommRing K] (c : List K) (x : K) :
    let D := fun k : ℕ => (derivative^[k] (polyDesc c)).eval x
    horner_backwards x c = D 0 ∧
    horner_and_der c x = (D 0, D 1) ∧
    horner_and_der2 c x = (D 0, D 1, D 2) ∧
    horner_and_der3 c x = (D 0, D 1, D 2, D 3) ∧
    horner_and_der4 c x = (D 0, D 1, D 2, D 3, D 4) := by
  intro D
  exact ⟨horner_eq_eval c x, horner_and_der_eq c x, horner_and_der2_eq c x, horner_and_der3_eq c x,
    horner_and_der4_eq c x⟩

example : horner_and_der4 [1, 0, 0, 0, 0] (2 : ℤ) = (16, 32, 48, 48, 24) := by decide

/-- C09: over the reals those are the analytic derivatives of the evaluated function. -/
theorem C09_horner_iteratedDeriv (c : List ℝ) (x : ℝ) :
    let D := fun k : ℕ => iteratedDeriv k (fun t => horner c t) x
    horner_and_der4 c x = (D 0, D 1, D 2, D 3, D 4) := by
  intro D
  rw [horner_and_der4_eq]
  have h : ∀ k, D k = (derivative^[k] (polyDesc c)).eval x := fun k => by
    simp only [D, horner_eq_eval]; exact poly_iteratedDeriv _ _ _
  simp only [h]; rfl

/-- C09: `exp_horner_backwards` and its derivative variants return `exp(p(x))` and its true derivatives. -/
theorem C09_exp_horner_derivatives (c : List ℝ) (x : ℝ) :
    let F := fun t => Real.exp (∑ i : Fin c.length, c[i] * t ^ (c.length - 1 - i))
    exp_horner_backwards x c = F x ∧
    exp_horner_backwards_and_der x c = (F x, deriv F x) ∧
    exp_horner_backwards_and_der2 x c = (F x, deriv F x, iteratedDeriv 2 F x) ∧
    exp_horner_backwards_and_der3 x c = (F x, deriv F x, iteratedDeriv 2 F x, iteratedDeriv 3 F x) := by
  intro F
  have hF : F = fun t => Real.exp ((polyDesc c).eval t) := by
    funext t; simp only [F]; rw [← C09_horner_value, horner_eq_eval]
  obtain ⟨h1, h2, h3⟩ := exp_poly_ders (polyDesc c) x
  rw [hF]
  refine ⟨by simp [exp_horner_backwards, horner_eq_eval], ?_, ?_, ?_⟩
  · simp [exp_horner_backwards_and_der, horner_and_der_eq, h1]
  · rw [h1, h2]; simp [exp_horner_backwards_and_der2, horner_and_der2_eq]
  · rw [h1, h2, h3]; simp [exp_horner_backwards_and_der3, horner_and_der3_eq]

private theorem tau_pos {T Tc : ℝ} (hc : 0 < Tc) (hT : T < Tc) : 0 < 1 - T / Tc := by
  rw [sub_pos, div_lt_one hc]; exact hT

/-- C09: below the critical temperature the `ln_tau` forms return `p(ln(1-T/Tc))` and its true temperature
derivatives; at and above it they return zeros. -/
theorem C09_horner_ln_tau (c : List ℝ) (T Tc : ℝ) :
    let F := fun t => ∑ i : Fin c.length, c[i] * Real.log (1 - t / Tc) ^ (c.length - 1 - i)
    (Tc ≤ T → horner_backwards_ln_tau T Tc c = .ok 0 ∧ horner_backwards_ln_tau_and_der T Tc c = .ok (0, 0) ∧
      horner_backwards_ln_tau_and_der2 T Tc c = .ok (0, 0, 0) ∧
      horner_backwards_ln_tau_and_der3 T Tc c = .ok (0, 0, 0, 0)) ∧
    (0 < Tc → T < Tc → horner_backwards_ln_tau T Tc c = .ok (F T) ∧
      horner_backwards_ln_tau_and_der T Tc c = .ok (F T, deriv F T) ∧
      horner_backwards_ln_tau_and_der2 T Tc c = .ok (F T, deriv F T, iteratedDeriv 2 F T) ∧
      horner_backwards_ln_tau_and_der3 T Tc c =
        .ok (F T, deriv F T, iteratedDeriv 2 F T, iteratedDeriv 3 F T)) := by
  intro F
  refine ⟨fun h => ?_, fun hc hT => ?_⟩
  · simp [horner_backwards_ln_tau, horner_backwards_ln_tau_and_der, horner_backwards_ln_tau_and_der2,
      horner_backwards_ln_tau_and_der3, h]
  have hF : F = fun t => (polyDesc c).eval (Real.log (1 - t / Tc)) := by
    funext t; simp only [F]; rw [← C09_horner_value, horner_eq_eval]
  obtain ⟨h1, h2, h3⟩ := lntau_poly_ders (polyDesc c) hc hT
  rw [hF]
  have ht := tau_pos hc hT
  have hne : Tc ≠ 0 := hc.ne'
  have e1 : Tc * (-T / Tc + 1) = Tc - T := by field_simp; ring
  have e2 : Tc ^ 2 * (T / Tc - 1) ^ 2 = (Tc - T) ^ 2 := by field_simp; ring
  have e3 : Tc ^ 3 * (T / Tc - 1) ^ 3 = -(Tc - T) ^ 3 := by field_simp; ring
  have hd : Tc - T ≠ 0 := by linarith
  have hnot : ¬ Tc ≤ T := not_le.mpr hT
  refine ⟨?_, ?_, ?_, ?_⟩
  · simp [horner_backwards_ln_tau, hnot, pdiv_ok hne, plog_ok ht, horner_eq_eval]
  · rw [h1]
    simp [horner_backwards_ln_tau_and_der, hnot, pdiv_ok hne, plog_ok ht, horner_and_der_eq, e1, pdiv_ok hd]
  · rw [h1, h2]
    simp [horner_backwards_ln_tau_and_der2, hnot, pdiv_ok hne, plog_ok ht, horner_and_der2_eq, e1, e2, pdiv_ok hd,
      pdiv_ok (pow_ne_zero 2 hd)]
  · rw [h1, h2, h3]
    have e1' : Tc * (-(T / Tc) + 1) = Tc - T := by rw [← e1, neg_div]
    simp [horner_backwards_ln_tau_and_der3, hnot, pdiv_ok hne, plog_ok ht, horner_and_der3_eq, e1', e2, e3, pdiv_ok hd,
      pdiv_ok (pow_ne_zero 2 hd), pdiv_ok (neg_ne_zero.mpr (pow_ne_zero 3 hd)), div_neg, neg_div, -neg_add_rev, -neg_sub]

example : (0 : ℝ) < 500 ∧ (300 : ℝ) < 500 := by norm_num

/-- C09: same for the exponentiated `ln_tau` forms. -/
theorem C09_exp_horner_ln_tau (c : List ℝ) (T Tc : ℝ) :
    let F := fun t => Real.exp (∑ i : Fin c.length, c[i] * Real.log (1 - t / Tc) ^ (c.length - 1 - i))
    (Tc ≤ T → exp_horner_backwards_ln_tau T Tc c = .ok 0 ∧ exp_horner_backwards_ln_tau_and_der T Tc c = .ok (0, 0) ∧
      exp_horner_backwards_ln_tau_and_der2 T Tc c = .ok (0, 0, 0)) ∧
    (0 < Tc → T < Tc → exp_horner_backwards_ln_tau T Tc c = .ok (F T) ∧
      exp_horner_backwards_ln_tau_and_der T Tc c = .ok (F T, deriv F T) ∧
      exp_horner_backwards_ln_tau_and_der2 T Tc c = .ok (F T, deriv F T, iteratedDeriv 2 F T)) := by
  intro F
  refine ⟨fun h => ?_, fun hc hT => ?_⟩
  · simp [exp_horner_backwards_ln_tau, exp_horner_backwards_ln_tau_and_der, exp_horner_backwards_ln_tau_and_der2, h]
  have hF : F = fun t => Real.exp ((polyDesc c).eval (Real.log (1 - t / Tc))) := by
    funext t; simp only [F]; rw [← C09_horner_value, horner_eq_eval]
  obtain ⟨h1, h2⟩ := exp_lntau_poly_ders (polyDesc c) hc hT
  rw [hF]
  have ht := tau_pos hc hT
  have hne : Tc ≠ 0 := hc.ne'
  have e1 : Tc * (1 - T / Tc) = Tc - T := by field_simp
  have hd : Tc - T ≠ 0 := by linarith
  have hnot : ¬ Tc ≤ T := not_le.mpr hT
  refine ⟨?_, ?_, ?_⟩
  · simp [exp_horner_backwards_ln_tau, hnot, pdiv_ok hne, plog_ok ht, horner_eq_eval]
  · rw [h1]
    simp [exp_horner_backwards_ln_tau_and_der, hnot, pdiv_ok hne, plog_ok ht, horner_and_der_eq, e1, pdiv_ok hd]
  · rw [h1, h2]
    simp [exp_horner_backwards_ln_tau_and_der2, hnot, pdiv_ok hne, plog_ok ht, horner_and_der2_eq, e1, pdiv_ok hd]
    constructor <;> field_simp

/-- C09: `horner_log` is the polynomial plus the logarithmic term, and raises ValueError off the positive axis. -/
theorem C09_horner_log (c : List ℝ) (b x : ℝ) :
    (0 < x → horner_log c b x = .ok ((∑ i : Fin c.length, c[i] * x ^ (c.length - 1 - i)) + b * Real.log x)) ∧
    (x ≤ 0 → horner_log c b x = .error .valueError) := by
  rw [← C09_horner_value]
  constructor
  · intro h; simp [horner_log, plog_ok h, horner]
  · intro h; simp [horner_log, plog, h]

/-- the polynomial seen by a caller of the offset/scale form -/
noncomputable def stablePoly {K : Type _} [CommRing K] (c : List K) (offset scale : K) : K[X] :=
  (polyDesc c).comp (C offset + C scale * X)

theorem stable_iter {K : Type _} [CommRing K] (q : K[X]) (o s x : K) (k : ℕ) :
    (derivative^[k] (q.comp (C o + C s * X))).eval x = s ^ k * (derivative^[k] q).eval (o + s * x) := by
  have h : derivative^[k] (q.comp (C o + C s * X)) = C (s ^ k) * (derivative^[k] q).comp (C o + C s * X) := by
    induction k with
    | zero => simp
    | succ k ih =>
      rw [Function.iterate_succ_apply', ih, Function.iterate_succ_apply']
      rw [derivative_C_mul, derivative_comp]
      simp only [derivative_add, derivative_C, derivative_C_mul, derivative_X, zero_add, mul_one, pow_succ, C_mul]
      ring
  rw [h]; simp

/-- C10: the offset/scale evaluators return the value and true x-derivatives of `p(offset + scale·x)`. -/
theorem C10_horner_stable {K : Type _} [CommRing K] (c : List K) (offset scale x : K) :
    let D := fun k : ℕ => (derivative^[k] ((polyDesc c).comp (C offset + C scale * X))).eval x
    horner_stable x c offset scale = D 0 ∧
    horner_stable_and_der x c offset scale = (D 0, D 1) ∧
    horner_stable_and_der2 x c offset scale = (D 0, D 1, D 2) ∧
    horner_stable_and_der3 x c offset scale = (D 0, D 1, D 2, D 3) ∧
    horner_stable_and_der4 x c offset scale = (D 0, D 1, D 2, D 3, D 4) := by
  intro D
  have hD : ∀ k, D k = scale ^ k * (derivative^[k] (polyDesc c)).eval (offset + scale * x) := fun k =>
    stable_iter _ _ _ _ _
  simp only [hD]
  refine ⟨?_, ?_, ?_, ?_, ?_⟩
  · rw [show horner_stable x c offset scale = horner c (offset + scale * x) from rfl]
    simpa using horner_eq_eval c (offset + scale * x)
  · have := horner_and_der_eq c (offset + scale * x)
    unfold horner_and_der at this; unfold horner_stable_and_der; dsimp only; rw [this]
    simp; ring
  · have := horner_and_der2_eq c (offset + scale * x)
    unfold horner_and_der2 at this; unfold horner_stable_and_der2
    simp only [Prod.mk.injEq, Function.iterate_succ_apply', Function.iterate_zero_apply] at this ⊢
    obtain ⟨a1, a2, a3⟩ := this
    refine ⟨by rw [a1]; ring, by rw [a2]; ring, by rw [a3]; ring⟩
  · have := horner_and_der3_eq c (offset + scale * x)
    unfold horner_and_der3 at this; unfold horner_stable_and_der3
    simp only [Prod.mk.injEq, Function.iterate_succ_apply', Function.iterate_zero_apply] at this ⊢
    obtain ⟨a1, a2, a3, a4⟩ := this
    refine ⟨by rw [a1]; ring, by rw [a2]; ring, by rw [a3]; ring, by rw [← a4]; ring⟩
  · have := horner_and_der4_eq c (offset + scale * x)
    unfold horner_and_der4 at this; unfold horner_stable_and_der4
    simp only [Prod.mk.injEq, Function.iterate_succ_apply', Function.iterate_zero_apply] at this ⊢
    obtain ⟨a1, a2, a3, a4, a5⟩ := this
    refine ⟨by rw [a1]; ring, by rw [a2]; ring, by rw [a3]; ring, by rw [← a4]; ring, by rw [← a5]; ring⟩

example : horner_stable_and_der2 3 [1, 0, 0] (1 : ℤ) 2 = (49, 28, 8) := by decide

private theorem hs0 (c : List ℝ) (o s x : ℝ) : horner_stable x c o s = (stablePoly c o s).eval x :=
  (C10_horner_stable c o s x).1
private theorem hs1 (c : List ℝ) (o s x : ℝ) : horner_stable_and_der x c o s =
    ((stablePoly c o s).eval x, (derivative (stablePoly c o s)).eval x) :=
  (C10_horner_stable c o s x).2.1
private theorem hs2 (c : List ℝ) (o s x : ℝ) : horner_stable_and_der2 x c o s =
    ((stablePoly c o s).eval x, (derivative (stablePoly c o s)).eval x, (derivative^[2] (stablePoly c o s)).eval x) :=
  (C10_horner_stable c o s x).2.2.1
private theorem hs3 (c : List ℝ) (o s x : ℝ) : horner_stable_and_der3 x c o s =
    ((stablePoly c o s).eval x, (derivative (stablePoly c o s)).eval x, (derivative^[2] (stablePoly c o s)).eval x,
      (derivative^[3] (stablePoly c o s)).eval x) :=
  (C10_horner_stable c o s x).2.2.2.1

/-- the function computed by `horner_stable`, written out -/
theorem stablePoly_eval (c : List ℝ) (o s x : ℝ) :
    (stablePoly c o s).eval x = ∑ i : Fin c.length, c[i] * (o + s * x) ^ (c.length - 1 - i) := by
  rw [← C09_horner_value, horner_eq_eval]; simp [stablePoly]

/-- C10: exponentiated offset/scale form: value and true derivatives. -/
theorem C10_exp_horner_stable (c : List ℝ) (o s x : ℝ) :
    let F := fun t => Real.exp (∑ i : Fin c.length, c[i] * (o + s * t) ^ (c.length - 1 - i))
    exp_horner_stable x c o s = F x ∧
    exp_horner_stable_and_der x c o s = (F x, deriv F x) ∧
    exp_horner_stable_and_der2 x c o s = (F x, deriv F x, iteratedDeriv 2 F x) ∧
    exp_horner_stable_and_der3 x c o s = (F x, deriv F x, iteratedDeriv 2 F x, iteratedDeriv 3 F x) := by
  intro F
  have hF : F = fun t => Real.exp ((stablePoly c o s).eval t) := by
    funext t; simp only [F]; rw [stablePoly_eval]
  obtain ⟨h1, h2, h3⟩ := exp_poly_ders (stablePoly c o s) x
  rw [hF]
  refine ⟨by simp only [exp_horner_stable, trunc_exp, hs0], ?_, ?_, ?_⟩
  · simp only [exp_horner_stable_and_der, hs1, h1]
  · rw [h1, h2]; simp only [exp_horner_stable_and_der2, hs2]
  · rw [h1, h2, h3]; simp only [exp_horner_stable_and_der3, hs3]

/-- C10: offset/scale form in `ln(1-T/Tc)`: value and true temperature derivatives below `Tc`, zeros above. -/
theorem C10_horner_stable_ln_tau (c : List ℝ) (o s T Tc : ℝ) :
    let F := fun t => ∑ i : Fin c.length, c[i] * (o + s * Real.log (1 - t / Tc)) ^ (c.length - 1 - i)
    (Tc ≤ T → horner_stable_ln_tau T Tc c o s = .ok 0 ∧ horner_stable_ln_tau_and_der T Tc c o s = .ok (0, 0) ∧
      horner_stable_ln_tau_and_der2 T Tc c o s = .ok (0, 0, 0) ∧
      horner_stable_ln_tau_and_der3 T Tc c o s = .ok (0, 0, 0, 0)) ∧
    (0 < Tc → T < Tc → horner_stable_ln_tau T Tc c o s = .ok (F T) ∧
      horner_stable_ln_tau_and_der T Tc c o s = .ok (F T, deriv F T) ∧
      horner_stable_ln_tau_and_der2 T Tc c o s = .ok (F T, deriv F T, iteratedDeriv 2 F T) ∧
      horner_stable_ln_tau_and_der3 T Tc c o s =
        .ok (F T, deriv F T, iteratedDeriv 2 F T, iteratedDeriv 3 F T)) := by
  intro F
  refine ⟨fun h => ?_, fun hc hT => ?_⟩
  · simp [horner_stable_ln_tau, horner_stable_ln_tau_and_der, horner_stable_ln_tau_and_der2,
      horner_stable_ln_tau_and_der3, h]
  have hF : F = fun t => (stablePoly c o s).eval (Real.log (1 - t / Tc)) := by
    funext t; simp only [F]; rw [stablePoly_eval]
  obtain ⟨h1, h2, h3⟩ := lntau_poly_ders (stablePoly c o s) hc hT
  rw [hF]
  have ht := tau_pos hc hT
  have hne : Tc ≠ 0 := hc.ne'
  have e1 : Tc * (-T / Tc + 1) = Tc - T := by field_simp; ring
  have e2 : Tc * (1 - T / Tc) = Tc - T := by field_simp
  have hd : Tc - T ≠ 0 := by linarith
  have hnot : ¬ Tc ≤ T := not_le.mpr hT
  refine ⟨?_, ?_, ?_, ?_⟩
  · simp [horner_stable_ln_tau, hnot, pdiv_ok hne, plog_ok ht, hs0]
  · rw [h1]
    simp [horner_stable_ln_tau_and_der, hnot, pdiv_ok hne, plog_ok ht, hs1, e1, pdiv_ok hd]
  · rw [h1, h2]
    simp [horner_stable_ln_tau_and_der2, hnot, pdiv_ok hne, plog_ok ht, hs2, e2, pdiv_ok hd]
    constructor <;> field_simp
  · rw [h1, h2, h3]
    simp [horner_stable_ln_tau_and_der3, hnot, pdiv_ok hne, plog_ok ht, hs3, e2, pdiv_ok hd]
    refine ⟨?_, ?_, ?_⟩ <;> field_simp

/-- C10: exponentiated offset/scale form in `ln(1-T/Tc)`. -/
theorem C10_exp_horner_stable_ln_tau (c : List ℝ) (o s T Tc : ℝ) :
    let F := fun t => Real.exp (∑ i : Fin c.length, c[i] * (o + s * Real.log (1 - t / Tc)) ^ (c.length - 1 - i))
    (Tc ≤ T → exp_horner_stable_ln_tau T Tc c o s = .ok 0 ∧ exp_horner_stable_ln_tau_and_der T Tc c o s = .ok (0, 0) ∧
      exp_horner_stable_ln_tau_and_der2 T Tc c o s = .ok (0, 0, 0)) ∧
    (0 < Tc → T < Tc → exp_horner_stable_ln_tau T Tc c o s = .ok (F T) ∧
      exp_horner_stable_ln_tau_and_der T Tc c o s = .ok (F T, deriv F T) ∧
      exp_horner_stable_ln_tau_and_der2 T Tc c o s = .ok (F T, deriv F T, iteratedDeriv 2 F T)) := by
  intro F
  refine ⟨fun h => ?_, fun hc hT => ?_⟩
  · simp [exp_horner_stable_ln_tau, exp_horner_stable_ln_tau_and_der, exp_horner_stable_ln_tau_and_der2, h]
  have hF : F = fun t => Real.exp ((stablePoly c o s).eval (Real.log (1 - t / Tc))) := by
    funext t; simp only [F]; rw [stablePoly_eval]
  obtain ⟨h1, h2⟩ := exp_lntau_poly_ders (stablePoly c o s) hc hT
  rw [hF]
  have ht := tau_pos hc hT
  have hne : Tc ≠ 0 := hc.ne'
  have e1 : Tc * (1 - T / Tc) = Tc - T := by field_simp
  have e2 : Tc * Tc * ((1 - T / Tc) * (1 - T / Tc)) = (Tc - T) ^ 2 := by field_simp
  have hd : Tc - T ≠ 0 := by linarith
  have hnot : ¬ Tc ≤ T := not_le.mpr hT
  refine ⟨?_, ?_, ?_⟩
  · simp [exp_horner_stable_ln_tau, hnot, pdiv_ok hne, plog_ok ht, hs0, trunc_exp]
  · rw [h1]
    simp [exp_horner_stable_ln_tau_and_der, hnot, pdiv_ok hne, plog_ok ht, hs1, e1, pdiv_ok hd, trunc_exp]
  · rw [h1, h2]
    simp [exp_horner_stable_ln_tau_and_der2, hnot, pdiv_ok hne, plog_ok ht, hs2, e1, e2, pdiv_ok hd, trunc_exp,
      pdiv_ok (pow_ne_zero 2 hd)]

example : (0 : ℝ) < 647 ∧ (300 : ℝ) < 647 := by norm_num

/-- C10: `horner_domain` evaluates the polynomial at the affine image of `x` that sends `[xmin, xmax]` onto `[-1, 1]`;
a degenerate interval raises ZeroDivisionError. -/
theorem C10_horner_domain {K : Type _} [Field K] [DecidableEq K] (c : List K) (x xmin xmax : K) :
    (xmin = xmax → horner_domain x c xmin xmax = .error .zeroDivisionError) ∧
    (xmin ≠ xmax → horner_domain x c xmin xmax =
      .ok ((polyDesc c).eval ((2 * x - (xmin + xmax)) / (xmax - xmin)))) := by
  constructor
  · rintro rfl; simp [horner_domain]
  · intro h
    have h' : xmax - xmin ≠ 0 := sub_ne_zero.mpr (Ne.symm h)
    simp only [horner_domain, pdiv_ok h', Py.ok_bind, Py.pure_eq]
    rw [← horner_eq_eval, horner]
    have : (-xmax - xmin) * (1 / (xmax - xmin)) + 2 * (1 / (xmax - xmin)) * x
        = (2 * x - (xmin + xmax)) / (xmax - xmin) := by field_simp; ring
    rw [this]

example : horner_domain (3 : ℚ) [2, 1] 1 5 = .ok 1 := by decide +kernel

end Verif
