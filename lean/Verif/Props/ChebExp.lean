import Verif.Model.ChebExp
import Verif.Props.Chebyshev
import Mathlib.Analysis.SpecialFunctions.ExpDeriv
import Mathlib.Analysis.SpecialFunctions.Log.Deriv
import Mathlib.Analysis.Calculus.Deriv.Polynomial
import Mathlib.Tactic

/-! C111: Chebyshev series of temperature, their exponentials and derivatives (`fluids/numerics/__init__.py`). -/

namespace Verif.ChebExp
open Verif Verif.Chebyshev Verif.Spec Polynomial

/-- The series itself: `∑ cₖ Tₖ(offset + scale x)`. -/
noncomputable def series (c : List ℝ) (offset scale x : ℝ) : ℝ := (chebSeries c).eval (offset + scale * x)

lemma chebval_series (x : ℝ) (c : List ℝ) (offset scale : ℝ) (h : c ≠ []) : chebval x c offset scale = .ok (series c offset scale x) :=
  chebval_ok x c offset scale h

/-- The coefficients made by `chebder(c, m, scale)` evaluate to the `m`-th derivative of the series. -/
lemma series_hasDerivAt (c : List ℝ) (m : ℕ) (offset scale x : ℝ) :
    HasDerivAt (series (chebder c m scale) offset scale) (series (chebder c (m + 1) scale) offset scale x) x := by
  unfold series
  simp only [chebder_eq]
  have h1 : HasDerivAt (fun x : ℝ => offset + scale * x) scale x := by simpa using ((hasDerivAt_id x).const_mul scale).const_add offset
  have h2 := ((C (scale ^ m) * derivative^[m] (chebSeries c)).hasDerivAt (offset + scale * x)).comp x h1
  refine h2.congr_deriv ?_
  rw [derivative_C_mul, Function.iterate_succ_apply', eval_mul, eval_mul, eval_C, eval_C, pow_succ]
  ring

lemma chebder_zero (c : List ℝ) (s : ℝ) : chebder c 0 s = c := rfl

lemma chebder_ne (c : List ℝ) (m : ℕ) (s : ℝ) (h : m < c.length) : chebder c m s ≠ [] := by
  intro h0
  have := (C12_chebder c m s).2
  rw [h0] at this
  simp at this
  omega

section
variable {c : List ℝ} {offset scale : ℝ}

lemma series_der1 (x : ℝ) : HasDerivAt (series c offset scale) (series (chebder c 1 scale) offset scale x) x := series_hasDerivAt c 0 offset scale x
lemma series_der2 (x : ℝ) : HasDerivAt (series (chebder c 1 scale) offset scale) (series (chebder c 2 scale) offset scale x) x := series_hasDerivAt c 1 offset scale x
lemma series_der3 (x : ℝ) : HasDerivAt (series (chebder c 2 scale) offset scale) (series (chebder c 3 scale) offset scale x) x := series_hasDerivAt c 2 offset scale x
end

/-! ### exponentials -/

/-- C111: `exp_cheb` is the exponential of the series; no coefficients raise IndexError. -/
theorem C111_exp_cheb (x : ℝ) (c : List ℝ) (offset scale : ℝ) :
    exp_cheb x c offset scale = if c = [] then .error .indexError else .ok (Real.exp (∑ k : Fin c.length, c[k] * (Polynomial.Chebyshev.T ℝ (k : ℤ)).eval (offset + scale * x))) := by
  unfold exp_cheb
  rw [C12_chebval]
  by_cases h : c = []
  · rw [if_pos h, if_pos h]; rfl
  · rw [if_neg h, if_neg h]; rfl

/-- C111: with the derivative coefficients of `chebder(coeffs, m, scale)`, `exp_cheb_and_der`, `_der2` and `_der3` return the exponential of the series and its successive derivatives. -/
theorem C111_exp_cheb_der (c : List ℝ) (offset scale : ℝ) (h : 3 < c.length) :
    ∃ f f1 f2 f3 : ℝ → ℝ, (∀ x, exp_cheb x c offset scale = .ok (f x)) ∧
      (∀ x, HasDerivAt f (f1 x) x ∧ HasDerivAt f1 (f2 x) x ∧ HasDerivAt f2 (f3 x) x) ∧
      (∀ x, exp_cheb_and_der x c (chebder c 1 scale) offset scale = .ok (f x, f1 x)) ∧
      (∀ x, exp_cheb_and_der2 x c (chebder c 1 scale) (chebder c 2 scale) offset scale = .ok (f x, f1 x, f2 x)) ∧
      (∀ x, exp_cheb_and_der3 x c (chebder c 1 scale) (chebder c 2 scale) (chebder c 3 scale) offset scale = .ok (f x, f1 x, f2 x, f3 x)) := by
  have n0 : c ≠ [] := by rintro rfl; simp at h
  have n1 := chebder_ne c 1 scale (by omega)
  have n2 := chebder_ne c 2 scale (by omega)
  have n3 := chebder_ne c 3 scale h
  refine ⟨fun x => Real.exp (series c offset scale x), fun x => series (chebder c 1 scale) offset scale x * Real.exp (series c offset scale x),
    fun x => (series (chebder c 1 scale) offset scale x * series (chebder c 1 scale) offset scale x + series (chebder c 2 scale) offset scale x) * Real.exp (series c offset scale x),
    fun x => (series (chebder c 1 scale) offset scale x * series (chebder c 1 scale) offset scale x * series (chebder c 1 scale) offset scale x +
      3 * series (chebder c 1 scale) offset scale x * series (chebder c 2 scale) offset scale x + series (chebder c 3 scale) offset scale x) * Real.exp (series c offset scale x),
    ?_, ?_, ?_, ?_, ?_⟩
  · intro x; unfold exp_cheb; rw [chebval_series _ _ _ _ n0]; rfl
  · intro x
    have d1 := series_der1 (c := c) (offset := offset) (scale := scale) x
    have d2 := series_der2 (c := c) (offset := offset) (scale := scale) x
    have d3 := series_der3 (c := c) (offset := offset) (scale := scale) x
    refine ⟨?_, ?_, ?_⟩
    · exact d1.exp.congr_deriv (mul_comm _ _)
    · exact (d2.mul d1.exp).congr_deriv (by ring)
    · exact (((d2.mul d2).add d3).mul d1.exp).congr_deriv (by simp only [Pi.add_apply, Pi.mul_apply]; ring)
  · intro x; unfold exp_cheb_and_der; rw [chebval_series _ _ _ _ n0, Py.ok_bind, chebval_series _ _ _ _ n1]; rfl
  · intro x; unfold exp_cheb_and_der2; rw [chebval_series _ _ _ _ n0, Py.ok_bind, chebval_series _ _ _ _ n1, Py.ok_bind, chebval_series _ _ _ _ n2]; rfl
  · intro x; unfold exp_cheb_and_der3
    rw [chebval_series _ _ _ _ n0, Py.ok_bind, chebval_series _ _ _ _ n1, Py.ok_bind, chebval_series _ _ _ _ n2, Py.ok_bind, chebval_series _ _ _ _ n3]; rfl

/-! ### functions of `ln(1 - T/Tc)` -/

lemma lntau_ok {T Tc : ℝ} (h0 : 0 < Tc) (h : T < Tc) : 0 < 1 - T / Tc := by
  rw [sub_pos, div_lt_one h0]; exact h

lemma lntau_hasDerivAt {T Tc : ℝ} (h0 : 0 < Tc) (h : T < Tc) : HasDerivAt (fun T => Real.log (1 - T / Tc)) (-1 / (Tc * (1 - T / Tc))) T := by
  have ht := lntau_ok h0 h
  have := (((hasDerivAt_id T).div_const Tc).const_sub 1).log ht.ne'
  refine this.congr_deriv ?_
  simp only [id]
  field_simp

/-- C111: with the derivative coefficients of `chebder(coeffs, m, scale)`, below the critical temperature `chebval_ln_tau` and its `_der`, `_der2`, `_der3` variants return the series in
`ln(1 - T/Tc)` and its successive derivatives with respect to temperature. -/
theorem C111_chebval_ln_tau (c : List ℝ) (Tc offset scale : ℝ) (hTc : 0 < Tc) (h : 3 < c.length) :
    ∃ f f1 f2 f3 : ℝ → ℝ,
      (∀ T < Tc, chebval (Real.log (1 - T / Tc)) c offset scale = .ok (f T) ∧ chebval_ln_tau T Tc c offset scale = .ok (f T)) ∧
      (∀ T < Tc, HasDerivAt f (f1 T) T ∧ HasDerivAt f1 (f2 T) T ∧ HasDerivAt f2 (f3 T) T) ∧
      (∀ T < Tc, chebval_ln_tau_and_der T Tc c (chebder c 1 scale) offset scale = .ok (f T, f1 T)) ∧
      (∀ T < Tc, chebval_ln_tau_and_der2 T Tc c (chebder c 1 scale) (chebder c 2 scale) offset scale = .ok (f T, f1 T, f2 T)) ∧
      (∀ T < Tc, chebval_ln_tau_and_der3 T Tc c (chebder c 1 scale) (chebder c 2 scale) (chebder c 3 scale) offset scale = .ok (f T, f1 T, f2 T, f3 T)) := by
  have n0 : c ≠ [] := by rintro rfl; simp at h
  have n1 := chebder_ne c 1 scale (by omega)
  have n2 := chebder_ne c 2 scale (by omega)
  have n3 := chebder_ne c 3 scale h
  set L : ℝ → ℝ := fun T => Real.log (1 - T / Tc) with hL
  set p0 : ℝ → ℝ := fun T => series c offset scale (L T) with hp0
  set p1 : ℝ → ℝ := fun T => series (chebder c 1 scale) offset scale (L T) with hp1
  set p2 : ℝ → ℝ := fun T => series (chebder c 2 scale) offset scale (L T) with hp2
  set p3 : ℝ → ℝ := fun T => series (chebder c 3 scale) offset scale (L T) with hp3
  have d0 : ∀ T < Tc, HasDerivAt p0 (p1 T * (-1 / (Tc * (1 - T / Tc)))) T := fun T hT => (series_der1 _).comp T (lntau_hasDerivAt hTc hT)
  have d1 : ∀ T < Tc, HasDerivAt p1 (p2 T * (-1 / (Tc * (1 - T / Tc)))) T := fun T hT => (series_der2 _).comp T (lntau_hasDerivAt hTc hT)
  have d2 : ∀ T < Tc, HasDerivAt p2 (p3 T * (-1 / (Tc * (1 - T / Tc)))) T := fun T hT => (series_der3 _).comp T (lntau_hasDerivAt hTc hT)
  have dt : ∀ T, HasDerivAt (fun T => Tc * (-T / Tc + 1)) (-1) T := by
    intro T
    refine ((((hasDerivAt_id T).neg.div_const Tc).add_const 1).const_mul Tc).congr_deriv ?_
    field_simp
  have e1 : ∀ T, Tc * (1 - T / Tc) = Tc - T := by intro T; field_simp
  have e2 : ∀ T, Tc * (-T / Tc + 1) = Tc - T := by intro T; field_simp; ring
  have e3 : ∀ T, Tc ^ 2 * (T / Tc - 1) ^ 2 = (Tc - T) ^ 2 := by intro T; field_simp; ring
  have e4 : ∀ T, Tc ^ 3 * (T / Tc - 1) ^ 3 = -(Tc - T) ^ 3 := by intro T; field_simp; ring
  have dq : ∀ T, HasDerivAt (fun T => Tc - T) (-1) T := fun T => by simpa using (hasDerivAt_id T).const_sub Tc
  refine ⟨p0, fun T => -p1 T / (Tc - T), fun T => (-p1 T + p2 T) / (Tc - T) ^ 2, fun T => (2 * p1 T - 3 * p2 T + p3 T) / (-(Tc - T) ^ 3), ?_, ?_, ?_, ?_, ?_⟩
  · intro T hT
    have : chebval (Real.log (1 - T / Tc)) c offset scale = .ok (p0 T) := chebval_series _ _ _ _ n0
    refine ⟨this, ?_⟩
    unfold chebval_ln_tau
    rw [if_neg (not_le.2 hT), pdiv_ok hTc.ne', Py.ok_bind, plog_ok (lntau_ok hTc hT), Py.ok_bind, this]
  · intro T hT
    have hne : Tc - T ≠ 0 := by linarith
    have a0 := d0 T hT
    have a1 := d1 T hT
    have a2 := d2 T hT
    rw [e1] at a0 a1 a2
    refine ⟨?_, ?_, ?_⟩
    · exact a0.congr_deriv (by ring)
    · refine (a1.neg.div (dq T) hne).congr_deriv ?_
      simp only [Pi.neg_apply]
      field_simp; ring
    · refine ((a1.neg.add a2).div ((dq T).pow 2) (pow_ne_zero 2 hne)).congr_deriv ?_
      simp only [Pi.neg_apply, Pi.add_apply, Pi.pow_apply]
      field_simp
      ring
  · intro T hT
    have hne : Tc - T ≠ 0 := by linarith
    unfold chebval_ln_tau_and_der
    rw [if_neg (not_le.2 hT), pdiv_ok hTc.ne', Py.ok_bind, plog_ok (lntau_ok hTc hT), Py.ok_bind, chebval_series _ _ _ _ n0, Py.ok_bind, chebval_series _ _ _ _ n1, Py.ok_bind,
      pdiv_ok hTc.ne', Py.ok_bind, e2, pdiv_ok hne]
    rfl
  · intro T hT
    have hne : Tc - T ≠ 0 := by linarith
    unfold chebval_ln_tau_and_der2
    rw [if_neg (not_le.2 hT), pdiv_ok hTc.ne', Py.ok_bind, plog_ok (lntau_ok hTc hT), Py.ok_bind, chebval_series _ _ _ _ n0, Py.ok_bind, chebval_series _ _ _ _ n1, Py.ok_bind,
      chebval_series _ _ _ _ n2, Py.ok_bind, pdiv_ok hTc.ne', Py.ok_bind, e2, pdiv_ok hne, Py.ok_bind, e3, pdiv_ok (pow_ne_zero 2 hne)]
    rfl
  · intro T hT
    have hne : Tc - T ≠ 0 := by linarith
    unfold chebval_ln_tau_and_der3
    rw [if_neg (not_le.2 hT), pdiv_ok hTc.ne', Py.ok_bind, plog_ok (lntau_ok hTc hT), Py.ok_bind, chebval_series _ _ _ _ n0, Py.ok_bind, chebval_series _ _ _ _ n1, Py.ok_bind,
      chebval_series _ _ _ _ n2, Py.ok_bind, chebval_series _ _ _ _ n3, Py.ok_bind, pdiv_ok hTc.ne', Py.ok_bind, e2, pdiv_ok hne, Py.ok_bind, e3, pdiv_ok (pow_ne_zero 2 hne),
      Py.ok_bind, e4, pdiv_ok (neg_ne_zero.2 (pow_ne_zero 3 hne))]
    rfl

/-- C111: the same for the exponential of the series, `exp_cheb_ln_tau` and its `_der` and `_der2` variants. -/
theorem C111_exp_cheb_ln_tau (c : List ℝ) (Tc offset scale : ℝ) (hTc : 0 < Tc) (h : 2 < c.length) :
    ∃ f f1 f2 : ℝ → ℝ,
      (∀ T < Tc, exp_cheb (Real.log (1 - T / Tc)) c offset scale = .ok (f T) ∧ exp_cheb_ln_tau T Tc c offset scale = .ok (f T)) ∧
      (∀ T < Tc, HasDerivAt f (f1 T) T ∧ HasDerivAt f1 (f2 T) T) ∧
      (∀ T < Tc, exp_cheb_ln_tau_and_der T Tc c (chebder c 1 scale) offset scale = .ok (f T, f1 T)) ∧
      (∀ T < Tc, exp_cheb_ln_tau_and_der2 T Tc c (chebder c 1 scale) (chebder c 2 scale) offset scale = .ok (f T, f1 T, f2 T)) := by
  have n0 : c ≠ [] := by rintro rfl; simp at h
  have n1 := chebder_ne c 1 scale (by omega)
  have n2 := chebder_ne c 2 scale h
  set L : ℝ → ℝ := fun T => Real.log (1 - T / Tc) with hL
  set p0 : ℝ → ℝ := fun T => series c offset scale (L T) with hp0
  set p1 : ℝ → ℝ := fun T => series (chebder c 1 scale) offset scale (L T) with hp1
  set p2 : ℝ → ℝ := fun T => series (chebder c 2 scale) offset scale (L T) with hp2
  have d0 : ∀ T < Tc, HasDerivAt p0 (p1 T * (-1 / (Tc * (1 - T / Tc)))) T := fun T hT => (series_der1 _).comp T (lntau_hasDerivAt hTc hT)
  have d1 : ∀ T < Tc, HasDerivAt p1 (p2 T * (-1 / (Tc * (1 - T / Tc)))) T := fun T hT => (series_der2 _).comp T (lntau_hasDerivAt hTc hT)
  have e1 : ∀ T, Tc * (1 - T / Tc) = Tc - T := by intro T; field_simp
  have e3 : ∀ T, Tc * Tc * ((1 - T / Tc) * (1 - T / Tc)) = (Tc - T) ^ 2 := by intro T; field_simp
  have dq : ∀ T, HasDerivAt (fun T => Tc - T) (-1) T := fun T => by simpa using (hasDerivAt_id T).const_sub Tc
  refine ⟨fun T => Real.exp (p0 T), fun T => -Real.exp (p0 T) * p1 T / (Tc - T), fun T => (p1 T * p1 T - p1 T + p2 T) * Real.exp (p0 T) / (Tc - T) ^ 2, ?_, ?_, ?_, ?_⟩
  · intro T hT
    have h1 : chebval (Real.log (1 - T / Tc)) c offset scale = .ok (p0 T) := chebval_series _ _ _ _ n0
    constructor
    · unfold exp_cheb; rw [h1]; rfl
    · unfold exp_cheb_ln_tau
      rw [if_neg (not_le.2 hT), pdiv_ok hTc.ne', Py.ok_bind, plog_ok (lntau_ok hTc hT), Py.ok_bind, h1]; rfl
  · intro T hT
    have hne : Tc - T ≠ 0 := by linarith
    have a0 := d0 T hT
    have a1 := d1 T hT
    rw [e1] at a0 a1
    constructor
    · exact a0.exp.congr_deriv (by ring)
    · refine ((a0.exp.neg.mul a1).div (dq T) hne).congr_deriv ?_
      simp only [Pi.neg_apply, Pi.mul_apply]
      field_simp; ring
  · intro T hT
    have hne : Tc - T ≠ 0 := by linarith
    unfold exp_cheb_ln_tau_and_der
    rw [if_neg (not_le.2 hT), pdiv_ok hTc.ne', Py.ok_bind]
    dsimp only
    rw [plog_ok (lntau_ok hTc hT), Py.ok_bind, chebval_series _ _ _ _ n0, Py.ok_bind, chebval_series _ _ _ _ n1, Py.ok_bind, e1, pdiv_ok hne]
    rfl
  · intro T hT
    have hne : Tc - T ≠ 0 := by linarith
    unfold exp_cheb_ln_tau_and_der2
    rw [if_neg (not_le.2 hT), pdiv_ok hTc.ne', Py.ok_bind]
    dsimp only
    rw [plog_ok (lntau_ok hTc hT), Py.ok_bind, chebval_series _ _ _ _ n0, Py.ok_bind, chebval_series _ _ _ _ n1, Py.ok_bind, chebval_series _ _ _ _ n2, Py.ok_bind, e1, pdiv_ok hne,
      Py.ok_bind, e3, pdiv_ok (pow_ne_zero 2 hne)]
    rfl

example : 3 < ([1, 2, 3, 4, 5] : List ℝ).length := by norm_num

/-- C111: at and above the critical temperature all of them return zeros, whatever the coefficients. -/
theorem C111_supercritical (T Tc : ℝ) (c c1 c2 c3 : List ℝ) (offset scale : ℝ) (h : Tc ≤ T) :
    exp_cheb_ln_tau T Tc c offset scale = .ok 0 ∧ exp_cheb_ln_tau_and_der T Tc c c1 offset scale = .ok (0, 0) ∧ exp_cheb_ln_tau_and_der2 T Tc c c1 c2 offset scale = .ok (0, 0, 0) ∧
    chebval_ln_tau T Tc c offset scale = .ok 0 ∧ chebval_ln_tau_and_der T Tc c c1 offset scale = .ok (0, 0) ∧ chebval_ln_tau_and_der2 T Tc c c1 c2 offset scale = .ok (0, 0, 0) ∧
    chebval_ln_tau_and_der3 T Tc c c1 c2 c3 offset scale = .ok (0, 0, 0, 0) := by
  unfold exp_cheb_ln_tau exp_cheb_ln_tau_and_der exp_cheb_ln_tau_and_der2 chebval_ln_tau chebval_ln_tau_and_der chebval_ln_tau_and_der2 chebval_ln_tau_and_der3
  simp only [if_pos h, ge_iff_le, and_self]

/-- C111 (finding): a series too short for a derivative: `chebder` returns no coefficients, and evaluating the derivative, which is zero, raises IndexError. -/
theorem C111_constant_series (x a offset scale : ℝ) :
    exp_cheb_and_der x [a] (chebder [a] 1 scale) offset scale = .error .indexError ∧ HasDerivAt (series [a] offset scale) 0 x := by
  constructor
  · have : chebder [a] 1 scale = [] := rfl
    rw [this]; rfl
  · have h := series_hasDerivAt [a] 0 offset scale x
    have e : chebder [a] (0 + 1) scale = [] := rfl
    have e0 : chebder [a] 0 scale = [a] := rfl
    rw [e, e0] at h
    refine h.congr_deriv ?_
    simp [series, chebSeries]

end Verif.ChebExp
