import Verif.Lemmas.Chebyshev
import Mathlib.Analysis.SpecialFunctions.Trigonometric.Chebyshev.Basic

/-!
# C12: Chebyshev series

Specification: `Spec.chebSeries c = ∑ₖ cₖ Tₖ` with Mathlib's Chebyshev polynomials and formal derivative.
-/

namespace Verif
open Polynomial Verif.Spec Verif.Chebyshev

variable {K : Type _} [Field K] [DecidableEq K]

/-- C12: `chebval` returns `∑ cₖ Tₖ(offset + scale·x)` for every nonempty coefficient list, and raises `IndexError` on the
empty list. -/
theorem C12_chebval (x : K) (c : List K) (offset scale : K) :
    chebval x c offset scale =
      if c = [] then .error .indexError
      else .ok (∑ k : Fin c.length, c[k] * (Polynomial.Chebyshev.T K (k : ℤ)).eval (offset + scale * x)) := by
  split_ifs with h
  · subst h; rfl
  · rw [chebval_ok x c offset scale h]; simp [chebSeries, eval_finsetSum]

-- 1·T₀ + 2·T₁ + 3·T₂ + 4·T₃ at 1/2 (T₂ = -1/2, T₃ = -1)
example : chebval (1 / 2 : ℚ) [1, 2, 3, 4] = .ok (-7 / 2) := by decide +kernel
example : chebval (3 : ℚ) [1, 2, 3] (-1) (1 / 2) = .ok (1 / 2) := by decide +kernel

/-- C12: on `[-1, 1]` the value is the cosine series `∑ cₖ cos(k θ)`, `x = cos θ`. -/
theorem C12_chebval_cos (θ : ℝ) (c : List ℝ) (h : c ≠ []) :
    chebval (Real.cos θ) c = .ok (∑ k : Fin c.length, c[k] * Real.cos (k * θ)) := by
  rw [C12_chebval, if_neg h]
  simp [Polynomial.Chebyshev.T_real_cos]

/-- C12: `chebder(c, m, scl)` returns the coefficients of `sclᵐ` times the `m`-th derivative of the series, with
`len(c) - m` entries, for every coefficient list and every order. -/
theorem C12_chebder [CharZero K] (c : List K) (m : ℕ) (scl : K) :
    chebSeries (chebder c m scl) = C (scl ^ m) * derivative^[m] (chebSeries c) ∧
    (chebder c m scl).length = c.length - m :=
  ⟨chebder_eq c m scl, chebder_length c m scl⟩

example : chebder [1, 2, 3, 4] = [(14 : ℚ), 12, 24] := by decide +kernel
example : chebder [1, 2, 3, 4] 2 (-1) = [(12 : ℚ), 96] := by decide +kernel

/-- C12: `chebint(c, m, lbnd, scl)` returns coefficients of an `m`-fold antiderivative: its `m`-th derivative is `sclᵐ`
times the series, and it and its first `m - 1` derivatives vanish at `lbnd`. A negative order raises `ValueError`; the only
other error is `IndexError`, for the empty list integrated once. -/
theorem C12_chebint [CharZero K] (c : List K) (m : ℤ) (lbnd scl : K) :
    if m < 0 then chebint c m lbnd scl = .error .valueError
    else if c = [] ∧ m = 1 then chebint c m lbnd scl = .error .indexError
    else ∃ r, chebint c m lbnd scl = .ok r ∧ derivative^[m.toNat] (chebSeries r) = C (scl ^ m.toNat) * chebSeries c ∧
      ∀ k < m.toNat, (derivative^[k] (chebSeries r)).eval lbnd = 0 := by
  split_ifs with h1 h2
  · simp [chebint, h1]
  · obtain ⟨rfl, rfl⟩ := h2
    simp [chebint, chebintPasses]
  · obtain ⟨n, rfl⟩ := Int.eq_ofNat_of_zero_le (not_lt.mp h1)
    simpa using chebint_spec c n lbnd scl (by simpa using h2)

example : chebint [1, 2, 3] 1 0 1 = .ok [(1 / 2 : ℚ), -1 / 2, 1 / 2, 1 / 2] := by decide +kernel
example : (chebint [1, 2, 3] 2 (-1) 2 : Py (List ℚ)) = .ok [-23 / 12, -3, -1, 1 / 3, 1 / 4] := by decide +kernel

/-- C12: differentiating what `chebint` returned gives the original series back (scaled). -/
theorem C12_chebder_chebint [CharZero K] (c r : List K) (lbnd scl : K) (h : chebint c 1 lbnd scl = .ok r) (x : K)
    (hc : c ≠ []) : (chebSeries (chebder r)).eval x = scl * (chebSeries c).eval x := by
  obtain ⟨r', e, d, -⟩ := chebint_spec c 1 lbnd scl (fun h => hc h.1)
  have : r = r' := by have := h.symm.trans e; simpa using this
  subst this
  rw [chebder_eq]
  simp only [one_pow, C_1, one_mul]
  rw [d]; simp

end Verif
