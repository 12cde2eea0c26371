import Verif.Model.Chebfun
import Verif.Model.PolyEval
import Mathlib.RingTheory.Polynomial.Chebyshev

/-!
# Conversion of Chebyshev series to polynomials, fluids/optional/pychebfun.py

`numpy`'s class `Polynomial` is Mathlib's polynomials over ℝ; arithmetic is exact, and limits are Python floats.
-/

namespace Verif.ChebPoly
open Polynomial Verif.PolyEval

noncomputable section

/-- optional/pychebfun.py:108, 133, 136: the coefficients `numpy` stores for a polynomial, lowest power first, without trailing zeros and at least one -/
def coef (p : ℝ[X]) : List ℝ := (List.range (p.natDegree + 1)).map p.coeff

/-- optional/pychebfun.py:108, 133: `cheb2poly` of `numpy`, which is outside the code: the polynomial `∑ cₖ Tₖ`; an empty array is a ValueError -/
def cheb2poly (c : List ℝ) : Py (List ℝ) :=
  if c = [] then .error .valueError
  else .ok (coef ((List.range c.length).map fun k => C (c.getD k 0) * Polynomial.Chebyshev.T ℝ (k : ℤ)).sum)

/-- optional/pychebfun.py:96-106, 119-130: what may be converted: an interpolant (or an expansion), which has its domain, or coefficients with the argument `domain` -/
inductive Input where
  | function (f : Chebfun.Fun)
  | coefficients (c : List ℝ) (domain : Option (ℝ × ℝ))

/-- optional/pychebfun.py:97-107, 123-132: coefficients and domain; unpacking None is a TypeError. An expansion of class `ChebyshevExpansion` is treated like an interpolant. -/
def unpack : Input → Py (List ℝ × ℝ × ℝ)
  | .function f => .ok (Chebfun.coefficients f, f.a, f.b)
  | .coefficients _ none => .error .typeError
  | .coefficients c (some d) => .ok (c, d)

/-- optional/pychebfun.py:96-110 `chebfun_to_poly` without `text` -/
def chebfun_to_poly (i : Input) : Py (List ℝ) := do
  let u ← unpack i
  let p ← cheb2poly u.1
  return p.reverse

/-- optional/pychebfun.py:111-117: the value at `x` of the expression `chebfun_to_poly` writes with `text` (all digits of the numbers kept); making it divides by the length of the domain -/
def chebfun_text_value (i : Input) (x : ℝ) : Py ℝ := do
  let u ← unpack i
  let p ← cheb2poly u.1
  let delta : ℝ := u.2.2 - u.2.1
  let delta_sum : ℝ := u.2.2 + u.2.1
  let q : ℝ ← 2.0 /ₚ delta
  return horner p.reverse (q * (x - 0.5 * delta_sum))

/-- optional/pychebfun.py:119-137 `cheb_to_poly`; `horner` is evaluated at a polynomial -/
def cheb_to_poly (i : Input) : Py (List ℝ) := do
  let u ← unpack i
  let p ← cheb2poly u.1
  let a : ℝ ← -0.5 * (u.2.2 + u.2.1) * 2.0 /ₚ (u.2.2 - u.2.1)
  let b : ℝ ← 2.0 /ₚ (u.2.2 - u.2.1)
  let my_poly : ℝ[X] := C a + C b * X
  return (coef (horner (p.reverse.map C) my_poly)).reverse

/-- optional/pychebfun.py:140-150 `cheb_range_simplifier` without `text` -/
def cheb_range_simplifier (low high : ℝ) : Py (ℝ × ℝ) := do
  let constant : ℝ := 0.5 * (-low - high)
  let factor : ℝ ← 2.0 /ₚ (high - low)
  return (constant, factor)

end

end Verif.ChebPoly
