import Verif.Model.Geometry
import Mathlib.Analysis.SpecialFunctions.Complex.Arctan
import Mathlib.Analysis.SpecialFunctions.Pow.Complex

/-!
# Model of the integrands behind the wetted areas of horizontal heads

Floats are real numbers.  `cmath.sqrt` is the principal power `z^(1/2)` and `cmath.atan` is Mathlib's complex `arctan`; the sign of a floating-point
zero, which selects the side of a branch cut, is not modelled.  `quad` and `dblquad` are exact integrals.
-/

open Real

noncomputable section

namespace Verif.Geometry

/-- geometry.py:2261: `cmath.sqrt` -/
def csqrt (z : ℂ) : ℂ := z ^ (1 / 2 : ℂ)

/-- geometry.py:2258-2261: `x5`, the reciprocal square root; a negative argument is taken through `cmath`, a zero raises ZeroDivisionError in both -/
def int1_x5 (d : ℝ) : Py ℂ :=
  if d = 0 then .error .zeroDivisionError else .ok (1 / csqrt (d : ℂ))

/-- geometry.py:2264-2267: `x3**(-1.5)`; Python's power of a negative float is the complex principal power; zero raises ZeroDivisionError twice -/
def int1_pow (x3 : ℝ) : Py ℂ :=
  if x3 = 0 then .error .zeroDivisionError else .ok ((x3 : ℂ) ^ (-(3 / 2) : ℂ))

/-- geometry.py:2268-2269: `cmath` division: ZeroDivisionError at zero -/
def cdiv (a b : ℂ) : Py ℂ := if b = 0 then .error .zeroDivisionError else .ok (a / b)

/-- geometry.py:2249-2271 `_SA_partial_horiz_torispherical_head_int_1`; only the real part of `cacos(c/x2)`, multiplied by the real `x`, reaches the result:
it is `arccos` (constant outside `[-1, 1]`) -/
def toriInt1 (x b c : ℝ) : Py ℝ := do
  let x0 : ℝ := x * x
  let x1 : ℝ := b - x0
  let x2 ← psqrt x1
  let x3 : ℝ := -b + x0
  let x4 : ℝ := c * c
  let x5 ← int1_x5 (x1 - x4)
  let x6 : ℝ := x3 + x4
  let x7 ← psqrt b
  let x3_pow ← int1_pow x3
  let q ← c /ₚ x2
  let u ← cdiv ((x : ℂ) * x2) (csqrt (x3 : ℂ) * csqrt (x6 : ℂ))
  let v ← cdiv ((c : ℂ) * x * x5) (x7 : ℂ)
  let y ← (-x6) /ₚ x1
  let w ← cdiv (x3_pow * x5 * (-(c : ℂ) * x1 * csqrt ((-x6 * x6 : ℝ) : ℂ) * Complex.arctan u
      + (x6 : ℂ) * x7 * csqrt ((-x1 * x1 : ℝ) : ℂ) * Complex.arctan v)) (csqrt (y : ℂ))
  return |((x : ℂ) * (arccos q : ℂ) + w).re|

/-- geometry.py:2280-2290: `x10` of `int_2`, the square root through `cmath` below zero -/
def int2_x10 (d : ℝ) : ℂ := if 0 ≤ d then (√d : ℂ) else csqrt (d : ℂ)

/-- geometry.py:2292-2308: the guarded expression of `int_2` (any exception there becomes 0) -/
def int2_body (t2 s x0 x10r x : ℝ) : Py ℝ := do
  let x1 : ℝ := s * x10r
  let t10 : ℝ := x1 + x1 + s * s + x0
  let x3 : ℝ := t10 - x * x
  let x4 ← psqrt x3
  let q ← (t2 * t10) /ₚ (x0 * x3)
  let r ← psqrt q
  let u ← x /ₚ x4
  return x4 * r * arctan u

/-- geometry.py:2282-2291: the half-width `x` of `int_2`, the real part of a square root through `cmath` when its argument is negative or complex -/
def int2_x (y2 t2 s c1 : ℝ) : ℝ := (csqrt (c1 - y2 + (s + s) * int2_x10 (t2 - y2))).re

/-- geometry.py:2273-2312 `_SA_partial_horiz_torispherical_head_int_2` -/
def toriInt2 (y t2 s c1 : ℝ) : ℝ :=
  let y2 : ℝ := y * y
  match int2_body t2 s (t2 - y2) (int2_x10 (t2 - y2)).re (int2_x y2 t2 s c1) with
  | .ok v => v
  | .error _ => 0

/-- geometry.py:2314-2321 `_SA_partial_horiz_torispherical_head_int_3` -/
def toriInt3 (y x s t2 : ℝ) : Py ℝ := do
  let x2 : ℝ := x * x
  let y2 : ℝ := y * y
  let x10 ← psqrt (t2 - x2)
  let num : ℝ := (s + x10) * (s + x10) * x2 + (t2 - x2) * y2
  let den : ℝ := (t2 - x2) * (s * s + t2 - x2 - y2 + 2 * s * x10)
  let q ← num /ₚ den
  psqrt (1 + q)

/-- geometry.py:2434-2441 `G_lim`, the half-width of the wetted strip (same square root as in `int_2`; `math.sqrt` of a complex number, line 2440, would raise
TypeError, so the second line is modelled for a nonnegative radicand only) -/
def toriG (x t2 s c1 : ℝ) : ℝ := √(c1 - x * x + (s + s) * √(t2 - x * x))

/-- geometry.py:2451: `dblquad` of `int_3`; a point where the integrand raises (the edge of the strip) is given the value 0, which does not change the integral -/
def toriInt3Val (y x s t2 : ℝ) : ℝ :=
  match toriInt3 y x s t2 with
  | .ok v => v
  | .error _ => 0

/-- geometry.py:2445-2447: the area below `limit_1` -/
def toriLow (D _f k h : ℝ) : Py ℝ := do
  let R : ℝ := D / 2
  let s : ℝ := R - k * D
  let t : ℝ := k * D
  let s2 : ℝ := s * s
  let t2 : ℝ := t * t
  let c1 : ℝ := s2 + t2 - (R - h) ^ 2
  let top ← psqrt (2 * k * D * h - h * h)
  return 2 * ∫ x in (0 : ℝ)..top, toriInt2 x t2 s c1

/-- geometry.py:2458-2462: the antiderivative at the upper limit; any exception is answered by moving the argument up by 1e-14 -/
def toriHigh (x b c : ℝ) : Py ℝ :=
  match toriInt1 x b c with
  | .ok v => .ok v
  | .error _ => toriInt1 (x * (1 + 1e-14)) b c

/-- geometry.py:2448-2464: the area between `limit_1` and the axis -/
def toriMid (D f k h : ℝ) : Py ℝ := do
  let R : ℝ := D / 2
  let alpha ← toriAlpha f k
  let cos_alpha : ℝ := cos alpha
  let sin_alpha : ℝ := sin alpha
  let s : ℝ := R - k * D
  let t : ℝ := k * D
  let s2 : ℝ := s * s
  let t2 : ℝ := t * t
  let a2 : ℝ := k * D * cos_alpha
  let c : ℝ := f * D * cos_alpha
  let b : ℝ := f * f * D * D
  let c1 : ℝ := s2 + t2 - (R - h) ^ 2
  let SA : ℝ := if D * 0.499 < h ∧ h < D * 0.501 then 2 * ∫ x in (0 : ℝ)..a2, ∫ y in (0 : ℝ)..toriG x t2 s c1, toriInt3Val y x s t2
    else 2 * ∫ x in (0 : ℝ)..a2, toriInt2 x t2 s c1
  let high ← toriHigh (f * D * sin_alpha) b c
  let low ← toriInt1 (R - h) b c
  return SA + 2 * f * D * (high - low)

end Verif.Geometry
