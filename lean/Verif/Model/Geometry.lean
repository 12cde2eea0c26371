import Verif.Py
import Mathlib.Analysis.SpecialFunctions.Arcosh
import Mathlib.Analysis.SpecialFunctions.Trigonometric.Arctan
import Mathlib.MeasureTheory.Integral.IntervalIntegral.Basic

/-!
# Model of the volume and area functions of `fluids/geometry.py`

Floats are real numbers.  `quad` (adaptive quadrature) is modelled by the exact integral.  Head types are strings as in the code.
-/

open Real

noncomputable section

namespace Verif.Geometry

/-- geometry.py:349: `math.acosh`: raises ValueError below 1 -/
def pacosh (x : ℝ) : Py ℝ := if x < 1 then .error .valueError else .ok (arcosh x)
theorem pacosh_ok {x : ℝ} (h : 1 ≤ x) : pacosh x = .ok (arcosh x) := by simp [pacosh, not_lt.mpr h]

/-- numerics/__init__.py:1855: `fluids.numerics.isclose(a, b, rel_tol)` with `abs_tol = 0` -/
def isclose (a b rel_tol : ℝ) : Prop := |a - b| ≤ rel_tol * max |a| |b|

instance (a b c : ℝ) : Decidable (isclose a b c) := Classical.dec _

/-- geometry.py:232-238 `SA_partial_sphere` -/
def SA_partial_sphere (D h : ℝ) : Py ℝ := do
  let h : ℝ := if h > D then D else if h < 0 then 0 else h
  let r : ℝ := D * 0.5
  let a ← psqrt (h * (2 * r - h))
  return π * (a * a + h * h)

/-- geometry.py:275-281 `V_partial_sphere` -/
def V_partial_sphere (D h : ℝ) : Py ℝ :=
  if h ≤ 0 then .ok 0
  else do
    let h : ℝ := if h > D then D else h
    let r : ℝ := 0.5 * D
    let a ← psqrt (h * (2 * r - h))
    return 1 / 6 * π * h * (3 * a * a + h * h)

/-- the segment area `R*R*acos((R-h)/R) - (R-h)*sqrt(2*R*h - h*h)` that every horizontal-tank function computes
(geometry.py:344, 406, 461, 558, 709, 1694, 1825, 2924; line 344 writes the radicand as `h*(R + R - h)`) -/
def segment (R h : ℝ) : Py ℝ := do
  let t0 ← (R - h) /ₚ R
  let t1 ← pacos t0
  let t2 ← psqrt (2 * R * h - h * h)
  return R * R * t1 - (R - h) * t2

/-- geometry.py:355-358 and its copies: half of the pair of heads, or both heads and the cylinder -/
def finish (headonly : Bool) (Vf Af L : ℝ) : ℝ := if headonly then 0.5 * Vf else Vf + Af * L

/-- geometry.py:346-354: both cones of `V_horiz_conical` -/
def horizConicalPair (R R_third a h M : ℝ) : Py ℝ :=
  if h = R then .ok (a * R * R_third * π)
  else do
    let t1 ← pacos M
    let t2 ← 1 /ₚ M
    let t3 ← pacosh t2
    let t4 ← psqrt (1 - M * M)
    let K : ℝ := t1 + M * M * M * t3 - 2 * M * t4
    if 0 ≤ h ∧ h < R then return 2 * a * R * R_third * K
    else return 2 * a * R * R_third * (π - K)

/-- geometry.py:337-359 `V_horiz_conical` -/
def V_horiz_conical (D L a h : ℝ) (headonly : Bool) : Py ℝ :=
  if h ≤ 0 then .ok 0
  else do
    let h : ℝ := if h > D then D else h
    let R : ℝ := 0.5 * D
    let R_third : ℝ := R * (1 / 3)
    let t0 ← (R - h) /ₚ R
    let Af ← segment R h
    let M : ℝ := |t0|
    let Vf ← horizConicalPair R R_third a h M
    return finish headonly Vf Af L

/-- geometry.py:401-412 `V_horiz_ellipsoidal` -/
def V_horiz_ellipsoidal (D L a h : ℝ) (headonly : Bool) : Py ℝ :=
  if h ≤ 0 then .ok 0
  else do
    let h : ℝ := if h > D then D else h
    let R : ℝ := 0.5 * D
    let Af ← segment R h
    let q ← h /ₚ (3 * R)
    let Vf : ℝ := π * a * h * h * (1 - q)
    return finish headonly Vf Af L

/-- geometry.py:455-467 `V_horiz_guppy` -/
def V_horiz_guppy (D L a h : ℝ) (headonly : Bool) : Py ℝ :=
  if h ≤ 0 then .ok 0
  else do
    let h : ℝ := if h > D then D else h
    let R : ℝ := 0.5 * D
    let x0 ← psqrt (2 * R * h - h * h)
    let Af ← segment R h
    let q ← h /ₚ R
    let t1 ← pacos (1 - q)
    let t2 ← (2 / 9) * a /ₚ R
    let Vf : ℝ := (2 / 3) * a * R * R * t1 + t2 * x0 * (2 * h - 3 * R) * (h + R)
    return finish headonly Vf Af L

/-- geometry.py:469-471 `_V_horiz_spherical_toint` -/
def V_horiz_spherical_toint (r2 R2 den_inv x : ℝ) : ℝ := (r2 - x * x) * arctan (√((R2 - x * x) * den_inv))

/-- geometry.py:568-571: the closed form for both spherical heads -/
def horizSphericalClosed (R a r w y z : ℝ) : Py ℝ := do
  let R_r ← R /ₚ r
  let s ← a /ₚ |a|
  let t1 ← (R * R - r * w) /ₚ (R * (w - r))
  let t2 ← pacos t1
  let t3 ← (R * R + r * w) /ₚ (R * (w + r))
  let t4 ← pacos t3
  let t5 ← z /ₚ r
  let t6 ← w /ₚ R
  let t7 ← pacos t6
  let t8 ← y /ₚ z
  return s * ((2 / 3) * r * r * r * (t2 + t4 - t5 * (2 + R_r * R_r) * t7) - 2 * (w * r * r - w * w * w * (1 / 3)) * arctan t8 + (4 / 3) * w * y * z)

/-- geometry.py:573-577: the integral for both very flat spherical heads -/
def horizSphericalQuad (R a r w z Af : ℝ) : Py ℝ := do
  let r2 : ℝ := r * r
  let R2 : ℝ := R * R
  let den_inv ← 1 /ₚ (r2 - R2)
  let s ← a /ₚ |a|
  let integrated : ℝ := ∫ x in w..R, V_horiz_spherical_toint r2 R2 den_inv x
  return s * (2 * integrated - Af * z)

/-- geometry.py:553-557 -/
def horizSphericalZ (r R : ℝ) : Py ℝ := if isclose r R 2e-15 then .ok 0 else psqrt (r * r - R * R)

/-- geometry.py:560-577: both spherical heads -/
def horizSphericalPair (D R a r w y z Af h : ℝ) : Py ℝ :=
  if h = R ∧ |a| ≤ R then .ok (π / 6 * a * (3 * R * R + a * a))
  else if h = D ∧ |a| ≤ R then .ok (π / 3 * a * (3 * R * R + a * a))
  else if h = 0 ∨ a = 0 ∨ a = R ∨ a = -R ∨ z = 0 then do
    let q ← h /ₚ R
    return π * a * h * h * (1 - q * (1 / 3))
  else if 0.01 * D ≤ |a| then horizSphericalClosed R a r w y z
  else horizSphericalQuad R a r w z Af

/-- geometry.py:545-582 `V_horiz_spherical` -/
def V_horiz_spherical (D L a h : ℝ) (headonly : Bool) : Py ℝ :=
  if h ≤ 0 then .ok 0
  else do
    let h : ℝ := if h > D then D else h
    let R : ℝ := 0.5 * D
    let r ← 0.5 * (a * a + R * R) /ₚ |a|
    let w : ℝ := R - h
    let y ← psqrt (2 * R * h - h * h)
    let z ← horizSphericalZ r R
    let Af ← segment R h
    let Vf ← horizSphericalPair D R a r w y z Af h
    return finish headonly Vf Af L

/-- geometry.py:585-590 (exact integrand; a domain error inside the integrand is not modelled) -/
def toint_1 (w c10 c11 x : ℝ) : ℝ :=
  let n : ℝ := c11 + √(c10 - x * x)
  let t : ℝ := √(n * n - w * w)
  n * n * arcsin (t / n) - w * t
/-- geometry.py:592-598 -/
def toint_2 (w c10 c11 g g2 x : ℝ) : ℝ :=
  let n : ℝ := c11 + √(c10 - x * x)
  n * n * (arccos (w * (1 / n)) - arccos (g * (1 / n))) - w * √(n * n - w * w) + g * √(n * n - g2)
/-- geometry.py:600-604 -/
def toint_3 (r2 g2 z_inv x : ℝ) : ℝ := (r2 - x * x) * arctan (√(g2 - x * x) * z_inv)

/-- the angle `alpha = asin((1 - 2k)/(2(f - k)))` of every torispherical function (geometry.py:711, 980, 1237, 2720, 2784) -/
def toriAlpha (f k : ℝ) : Py ℝ := do
  let q ← (1 - 2 * k) /ₚ (2 * (f - k))
  pasin q

/-- geometry.py:726-752: both torispherical heads -/
def horizToriPair (D R k h alpha r : ℝ) : Py ℝ :=
  let cos_alpha : ℝ := cos alpha
  let sin_alpha : ℝ := sin alpha
  let a1 : ℝ := r * (1 - cos_alpha)
  let g : ℝ := r * sin_alpha
  let z : ℝ := r * cos_alpha
  let h1 : ℝ := k * D * (1 - sin_alpha)
  let h2 : ℝ := D - h1
  let c10 : ℝ := k * k * D * D
  let c11 : ℝ := R - k * D
  let g2 : ℝ := g * g
  let r2 : ℝ := r * r
  if 0 ≤ h ∧ h ≤ h1 then do
    let w : ℝ := R - h
    let u ← psqrt (2 * k * D * h - h * h)
    return 2 * ∫ x in (0 : ℝ)..u, toint_1 w c10 c11 x
  else if h1 < h ∧ h < h2 then do
    let w : ℝ := R - h
    let wmax1 : ℝ := R - h1
    let u ← psqrt (2 * k * D * h1 - h1 * h1)
    let V1max : ℝ := ∫ x in (0 : ℝ)..u, toint_1 wmax1 c10 c11 x
    let V2 : ℝ := ∫ x in (0 : ℝ)..(k * D * cos_alpha), toint_2 w c10 c11 g g2 x
    let z_inv ← 1 /ₚ z
    let q ← w /ₚ g
    let t1 ← pacos q
    let t2 ← psqrt (2 * g * (h - h1) - (h - h1) * (h - h1))
    let V3 : ℝ := (∫ x in w..g, toint_3 r2 g2 z_inv x) - 0.5 * z * (g * g * t1 - w * t2)
    return 2 * (V1max + V2 + V3)
  else do
    let wmax1 : ℝ := R - h1
    let wmax2 : ℝ := R - h2
    let wwerird : ℝ := R - (D - h)
    let upper_1 ← psqrt (2 * k * D * h1 - h1 * h1)
    let upper_2 ← psqrt (2 * k * D * (D - h) - (D - h) * (D - h))
    let upper_3 : ℝ := k * D * cos_alpha
    let V1max : ℝ := ∫ x in (0 : ℝ)..upper_1, toint_1 wmax1 c10 c11 x
    let V1weird : ℝ := if upper_2 ≠ 0 then ∫ x in (0 : ℝ)..upper_2, toint_1 wwerird c10 c11 x else 0
    let V2max : ℝ := ∫ x in (0 : ℝ)..upper_3, toint_2 wmax2 c10 c11 g g2 x
    let V3max : ℝ := π / 6 * a1 * (3 * g * g + a1 * a1)
    return 2 * (2 * V1max - V1weird + V2max + V3max)

/-- geometry.py:699-757 `V_horiz_torispherical` (the `isclose(h, D)` snap of line 701 is the identity up to rounding and is kept) -/
def V_horiz_torispherical (D L f k h : ℝ) (headonly : Bool) : Py ℝ :=
  if h ≤ 0 then .ok 0
  else do
    let h : ℝ := if h > D ∨ isclose h D 2e-15 then D else h
    let R : ℝ := 0.5 * D
    let Af ← segment R h
    let r : ℝ := f * D
    let alpha ← toriAlpha f k
    let Vf ← horizToriPair D R k h alpha r
    return finish headonly Vf Af L

/-! ### Vertical tanks -/

/-- geometry.py:798-806 `V_vertical_conical` -/
def V_vertical_conical (D a h : ℝ) : Py ℝ :=
  if h ≤ 0 then .ok 0
  else if h < a then do
    let ratio ← D * h /ₚ a
    return 0.25 * π * ratio * ratio * (1 / 3) * h
  else .ok (0.25 * π * D * D * (h - a * (2 / 3)))

/-- geometry.py:845-852 `V_vertical_ellipsoidal` -/
def V_vertical_ellipsoidal (D a h : ℝ) : Py ℝ :=
  if h ≤ 0 then .ok 0
  else if h < a then do
    let ratio ← D * h /ₚ a
    return 0.25 * π * ratio * ratio * (a - h * (1 / 3))
  else .ok (0.25 * π * D * D * (h - a * (1 / 3)))

/-- geometry.py:891-897 `V_vertical_spherical` -/
def V_vertical_spherical (D a h : ℝ) : Py ℝ :=
  if h ≤ 0 then .ok 0
  else if h < a then do
    let q ← 0.5 * D * D /ₚ a
    return 0.25 * π * h * h * (2 * a + q - 4 / 3 * h)
  else .ok (0.25 * π * (2 / 3 * a * a * a - 0.5 * a * D * D + h * D * D))

/-- geometry.py:976-1006 `V_vertical_torispherical` -/
def V_vertical_torispherical (D f k h : ℝ) : Py ℝ :=
  if h ≤ 0 then .ok 0
  else do
    let alpha ← toriAlpha f k
    let sin_alpha : ℝ := sin alpha
    let cos_alpha : ℝ := cos alpha
    let a1 : ℝ := f * D * (1 - cos_alpha)
    let a2 : ℝ := k * D * cos_alpha
    let D1 : ℝ := 2 * f * D * sin_alpha
    let x1 : ℝ := k * D * sin_alpha
    let s : ℝ := x1 * x1
    let t : ℝ := a2 + a2
    let u : ℝ := h - f * D * (1 - cos_alpha)
    let h2 : ℝ := h * h
    if 0 ≤ h ∧ h ≤ a1 then do
      let q ← 0.5 * D1 * D1 /ₚ a1
      return 0.25 * π * h2 * (a1 + a1 + q - 4 / 3 * h)
    else if a1 < h ∧ h ≤ a1 + a2 then do
      let x2 : ℝ := 0.5 * D - k * D
      let u2 : ℝ := u * u
      let q1 ← psqrt (s + t * u - u2)
      let q2 ← psqrt s
      let q3 ← (t - 2 * u) /ₚ (2 * k * D)
      let q4 ← pacos q3
      return 0.25 * π * a1 * (2 / 3 * a1 * a1 + 0.5 * D1 * D1) + π * u * (x2 * x2 + s) + π * u2 * (0.5 * t - u * (1 / 3))
        + π * D * (1 - 2 * k) * (0.25 * (2 * u - t) * q1 + 0.25 * t * q2 + 0.5 * k * k * D * D * (q4 - alpha))
    else do
      let ratio : ℝ := 0.5 * D - k * D
      let q2 ← psqrt s
      let q5 ← pasin (cos alpha)
      return 0.25 * π * (2 / 3 * a1 * a1 * a1 + 0.5 * a1 * D1 * D1) + 0.5 * π * t * (ratio * ratio + s) + π * t * t * t * (1 / 12)
        + π * D * (1 - 2 * k) * (0.25 * t * q2 + k * k * D * D * (1 / 2) * q5) + 0.25 * π * D * D * (h - (a1 + a2))

/-- geometry.py:1049-1056 `V_vertical_conical_concave` -/
def V_vertical_conical_concave (D a h : ℝ) : Py ℝ :=
  if h ≤ 0 then .ok 0
  else if h < |a| then do
    let p : ℝ := a + h
    let q ← p * p * p /ₚ (a * a)
    return π * D * D * (1 / 12) * (3 * h + a - q)
  else .ok (π * D * D * (1 / 12) * (3 * h + a))

/-- geometry.py:1097-1104 `V_vertical_ellipsoidal_concave` -/
def V_vertical_ellipsoidal_concave (D a h : ℝ) : Py ℝ :=
  if h ≤ 0 then .ok 0
  else if h < |a| then do
    let p : ℝ := a + h
    let q ← p * p * (2 * a - h) /ₚ (a * a)
    return π * D * D * (1 / 12) * (3 * h + 2 * a - q)
  else .ok (π * D * D * (1 / 12) * (3 * h + 2 * a))

/-- geometry.py:1146-1155 `V_vertical_spherical_concave` -/
def V_vertical_spherical_concave (D a h : ℝ) : Py ℝ :=
  if h ≤ 0 then .ok 0
  else
    let D2 : ℝ := D * D
    let a2 : ℝ := a * a
    if h < |a| then do
      let p : ℝ := a + h
      let q ← (3 * D2 + 12 * a2) /ₚ (2 * a * p)
      return π * (1 / 12) * (3 * D2 * h + a * (1 / 2) * (3 * D2 + 4 * a2) + p * p * p * (4 - q))
    else .ok (π * (1 / 12) * (3 * D2 * h + a * (1 / 2) * (3 * D2 + 4 * a2)))

/-- geometry.py:1246-1253: the inner function `V1` of `V_vertical_torispherical_concave` -/
def toriV1 (D f k alpha h : ℝ) : Py ℝ := do
  let cos_alpha : ℝ := cos alpha
  let sin_alpha : ℝ := sin alpha
  let a1 : ℝ := f * D * (1 - cos_alpha)
  let a2 : ℝ := k * D * cos_alpha
  let D1 : ℝ := 2 * f * D * sin_alpha
  let s : ℝ := k * D * sin_alpha * (k * D * sin_alpha)
  let t : ℝ := 2 * a2
  let u : ℝ := h - f * D * (1 - cos_alpha)
  let ratio : ℝ := 0.5 * D - k * D
  let q1 ← psqrt (s + t * u - u * u)
  let q2 ← psqrt s
  let q3 ← (t - 2 * u) /ₚ (2 * k * D)
  let q4 ← pacos q3
  return 0.25 * π * (2 / 3 * a1 * a1 * a1 + 0.5 * a1 * D1 * D1) + π * u * (ratio * ratio + s) + u * u * (0.5 * π * t - π * (1 / 3) * u)
    + π * D * (1 - 2 * k) * ((2 * u - t) * 0.25 * q1 + 0.25 * t * q2 + k * k * D * D * 0.5 * (q4 - alpha))

/-- geometry.py:1254-1256: the inner function `V2` -/
def toriV2 (D f alpha h : ℝ) : Py ℝ := do
  let a1 : ℝ := f * D * (1 - cos alpha)
  let D1 : ℝ := 2 * f * D * sin alpha
  let q ← D1 * D1 /ₚ (2 * a1)
  return 0.25 * π * h * h * (2 * a1 + q - 4 / 3 * h)

/-- geometry.py:1235-1263 `V_vertical_torispherical_concave` -/
def V_vertical_torispherical_concave (D f k h : ℝ) : Py ℝ :=
  if h ≤ 0 then .ok 0
  else do
    let alpha ← toriAlpha f k
    let a1 : ℝ := f * D * (1 - cos alpha)
    let a2 : ℝ := k * D * cos alpha
    if 0 ≤ h ∧ h < a2 then do
      let v ← toriV1 D f k alpha (a1 + a2)
      let v' ← toriV1 D f k alpha (a1 + a2 - h)
      return 0.25 * π * D * D * h - v + v'
    else if a2 ≤ h ∧ h < a1 + a2 then do
      let v ← toriV1 D f k alpha (a1 + a2)
      let v' ← toriV2 D f alpha (a1 + a2 - h)
      return 0.25 * π * D * D * h - v + v'
    else do
      let v ← toriV1 D f k alpha (a1 + a2)
      return 0.25 * π * D * D * h - v

/-! ### Surface areas -/

/-- geometry.py:1314-1330 `SA_ellipsoidal_head` (`log1p(x)` is `log (1 + x)`) -/
def SA_ellipsoidal_head (D a : ℝ) : Py ℝ :=
  if D = a * 2 then .ok (0.5 * π * D * D)
  else
    let R : ℝ := 0.5 * D
    if a < R then do
      let R' : ℝ := min R a
      let a' : ℝ := max R a
      let q ← R' * R' /ₚ (a' * a')
      let e1 ← psqrt (1 - q)
      let log_term ← (if e1 ≠ 1 then do
          let l1 ← plog (1 + e1)
          let l2 ← plog (1 + -e1)
          .ok (l1 - l2)
        else .ok 0 : Py ℝ)
      let q2 ← π * R' * R' /ₚ e1
      return (2 * π * a' * a' + q2 * log_term) * 0.5
    else do
      let s ← psqrt (a * a - R * R)
      let q ← π * a * a * R * 1 /ₚ s
      let q2 ← R /ₚ |a|
      let c ← pacos q2
      return π * R * R + q * c

/-- geometry.py:1361 `SA_conical_head` -/
def SA_conical_head (D a : ℝ) : Py ℝ := do
  let s ← psqrt (a * a + 0.25 * D * D)
  return 0.5 * π * D * s

/-- geometry.py:1394 `SA_guppy_head` -/
def SA_guppy_head (D a : ℝ) : Py ℝ := do
  let s ← psqrt (a * a + D * D)
  return 0.25 * π * D * s + 0.5 * π * D * a

/-- geometry.py:1453-1464 `SA_torispheroidal` -/
def SA_torispheroidal (D f k : ℝ) : Py ℝ := do
  let D2 : ℝ := D * D
  let x1 : ℝ := 2 * π * D2
  let k_inv ← 1 /ₚ k
  let x2 ← (0.5 - k) /ₚ (f - k)
  let s1 ← psqrt (1 - x2 * x2)
  let alpha_1 : ℝ := f * (1 - s1)
  let s2 ← psqrt (f * f - 2 * f * k + k - 0.25)
  let alpha_2 : ℝ := f - s2
  let S1 : ℝ := x1 * f * alpha_1
  let alpha : ℝ := alpha_2
  let t1 ← pasin ((alpha - alpha_2) * k_inv)
  let t2 ← pasin ((alpha_1 - alpha_2) * k_inv)
  let S2_sub : ℝ := t1 - t2
  let S2 : ℝ := x1 * k * (alpha - alpha_1 + (0.5 - k) * S2_sub)
  return S1 + S2

/-- geometry.py:1528-1541 (and 1548-1561): area of one head of a tank -/
def SA_head (D : ℝ) (side : Option String) (a : ℝ) (f k : Option ℝ) : Py ℝ :=
  if side = some "conical" then SA_conical_head D a
  else if side = some "ellipsoidal" then SA_ellipsoidal_head D a
  else if side = some "guppy" then SA_guppy_head D a
  else if side = some "spherical" then .ok (π * (a * a + 0.25 * D * D))
  else if side = some "torispherical" then
    (match f, k with
    | some f, some k => SA_torispheroidal D f k
    | _, _ => .error .valueError)
  else .ok (0.25 * π * D * D)

/-- geometry.py:1527-1566 `SA_tank` -/
def SA_tank (D L : ℝ) (sideA sideB : Option String) (sideA_a sideB_a : ℝ) (sideA_f sideA_k sideB_f sideB_k : Option ℝ) : Py (ℝ × ℝ × ℝ × ℝ) := do
  let sideA_SA ← SA_head D sideA sideA_a sideA_f sideA_k
  let sideB_SA ← (if sideA = sideB ∧ sideA_a = sideB_a ∧ sideA_f = sideB_f ∧ sideA_k = sideB_k then .ok sideA_SA
    else SA_head D sideB sideB_a sideB_f sideB_k : Py ℝ)
  let lateral_SA : ℝ := π * D * L
  return (sideA_SA + sideB_SA + lateral_SA, sideA_SA, sideB_SA, lateral_SA)

/-- geometry.py:1774-1779 `SA_partial_cylindrical_body` -/
def SA_partial_cylindrical_body (L D h : ℝ) : Py ℝ :=
  if h < 0 then .ok 0
  else do
    let h : ℝ := if h > D then D else h
    let q ← (D - h - h) /ₚ D
    let c ← pacos q
    return D * c * L

/-- geometry.py:1820-1828 `A_partial_circle` -/
def A_partial_circle (D h : ℝ) : Py ℝ :=
  if ¬ h > D ∧ h < 0 then .ok 0
  else do
    let h : ℝ := if h > D then D else h
    let R : ℝ := 0.5 * D
    let SA ← segment R h
    if SA < 0 then return 0 else return SA

/-- geometry.py:1830-1839: the residual of `circle_segment_h_from_A` (first component of `circle_segment_area_inner`) -/
def circle_segment_residual (R A h : ℝ) : Py ℝ := do
  let x2 : ℝ := R + -h
  let x3 ← psqrt (h * (2 * R + -h))
  let q ← x2 /ₚ R
  let c ← pacos q
  return R * R * c - x2 * x3 - A

/-- geometry.py:1876-1880 `circle_segment_h_from_A`; the Newton iteration (bounded to `[0, R]`) is a parameter -/
def circle_segment_h_from_A (newton : (ℝ → Py ℝ) → (low high : ℝ) → Py ℝ) (A D : ℝ) : Py ℝ :=
  if A = 0 then .ok 0
  else
    let R : ℝ := 0.5 * D
    newton (circle_segment_residual R A) 0 R

/-- geometry.py:1923-1929 `SA_partial_horiz_conical_head` -/
def SA_partial_horiz_conical_head (D a h : ℝ) : Py ℝ :=
  if ¬ h > D ∧ h < 0 then .ok 0
  else do
    let h : ℝ := if h > D then D else h
    let R : ℝ := 0.5 * D
    let R_inv ← 1 /ₚ R
    let s ← psqrt (a * a + R * R)
    let c ← pacos ((R - h) * R_inv)
    let s2 ← psqrt (2 * R * h - h * h)
    return s * R_inv * (R * R * c - (R - h) * s2)

/-- geometry.py:1931-1940 -/
def SA_horiz_spherical_toint (R2 a4 c1 c2 x : ℝ) : ℝ :=
  let to_pow : ℝ := (R2 - x * x) / (c2 - a4 * (x * x))
  let to_pow : ℝ := if to_pow < 0 then 0 else to_pow
  let num : ℝ := c1 * √to_pow
  if num > 1 then 0.5 * π else arcsin num

/-- geometry.py:1989-2005 `SA_partial_horiz_spherical_head` -/
def SA_partial_horiz_spherical_head (D a h : ℝ) : Py ℝ :=
  let R : ℝ := 0.5 * D
  if a = R then .ok (π * R * h)
  else if h < 0 then .ok 0
  else do
    let h : ℝ := if h > D then D else h
    let fact ← (a * a + R * R) /ₚ |a|
    let R2 : ℝ := R * R
    let a2 : ℝ := a + a
    let a4 : ℝ := a2 * a2
    let c1 : ℝ := 2 * |a|
    let c2 : ℝ := (a * a + R2) * (a * a + R2)
    return fact * ∫ x in (R - h)..R, SA_horiz_spherical_toint R2 a4 c1 c2 x

/-- geometry.py:2093-2110 `SA_partial_horiz_ellipsoidal_head`; `ellipe` is the complete elliptic integral, a parameter -/
def SA_partial_horiz_ellipsoidal_head (ellipe : ℝ → ℝ) (D a h : ℝ) : Py ℝ :=
  let R : ℝ := 0.5 * D
  if h < 0 then .ok 0
  else do
    let h : ℝ := if h > D then D else h
    let R2 : ℝ := R * R
    let R4 : ℝ := R2 * R2
    let a2 : ℝ := a * a
    let c1 : ℝ := R2 - a2
    let q ← 2 /ₚ R
    return q * ∫ y in (R - h)..R, √(R4 - c1 * (y * y)) * ellipe (c1 * (y * y - R2) / (c1 * (y * y) - R4))

/-- geometry.py:2224-2247 `SA_partial_horiz_guppy_head`; the integrand (elliptic integrals, lines 2113-2139) is a parameter -/
def SA_partial_horiz_guppy_head (toint : ℝ → ℝ → ℝ → ℝ) (D a h : ℝ) : Py ℝ :=
  let R : ℝ := 0.5 * D
  if a = R then .ok (π * R * h)
  else if h < 0 then .ok 0
  else
    let h : ℝ := if h > D then D else h
    if -R = h - R then .ok 0
    else .ok (2 * ∫ x in (-R)..(h - R), toint a R x)

/-- geometry.py:2511-2519 `SA_partial_vertical_conical_head` -/
def SA_partial_vertical_conical_head (D a h : ℝ) : Py ℝ :=
  if a = 0 then .ok (0.25 * π * D * D)
  else if h ≤ 0 then .ok 0
  else do
    let h : ℝ := if h > a then a else h
    let R : ℝ := 0.5 * D
    let s ← psqrt (a * a + R * R)
    π * R * h * h * s /ₚ (a * a)

/-- geometry.py:2576-2600 `SA_partial_vertical_ellipsoidal_head` -/
def SA_partial_vertical_ellipsoidal_head (D a h : ℝ) : Py ℝ :=
  if a = 0 then .ok (0.25 * π * D * D)
  else if h ≤ 0 then .ok 0
  else do
    let h : ℝ := if h > a then a else h
    let R : ℝ := 0.5 * D
    let a2 : ℝ := a * a
    let a_inv ← 1 /ₚ a
    let R2 : ℝ := R * R
    let s ← psqrt (a2 * a2 - (a - h) * (a - h) * (a2 - R2))
    let SA : ℝ := π * R * R - π * (a - h) * R * s * a_inv * a_inv
    if a > R then do
      let s2 ← psqrt (a2 - R2)
      let q ← π * a2 * R /ₚ s2
      let c ← pacos (R * a_inv)
      let d ← pasin ((a - h) * s2 * a_inv * a_inv)
      return SA + q * (c - d)
    else if a = R then return π * D * h
    else do
      let x1 ← psqrt (R2 - a2)
      let num : ℝ := a * (x1 + R)
      let s3 ← psqrt (a2 * a2 + (a - h) * (a - h) * (R2 - a2))
      let den : ℝ := (a - h) * x1 + s3
      let q ← π * a2 * R /ₚ x1
      let q2 ← num /ₚ den
      let l ← plog q2
      return SA + q * l

/-- geometry.py:2642-2650 `SA_partial_vertical_spherical_head` -/
def SA_partial_vertical_spherical_head (D a h : ℝ) : Py ℝ :=
  if a = 0 then .ok (0.25 * π * D * D)
  else if h ≤ 0 then .ok 0
  else do
    let h : ℝ := if h > a then a else h
    let R : ℝ := 0.5 * D
    let q ← (a * a + R * R) /ₚ a
    return π * h * q

/-- geometry.py:2717-2736 `SA_partial_vertical_torispherical_head` -/
def SA_partial_vertical_torispherical_head (D f k h : ℝ) : Py ℝ :=
  if h ≤ 0 then .ok 0
  else do
    let R : ℝ := 0.5 * D
    let alpha ← toriAlpha f k
    let cos_alpha : ℝ := cos alpha
    let a1 : ℝ := f * D * (1 - cos_alpha)
    let a2 : ℝ := k * D * cos_alpha
    let a : ℝ := a1 + a2
    let h : ℝ := if h > a then a else h
    if h < a1 then return 2 * π * f * D * h
    else if a1 ≤ h ∧ h ≤ a then do
      let kD_inv ← 1 /ₚ (k * D)
      let t1 ← pasin (a2 * kD_inv)
      let t2 ← pasin ((a - h) * kD_inv)
      return 2 * π * f * D * a1 + 2 * π * k * D * (h - a1 + (R - k * D) * (t1 - t2))
    else return 0

/-- geometry.py:2784-2788 `a_torispherical` -/
def a_torispherical (D f k : ℝ) : Py ℝ := do
  let alpha ← toriAlpha f k
  return f * D * (1 - cos alpha) + k * D * cos alpha

/-! ### Tanks -/

/-- the head names accepted by `V_tank`, `V_from_h` and `SA_from_h` (geometry.py:1628-1631, 2855-2858, 3024-3027) -/
abbrev headNames : List String := ["conical", "ellipsoidal", "torispherical", "spherical", "guppy"]

/-- geometry.py:2855-2875 (and 1628-1648): head names and torispherical parameters are validated; returns `f`, `k` of one side -/
def checkSide (side : Option String) : Py Unit :=
  match side with
  | none => .ok ()
  | some s => if s ∈ headNames then .ok () else .error .valueError

/-- geometry.py:2866-2875: `f`, `k` of a side; zero unless torispherical -/
def sideFK (side : Option String) (f k : Option ℝ) : Py (ℝ × ℝ) :=
  if side = some "torispherical" then
    (match f, k with
    | some f, some k => .ok (f, k)
    | _, _ => .error .valueError)
  else .ok (0, 0)

/-- Contribution to a sum of a head which is present on one or both sides: `if A and B and equal: V += 2*F(A) else: (if A: V += F(A)); (if B: V += F(B))`
(geometry.py:2884-2923) -/
def addHeads (V : ℝ) (onA onB same : Bool) (FA FB : Py ℝ) : Py ℝ :=
  if onA && onB && same then do
    let v ← FA
    return V + 2 * v
  else do
    let V ← (if onA then do
        let v ← FA
        return V + v
      else .ok V : Py ℝ)
    if onB then do
      let v ← FB
      return V + v
    else return V

/-- geometry.py:2931-2939: the bottom head of a vertical tank -/
def bottomHead (D h : ℝ) (side : Option String) (a f k : ℝ) : Py ℝ :=
  if side = some "conical" then V_vertical_conical D a (min a h)
  else if side = some "ellipsoidal" then V_vertical_ellipsoidal D a (min a h)
  else if side = some "spherical" then V_vertical_spherical D a (min a h)
  else if side = some "torispherical" then V_vertical_torispherical D f k (min a h)
  else .ok 0

/-- geometry.py:2948-2959: the top head of a vertical tank, full volume minus the empty part of height `h2` -/
def topHead (D h2 : ℝ) (side : Option String) (a f k : ℝ) : Py ℝ :=
  if side = some "conical" then do
    let v ← V_vertical_conical D a a
    let v' ← V_vertical_conical D a h2
    return v - v'
  else if side = some "ellipsoidal" then do
    let v ← V_vertical_ellipsoidal D a a
    let v' ← V_vertical_ellipsoidal D a h2
    return v - v'
  else if side = some "spherical" then do
    let v ← V_vertical_spherical D a a
    let v' ← V_vertical_spherical D a h2
    return v - v'
  else if side = some "torispherical" then do
    let v ← V_vertical_torispherical D f k a
    let v' ← V_vertical_torispherical D f k h2
    return v - max 0 v'
  else .ok 0

/-- geometry.py:1467: one side of a tank: head name, depth, torispherical parameters -/
structure Side where
  head : Option String
  a : ℝ
  f : Option ℝ
  k : Option ℝ

/-- geometry.py:2879-2925: horizontal tank -/
def V_from_h_horizontal (h D L : ℝ) (A B : Side) (fA kA fB kB : ℝ) : Py ℝ := do
  let R : ℝ := 0.5 * D
  let h : ℝ := if h > D then D else h
  let V ← addHeads 0 (A.head = some "conical") (B.head = some "conical") (A.a = B.a) (V_horiz_conical D L A.a h true) (V_horiz_conical D L B.a h true)
  let V ← addHeads V (A.head = some "ellipsoidal") (B.head = some "ellipsoidal") (A.a = B.a) (V_horiz_ellipsoidal D L A.a h true)
    (V_horiz_ellipsoidal D L B.a h true)
  let V ← addHeads V (A.head = some "guppy") (B.head = some "guppy") (A.a = B.a) (V_horiz_guppy D L A.a h true) (V_horiz_guppy D L B.a h true)
  let V ← addHeads V (A.head = some "spherical") (B.head = some "spherical") (A.a = B.a) (V_horiz_spherical D L A.a h true)
    (V_horiz_spherical D L B.a h true)
  let V ← addHeads V (A.head = some "torispherical") (B.head = some "torispherical") (A.f = B.f ∧ A.k = B.k)
    (V_horiz_torispherical D L fA kA h true) (V_horiz_torispherical D L fB kB h true)
  let Af ← segment R h
  return V + L * Af

/-- geometry.py:2927-2959: vertical tank.  (The in-place updates of `V` with the top head are modelled as one addition.) -/
def V_from_h_vertical (h D L : ℝ) (A B : Side) (fA kA fB kB : ℝ) : Py ℝ := do
  let max_h : ℝ := L + A.a + B.a
  let h : ℝ := if h > max_h then max_h else h
  let V ← bottomHead D h A.head A.a fA kA
  let V : ℝ := if h ≥ A.a + L then V + 0.25 * π * D * D * L
    else if h > A.a then V + 0.25 * π * D * D * (h - A.a) else V
  if h > A.a + L then do
    let h2 : ℝ := B.a - (h - A.a - L)
    let v ← topHead D h2 B.head B.a fB kB
    return V + v
  else return V

/-- geometry.py:2855-2960 `V_from_h` -/
def V_from_h (h D L : ℝ) (horizontal : Bool) (A B : Side) : Py ℝ := do
  checkSide A.head
  checkSide B.head
  let (fA, kA) ← sideFK A.head A.f A.k
  let (fB, kB) ← sideFK B.head B.f B.k
  if horizontal then V_from_h_horizontal h D L A B fA kA fB kB
  else V_from_h_vertical h D L A B fA kA fB kB

/-- `if A and B and equal: sideB_V = sideA_V = F(A) else: (if A: sideA_V = F(A)); (if B: sideB_V = F(B))` (geometry.py:1654-1728) -/
def setHeads (VA VB : ℝ) (onA onB same : Bool) (FA FB : Py ℝ) : Py (ℝ × ℝ) :=
  if onA && onB && same then do
    let v ← FA
    return (v, v)
  else do
    let VA ← (if onA then FA else .ok VA : Py ℝ)
    let VB ← (if onB then FB else .ok VB : Py ℝ)
    return (VA, VB)

/-- geometry.py:1652-1695: horizontal tank; returns `(sideA_V, sideB_V, lateral_V)` -/
def V_tank_horizontal (D L : ℝ) (A B : Side) (fA kA fB kB : ℝ) : Py (ℝ × ℝ × ℝ) := do
  let R : ℝ := 0.5 * D
  let (VA, VB) ← setHeads 0 0 (A.head = some "conical") (B.head = some "conical") (A.a = B.a) (V_horiz_conical D L A.a D true)
    (V_horiz_conical D L B.a D true)
  let (VA, VB) ← setHeads VA VB (A.head = some "ellipsoidal") (B.head = some "ellipsoidal") (A.a = B.a) (V_horiz_ellipsoidal D L A.a D true)
    (V_horiz_ellipsoidal D L B.a D true)
  let (VA, VB) ← setHeads VA VB (A.head = some "guppy") (B.head = some "guppy") (A.a = B.a) (V_horiz_guppy D L A.a D true)
    (V_horiz_guppy D L B.a D true)
  let (VA, VB) ← setHeads VA VB (A.head = some "spherical") (B.head = some "spherical") (A.a = B.a) (V_horiz_spherical D L A.a D true)
    (V_horiz_spherical D L B.a D true)
  let (VA, VB) ← setHeads VA VB (A.head = some "torispherical") (B.head = some "torispherical") (A.f = B.f ∧ A.k = B.k)
    (V_horiz_torispherical D L fA kA D true) (V_horiz_torispherical D L fB kB D true)
  let Af ← segment R D
  return (VA, VB, L * Af)

/-- geometry.py:1697-1731: vertical tank -/
def V_tank_vertical (D L : ℝ) (A B : Side) (fA kA fB kB : ℝ) : Py (ℝ × ℝ × ℝ) := do
  let (VA, VB) ← setHeads 0 0 (A.head = some "conical") (B.head = some "conical") (A.a = B.a) (V_vertical_conical D A.a A.a) (V_vertical_conical D B.a B.a)
  let (VA, VB) ← setHeads VA VB (A.head = some "ellipsoidal") (B.head = some "ellipsoidal") (A.a = B.a) (V_vertical_ellipsoidal D A.a A.a)
    (V_vertical_ellipsoidal D B.a B.a)
  let (VA, VB) ← setHeads VA VB (A.head = some "spherical") (B.head = some "spherical") (A.a = B.a) (V_vertical_spherical D A.a A.a)
    (V_vertical_spherical D B.a B.a)
  let (VA, VB) ← setHeads VA VB (A.head = some "torispherical") (B.head = some "torispherical") (A.f = B.f ∧ A.k = B.k)
    (V_vertical_torispherical D fA kA A.a) (V_vertical_torispherical D fB kB B.a)
  return (VA, VB, 0.25 * π * D * D * L)

/-- geometry.py:1628-1732 `V_tank`: `(V, sideA_V, sideB_V, lateral_V)` -/
def V_tank (D L : ℝ) (horizontal : Bool) (A B : Side) : Py (ℝ × ℝ × ℝ × ℝ) := do
  checkSide A.head
  checkSide B.head
  let (fA, kA) ← sideFK A.head A.f A.k
  let (fB, kB) ← sideFK B.head B.f B.k
  let (VA, VB, lat) ← (if horizontal then V_tank_horizontal D L A B fA kA fB kB else V_tank_vertical D L A B fA kA fB kB : Py (ℝ × ℝ × ℝ))
  return (lat + VA + VB, VA, VB, lat)

/-- geometry.py:2412-2468 `SA_partial_horiz_torispherical_head`: the branch structure.  The numerically integrated areas below `limit_1` (line 2446) and
between `limit_1` and `R` (lines 2449-2464) are parameters of `D f k h`; `fuel` is the interpreter's recursion limit, whose exhaustion is
RecursionError (`.exception`). -/
def SA_partial_horiz_torispherical_head (low mid : ℝ → ℝ → ℝ → ℝ → Py ℝ) : ℕ → ℝ → ℝ → ℝ → ℝ → Py ℝ
  | 0, _, _, _, _ => .error .exception
  | fuel + 1, D, f, k, h =>
    if h ≤ 0 then .ok 0
    else do
      let h : ℝ := if h > D then D else h
      let R : ℝ := D / 2
      let r : ℝ := f * D
      let alpha ← toriAlpha f k
      let cos_alpha : ℝ := cos alpha
      let sin_alpha : ℝ := sin alpha
      let a1 : ℝ := r * (1 - cos_alpha)
      let a2 : ℝ := k * D * cos_alpha
      let limit_1 : ℝ := k * D * (1 - sin_alpha)
      if h < limit_1 then low D f k h
      else if limit_1 < h ∧ h ≤ R then mid D f k h
      else do
        let q ← a2 /ₚ (k * D)
        let t ← pasin q
        let rest ← SA_partial_horiz_torispherical_head low mid fuel D f k (D - h)
        return 2 * π * f * D * a1 + 2 * π * k * D * (a2 + (R - k * D) * t) - rest

/-- geometry.py:2963: the numerically integrated surfaces that `SA_from_h` calls for horizontal tanks; see the functions above -/
structure Surfaces where
  ellipe : ℝ → ℝ
  guppy : ℝ → ℝ → ℝ → ℝ
  tori : ℝ → ℝ → ℝ → ℝ → Py ℝ

/-- geometry.py:3033-3068: wetted area of one head of a horizontal tank.  (The code adds the heads kind by kind; the sum is the same.) -/
def SA_horizontal_side (S : Surfaces) (D h : ℝ) (X : Side) : Py ℝ :=
  if X.head = some "conical" then SA_partial_horiz_conical_head D X.a h
  else if X.head = some "ellipsoidal" then SA_partial_horiz_ellipsoidal_head S.ellipe D X.a h
  else if X.head = some "guppy" then SA_partial_horiz_guppy_head S.guppy D X.a h
  else if X.head = some "spherical" then SA_partial_horiz_spherical_head D X.a h
  else if X.head = some "torispherical" then
    (match X.f, X.k with
    | some f, some k => S.tori D f k h
    | _, _ => .error .valueError)
  else A_partial_circle D h

/-- geometry.py:3031-3069: horizontal tank -/
def SA_from_h_horizontal (S : Surfaces) (h D L : ℝ) (A B : Side) : Py ℝ := do
  let h : ℝ := if h > D then D else h
  let sA ← SA_horizontal_side S D h A
  let sB ← SA_horizontal_side S D h B
  let q ← (D - h - h) /ₚ D
  let c ← pacos q
  return sA + sB + L * D * c

/-- geometry.py:3075-3088: bottom head of a vertical tank -/
def SA_bottom (D h : ℝ) (X : Side) : Py ℝ :=
  if X.head = some "conical" then SA_partial_vertical_conical_head D X.a (min X.a h)
  else if X.head = some "ellipsoidal" then SA_partial_vertical_ellipsoidal_head D X.a (min X.a h)
  else if X.head = some "spherical" then SA_partial_vertical_spherical_head D X.a (min X.a h)
  else if X.head = some "torispherical" then
    (match X.f, X.k with
    | some f, some k => SA_partial_vertical_torispherical_head D f k (min X.a h)
    | _, _ => .error .valueError)
  else if X.head = none then .ok (0.25 * π * D * D)
  else .ok 0

/-- `if a == 0: the flat end, else: F(a) - F(h2)` (geometry.py:3098-3114) -/
def SA_topPart (D a h2 : ℝ) (F : ℝ → Py ℝ) : Py ℝ :=
  if a = 0 then .ok (0.25 * π * D * D)
  else do
    let v ← F a
    let v' ← F h2
    return v - v'

/-- geometry.py:3115-3123: torispherical top -/
def SA_topTori (D a h2 : ℝ) (f k : Option ℝ) : Py ℝ :=
  if a = 0 then .ok (0.25 * π * D * D)
  else
    match f, k with
    | some f, some k => do
      let v ← SA_partial_vertical_torispherical_head D f k a
      let v' ← SA_partial_vertical_torispherical_head D f k h2
      return v - max 0 v'
    | _, _ => .error .valueError

/-- geometry.py:3095-3126: top head of a vertical tank filled to `h ≥ sideA_a + L`; `atTop` is `h == sideA_a + L` -/
def SA_top (D h2 : ℝ) (X : Side) (atTop : Prop) [Decidable atTop] : Py ℝ :=
  if X.head = some "conical" then SA_topPart D X.a h2 (SA_partial_vertical_conical_head D X.a)
  else if X.head = some "ellipsoidal" then SA_topPart D X.a h2 (SA_partial_vertical_ellipsoidal_head D X.a)
  else if X.head = some "spherical" then SA_topPart D X.a h2 (SA_partial_vertical_spherical_head D X.a)
  else if X.head = some "torispherical" then SA_topTori D X.a h2 X.f X.k
  else if X.head = none ∧ atTop then .ok (0.25 * π * D * D)
  else .ok 0

/-- geometry.py:3071-3126: vertical tank -/
def SA_from_h_vertical (h D L : ℝ) (A B : Side) : Py ℝ := do
  let max_h : ℝ := L + A.a + B.a
  let h : ℝ := if h > max_h then max_h else h
  let SA ← SA_bottom D h A
  let SA : ℝ := if h ≥ A.a + L then SA + π * D * L
    else if h > A.a then SA + π * D * (h - A.a) else SA
  if h ≥ A.a + L then do
    let h2 : ℝ := B.a - (h - A.a - L)
    let v ← SA_top D h2 B (h = A.a + L)
    return SA + v
  else return SA

/-- geometry.py:3024-3127 `SA_from_h` -/
def SA_from_h (S : Surfaces) (h D L : ℝ) (horizontal : Bool) (A B : Side) : Py ℝ := do
  checkSide A.head
  checkSide B.head
  if horizontal then SA_from_h_horizontal S h D L A B
  else SA_from_h_vertical h D L A B

end Verif.Geometry
