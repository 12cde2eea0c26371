import Verif.Py
import Mathlib.Analysis.SpecialFunctions.Pow.Complex

/-!
# Model of `fluids/numerics/polynomial_roots.py`

Python returns floats or complex numbers; the model returns ℂ. The literals `third`, `sixth`, `root_three`,
`complex_factor`, ... (polynomial_roots.py:33-43) are idealised to the exact constants they approximate.
-/

namespace Verif.Roots
noncomputable section
open Complex

/-- polynomial_roots.py:45-59 `roots_quadratic`. -/
def roots_quadratic (a b c : ℝ) : Py (ℂ × ℂ) := do
  if a = 0 then
    let root ← -c /ₚ b
    return ((root : ℂ), (root : ℂ))
  let D := b * b - 4 * a * c
  let a_inv_2 ← (1 / 2 : ℝ) /ₚ a
  if D < 0 then
    let D ← psqrt (-D)
    return ((-(b : ℂ) + (D : ℂ) * I) * (a_inv_2 : ℂ), (-(b : ℂ) - (D : ℂ) * I) * (a_inv_2 : ℂ))
  else
    let D ← psqrt D
    return ((((D - b) * a_inv_2 : ℝ) : ℂ), ((-(b + D) * a_inv_2 : ℝ) : ℂ))

/-- numerics/polynomial_roots.py:23: `cmath.sqrt` on a complex number (principal branch). -/
def csqrt (z : ℂ) : ℂ := z ^ (1 / 2 : ℂ)

/-- numerics/polynomial_roots.py:33: `z ** third` on a complex number (principal branch; `0 ** third = 0`). -/
def cthird (z : ℂ) : ℂ := z ^ (1 / 3 : ℂ)

/-- polynomial_roots.py:107-124 `roots_cubic_a1` (complex division by zero raises). -/
def roots_cubic_a1 (b c d : ℂ) : Py (ℂ × ℂ × ℂ) := do
  let t1 := b * b
  let t2 := t1 * b
  let t4 := c * b
  let t9 := c * c
  let t16 := d * d
  let t19 := csqrt (12 * t9 * c + 12 * t2 * d - 54 * t4 * d - 3 * t1 * t9 + 81 * t16)
  let t22 := cthird (-8 * t2 + 36 * t4 - 108 * d + 12 * t19)
  let root1 := t22 * (1 / 6) - (← 6 * (c * (1 / 3) - t1 * (1 / 9)) /ₚ t22) - b * (1 / 3)
  let t28 ← (c * (1 / 3) - t1 * (1 / 9)) /ₚ t22
  let t101 := -t22 * (1 / 12) + 3 * t28 - b * (1 / 3)
  let t102 := (√3 : ℝ) * (t22 * (1 / 6) + 6 * t28)
  let root2 := t101 + 1 / 2 * I * t102
  let root3 := t101 - 1 / 2 * I * t102
  return (root1, root2, root3)

/-- polynomial_roots.py:126-144 `roots_cubic_a2`. -/
def roots_cubic_a2 (a b c d : ℂ) : Py (ℂ × ℂ × ℂ) := do
  let t2 := a * a
  let t3 := d * d
  let t10 := c * c
  let t14 := b * b
  let t15 := t14 * b
  let t20 := csqrt (-18 * a * b * c * d + 4 * a * t10 * c + 4 * t15 * d - t14 * t10 + 27 * t2 * t3)
  let t31 := cthird (36 * c * b * a + 12 * (√3 : ℝ) * t20 * a - 108 * d * t2 - 8 * t15)
  let t32 ← 1 /ₚ a
  let root1 := t31 * t32 * (1 / 6) - (← 2 / 3 * (3 * a * c - t14) * t32 /ₚ t31) - b * t32 * (1 / 3)
  let t33 := t31 * t32
  let t40 ← (3 * a * c - t14) * t32 /ₚ t31
  let t50 := -t33 * (1 / 12) + t40 * (1 / 3) - b * t32 * (1 / 3)
  let t51 := 1 / 2 * I * (√3 : ℝ) * (t33 * (1 / 6) + 2 / 3 * t40)
  return (root1, t50 + t51, t50 - t51)

/-- polynomial_roots.py:61-104 `roots_quartic` (complex division by zero raises; `x17`, `x18`, `x24`, `x36`, `x37` do not enter the result but their division can raise). -/
def roots_quartic (a b c d e : ℂ) : Py (ℂ × ℂ × ℂ × ℂ) := do
  let x0 : ℂ ← 1 /ₚ a
  let x1 : ℂ := b * x0
  let x2 : ℂ := -x1 * (1 / 4)
  let x3 : ℂ := c * x0
  let x4 : ℂ := b * b * x0 * x0
  let x5 : ℂ := -(2 / 3) * x3 + 1 / 4 * x4
  let x6 : ℂ := x3 - 3 / 8 * x4
  let x6_2 : ℂ := x6 * x6
  let x7 : ℂ := x6_2 * x6
  let x8 : ℂ := d * x0
  let x9 : ℂ := x1 * (-(1 / 2) * x3 + 1 / 8 * x4)
  let x10 : ℂ := (x8 + x9) * (x8 + x9)
  let x11 : ℂ := e * x0
  let x12 : ℂ := x1 * (x1 * (-(1 / 16) * x3 + 3 / 256 * x4) + 1 / 4 * x8)
  let x13 : ℂ := x6 * (x11 - x12)
  let x14 : ℂ := -(1 / 8) * x10 + x13 * (1 / 3) - x7 / 108
  let x15 : ℂ := 2 * cthird x14
  let x16 : ℂ := csqrt (-x15 + x5)
  let x19 : ℂ := -(4 / 3) * x3
  let x20 : ℂ := 1 / 2 * x4
  let x22 : ℂ := 2 * x8 + 2 * x9
  let _x23 : ℂ ← x22 /ₚ x16
  let x25 : ℂ := -x11 + x12 - 1 / 12 * x6_2
  let x27 : ℂ := cthird (1 / 16 * x10 - x13 * (1 / 6) + x7 / 216 + csqrt (1 / 4 * x14 * x14 + 1 / 27 * x25 * x25 * x25))
  let x28 : ℂ := 2 * x27
  let x29 : ℂ ← 2 / 3 * x25 /ₚ x27
  let x30 : ℂ := csqrt (x28 - x29 + x5)
  let x31 : ℂ := 1 / 2 * x30
  let x32 : ℂ := x2 - x31
  let x33 : ℂ := x19 + x20 - x28 + x29
  let x34 : ℂ ← x22 /ₚ x30
  let x35 : ℂ := csqrt (x33 + x34) * (1 / 2)
  let x38 : ℂ := x2 + x31
  let x39 : ℂ := csqrt (x33 - x34) * (1 / 2)
  return (x32 - x35, x32 + x35, x38 - x39, x38 + x39)

/-- real cube root with sign as in polynomial_roots.py:257-265 -/
def signedThird (R : ℝ) : Py ℝ := do
  if R ≥ 0 then R ^ₚ (1 / 3 : ℝ)
  else return -(← (-R) ^ₚ (1 / 3 : ℝ))

/-- polynomial_roots.py:146-324 `roots_cubic`. -/
def roots_cubic (a b c d : ℝ) : Py (ℂ × ℂ × ℂ) := do
  if a = 0 then
    if b = 0 then
      let root ← -d /ₚ c
      return ((root : ℂ), (root : ℂ), (root : ℂ))
    let D := c * c - 4 * b * d
    let b_inv_2 ← (1 / 2 : ℝ) /ₚ b
    if D < 0 then
      let D ← psqrt (-D)
      let x1 := (-(c : ℂ) + (D : ℂ) * I) * (b_inv_2 : ℂ)
      let x2 := (-(c : ℂ) - (D : ℂ) * I) * (b_inv_2 : ℂ)
      return (x1, x1, x2)
    else
      let D ← psqrt D
      let x1 : ℝ := (D - c) * b_inv_2
      let x2 : ℝ := -(c + D) * b_inv_2
      return ((x1 : ℂ), (x1 : ℂ), (x2 : ℂ))
  let a_inv ← 1 /ₚ a
  let a_inv2 := a_inv * a_inv
  let bb := b * b
  let b_a := b * a_inv
  let b_a2 := b_a * b_a
  let f := c * a_inv - b_a2 * (1 / 3)
  let g := ((2 * (bb * b) * a_inv2 * a_inv) - (9 * b * c) * a_inv2 + (27 * d * a_inv)) * (1 / 27)
  let h := 1 / 4 * (g * g) + (f * f * f) * (1 / 27)
  if h = 0 ∧ g = 0 ∧ f = 0 then
    let da ← d /ₚ a
    if da ≥ 0 then
      let x := -(← (d * a_inv) ^ₚ (1 / 3 : ℝ))
      return ((x : ℂ), (x : ℂ), (x : ℂ))
    else
      let x ← (-d * a_inv) ^ₚ (1 / 3 : ℝ)
      return ((x : ℂ), (x : ℂ), (x : ℂ))
  else if h > 0 then
    let root_h ← psqrt h
    let S ← signedThird (-(1 / 2) * g + root_h)
    let U ← signedThird (-(1 / 2 * g) - root_h)
    let SU := S + U
    let b_3a := b * (1 / 3 * a_inv)
    let t1 := -(1 / 2) * SU - b_3a
    let x1 := SU - b_3a
    let t2 : ℂ := ((S - U : ℝ) : ℂ) * ((√3 / 2 : ℝ) * I)
    return ((x1 : ℂ), (t1 : ℂ) + t2, (t1 : ℂ) - t2)
  else
    let t2 := a * a
    let t3 := d * d
    let t10 := c * c
    let t14 := b * b
    let t15 := t14 * b
    let choice_term := -18 * a * b * c * d + 4 * a * t10 * c + 4 * t15 * d - t14 * t10 + 27 * t2 * t3
    if |choice_term| > 1e-12 ∨ |b + 1| < 1e-7 then
      let t32 ← 1 /ₚ a
      let t20 := csqrt choice_term
      let t31 := cthird ((36 * c * b * a : ℝ) + 12 * (√3 : ℝ) * t20 * a - (108 * d * t2 : ℝ) - (8 * t15 : ℝ))
      let t33 := t31 * t32
      let t32_t31 ← (t32 : ℂ) /ₚ t31
      let x1 := (t33 * (1 / 6) - 2 / 3 * (3 * a * c - t14 : ℝ) * t32_t31 - (b * t32 * (1 / 3) : ℝ)).re
      let t40 := (3 * a * c - t14 : ℝ) * t32_t31
      let t50 := -t33 * (1 / 12) + t40 * (1 / 3) - (b * t32 * (1 / 3) : ℝ)
      let t51 := 1 / 2 * I * (√3 : ℝ) * (t33 * (1 / 6) + 2 / 3 * t40)
      let x2 := (t50 + t51).re
      let x3 := (t50 - t51).re
      return ((x1 : ℂ), (x2 : ℂ), (x3 : ℂ))
    else
      let i ← psqrt ((g * g) * (1 / 4) - h)
      let j ← i ^ₚ (1 / 3 : ℝ)
      let k ← pacos (← -(1 / 2) * g /ₚ i)
      let k_third := k * (1 / 3)
      let M := Real.cos k_third
      let N := √3 * Real.sin k_third
      let P := -b_a * (1 / 3)
      let x1 := 2 * j * M + P
      let x2 := P - j * (M + N)
      let x3 := P - j * (M - N)
      return ((x1 : ℂ), (x2 : ℂ), (x3 : ℂ))

end
end Verif.Roots
