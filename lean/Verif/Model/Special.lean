import Verif.Py
import Verif.Model.Roots
import Mathlib.Analysis.SpecialFunctions.Complex.Log
import Mathlib.Analysis.SpecialFunctions.Arsinh

/-! Model of `fluids/numerics/special.py`: pure Python replacements of `math` and `cmath` functions. Signed zeros are not modelled. -/

open Complex

noncomputable section

namespace Verif.Special

/-- special.py:39-43: the loop `for i in range(2, n + 1): factorial *= i`; the list is the range. -/
def factorialLoop (acc : ℤ) : List ℕ → ℤ
  | [] => acc
  | i :: l => factorialLoop (acc * i) l

/-- special.py:37-43 `py_factorial`. -/
def py_factorial (n : ℤ) : Py ℤ :=
  if n < 0 then .error .valueError
  else .ok (factorialLoop 1 (List.range' 2 (n.toNat + 1 - 2)))

/-- special.py:49-52 `py_comb`; `factorial` is never called with a negative argument (an error would come out as it is). `//` is floor division. -/
def py_comb (n k : ℤ) : Py ℤ := do
  if k < 0 ∨ k > n then
    return 0
  else
    let a : ℤ ← py_factorial n
    let b : ℤ ← py_factorial k
    let c : ℤ ← py_factorial (n - k)
    return a.fdiv (b * c)

/-- special.py:80-88 `py_hypot`. -/
def py_hypot (x y : ℝ) : Py ℝ := do
  let x1 : ℝ := |x|
  let y1 : ℝ := |y|
  let X : ℝ := if x1 < y1 then y1 else x1
  let Y : ℝ := if x1 < y1 then x1 else y1
  if X = 0 then
    return 0
  else
    let yx : ℝ ← Y /ₚ X
    let s : ℝ ← psqrt (1 + yx * yx)
    return X * s

/-- special.py:94-97: `math.atan2`, the argument of `x + y i`. -/
def atan2 (y x : ℝ) : ℝ := Complex.arg (x + y * I)

/-- special.py:90-102 `py_cacos`. -/
def py_cacos (z : ℂ) : ℂ :=
  let s1 : ℂ := Roots.csqrt (1 - z.re - z.im * I)
  let s2 : ℂ := Roots.csqrt (1 + z.re + z.im * I)
  let r : ℂ := 2 * (atan2 s1.re s2.re : ℝ) + (Real.arsinh (s2.re * s1.im - s2.im * s1.re) : ℝ) * I
  if z.im = 0 ∧ z.re > 1 ∧ r.im < 0 then r.re - r.im * I else r

/-- special.py:103-105 `py_catan`; `cmath.log(0)` raises ValueError. -/
def py_catan (x : ℂ) : Py ℂ := do
  if 1 - I * x = 0 then .error .valueError
  else if 1 + I * x = 0 then .error .valueError
  else return 0.5 * I * (Complex.log (1 - I * x) - Complex.log (1 + I * x))

/-- special.py:72-76: `DBL_MAX`, `CM_SQRT_LARGE_DOUBLE`, `DBL_MIN`, `CM_SQRT_DBL_MIN` (square roots idealised). -/
def CM_SQRT_LARGE_DOUBLE : ℝ := Real.sqrt (1.7976931348623157e308 / 4)
/-- special.py:75-76. -/
def CM_SQRT_DBL_MIN : ℝ := Real.sqrt 2.2250738585072013830902327173324040642192159804623318306e-308

/-- special.py:113-127: the value of `py_catanh` for a real part that is not negative; `none` stands for the infinite real part at 1. `-atan2(-2 y, X)` is written
`atan2(2 y, X)`: the two agree for an imaginary part `y` that is not zero and for `y = 0.0` (whose negative is `-0.0`). -/
def catanhRight (x y : ℝ) : Py (Option ℂ) := do
  let ay : ℝ := |y|
  if x > CM_SQRT_LARGE_DOUBLE ∨ ay > CM_SQRT_LARGE_DOUBLE then
    let h : ℝ ← py_hypot (x / 2) (y / 2)
    let q : ℝ ← x / 4 /ₚ h
    let real : ℝ ← q /ₚ h
    let imag : ℝ := if y < 0 then -(Real.pi / 2) else Real.pi / 2
    return some (real + imag * I)
  else if x = 1 ∧ ay < CM_SQRT_DBL_MIN then
    if ay = 0 then
      return none
    else
      let h : ℝ ← py_hypot ay 2
      let sh : ℝ ← psqrt h
      let q : ℝ ← Real.sqrt ay /ₚ sh
      let l : ℝ ← plog q
      let real : ℝ := -l
      let imag : ℝ := if y < 0 then -(|atan2 2 (-ay) / 2|) else |atan2 2 (-ay) / 2|
      return some (real + imag * I)
  else
    let q : ℝ ← 4 * x /ₚ ((1 - x) * (1 - x) + ay * ay)
    let l : ℝ ← plog (1 + q)
    let real : ℝ := l / 4
    let imag : ℝ := atan2 (2 * y) ((1 - x) * (1 + x) - ay * ay) / 2
    return some (real + imag * I)

/-- special.py:107-127 `py_catanh`. -/
def py_catanh (z : ℂ) : Py (Option ℂ) := do
  if z.re < 0 then
    let res : Option ℂ ← catanhRight (-z.re) z.im
    return res.map fun w => -w.re + w.im * I
  else
    catanhRight z.re z.im

end Verif.Special
