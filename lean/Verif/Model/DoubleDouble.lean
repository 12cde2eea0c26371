import Verif.Py
import Mathlib.Data.Nat.Bitwise
import Mathlib.Algebra.Order.Round
import Mathlib.Analysis.SpecialFunctions.Pow.Real
import Mathlib.Analysis.SpecialFunctions.Sqrt

/-! Double-double arithmetic (fluids/numerics/doubledouble.py). A double-double is a pair `(r, e)` of floats standing for `r + e`.

Every floating-point operation is the exact operation on real numbers followed by the rounding `rd`, a parameter of every definition: the identity gives the formulas in exact arithmetic, round-to-nearest
the arithmetic of the machine. Infinities and NaN do not occur in the model, and nor do overflow and underflow when `rd` has an unbounded exponent range. -/

namespace Verif.DD
open Verif Real

noncomputable section

/-- doubledouble.py:55 `third` before rounding -/
def third : ℝ := 1 / 3

/-- doubledouble.py:57-60 `eq_dd` -/
def eq_dd (r0 e0 r1 e1 : ℝ) : Prop := r0 = r1 ∧ e0 = e1
/-- doubledouble.py:62-65 `neq_dd` -/
def neq_dd (r0 e0 r1 e1 : ℝ) : Prop := r0 ≠ r1 ∨ e0 ≠ e1
/-- doubledouble.py:67-70 `lt_dd` -/
def lt_dd (r0 e0 r1 e1 : ℝ) : Prop := r0 < r1 ∨ (r0 = r1 ∧ e0 < e1)
/-- doubledouble.py:72-75 `le_dd` -/
def le_dd (r0 e0 r1 e1 : ℝ) : Prop := r0 < r1 ∨ (r0 = r1 ∧ e0 ≤ e1)
/-- doubledouble.py:77-80 `gt_dd` -/
def gt_dd (r0 e0 r1 e1 : ℝ) : Prop := r0 > r1 ∨ (r0 = r1 ∧ e0 > e1)
/-- doubledouble.py:82-85 `ge_dd` -/
def ge_dd (r0 e0 r1 e1 : ℝ) : Prop := r0 > r1 ∨ (r0 = r1 ∧ e0 ≥ e1)

/-- doubledouble.py:91-93: the first three lines of `add_dd`: the rounded sum and its error -/
def twoSum (rd : ℝ → ℝ) (x0 x1 : ℝ) : ℝ × ℝ :=
  let r := rd (x0 + x1)
  let t := rd (r - x0)
  (r, rd (rd (x0 - rd (r - t)) + rd (x1 - t)))

/-- doubledouble.py:95-97, 123-125, 139-141, 153-155, 164-166, 355-356, 363-365: the renormalisation at the end of every operation -/
def renorm (rd : ℝ → ℝ) (r e : ℝ) : ℝ × ℝ :=
  let r2 := rd (r + e)
  (r2, rd (e - rd (r2 - r)))

/-- doubledouble.py:87-97 `add_dd` -/
def add_dd (rd : ℝ → ℝ) (x0 y0 x1 y1 : ℝ) : ℝ × ℝ :=
  let s := twoSum rd x0 x1
  renorm rd s.1 (rd (s.2 + rd (y0 + y1)))

/-- doubledouble.py:103, 105: the upper half of a float -/
def hi (rd : ℝ → ℝ) (x : ℝ) : ℝ :=
  let u := rd (x * 134217729)
  rd (u - rd (u - x))

/-- doubledouble.py:103-110 (also 114-121, 130-137): `((s*t - r) + s*g + f*t) + f*g` with the halves `s, f` and `t, g` of the factors and the rounded product `r` -/
def prodErr (rd : ℝ → ℝ) (x0 x1 r : ℝ) : ℝ :=
  let s := hi rd x0
  let t := hi rd x1
  let f := rd (x0 - s)
  let g := rd (x1 - t)
  rd (rd (rd (rd (rd (s * t) - r) + rd (s * g)) + rd (f * t)) + rd (f * g))

/-- doubledouble.py:99-111 `mul_noerrors_dd` -/
def mul_noerrors_dd (rd : ℝ → ℝ) (x0 x1 : ℝ) : ℝ × ℝ :=
  let r := rd (x0 * x1)
  (r, prodErr rd x0 x1 r)

/-- doubledouble.py:113-125 `mul_dd` -/
def mul_dd (rd : ℝ → ℝ) (x0 y0 x1 y1 : ℝ) : ℝ × ℝ :=
  let r := rd (x0 * x1)
  let e := prodErr rd x0 x1 r
  renorm rd r (rd (e + rd (rd (x0 * y1) + rd (y0 * x1))))

/-- doubledouble.py:127-141 `div_dd` -/
def div_dd (rd : ℝ → ℝ) (x0 y0 x1 y1 : ℝ) : Py (ℝ × ℝ) := do
  let q ← x0 /ₚ x1
  let r := rd q
  let s := rd (r * x1)
  let f := prodErr rd r x1 s
  let q2 ← rd (rd (rd (rd (x0 - s) - f) + y0) - rd (r * y1)) /ₚ x1
  return renorm rd r (rd q2)

/-- doubledouble.py:147-151, 159-163, 350-354: the error of the rounded square -/
def sqErr (rd : ℝ → ℝ) (x r : ℝ) : ℝ :=
  let s := hi rd x
  let f := rd (x - s)
  rd (rd (rd (rd (s * s) - r) + rd (rd (2 * s) * f)) + rd (f * f))

/-- doubledouble.py:143-155 `sqrt_dd` -/
def sqrt_dd (rd : ℝ → ℝ) (x y : ℝ) : Py (ℝ × ℝ) :=
  if x = 0 then .ok (0, 0)
  else do
    let q ← psqrt x
    let r := rd q
    let s := rd (r * r)
    let f := sqErr rd r s
    let e ← rd (rd (rd (rd (x - s) - f) + y) * 0.5) /ₚ r
    return renorm rd r (rd e)

/-- doubledouble.py:157-166 `square_dd` -/
def square_dd (rd : ℝ → ℝ) (x0 y0 : ℝ) : ℝ × ℝ :=
  let r := rd (x0 * x0)
  renorm rd r (rd (sqErr rd x0 r + rd (rd (2 * x0) * y0)))

/-- doubledouble.py:348-365 `cube_dd` -/
def cube_dd (rd : ℝ → ℝ) (x0 y0 : ℝ) : ℝ × ℝ :=
  let q := square_dd rd x0 y0
  let r := rd (x0 * q.1)
  renorm rd r (rd (rd (prodErr rd x0 q.1 r + rd (x0 * q.2)) + rd (y0 * q.1)))

/-- doubledouble.py:176-182: the loop of `intpow_dd`: `i` is the exponent left, `b` the current square and `p` the product -/
def intpowLoop (rd : ℝ → ℝ) (i : ℕ) (b p : ℝ × ℝ) : ℝ × ℝ :=
  let p' := if i % 2 = 1 then mul_dd rd p.1 p.2 b.1 b.2 else p
  if _h : i ≤ 1 then p'
  else intpowLoop rd (i / 2) (mul_dd rd b.1 b.2 b.1 b.2) p'
termination_by i
decreasing_by omega

/-- doubledouble.py:168-185 `intpow_dd` for an integer exponent -/
def intpow_dd (rd : ℝ → ℝ) (r e : ℝ) (n : ℤ) : Py (ℝ × ℝ) :=
  let p := intpowLoop rd n.natAbs (r, e) (1, 0)
  if n < 0 then div_dd rd 1 0 p.1 p.2 else .ok p

/-- doubledouble.py:187-188 `dd_exp_coeffs` after its first entry, 156 -/
def expCoeffs : List ℝ := [12012, 600600, 21621600, 588107520, 12350257920, 201132771840, 2514159648000, 23465490048000, 154872234316800, 647647525324800, 1295295050649600]

/-- doubledouble.py:195-197: the loop for the numerator -/
def expNum (rd : ℝ → ℝ) (x : ℝ × ℝ) : List ℝ → ℝ × ℝ → ℝ × ℝ
  | [], u => u
  | c :: cs, u =>
    let m := mul_dd rd x.1 x.2 u.1 u.2
    expNum rd x cs (add_dd rd m.1 m.2 c 0)

/-- doubledouble.py:200-204: the loop for the denominator; `f` alternates between 1 and -1 -/
def expDen (rd : ℝ → ℝ) (x : ℝ × ℝ) : List ℝ → ℝ → ℝ × ℝ → ℝ × ℝ
  | [], _, v => v
  | c :: cs, f, v =>
    let m := mul_dd rd x.1 x.2 v.1 v.2
    expDen rd x cs (rd (f * -1)) (add_dd rd m.1 m.2 (rd (f * c)) 0)

/-- doubledouble.py:206: the double 2.718281828459045 -/
def eHi : ℝ := 6121026514868073 / 2 ^ 51
/-- doubledouble.py:206: the double 1.4456468917292502e-16 -/
def eLo : ℝ := 2932120240029853 / 2 ^ 104

/-- doubledouble.py:191: Python's `round`: to the nearest integer, a tie to the even one -/
def pyRound (x : ℝ) : ℤ :=
  if x - ⌊x⌋ < 1 / 2 then ⌊x⌋ else if x - ⌊x⌋ > 1 / 2 then ⌊x⌋ + 1 else if ⌊x⌋ % 2 = 0 then ⌊x⌋ else ⌊x⌋ + 1

/-- doubledouble.py:190-209 `exp_dd` -/
def exp_dd (rd : ℝ → ℝ) (r e : ℝ) : Py (ℝ × ℝ) := do
  let n := pyRound r
  let x := add_dd rd r e (-(n : ℝ)) 0
  let u := expNum rd x expCoeffs (add_dd rd x.1 x.2 156 0)
  let v := expDen rd x expCoeffs 1 (add_dd rd x.1 x.2 (-156) 0)
  let p ← intpow_dd rd eHi eLo n
  let o := mul_dd rd p.1 p.2 u.1 u.2
  div_dd rd o.1 o.2 v.1 v.2

/-- doubledouble.py:212-221 `log_dd` -/
def log_dd (rd : ℝ → ℝ) (r e : ℝ) : Py (ℝ × ℝ) := do
  let l ← plog r
  let u ← exp_dd rd (rd l) 0
  let t := add_dd rd u.1 u.2 (-r) (-e)
  let d := add_dd rd u.1 u.2 r e
  let q ← div_dd rd t.1 t.2 d.1 d.2
  let m := mul_dd rd 2 0 q.1 q.2
  return add_dd rd (rd l) 0 (-m.1) (-m.2)

/-- doubledouble.py:223: the first part of an exponent: a Python int or a float -/
inductive Num where
  | int (n : ℤ)
  | float (x : ℝ)

/-- doubledouble.py:228: the value of either kind of number -/
def Num.val : Num → ℝ
  | .int n => n
  | .float x => x

/-- doubledouble.py:227-229: the general case of `pow_dd` -/
def powGeneral (rd : ℝ → ℝ) (r e nr ne : ℝ) : Py (ℝ × ℝ) := do
  let l ← log_dd rd r e
  let m := mul_dd rd l.1 l.2 nr ne
  exp_dd rd m.1 m.2

open Classical in
/-- doubledouble.py:223-229 `pow_dd`. A float with an integer value reaches `i & 1` of `intpow_dd` (177), which is a TypeError. -/
def pow_dd (rd : ℝ → ℝ) (r e : ℝ) (nr : Num) (ne : ℝ) : Py (ℝ × ℝ) :=
  match nr with
  | .int n => if ne = 0 then intpow_dd rd r e n else powGeneral rd r e n ne
  | .float x => if ne = 0 ∧ Int.fract x = 0 then .error .typeError else powGeneral rd r e x ne

/-! ### Complex numbers: two double-doubles `(rr, re, cr, ce)` -/

/-- doubledouble.py:232-307: a complex double-double -/
structure DDC where
  rr : ℝ
  re : ℝ
  cr : ℝ
  ce : ℝ

/-- doubledouble.py:232-241 `mul_imag_dd` -/
def mul_imag_dd (rd : ℝ → ℝ) (x y : DDC) : DDC :=
  let z := mul_dd rd x.rr x.re y.rr y.re
  let w := mul_dd rd x.cr x.ce y.cr y.ce
  let z := add_dd rd z.1 z.2 (-w.1) (-w.2)
  let c := mul_dd rd x.rr x.re y.cr y.ce
  let w := mul_dd rd x.cr x.ce y.rr y.re
  let c := add_dd rd c.1 c.2 w.1 w.2
  ⟨z.1, z.2, c.1, c.2⟩

/-- doubledouble.py:243-251 `mul_imag_noerrors_dd` -/
def mul_imag_noerrors_dd (rd : ℝ → ℝ) (xr xc yr yc : ℝ) : DDC :=
  let z := mul_noerrors_dd rd xr yr
  let w := mul_noerrors_dd rd xc (-yc)
  let z := add_dd rd z.1 z.2 w.1 w.2
  let c := mul_noerrors_dd rd xr yc
  let w := mul_noerrors_dd rd xc yr
  let c := add_dd rd c.1 c.2 w.1 w.2
  ⟨z.1, z.2, c.1, c.2⟩

/-- doubledouble.py:260-275: `sqrt_imag_dd` of a number with a nonzero imaginary part -/
def sqrtImagGeneral (rd : ℝ → ℝ) (x : DDC) : Py DDC := do
  let a := square_dd rd x.rr x.re
  let b := square_dd rd x.cr x.ce
  let s := add_dd rd a.1 a.2 b.1 b.2
  let w ← sqrt_dd rd s.1 s.2
  let p := add_dd rd w.1 w.2 x.rr x.re
  let z ← sqrt_dd rd (rd (p.1 * 0.5)) (rd (p.2 * 0.5))
  let q := add_dd rd w.1 w.2 (-x.rr) (-x.re)
  let c ← sqrt_dd rd (rd (q.1 * 0.5)) (rd (q.2 * 0.5))
  return ⟨z.1, z.2, c.1, c.2⟩

/-- doubledouble.py:255-256: the square root of a positive real number -/
def sqrtImagPos (rd : ℝ → ℝ) (x : DDC) : Py DDC := do
  let z ← sqrt_dd rd x.rr x.re
  return ⟨z.1, z.2, 0, 0⟩

/-- doubledouble.py:258-259: the square root of any other real number -/
def sqrtImagNeg (rd : ℝ → ℝ) (x : DDC) : Py DDC := do
  let z ← sqrt_dd rd (-x.rr) (-x.re)
  return ⟨0, 0, z.1, z.2⟩

/-- doubledouble.py:253-275 `sqrt_imag_dd` -/
def sqrt_imag_dd (rd : ℝ → ℝ) (x : DDC) : Py DDC :=
  if x.cr = 0 then
    if x.rr > 0 then sqrtImagPos rd x else sqrtImagNeg rd x
  else sqrtImagGeneral rd x

/-- doubledouble.py:277-280 `add_imag_dd` -/
def add_imag_dd (rd : ℝ → ℝ) (x y : DDC) : DDC :=
  let z := add_dd rd x.rr x.re y.rr y.re
  let c := add_dd rd x.cr x.ce y.cr y.ce
  ⟨z.1, z.2, c.1, c.2⟩

/-- doubledouble.py:282-288 `imag_inv_dd` -/
def imag_inv_dd (rd : ℝ → ℝ) (x : DDC) : Py DDC := do
  let a := square_dd rd x.rr x.re
  let b := square_dd rd x.cr x.ce
  let w := add_dd rd a.1 a.2 b.1 b.2
  let z ← div_dd rd x.rr x.re w.1 w.2
  let c ← div_dd rd x.cr x.ce w.1 w.2
  return ⟨z.1, z.2, -c.1, -c.2⟩

/-- doubledouble.py:290-307 `div_imag_dd` -/
def div_imag_dd (rd : ℝ → ℝ) (x y : DDC) : Py DDC := do
  let a := square_dd rd y.rr y.re
  let b := square_dd rd y.cr y.ce
  let w := add_dd rd a.1 a.2 b.1 b.2
  let l := mul_dd rd x.rr x.re y.rr y.re
  let m := mul_dd rd x.cr x.ce y.cr y.ce
  let l := add_dd rd l.1 l.2 m.1 m.2
  let k := mul_dd rd x.cr x.ce y.rr y.re
  let m := mul_dd rd x.rr x.re y.cr y.ce
  let k := add_dd rd k.1 k.2 (-m.1) (-m.2)
  let z ← div_dd rd l.1 l.2 w.1 w.2
  let c ← div_dd rd k.1 k.2 w.1 w.2
  return ⟨z.1, z.2, c.1, c.2⟩

/-- doubledouble.py:324: the double 0.3333333333333333 -/
def thirdHi : ℝ := 6004799503160661 / 2 ^ 54
/-- doubledouble.py:324: the double 1.850371707708594e-17 -/
def thirdLo : ℝ := 6004799503160661 / 2 ^ 108

/-- doubledouble.py:313-326: `cbrt_imag_dd` after the double-precision guess `yr + yc i` of the reciprocal cube root (311, Python's complex power) -/
def cbrt_imag_dd (rd : ℝ → ℝ) (yr yc : ℝ) (x : DDC) : Py DDC :=
  let y : DDC := ⟨yr, 0, yc, 0⟩
  let t := mul_imag_noerrors_dd rd yr yc yr yc
  let t := mul_imag_dd rd t y
  let t := mul_imag_dd rd t x
  let o := add_dd rd 1 0 (-t.rr) (-t.re)
  let t := mul_imag_dd rd y ⟨o.1, o.2, -t.cr, -t.ce⟩
  let t := mul_imag_dd rd t ⟨thirdHi, thirdLo, 0, 0⟩
  let t := add_imag_dd rd y t
  imag_inv_dd rd t

/-- doubledouble.py:333-338 (also 375-395): `y (1 + (1 - x y³))`, the first step -/
def cbrtStep1 (rd : ℝ → ℝ) (x y : ℝ × ℝ) : ℝ × ℝ :=
  let w := cube_dd rd y.1 y.2
  let w := mul_dd rd w.1 w.2 x.1 x.2
  let w := add_dd rd 1 0 (-w.1) (-w.2)
  let w := mul_dd rd w.1 w.2 y.1 y.2
  add_dd rd y.1 y.2 w.1 w.2

/-- doubledouble.py:341-345 (also 398-416): `y (1 + (1 - x y³)/3)`, the second step -/
def cbrtStep2 (rd : ℝ → ℝ) (x y : ℝ × ℝ) : ℝ × ℝ :=
  let w := cube_dd rd y.1 y.2
  let w := mul_dd rd w.1 w.2 x.1 x.2
  let w := add_dd rd 1 0 (-w.1) (-w.2)
  let w := mul_dd rd w.1 w.2 y.1 y.2
  add_dd rd y.1 y.2 (rd (rd third * w.1)) (rd (rd third * w.2))

/-- doubledouble.py:328-346 `cbrt_dd` after the guess `y = xr ** (-1/3)` (330) of the reciprocal cube root, which is an argument of the model -/
def cbrt_dd (rd : ℝ → ℝ) (y : ℝ) (xr xe : ℝ) : Py (ℝ × ℝ) :=
  let y := cbrtStep1 rd (xr, xe) (y, 0)
  let y := cbrtStep2 rd (xr, xe) y
  div_dd rd 1 0 y.1 y.2

/-- doubledouble.py:398-412: `cube_dd` written out -/
def cubeInline (rd : ℝ → ℝ) (yr ye : ℝ) : ℝ × ℝ :=
  let u := rd (yr * 134217729)
  let s := rd (u - rd (u - yr))
  let f := rd (yr - s)
  let r := rd (yr * yr)
  let w0e := rd (rd (rd (rd (rd (s * s) - r) + rd (rd (2 * s) * f)) + rd (f * f)) + rd (rd (2 * yr) * ye))
  let w0r := rd (r + w0e)
  let e0 := rd (w0e - rd (w0r - r))
  let v := rd (w0r * 134217729)
  let t := rd (v - rd (v - w0r))
  let g := rd (w0r - t)
  let r := rd (yr * w0r)
  let w0e := rd (rd (rd (rd (rd (rd (rd (s * t) - r) + rd (s * g)) + rd (f * t)) + rd (f * g)) + rd (yr * e0)) + rd (ye * w0r))
  let w0r := rd (r + w0e)
  (w0r, rd (w0e - rd (w0r - r)))

/-- doubledouble.py:367-417 `cbrt_explicit_dd`, the guess being an argument as for `cbrt_dd` -/
def cbrt_explicit_dd (rd : ℝ → ℝ) (y : ℝ) (xr xe : ℝ) : Py (ℝ × ℝ) :=
  let w := cubeInline rd y 0
  let w := mul_dd rd w.1 w.2 xr xe
  let w := add_dd rd 1 0 (-w.1) (-w.2)
  let w := mul_dd rd w.1 w.2 y 0
  let y := add_dd rd y 0 w.1 w.2
  let w := cubeInline rd y.1 y.2
  let w := mul_dd rd w.1 w.2 xr xe
  let w := add_dd rd 1 0 (-w.1) (-w.2)
  let w := mul_dd rd w.1 w.2 y.1 y.2
  let y := add_dd rd y.1 y.2 (rd (rd third * w.1)) (rd (rd third * w.2))
  div_dd rd 1 0 y.1 y.2

end

end Verif.DD
