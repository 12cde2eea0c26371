import Verif.Py

/-!
# Model of the closed-form linear solvers of `fluids/numerics/__init__.py`

A matrix is a list of rows. Python's tuple unpacking `a, b, c = mat[0]` raises `ValueError` on the wrong length and `mat[0]`
raises `IndexError` on a short list.
-/

namespace Verif.Direct

variable {K : Type _} [Field K] [DecidableEq K]

/-- numerics/__init__.py:3456-3468 `solve_2_direct`. Entries are read by index, so extra entries are ignored. -/
def solve_2_direct (mat : List (List K)) (vec : List K) : Py (List K) :=
  match mat, vec with
  | (a :: b :: _) :: (c :: d :: _) :: _, e :: f :: _ => do
    let x0 ← 1 /ₚ (a * d - b * c)
    return [x0 * (-b * f + d * e), x0 * (a * f - c * e)]
  | _, _ => .error .indexError

/-- numerics/__init__.py:3470-3494 `solve_3_direct`. A matrix or vector of the wrong shape is reported as `ValueError` (Python raises
`ValueError` or `IndexError` there). -/
def solve_3_direct (mat : List (List K)) (vec : List K) : Py (List K) :=
  match mat, vec with
  | [a, b, c] :: [d, e, f] :: [g, h, i] :: _, [j, k, l] => do
    let x0 := a * e
    let x1 := -b * d + x0
    let x2 := a * i - c * g
    let x3 := a * f - c * d
    let x4 := a * h - b * g
    let x5 := x1 * x2 - x3 * x4
    let x6 ← 1 /ₚ x5
    let x7 := b * x3 - c * x1
    let x8 ← 1 /ₚ x1
    let x9 := d * x4 - g * x1
    let x10 := j * x8
    let x11 := a * k
    let x12 := a * l
    let q ← (x10 * (x0 * x5 + x7 * x9)) /ₚ a
    return [x6 * (-k * x8 * (b * x5 + x4 * x7) + l * x7 + q),
      x6 * (-x10 * (d * x5 + x3 * x9) + x11 * x2 - x12 * x3),
      x6 * (j * x9 + x1 * x12 - x11 * x4)]
  | _, _ => .error .valueError

/-- numerics/__init__.py:3496-3545 `solve_4_direct`. Shape errors as in `solve_3_direct`. -/
def solve_4_direct (mat : List (List K)) (vec : List K) : Py (List K) :=
  match mat, vec with
  | [a, b, c, d] :: [e, f, g, h] :: [i, j, k, l] :: [m, n, o, p] :: _, [q, r, s, t] => do
    let x0 := a * f
    let x1 := -b * e + x0
    let x2 := x1 * (a * k - c * i)
    let x3 := a * g - c * e
    let x4 := a * j - b * i
    let x5 := x2 - x3 * x4
    let x6 := a * h - d * e
    let x7 := a * n - b * m
    let x8 := x1 * (a * p - d * m) - x6 * x7
    let x9 := x1 * (a * l - d * i) - x4 * x6
    let x10 := x1 * (a * o - c * m) - x3 * x7
    let x11 := -x10 * x9 + x5 * x8
    let x12 ← 1 /ₚ x11
    let x13 := -b * x3 + c * x1
    let x14 := x13 * x9
    let x15 := x5 * (-b * x6 + d * x1)
    let x16 := -x14 + x15
    let x17 ← 1 /ₚ x5
    let x18 := s * x17
    let x19 := x10 * x4 - x5 * x7
    let x20 ← 1 /ₚ x1
    let x21 := x17 * x20
    let x22 := e * x4 - i * x1
    let x23 := x5 * (e * x7 - m * x1)
    let x24 := x10 * x22
    let x25 := x23 - x24
    let x26 := q * x17
    let x27 := x20 * x26
    let x28 := x3 * x9
    let x29 := x5 * x6
    let x30 := a * t
    let x31 := -x28 + x29
    let x32 := a * r
    let x33 := a * s * x1
    let x34 := x1 * x30
    let x35 := -x23 + x24
    let u ← (x27 * (-x11 * (x0 * x5 - x13 * x22) + x16 * x25)) /ₚ a
    return [x12 * (-r * x21 * (-x11 * (-b * x5 + x13 * x4) + x16 * x19) + t * (x14 - x15) - x18 * (-x10 * x16 + x11 * x13) - u),
      x12 * (-a * x18 * (-x10 * x31 + x11 * x3) - x21 * x32 * (-x11 * x2 + x19 * x31)
        - x27 * (x11 * (e * x5 + x22 * x3) + x25 * x31) + x30 * (x28 - x29)),
      x12 * (-x17 * x32 * (x11 * x4 + x19 * x9) + x26 * (x11 * x22 + x35 * x9) + x33 * x8 - x34 * x9),
      x12 * (-q * x35 - x10 * x33 + x19 * x32 + x34 * x5)]
  | _, _ => .error .valueError

end Verif.Direct
