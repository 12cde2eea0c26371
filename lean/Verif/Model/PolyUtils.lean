import Verif.Py

/-!
# Model of `fluids/numerics/polynomial_utils.py` and of `comb` from `fluids/numerics/special.py`

A preallocated list that a loop fills position by position is modelled as the list of the values written (`List.map` over
the index range) when every position is written exactly once; accumulating loops (`result[k] += ...`) are folds with
`List.modify`. `l.getD i 0` is only used at indices that are in range in the Python code (or where the Python code itself
substitutes 0.0).
-/

namespace Verif.PolyUtils

section Field
variable {K : Type _} [Field K] [DecidableEq K]

/-- polynomial_utils.py:57-65 `poly_add`. -/
def poly_add (p1 p2 : List K) : List K :=
  (List.range (max p1.length p2.length)).map fun i => p1.getD i 0 + p2.getD i 0

/-- polynomial_utils.py:67-73 `poly_mul`. -/
def poly_mul (p1 p2 : List K) : List K :=
  (List.range p1.length).foldl (fun result i =>
    (List.range p2.length).foldl (fun result j =>
      result.modify (i + j) (· + p1.getD i 0 * p2.getD j 0)) result)
    (List.replicate (p1.length + p2.length - 1) 0)

/-- polynomial_utils.py:92-95: drop leading zeros, unless every coefficient is zero. -/
def strip_leading (coeffs : List K) : List K :=
  match coeffs.dropWhile (· = 0) with
  | [] => coeffs
  | l => l

/-- polynomial_utils.py:76-95 `stable_poly_to_unstable`. -/
def stable_poly_to_unstable (coeffs : List K) (low high : K) : Py (List K) :=
  match coeffs with
  | [] => .ok []
  | c0 :: cs =>
    if high ≠ low then do
      let a ← 2 /ₚ (high - low)
      let b ← -(high + low) /ₚ (high - low)
      let x_poly := [b, a]
      let result := cs.foldl (fun result c => poly_add (poly_mul result x_poly) [c]) [c0]
      return strip_leading result.reverse
    else return strip_leading (c0 :: cs)

/-- polynomial_utils.py:116-120 `polynomial_offset_scale`. -/
def polynomial_offset_scale (xmin xmax : K) : Py (K × K) := do
  let range_inv ← 1 /ₚ (xmax - xmin)
  return ((-xmax - xmin) * range_inv, 2 * range_inv)

/-- polynomial_utils.py:98-105 `polyint_stable`. -/
def polyint_stable (coeffs : List K) (xmin xmax : K) : Py (List K) := do
  let (_, scale) ← polynomial_offset_scale xmin xmax
  let scale ← 1 /ₚ scale
  let N := coeffs.length
  return (List.range N).map (fun i => scale * coeffs.getD i 0 / ((N - i : ℕ) : K)) ++ [0]

/-- polynomial_utils.py:123-134 `polyint`. -/
def polyint (coeffs : List K) : List K :=
  let N := coeffs.length
  (List.range N).map (fun i => coeffs.getD i 0 / ((N - i : ℕ) : K)) ++ [0]

/-- polynomial_utils.py:136-146 `polyint_over_x`. -/
def polyint_over_x (coeffs : List K) : List K × K :=
  let N := coeffs.length
  let Nm1 := N - 1
  if N = 0 then ([], 0)
  else ((List.range Nm1).map (fun i => coeffs.getD i 0 / ((Nm1 - i : ℕ) : K)) ++ [0], coeffs.getLastD 0)

/-- one pass of the loop at polynomial_utils.py:174-178. -/
def polyder_once (c : List K) : List K :=
  (List.range (c.length - 1)).map fun j => ((j + 1 : ℕ) : K) * c.getD (j + 1) 0

/-- polynomial_utils.py:160-179 `polyder(c, m)`. -/
def polyder (c : List K) (m : ℕ) : List K :=
  if m = 0 then c
  else if m ≥ c.length then []
  else polyder_once^[m] c

/-- polynomial_utils.py:181-205 `quadratic_from_points`. -/
def quadratic_from_points (x0 x1 x2 f0 f1 f2 : K) : Py (K × K × K) := do
  let v0 := -x2
  let v1 := f0 * (v0 + x1)
  let v2 := f2 * (x0 - x1)
  let v3 := f1 * (v0 + x0)
  let v4 := x2 * x2
  let v5 := x0 * x0
  let v6 := x1 * x1
  let v7 ← 1 /ₚ (v4 * x0 + v5 * x1 + v6 * x2 - (v4 * x1 + v5 * x2 + v6 * x0))
  let v8 := -v4
  let a := v7 * (v1 + v2 - v3)
  let b := -v7 * (f0 * (v6 + v8) - f1 * (v5 + v8) + f2 * (v5 - v6))
  let c := v7 * (v1 * x1 * x2 + v2 * x0 * x1 - v3 * x0 * x2)
  return (a, b, c)

/-- polynomial_utils.py:207-220 `quadratic_from_f_ders` (`0.5` is written `1/2`). -/
def quadratic_from_f_ders (x v d1 d2 : K) : K × K × K :=
  (d2 * (1 / 2), d1 - d2 * x, -d1 * x + d2 * x * x * (1 / 2) + v)

/-- special.py:49-52 `py_comb` / `math.comb` on nonnegative integers. -/
def comb (n k : ℕ) : ℕ := if k > n then 0 else n.factorial / (k.factorial * (n - k).factorial)

/-- polynomial_utils.py:346-355 (and 376-380): the loop `it *= x; powers.append(it)` run `n` times from `it = 1.0`,
`powers = [1.0]`; state `(powers, it)`. -/
def powersLoop (x : K) : ℕ → List K × K
  | 0 => ([1], 1)
  | n + 1 => let (l, it) := powersLoop x n; (l ++ [it * x], it * x)

/-- numerics/polynomial_utils.py:346-355: the list of powers `[1, x, x*x, ...]` with `n+1` entries -/
def powers (x : K) (n : ℕ) : List K := (powersLoop x n).1

/-- polynomial_utils.py:310-319 `polyint_over_x_stable_helper`. For `j < i` Python reads `offset_powers[j-i]` from the end
of the list and multiplies it by `comb(j, i) = 0`; the model multiplies 0 by the entry at index 0 instead. -/
def polyint_over_x_stable_helper (coeffs : List K) (i n : ℕ) (scale_powers offset_powers : List K) : Py K :=
  let term := scale_powers.getD i 0
  let inner_term := (List.range n).foldl (fun inner_term j =>
    inner_term + (comb j i : K) * coeffs.getD (n - 1 - j) 0 * offset_powers.getD (j - i) 0) 0
  term * inner_term /ₚ (i : K)

/-- polynomial_utils.py:321-365 `polyint_over_x_stable`. -/
def polyint_over_x_stable (coeffs : List K) (xmin xmax : K) : Py (List K × K) := do
  let (offset, scale) ← polynomial_offset_scale xmin xmax
  let n := coeffs.length
  let scale_powers := powers scale n
  let offset_powers := powers offset n
  let log_coeff := (List.range n).foldl (fun s i => s + coeffs.reverse.getD i 0 * offset_powers.getD i 0) 0
  let terms ← (List.range (n - 1)).mapM fun i =>
    polyint_over_x_stable_helper coeffs (i + 1) n scale_powers offset_powers
  return ((0 :: terms).reverse, log_coeff)

/-- inner loop of `poly_convert` (polynomial_utils.py:385-388), state `(Q_coeffs, binom)`. -/
def poly_convert_inner (coeff_i : K) (i : ℕ) (off_powers scl_powers : List K) (st : List K × K) (k : ℕ) :
    List K × K :=
  let term := coeff_i * st.2 * off_powers.getD (i - k) 0 * scl_powers.getD k 0
  (st.1.modify k (· + term), st.2 * (((i - k : ℕ) : K) / ((k : K) + 1)))

/-- polynomial_utils.py:367-390 `poly_convert` (ascending coefficients). -/
def poly_convert (coeffs : List K) (Tmin Tmax : K) : List K :=
  let off := 1 / 2 * (Tmin + Tmax)
  let scl := 1 / 2 * (Tmax - Tmin)
  let degree_P := coeffs.length - 1
  let off_powers := powers off degree_P
  let scl_powers := powers scl degree_P
  (List.range coeffs.length).foldl (fun Q i =>
    ((List.range (i + 1)).foldl (poly_convert_inner (coeffs.getD i 0) i off_powers scl_powers) (Q, 1)).1)
    (List.replicate coeffs.length 0)

end Field

noncomputable section

/-- polynomial_utils.py:223-243 `exp_poly_ln_tau_coeffs2`. -/
def exp_poly_ln_tau_coeffs2 (T Tc val der : ℝ) : Py (ℝ × ℝ) := do
  let x0 ← 1 /ₚ val
  let x1 := T - Tc
  let x2 := der * (← plog (← -x1 /ₚ Tc))
  let c0 := der * x0 * x1
  let c1 := x0 * (-T * x2 + Tc * x2 + val * (← plog val))
  return (c0, c1)

/-- polynomial_utils.py:245-288 `exp_poly_ln_tau_coeffs3`. -/
def exp_poly_ln_tau_coeffs3 (T Tc val der der2 : ℝ) : Py (ℝ × ℝ × ℝ) := do
  let x0 := der * val
  let x1 := Tc * x0
  let x2 := T * x0
  let x3 := der2 * val
  let x4 := 2 * T * Tc
  let x5 := x3 * x4
  let x6 := T * T
  let x7 := der * der
  let x8 := x6 * x7
  let x9 := Tc * Tc
  let x10 := x7 * x9
  let x11 := x4 * x7
  let x12 := x3 * x6
  let x13 := x3 * x9
  let x14 := val * val
  let x15 ← 1 /ₚ x14
  let x16 := x15 * (1 / 2)
  let x17 ← plog (← -(T - Tc) /ₚ Tc)
  let x18 := x1 * x17
  let x19 := x17 * x2
  let x20 := x17 * x17
  let a := -x16 * (x1 + x10 - x11 - x12 - x13 - x2 + x5 + x8)
  let b := x15 * (-x1 + x10 * x17 - x11 * x17 - x12 * x17 - x13 * x17 + x17 * x5 + x17 * x8 + x18 - x19 + x2)
  let c := x16 * (-x1 * x20 - x10 * x20 + x11 * x20 + x12 * x20 + x13 * x20 + 2 * x14 * (← plog val) + 2 * x18
    - 2 * x19 + x2 * x20 - x20 * x5 - x20 * x8)
  return (a, b, c)

/-- polynomial_utils.py:291-306 `deflate_cubic_real_roots` (argument `c` is unused by the code). -/
def deflate_cubic_real_roots (b _c d x0 : ℝ) : Py (ℝ × ℝ) := do
  let F := b + x0
  let G ← -d /ₚ x0
  let D := F * F - 4 * G
  if D < 0 then return (0, 0)
  let D ← psqrt D
  return (1 / 2 * (D - F), 1 / 2 * (-F - D))

end
end Verif.PolyUtils
