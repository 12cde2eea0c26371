import Verif.Py
import Verif.Model.Chebyshev
import Mathlib.Analysis.SpecialFunctions.Trigonometric.Basic
import Mathlib.LinearAlgebra.Matrix.Notation

/-!
# Chebyshev interpolants, fluids/optional/pychebfun.py

Arrays are lists, with one column and real entries; arithmetic is exact. The fast Fourier transform is its defining sum (the real part, for real data), the barycentric interpolator of `scipy` its formula,
`numpy`'s `chebint` the model of the function of the same name, and `eigvals` is not computed: the model gives the matrix.
-/

namespace Verif.Chebfun
open Real Verif.Chebyshev

noncomputable section

/-- optional/pychebfun.py:679-686 `even_data`: the data followed by its interior, reversed -/
def even_data (l : List ℝ) : List ℝ := l ++ (l.drop 1).dropLast.reverse

/-- the real part of the discrete Fourier transform of real data, entry `k` (optional/pychebfun.py:43-54, 691) -/
def dftRe (l : List ℝ) (k : ℕ) : ℝ := ∑ j ∈ Finset.range l.length, l.getD j 0 * cos (2 * π * j * k / l.length)

/-- optional/pychebfun.py:688-699 `dct` -/
def dct (data : List ℝ) : List ℝ :=
  let N := data.length / 2
  let f := (List.range (N + 1)).map fun k => dftRe data k / N
  (f.modify 0 (· / 2)).modify N (· / 2)

/-- optional/pychebfun.py:593-605 `Chebfun.polyfit`: coefficients from values -/
def polyfit (sampled : List ℝ) : List ℝ := if sampled.length = 1 then sampled else dct (even_data sampled)

/-- optional/pychebfun.py:607-628 `Chebfun.polyval`: values from coefficients; the factor `2*(N-1)` removes the one in the inverse transform -/
def polyval (c : List ℝ) : List ℝ :=
  let N := c.length
  if N = 1 then c
  else
    let data := (((even_data c).map (· / 2)).modify 0 (· * 2)).modify (N - 1) (· * 2)
    (List.range N).map fun j => dftRe data j

/-- optional/pychebfun.py:580-585 `Chebfun.interpolation_points`, point `j` of `N` -/
def point (N j : ℕ) : ℝ := if N = 1 then 0 else cos (j * π / (N - 1 : ℕ))

/-- optional/pychebfun.py:639-642: barycentric weight `j` of `N` -/
def weight (N j : ℕ) : ℝ :=
  let w : ℝ := if j % 2 = 1 then -1 else if j = 0 then 0.5 else 1
  if j = N - 1 then w * 0.5 else w

/-- optional/pychebfun.py:282-305 `Polyfun.__init__`: the values, the domain and the scale -/
structure Fun where
  values : List ℝ
  a : ℝ
  b : ℝ
  vscale : ℝ

/-- optional/pychebfun.py:296: the scale from the values -/
def maxAbs (l : List ℝ) : ℝ := (l.map fun x => |x|).foldl max 0

/-- optional/pychebfun.py:282-305 `Polyfun.__init__` with its default scale -/
def ofValues (values : List ℝ) (a b : ℝ) : Fun := ⟨values, a, b, maxAbs values⟩

/-- optional/pychebfun.py:304 `_ab_to_ui` -/
def toUnit (f : Fun) (x : ℝ) : Py ℝ := pdiv (2 * x - f.a - f.b) (f.b - f.a)

open Classical in
/-- the barycentric interpolator of `scipy` with the weights of optional/pychebfun.py:630-646: the value at a node, else the quotient of the two sums -/
def bary (values : List ℝ) (t : ℝ) : Py ℝ :=
  let N := values.length
  if h : ∃ j < N, t = point N j then .ok (values.getD (Nat.find h) 0)
  else pdiv (∑ j ∈ Finset.range N, weight N j / (t - point N j) * values.getD j 0) (∑ j ∈ Finset.range N, weight N j / (t - point N j))

/-- optional/pychebfun.py:335-336 `__call__` -/
def call (f : Fun) (x : ℝ) : Py ℝ := do
  let t ← toUnit f x
  bary f.values t

/-- optional/pychebfun.py:413-414 `coefficients` -/
def coefficients (f : Fun) : List ℝ := polyfit f.values

/-- optional/pychebfun.py:262-266 `_threshold`, `emach` being the spacing of doubles at 1 -/
def threshold (vscale : ℝ) : ℝ := 128 * 2 ^ (-52 : ℤ) * vscale

open Classical in
/-- optional/pychebfun.py:268-279 `_cutoff`: one more than the last index of a coefficient that is not negligible -/
def cutoff (c : List ℝ) (vscale : ℝ) : ℕ := (((List.range c.length).filter fun i => decide (threshold vscale ≤ |c.getD i 0|)).getLast?.getD 0) + 1

/-- optional/pychebfun.py:195-209 `from_coeff`; defaults: prune = True, vscale = 1 -/
def from_coeff (c : List ℝ) (a b : ℝ) (prune : Bool := true) (vscale : ℝ := 1) : Fun :=
  ⟨polyval (if prune then c.take (cutoff c vscale) else c), a, b, vscale⟩

/-- optional/pychebfun.py:587-591 `sample_function` of the function rescaled by 247-248, with `N + 1` points -/
def sample (f : ℝ → ℝ) (a b : ℝ) (N : ℕ) : List ℝ := (List.range (N + 1)).map fun j => f (0.5 * (b - a) * point (N + 1) j + 0.5 * (a + b))

/-- optional/pychebfun.py:211-260 `from_function` for given `N`: one sampling with `2^(int(log2 N) + 1)` intervals -/
def from_function_N (f : ℝ → ℝ) (a b : ℝ) (N : ℕ) : Fun := from_coeff (polyfit (sample f a b (2 ^ (Nat.log 2 N + 1)))) a b

/-- optional/pychebfun.py:357-379 `__add__` of functions on the same domain -/
def add (f g : Fun) : Fun :=
  let diff : ℤ := (g.values.length : ℤ) - f.values.length
  let big := if diff > 0 then coefficients g else coefficients f
  let small := if diff > 0 then coefficients f else coefficients g
  let padded := small ++ List.replicate (big.length - small.length) 0
  from_coeff (List.zipWith (· + ·) big padded) f.a f.b true (max f.vscale g.vscale)

/-- optional/pychebfun.py:398-400 `__neg__` -/
def neg (f : Fun) : Fun := ofValues (f.values.map (- ·)) f.a f.b

/-- optional/pychebfun.py:479-482 `identity` -/
def identity (a b : ℝ) : Fun := ofValues [b, a] a b

/-- optional/pychebfun.py:484-491 `basis` -/
def basis (n : ℕ) : Fun := if n = 0 then ofValues [1] (-1) 1 else ofValues ((List.range (n + 1)).map fun j => if j % 2 = 1 then -1 else 1) (-1) 1

/-- optional/pychebfun.py:497-507 `sum` -/
def sum (f : Fun) : ℝ :=
  let ak := coefficients f
  0.5 * (f.b - f.a) * ∑ k ∈ Finset.range ((ak.length + 1) / 2), 2 / (1 - (2 * (k : ℝ)) ^ 2) * ak.getD (2 * k) 0

/-- optional/pychebfun.py:668-671: the loop over `j`, the entries of `DA` from the top down in pairs -/
def diffLoop (SA : List ℝ) (m : ℕ) : ℕ → ℕ → List ℝ → List ℝ
  | _, 0, DA => DA
  | j, n + 1, DA =>
    let k := m - 3 - 2 * j
    let DA := DA.set k (SA.getD (k + 1) 0 + DA.getD (k + 2) 0)
    let DA := DA.set (k - 1) (SA.getD k 0 + DA.getD (k + 1) 0)
    diffLoop SA m (j + 1) n DA

/-- optional/pychebfun.py:652-673 `differentiator` -/
def differentiator (A : List ℝ) : List ℝ :=
  let m := A.length
  if m = 1 then [0]
  else if m = 2 then [A.getD 1 0]
  else
    let SA := (List.range m).map fun i => A.getD i 0 * 2 * i
    let DA := ((List.replicate m 0).set (m - 3) (SA.getD (m - 2) 0)).set (m - 2) (SA.getD (m - 1) 0)
    let DA := diffLoop SA m 0 (m / 2 - 1) DA
    DA.set 0 ((SA.getD 1 0 + DA.getD 2 0) * 0.5)

/-- optional/pychebfun.py:520-526 `differentiate` -/
def differentiate (f : Fun) (n : ℕ := 1) : Py Fun := do
  let ak := differentiator^[n] (coefficients f)
  let s ← pdiv 2 (f.b - f.a)
  return from_coeff (ak.map (s ^ n * ·)) f.a f.b

/-- optional/pychebfun.py:509-518 `integrate`; the last line subtracts the constant value at the lower end -/
def integrate (f : Fun) : Py Fun := do
  let ic ← chebint (coefficients f) 1 0 1
  let F := from_coeff (ic.map (0.5 * (f.b - f.a) * ·)) f.a f.b
  let v ← call F f.a
  return add F (neg (ofValues [v] f.a f.b))

/-- optional/pychebfun.py:548-555: the matrix whose eigenvalues `roots` takes, for coefficients `ak` of a function of size `n + 1` -/
def colleague (ak : List ℝ) (n : ℕ) : Matrix (Fin n) (Fin n) ℝ := fun i j =>
  (if (i : ℕ) = 0 ∧ (j : ℕ) = 1 then 1 else if (i : ℕ) = j + 1 ∨ (j : ℕ) = i + 1 then 0.5 else 0) - 0.5 / ak.getD n 0 * (if (i : ℕ) + 1 = n then ak.getD j 0 else 0)

/-- optional/pychebfun.py:531-561 `roots` up to the call of `eigvals`: none for a constant; an index error for two coefficients, where `v` has one entry and line 550 writes its second; else the matrix.
Sizes over 100 (562-574) are not modelled. -/
def rootsMatrix (f : Fun) : Py (Option (Matrix (Fin (f.values.length - 1)) (Fin (f.values.length - 1)) ℝ)) :=
  if f.values.length = 1 then .ok none
  else if f.values.length = 2 then .error .indexError
  else .ok (some (colleague (coefficients f) (f.values.length - 1)))

end

end Verif.Chebfun
