import Verif.Model.Sequences
import Verif.Model.Bracketing
import Verif.Model.PolyEval
import Verif.Model.Quad
import Mathlib.Analysis.SpecialFunctions.Exp
import Mathlib.Data.Complex.Basic
import Mathlib.LinearAlgebra.Matrix.NonsingularInverse

/-!
# Model of further helpers of `fluids/numerics/__init__.py` and `fluids/numba.py`

`detect_outlier_normal`, `central_diff_weights`, `is_poly_positive`, `is_poly_negative`, `tck_interp2d_linear`, `nquad`, `dblquad`, `py_lambertw`, `combinations`.
-/

namespace Verif.NumHelpers
open Verif Verif.PolyEval

noncomputable section
open Classical

/-- numerics/__init__.py:574-584 `detect_outlier_normal(data, cutoff=3)` -/
def detect_outlier_normal (data : List ℝ) (cutoff : ℝ := 3) : Py (List ℕ) := do
  let std_val : ℝ ← Seq.std data
  let mean_val : ℝ ← Seq.mean data
  let low : ℝ := mean_val - std_val * cutoff
  let high : ℝ := mean_val + std_val * cutoff
  return (List.range data.length).filter fun i => data.getD i 0 < low ∨ data.getD i 0 > high

/-- numerics/__init__.py:820-823: the matrix of the powers of the points `-ho .. ho` -/
def diffMatrix (points : ℕ) : Matrix (Fin points) (Fin points) ℝ := fun i k => ((i : ℝ) - ((points / 2 : ℕ) : ℝ)) ^ (k : ℕ)

/-- numerics/__init__.py:812-832: `central_diff_weights(points, divisions)` for a key that is not in the table, which `derivative` handles before; the exact inverse of sympy, rounding of its entries to floats left out -/
def central_diff_weights (points divisions : ℕ) : Py (List ℝ) :=
  if points < divisions + 1 then .error .valueError
  else if points % 2 = 0 then .error .valueError
  else
    let factor : ℝ := Seq.product ((List.range divisions).map fun i => ((i + 1 : ℕ) : ℝ))
    .ok (List.ofFn fun i : Fin points => if h : divisions < points then ((diffMatrix points)⁻¹ ⟨divisions, h⟩ i) * factor else 0)

/-- numerics/__init__.py:1429-1434: the points sampled first -/
def samplePoints (domain : Option (ℝ × ℝ)) (rand_pts : ℤ) : Py (List ℝ) :=
  match domain with
  | none => do
    let pts ← Seq.logspace (-100) 100 (rand_pts / 2) true 10
    return pts ++ pts.map fun i => -i
  | some d => .ok (Seq.linspace d.1 d.2 rand_pts true)

/-- numerics/__init__.py:1441-1444: whether a root is examined. The division is numpy's: by zero it gives an infinity or no number, and the comparison is false. -/
def examined (domain : Option (ℝ × ℝ)) (j_tol : ℝ) (root : ℂ) : Prop :=
  (root.re ≠ 0 ∧ |root.im / root.re| < j_tol) ∧ (match domain with
    | none => True
    | some d => ¬ (root.re < d.1 ∨ root.re > d.2))

/-- numerics/__init__.py:1427-1450 `is_poly_positive(poly, domain=None, rand_pts=10, j_tol=1e-12, root_perturb=1e-12)`; `roots` is the result of `np.roots(poly)` -/
def is_poly_positive (roots : List ℂ) (poly : List ℝ) (domain : Option (ℝ × ℝ) := none) (rand_pts : ℤ := 10) (j_tol : ℝ := 1e-12) (root_perturb : ℝ := 1e-12) : Py Bool := do
  let pts ← samplePoints domain rand_pts
  if ∃ p ∈ pts, horner poly p < 0 then .ok false
  else .ok (decide (∀ root ∈ roots, examined domain j_tol root → ¬ horner poly (root.re * (1 + root_perturb)) < 0 ∧ ¬ horner poly (root.re * (1 - root_perturb)) < 0))

/-- numerics/__init__.py:1453-1456 `is_poly_negative`; `roots` is the result of `np.roots` on the negated coefficients -/
def is_poly_negative (roots : List ℂ) (poly : List ℝ) (domain : Option (ℝ × ℝ) := none) (rand_pts : ℤ := 10) (j_tol : ℝ := 1e-12) (root_perturb : ℝ := 1e-12) : Py Bool :=
  is_poly_positive roots (poly.map fun i => -i) domain rand_pts j_tol root_perturb

/-- numerics/__init__.py:6140-6141 `_lambertw_err` -/
def lambertw_err (x y : ℝ) : ℝ := x * Real.exp x - y

/-- numerics/__init__.py:6142-6162 `py_lambertw(y, k=0)`; the real part of the result, its imaginary part is always zero. `brenth` has its default tolerances. -/
def py_lambertw (y : ℝ) (k : ℤ := 0) : Py ℝ :=
  if k = 0 then Solve.brenth (fun x => .ok (lambertw_err x y)) (-1) 700 1e-12 4.440892098500626e-16 100 none false none none
  else if k = -1 then Solve.brenth (fun x => .ok (lambertw_err x y)) (-700) (-1) 1e-12 4.440892098500626e-16 100 none false none none
  else .error .valueError

/-- numerics/__init__.py:5417-5426 `nquad` and `_call_nquad`; `ranges` is given last range first. `tab` are the nodes, weights and Legendre weights of the default rule. With more than one range the integrand of the outer rule returns a pair, and the product of a float and a pair raises at the first node. -/
def nquad (tab : List ℝ × List ℝ × List ℝ) (func : List ℝ → Py ℝ) (epsrel epsabs : ℝ) : List (List ℝ → Py (ℝ × ℝ)) → List ℝ → Py (ℝ × ℝ)
  | [], _ => .error .indexError
  | [r], args => do
    let lim ← r args
    Quad.quad_adaptive (fun x => func (x :: args)) lim.1 lim.2 tab.1 tab.2.1 tab.2.2 epsrel epsabs 0
  | r :: rs, args => do
    let lim ← r args
    let x : ℝ := lim.1 * (1 / 2 * (1 - tab.1.getD 0 0)) + lim.2 * (1 / 2 * (1 + tab.1.getD 0 0))
    let _ ← nquad tab func epsrel epsabs rs (x :: args)
    .error .typeError

/-- numerics/__init__.py:5432-5435: the inner integral -/
def dblInner (tab : List ℝ × List ℝ × List ℝ) (func : ℝ → ℝ → Py ℝ) (hfun gfun : ℝ → Py ℝ) (epsrel epsabs y : ℝ) : Py ℝ := do
  let lo ← hfun y
  let hi ← gfun y
  let r ← Quad.quad_adaptive (fun x => func x y) lo hi tab.1 tab.2.1 tab.2.2 epsrel epsabs 0
  return r.1

/-- numerics/__init__.py:5428-5441 `dblquad(func, a, b, hfun, gfun, epsrel=1.48e-12, epsabs=1.48e-15)` without further arguments -/
def dblquad (tab : List ℝ × List ℝ × List ℝ) (func : ℝ → ℝ → Py ℝ) (a b : ℝ) (hfun gfun : ℝ → Py ℝ) (epsrel : ℝ := 1.48e-12) (epsabs : ℝ := 1.48e-15) : Py (ℝ × ℝ) :=
  Quad.quad_adaptive (dblInner tab func hfun gfun epsrel epsabs) a b tab.1 tab.2.1 tab.2.2 epsrel epsabs 0

end

/-- numerics/__init__.py:2131-2137: a copy with the first and the last entry repeated; an empty list raises `IndexError` -/
def padEnds {K : Type _} (x : List K) : Py (List K) :=
  match x with
  | [] => .error .indexError
  | a :: t => .ok (a :: (a :: t) ++ [(a :: t).getLast (by simp)])

/-- numerics/__init__.py:2127-2143 `tck_interp2d_linear(x, y, z, kx=1, ky=1)`: the knots and the coefficients. -/
def tck_interp2d_linear {K : Type _} (x y : List K) (z : List (List K)) (kx : ℕ := 1) (ky : ℕ := 1) : Py (List K × List K × List K) := do
  if kx ≠ 1 ∨ ky ≠ 1 then .error .valueError
  else do
    let tx ← padEnds x
    let ty ← padEnds y
    let z0 ← (match z with
      | [] => .error .indexError
      | z0 :: _ => .ok z0 : Py (List K))
    let c ← (List.range z0.length).mapM fun i => z.mapM fun row => (match row[i]? with
      | some v => .ok v
      | none => .error .indexError : Py K)
    return (tx, ty, c.flatten)

/-- numba.py:234-236: the last position, below the given one, whose index can still grow -/
def lastBelow (n r : ℕ) (indices : List ℕ) : ℕ → Option ℕ
  | 0 => none
  | i + 1 => if indices.getD i 0 = i + n - r then lastBelow n r indices i else some i

/-- numba.py:240-242: position `i` is increased by one and the following ones count up from it -/
def bump (r : ℕ) (indices : List ℕ) (i : ℕ) : List ℕ :=
  (List.range (r - (i + 1))).foldl (fun ind k => ind.set (i + 1 + k) (ind.getD (i + k) 0 + 1)) (indices.set i (indices.getD i 0 + 1))

/-- numba.py:233-244: the loop, with at most `fuel` passes -/
def combLoop (n r : ℕ) : ℕ → List ℕ → List (List ℕ)
  | 0, _ => []
  | fuel + 1, indices =>
    match lastBelow n r indices r with
    | none => []
    | some i => bump r indices i :: combLoop n r fuel (bump r indices i)

/-- numba.py:222-244 `combinations(pool, r)` as the list of what it yields, positions instead of entries; the loop run with the given fuel -/
def combIndices (n r fuel : ℕ) : List (List ℕ) :=
  if n = 0 ∨ r = 0 ∨ n < r then [] else List.range r :: combLoop n r fuel (List.range r)

/-- numba.py:222-244 `combinations(pool, r)`. The loop is given `n ^ r` passes, which theorem `C132_combinations` shows to be no restriction. -/
def combinations {α : Type _} [Inhabited α] (pool : List α) (r : ℕ) : List (List α) :=
  (combIndices pool.length r (pool.length ^ r)).map fun ind => ind.map fun i => pool.getD i default

end Verif.NumHelpers
