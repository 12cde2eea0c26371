import Verif.Model.Translate

/-! # Model of the adaptive Gauss-Kronrod quadrature of `fluids/numerics/__init__.py` -/

namespace Verif.Quad
open Verif.Translate (idx)

variable {K : Type _} [Field K] [LinearOrder K]

/-- numerics/__init__.py:5357-5368: the loop of `fixed_quad_Gauss_Kronrod` over the Kronrod points left, at index `i`, with the two running
values and the index `k` of the next Legendre weight. -/
def gkLoop (f : K → Py K) (a b fact : K) (k_weights l_weights : List K) : List K → ℕ → K → K → ℕ → Py (K × K)
  | [], _, vk, vl, _ => .ok (vk, vl)
  | p :: ps, i, vk, vl, k => do
    let x0 := (1/2) * (1 - p)
    let x1 := (1/2) * (1 + p)
    let x := a * x0 + b * x1
    let y ← f x
    let w ← idx k_weights i
    let vk := vk + fact * y * w
    if i % 2 = 1 then do
      let lw ← idx l_weights k
      gkLoop f a b fact k_weights l_weights ps (i + 1) vk (vl + fact * y * lw) (k + 1)
    else gkLoop f a b fact k_weights l_weights ps (i + 1) vk vl k

/-- numerics/__init__.py:5342-5369 `fixed_quad_Gauss_Kronrod`: value and error estimate. -/
def fixed_quad_Gauss_Kronrod (f : K → Py K) (a b : K) (k_points k_weights l_weights : List K) : Py (K × K) := do
  let diff := b - a
  let fact := (1/2) * diff
  let r ← gkLoop f a b fact k_weights l_weights k_points 0 0 0 0
  return (r.1, r.1 - r.2)

/-- numerics/__init__.py:5389-5402: the body of `quad_adaptive`; `left` is `7 - depth`, so `depth > 6` is `left = 0`. The `points` argument
is ignored by the code (the branch is commented out). -/
def quadLoop (f : K → Py K) (k_points k_weights l_weights : List K) (epsrel : K) : ℕ → K → K → K → Py (K × K)
  | 0, _, a, b => fixed_quad_Gauss_Kronrod f a b k_points k_weights l_weights
  | left + 1, epsabs, a, b => do
    let r ← fixed_quad_Gauss_Kronrod f a b k_points k_weights l_weights
    let area := r.1
    let err_abs := r.2
    if |err_abs| < epsabs ∨ area = 0 ∨ |err_abs / area| < epsrel then .ok (area, err_abs)
    else do
      let mid := a + (b - a) * (1/2)
      let A ← quadLoop f k_points k_weights l_weights epsrel left (epsabs * (1/2)) a mid
      let B ← quadLoop f k_points k_weights l_weights epsrel left (epsabs * (1/2)) mid b
      return (A.1 + B.1, |A.2| + |B.2|)

/-- numerics/__init__.py:5371-5402 `quad_adaptive` at a given `depth` (default 0). -/
def quad_adaptive (f : K → Py K) (a b : K) (k_points k_weights l_weights : List K) (epsrel epsabs : K) (depth : ℕ) : Py (K × K) :=
  quadLoop f k_points k_weights l_weights epsrel (7 - depth) epsabs a b

end Verif.Quad
