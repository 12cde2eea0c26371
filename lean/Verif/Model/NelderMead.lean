import Mathlib.Data.List.Lex
import Mathlib.Data.List.Sort
import Verif.Model.Translate
import Verif.Model.Sequences

/-!
# Model of `nelder_mead` (`fluids/numerics/__init__.py`)

The objective is `f : List K → Py K` (an exception it raises is propagated; `args` is `()`, and `f` does not mutate its argument).
The model carries one ghost component the code does not have: `log`, the list of all (point, value) pairs evaluated, oldest first.
-/

namespace Verif.NelderMead
open Verif.Translate (idx)
open Verif.Seq (pyGet)

variable {K : Type _} [Field K] [LinearOrder K]

/-- numerics/__init__.py:5450-5452: one pass `i` clipping from below -/
def clipLow (lo : List K) (x : List K) (i : ℕ) : Py (List K) := do
  let xi ← idx x i
  let li ← idx lo i
  return if xi < li then x.set i li else x

/-- numerics/__init__.py:5454-5456: one pass `i` clipping from above -/
def clipHigh (hi : List K) (x : List K) (i : ℕ) : Py (List K) := do
  let xi ← idx x i
  let h ← idx hi i
  return if xi > h then x.set i h else x

/-- numerics/__init__.py:5447-5457 `bounds_clip_naive`; `len(None)` is a `TypeError` -/
def bounds_clip_naive (x : List K) (low high : Option (List K)) : Py (List K) :=
  match low with
  | none => .error .typeError
  | some lo => do
    let x ← (List.range lo.length).foldlM (clipLow lo) x
    match high with
    | none => return x
    | some hi => (List.range lo.length).foldlM (clipHigh hi) x

/-- numerics/__init__.py:5559-5560 and its repetitions -/
def clipIf (x : List K) (low high : Option (List K)) : Py (List K) :=
  if low.isSome ∨ high.isSome then bounds_clip_naive x low high else .ok x

/-- numerics/__init__.py:5468: Python's tuple order, `(f, x)` lexicographically, lists compared lexicographically too -/
def tupleLE (a b : K × List K) : Prop := a.1 < b.1 ∨ (a.1 = b.1 ∧ a.2 ≤ b.2)

instance : DecidableRel (tupleLE (K := K)) := fun a b => inferInstanceAs (Decidable (a.1 < b.1 ∨ (a.1 = b.1 ∧ a.2 ≤ b.2)))

/-- numerics/__init__.py:5466-5470 `sort_nelder_mead_points_python` (`sorted` as a stable insertion sort) -/
def sortPoints (sim : List (List K)) (fsim : List K) : List (List K) × List K :=
  (((fsim.zip sim).insertionSort tupleLE).map Prod.snd, fsim.insertionSort (· ≤ ·))

/-- numerics/__init__.py:5477-5487: `(chi, psi)`; `rho = 1`, `sigma` is never used -/
def coefs (adaptive : Bool) (N : ℕ) : Py (K × K) :=
  if adaptive then do
    let dim : K := N
    let a ← 2 /ₚ dim
    let b ← 1 /ₚ (2 * dim)
    let _ ← 1 /ₚ dim
    return (1 + a, 3 / 4 - b)
  else .ok (2, 1 / 2)

/-- numerics/__init__.py:5498-5506: the default initial simplex -/
def simplex0 (x0 : List K) (ip izp : K) : List (List K) :=
  x0 :: (List.range x0.length).map fun k => x0.set k (if x0.getD k 0 ≠ 0 then (1 + ip) * x0.getD k 0 else izp)

/-- numerics/__init__.py:5512-5516: evaluate the initial simplex -/
def evalAll (f : List K → Py K) (sim : List (List K)) (N : ℕ) : Py (List K) :=
  (List.range (N + 1)).mapM fun k => do
    let s ← idx sim k
    f s

/-- numerics/__init__.py:5527-5534: largest coordinate distance from the best vertex -/
def xSpread (sim : List (List K)) (N : ℕ) : Py K := do
  let sim0 ← idx sim 0
  (List.range N).foldlM (fun e i => do
    let asim ← idx sim (i + 1)
    (List.range N).foldlM (fun e j => do
      let a ← idx sim0 j
      let b ← idx asim j
      return if |a - b| > e then |a - b| else e) e) 0

/-- numerics/__init__.py:5536-5541 -/
def fSpread (fsim : List K) (N : ℕ) : Py K := do
  let f0 ← idx fsim 0
  (List.range N).foldlM (fun e i => do
    let fi ← idx fsim (i + 1)
    return if |f0 - fi| > e then |f0 - fi| else e) 0

/-- numerics/__init__.py:5548-5555: centroid of the first `N` vertices -/
def centroid (sim : List (List K)) (N : ℕ) (one_N : K) : Py (List K) := do
  let s ← (List.range N).foldlM (fun xbar j => do
    let simj ← idx sim j
    (List.range N).foldlM (fun xbar i => do
      let v ← idx simj i
      return xbar.modify i (· + v)) xbar) (List.replicate N (0 : K))
  return s.map (· * one_N)

/-- numerics/__init__.py:5558, 5565, 5582, 5592: `[a*xbar[i] + b*sim_last[i] for i in range(N)]` (`a*u - b*v` is `a*u + (-b)*v`) -/
def comb (N : ℕ) (a : K) (xbar : List K) (b : K) (last : List K) : Py (List K) :=
  (List.range N).mapM fun i => do
    let u ← idx xbar i
    let v ← idx last i
    return a * u + b * v

/-- numerics/__init__.py:5546: simplex, values, and the ghost log of evaluations -/
structure St (K : Type _) where
  sim : List (List K)
  fsim : List K
  log : List (List K × K)

/-- numerics/__init__.py:5570-5571, 5599: numerics/__init__.py: `sim[-1] = x; fsim[-1] = fx` followed by the sort of line 5599 -/
def replaceLast (s : St K) (x : List K) (fx : K) (log : List (List K × K)) : St K :=
  let r := sortPoints (s.sim.set (s.sim.length - 1) x) (s.fsim.set (s.fsim.length - 1) fx)
  ⟨r.1, r.2, log⟩

/-- numerics/__init__.py:5546-5599: one iteration -/
def step (f : List K → Py K) (low high : Option (List K)) (N : ℕ) (one_N chi psi : K) (s : St K) : Py (St K) := do
  let last ← pyGet s.sim (-1)
  let xbar ← centroid s.sim N one_N
  let xr0 ← comb N 2 xbar (-1) last
  let xr ← clipIf xr0 low high
  let fxr ← f xr
  let f0 ← idx s.fsim 0
  if fxr < f0 then
    let xe0 ← comb N (chi + 1) xbar (-chi) last
    let xe ← clipIf xe0 low high
    let fxe ← f xe
    let log := s.log ++ [(xr, fxr), (xe, fxe)]
    if fxe < fxr then return replaceLast s xe fxe log
    else return replaceLast s xr fxr log
  else
    let f2 ← pyGet s.fsim (-2)
    if fxr < f2 then return replaceLast s xr fxr (s.log ++ [(xr, fxr)])
    else
      let f1 ← pyGet s.fsim (-1)
      if fxr < f1 then
        let xc0 ← comb N (psi + 1) xbar (-psi) last
        let xc ← clipIf xc0 low high
        let fxc ← f xc
        return replaceLast s xc fxc (s.log ++ [(xr, fxr), (xc, fxc)])
      else
        let xcc0 ← comb N (1 - psi) xbar psi last
        let xcc ← clipIf xcc0 low high
        let fxcc ← f xcc
        return replaceLast s xcc fxcc (s.log ++ [(xr, fxr), (xcc, fxcc)])

/-- numerics/__init__.py:5525-5600: the loop; the first argument is the number of iterations left, the last the number made -/
def loop (f : List K → Py K) (low high : Option (List K)) (N : ℕ) (one_N chi psi xtol ftol : K) : ℕ → St K → ℕ → Py (St K × ℕ)
  | 0, s, it => .ok (s, it)
  | m + 1, s, it => do
    let ex ← xSpread s.sim N
    let ef ← fSpread s.fsim N
    if ex ≤ xtol ∧ ef ≤ ftol then return (s, it)
    else
      let s' ← step f low high N one_N chi psi s
      loop f low high N one_N chi psi xtol ftol m s' (it + 1)

/-- numerics/__init__.py:5603: the builtin `min` of a list -/
def pyMin : List K → Py K
  | [] => .error .valueError
  | a :: l => .ok (l.foldl min a)

/-- numerics/__init__.py:5498-5509: the initial simplex -/
def initSim (x0 : List K) (initial_simplex : Option (List (List K))) (ip izp : K) : List (List K) :=
  match initial_simplex with
  | none => simplex0 x0 ip izp
  | some s => s

/-- numerics/__init__.py:5498-5519: the sorted initial simplex -/
def start (f : List K → Py K) (x0 : List K) (initial_simplex : Option (List (List K))) (ip izp : K) : Py (St K) := do
  let sim := initSim x0 initial_simplex ip izp
  let fsim ← evalAll f sim x0.length
  let r := sortPoints sim fsim
  return ⟨r.1, r.2, sim.zip fsim⟩

/-- numerics/__init__.py:5472-5604 `nelder_mead` (`maxfun` is ignored by the code). Returns `(x, fval, iterations)` and the ghost log. -/
def nelder_mead (f : List K → Py K) (x0 : List K) (xtol ftol : K) (maxiter : ℕ) (initial_simplex : Option (List (List K)))
    (adaptive : Bool) (ip izp : K) (low high : Option (List K)) : Py ((List K × K × ℕ) × List (List K × K)) := do
  let N := x0.length
  let c ← coefs adaptive N
  let s ← start f x0 initial_simplex ip izp
  let one_N ← (1 : K) /ₚ (N : K)
  let r ← loop f low high N one_N c.1 c.2 xtol ftol maxiter s 0
  let x ← idx r.1.sim 0
  let fval ← pyMin r.1.fsim
  return ((x, fval, r.2), r.1.log)

end Verif.NelderMead
