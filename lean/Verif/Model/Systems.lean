import Verif.Py
import Verif.Model.Newton

/-!
# Model of the solvers for systems of equations of `fluids/numerics/__init__.py`

Objectives, Jacobians, linear solvers and damping functions are arbitrary callables that may raise.  `norm2` is passed in (it needs a square root).  NaN and infinities do not exist in the model's
numbers, so the `isinf`/`isnan` branches are never taken.  Line numbers are those of that file.
-/

namespace Verif.Systems
open Verif.Solve
variable {K : Type _} [Field K] [LinearOrder K]

/-! ### newton_system -/

/-- numerics/__init__.py:3574-3578: the arguments of `newton_system`. `jac_also` is `jac == True`, when the objective returns the Jacobian as well (here `f` and `jac` evaluated together). `numjac` is
`jacobian(f, x, scalar=False)`, used with `jac_error_allowed`. -/
structure NewtonOpts (K : Type _) where
  norm2 : List K → K
  f : List K → Py (List K)
  jac : List K → Py (List (List K))
  jac_also : Bool
  numjac : List K → Py (List (List K))
  solve_func : List (List K) → List K → Py (List K)
  damping_func : Option (List K → List K → K → Py (List K))
  xtol : Option K
  ytol : Option K
  maxiter : ℕ
  damping : K
  factors : List K
  line_search : Bool
  require_progress : Bool
  check_numbers : Bool
  Armijo : Bool
  Armijo_c1 : K
  jac_error_allowed : Bool

/-- numerics/__init__.py:3602-3712: the variables that survive a pass of the line search, `none` when not yet bound -/
structure Trial (K : Type _) where
  xnew : Option (List K)
  fnew : Option (List K)
  jnew : Option (List (List K))
  err_new : Option K
  jac_updated : Bool

/-- numerics/__init__.py:3618-3622: the point tried -/
def tryPoint (o : NewtonOpts K) (x dx : List K) (factor : K) : Py (List K) :=
  match o.damping_func with
  | none => .ok (List.zipWith (fun xi dxi => xi + dxi * (factor * o.damping)) x dx)
  | some d => d x dx (o.damping * factor)

/-- numerics/__init__.py:3624-3628: the objective, with its Jacobian when it returns both -/
def evalBoth (o : NewtonOpts K) (x : List K) : Py (List K × Option (List (List K))) := do
  let F ← o.f x
  if o.jac_also then do
    let J ← o.jac x
    return (F, some J)
  else return (F, none)

/-- numerics/__init__.py:3653-3655: a sum of squares -/
def sqSum (l : List K) : K := l.foldl (fun e v => e + v * v) 0

/-- numerics/__init__.py:3662-3668: `derphi0` -/
def derphi (fcur : List K) (j : List (List K)) : K :=
  (List.range fcur.length).foldl (fun d i =>
    let temp := (List.range fcur.length).foldl (fun t jidx => t + fcur.getD jidx 0 * (j.getD jidx []).getD i 0) 0
    d + 4 * temp * temp) 0

/-- numerics/__init__.py:3652-3681: whether a point with a smaller error ends the line search -/
def accepts (o : NewtonOpts K) (fcur : List K) (j : List (List K)) (factor : K) (fnew : List K) : Bool :=
  if o.Armijo then decide (sqSum fnew ≤ o.Armijo_c1 * factor * derphi fcur j + sqSum fcur) else true

/-- numerics/__init__.py:3615-3681: the line search; an exception of the objective moves on to the next factor and leaves the values of an earlier point in place -/
def lineSearch (o : NewtonOpts K) (x dx fcur : List K) (j : List (List K)) (err0 : K) : List K → Trial K → Py (Trial K)
  | [], s => .ok s
  | factor :: rest, s => do
    let xnew ← tryPoint o x dx factor
    match evalBoth o xnew with
    | .error _ => lineSearch o x dx fcur j err0 rest { s with xnew := some xnew }
    | .ok (fnew, J) =>
      let s' : Trial K := ⟨some xnew, some fnew, if o.jac_also then J else s.jnew, some (absSum fnew), if o.jac_also then true else s.jac_updated⟩
      if absSum fnew < err0 ∧ accepts o fcur j factor fnew = true then
        .ok (if o.jac_also then s' else { s' with jac_updated := false })
      else lineSearch o x dx fcur j err0 rest s'

/-- numerics/__init__.py:3569-3572 `check_jacobian`: with no NaN it only replaces the Jacobian by a numerical one when errors are allowed -/
def checkJ (o : NewtonOpts K) (x : List K) (j : List (List K)) : Py (List (List K)) :=
  if o.check_numbers then (if o.jac_error_allowed then o.numjac x else .ok j) else .ok j

/-- numerics/__init__.py:3606-3613: the step, with the numerical Jacobian if the solver raised and that is allowed -/
def newtonStep (o : NewtonOpts K) (x fcur : List K) (j : List (List K)) : Py (List K × List (List K)) :=
  match o.solve_func j (fcur.map (- ·)) with
  | .ok dx => .ok (dx, j)
  | .error e =>
    if o.jac_error_allowed then do
      let j ← o.numjac x
      let dx ← o.solve_func j (fcur.map (- ·))
      return (dx, j)
    else .error e

/-- numerics/__init__.py:3700-3705: the test that ends the loop -/
def converged (o : NewtonOpts K) (fcur : List K) : Bool :=
  match o.xtol with
  | some xt => decide (o.norm2 fcur < xt) && (match o.ytol with | none => true | some yt => decide (absSum fcur < yt))
  | none => match o.ytol with | some yt => decide (absSum fcur < yt) | none => false

/-- numerics/__init__.py:3597-3604: the state of the loop -/
structure NewtonSt (K : Type _) where
  x : List K
  fcur : List K
  j : List (List K)
  err0 : K
  iteration : ℕ
  t : Trial K

/-- numerics/__init__.py:3683-3698: what follows the line search: the values it left become current -/
def takeTrial (o : NewtonOpts K) (s : NewtonSt K) (j : List (List K)) (t : Trial K) : Py (NewtonSt K) :=
  match t.xnew, t.fnew, t.err_new with
  | some xnew, some fnew, some err_new =>
    if o.line_search ∧ err_new > s.err0 ∧ o.require_progress then .error .valueError
    else if err_new ≥ s.err0 then
      if o.require_progress then .error .valueError
      else if o.jac_also then .ok ⟨xnew, fnew, j, err_new, s.iteration + 1, t⟩
      else do
        let J ← o.jac xnew
        return ⟨xnew, fnew, j, err_new, s.iteration + 1, { t with jnew := some J, jac_updated := true }⟩
    else .ok ⟨xnew, fnew, j, err_new, s.iteration + 1, t⟩
  | _, _, _ => .error .unboundLocalError

/-- numerics/__init__.py:3706-3712: the Jacobian for the next pass -/
def nextJ (o : NewtonOpts K) (s : NewtonSt K) : Py (NewtonSt K) := do
  let jn ← (if s.t.jac_updated then
      match s.t.jnew with
      | some J => .ok J
      | none => .error .unboundLocalError
    else o.jac s.x : Py (List (List K)))
  let j ← checkJ o s.x jn
  return { s with j := j, t := { s.t with jnew := some j, jac_updated := false } }

/-- numerics/__init__.py:3605-3712: the loop; the flag tells whether it ended by `break` -/
def newtonLoop (o : NewtonOpts K) : ℕ → NewtonSt K → Py (NewtonSt K)
  | 0, s => .ok s
  | fuel + 1, s =>
    if s.iteration < o.maxiter then do
      let dj ← newtonStep o s.x s.fcur s.j
      let t ← lineSearch o s.x dj.1 s.fcur dj.2 s.err0 o.factors s.t
      let s' ← takeTrial o s dj.2 t
      if converged o s'.fcur then .ok s'
      else do
        let s'' ← nextJ o s'
        newtonLoop o fuel s''
    else .ok s

/-- numerics/__init__.py:3594, 3727-3730: what `newton_system` returns: the early exit always returns two values, the other exit four with `with_point` -/
inductive NewtonRes (K : Type _) where
  | early (x : List K)
  | done (x : List K) (iteration : ℕ) (fcur : List K) (j : List (List K))

/-- numerics/__init__.py:3598-3599: the Jacobian at the start -/
def startJ (o : NewtonOpts K) (x0 : List K) : Option (List (List K)) → Py (List (List K))
  | some J => .ok J
  | none => o.jac x0

/-- numerics/__init__.py:3574-3730 `newton_system`. -/
def newton_system (o : NewtonOpts K) (x0 : List K) : Py (NewtonRes K) := do
  let FJ ← evalBoth o x0
  if o.xtol = none ∧ ∃ yt ∈ o.ytol, absSum FJ.1 < yt then .ok (.early x0)
  else do
    let j ← startJ o x0 FJ.2
    let j ← checkJ o x0 j
    let s ← newtonLoop o o.maxiter ⟨x0, FJ.1, j, absSum FJ.1, 1, ⟨none, none, none, none, true⟩⟩
    if ∃ xt ∈ o.xtol, o.norm2 s.fcur > xt then .error .unconvergedError
    else if ∃ yt ∈ o.ytol, absSum s.fcur > yt then .error .unconvergedError
    else .ok (.done s.x s.iteration s.fcur s.j)

/-- numerics/__init__.py:2991-3004: `newton_line_search_factors`, as an argument here; without line search the list is `[1.0]` (3005, 3602) -/
def factorsOf (search : List K) (line_search : Bool) : List K := if line_search then 1 :: search else [1]

/-! ### newton_minimize -/

/-- numerics/__init__.py:3756-3764: gradient and Hessian of the objective at a point -/
def gradHess (fjh : List K → Py (List K × List (List K))) (x : List K) : Py (List K × List (List K)) := fjh x

/-- numerics/__init__.py:3750-3770: the loop of `newton_minimize` over `(x, j, h, iter)`; `step` is the undamped or damped update (3752-3755) -/
def minimizeLoop (norm2 : List K → K) (fjh : List K → Py (List K × List (List K))) (solve : List (List K) → List K → Py (List K)) (step : List K → List K → Py (List K)) (xtol ytol : Option K)
    (maxiter : ℕ) : ℕ → List K → List K → List (List K) → ℕ → Py (List K × List K × ℕ)
  | 0, x, j, _, it => .ok (x, j, it)
  | fuel + 1, x, j, h, it =>
    if it < maxiter then do
      let dx ← solve h (j.map (- ·))
      let x ← step x dx
      let r ← gradHess fjh x
      if (∃ xt ∈ xtol, norm2 r.1 < xt) ∨ (∃ yt ∈ ytol, absSum r.1 < yt) then .ok (x, r.1, it + 1)
      else minimizeLoop norm2 fjh solve step xtol ytol maxiter fuel x r.1 r.2 (it + 1)
    else .ok (x, j, it)

/-- numerics/__init__.py:3732-3777 `newton_minimize`; the objective's value is never used -/
def newton_minimize (norm2 : List K → K) (fjh : List K → Py (List K × List (List K))) (solve : List (List K) → List K → Py (List K)) (step : List K → List K → Py (List K)) (xtol ytol : Option K)
    (maxiter : ℕ) (x0 : List K) : Py (List K × ℕ) := do
  let r ← gradHess fjh x0
  let s ← minimizeLoop norm2 fjh solve step xtol ytol maxiter maxiter x0 r.1 r.2 0
  if ∃ xt ∈ xtol, norm2 s.2.1 > xt then .error .unconvergedError
  else if ∃ yt ∈ ytol, absSum s.2.1 > yt then .error .unconvergedError
  else .ok (s.1, s.2.2)

/-! ### homotopy -/

/-- numerics/__init__.py:3779-3798 `homotopy_function` -/
def homotopy_function (f : List K → Py (List K)) (F0 : List K) (lambd : K) (x : List K) : Py (List K) := do
  let Fx ← f x
  if F0.length ≤ Fx.length then return List.zipWith (fun a b => a - (1 - lambd) * b) Fx F0
  else .error .indexError

/-- numerics/__init__.py:3805-3812: the state of the homotopy loop; `Fx` and `J` are those of the last success -/
structure HomSt (K : Type _) where
  x0 : List K
  Fx : List K
  J : List (List K)
  lambd : K
  lambd_previous : K
  step : K
  remaining : ℤ
  failed : ℕ

/-- numerics/__init__.py:3826-3832: the predicted point -/
def predict (solve_func : List (List K) → List K → Py (List K)) (f0 : List K) (s : HomSt K) (lambd : K) : Py (List K) := do
  let rhs := List.zipWith (fun a b => (-1 / s.step) * ((a - (1 - lambd) * b) - (a - (1 - s.lambd_previous) * b))) s.Fx f0
  let dx ← solve_func s.J rhs
  return List.zipWith (fun a b => a + s.step * b) s.x0 dx

/-- numerics/__init__.py:3814-3859: the loop of `homotopy_solver`. `newton lam xt yt n x1` is the call of `newton_system` on the homotopy function at `lam` with those tolerances and `n` iterations; its
early exit returns two values where four are unpacked, so it counts as a failure.  A zero step raises in the division. `fuel` bounds the number of passes and is exhausted only by `none`. -/
def homotopyLoop [DecidableEq K] (newton : K → Option K → Option K → ℤ → List K → Py (NewtonRes K)) (solve_func : List (List K) → List K → Py (List K)) (f0 : List K)
    (xtol ytol terminal_xtol terminal_ytol : Option K) (criteria eps : K) : ℕ → HomSt K → Option (Py (HomSt K))
  | 0, s => if |s.lambd - 1| > eps then none else some (.ok s)
  | fuel + 1, s =>
    if |s.lambd - 1| > eps then
      let lambd := if s.lambd + s.step > 1 then 1 else s.lambd + s.step
      if s.step = 0 then some (.error .zeroDivisionError)
      else match predict solve_func f0 s lambd with
        | .error e => some (.error e)
        | .ok x1 =>
          let r := newton lambd (if lambd < criteria then xtol else terminal_xtol) (if lambd < criteria then ytol else terminal_ytol) s.remaining x1
          match r with
          | .ok (.done x2 niter Fx J) =>
            homotopyLoop newton solve_func f0 xtol ytol terminal_xtol terminal_ytol criteria eps fuel
              { s with x0 := x2, Fx := Fx, J := J, lambd := lambd, lambd_previous := lambd, remaining := s.remaining - niter }
          | _ =>
            if s.failed + 1 > 5 then some (.error .unconvergedError)
            else homotopyLoop newton solve_func f0 xtol ytol terminal_xtol terminal_ytol criteria eps fuel
              { s with lambd := lambd - s.step, step := s.step / 2, failed := s.failed + 1 }
    else some (.ok s)

/-- numerics/__init__.py:3839-3841: the call made for each value of λ -/
def homNewton (o : NewtonOpts K) (f0 : List K) (lam : K) (xt yt : Option K) (n : ℤ) (x1 : List K) : Py (NewtonRes K) :=
  newton_system { o with f := homotopy_function o.f f0 lam, xtol := xt, ytol := yt, maxiter := n.toNat } x1

/-- numerics/__init__.py:3800-3859 `homotopy_solver`, `none` when it has not ended within `fuel` passes -/
def homotopy_solver (o : NewtonOpts K) (x0 : List K) (lambd_step : K) (terminal_xtol terminal_ytol : Option K) (criteria eps : K) (fuel : ℕ) : Option (Py (HomSt K)) :=
  match o.f x0, o.jac x0 with
  | .ok f0, .ok J => homotopyLoop (homNewton o f0) o.solve_func f0 o.xtol o.ytol terminal_xtol terminal_ytol criteria eps fuel ⟨x0, f0, J, 0, 0, lambd_step, o.maxiter, 0⟩
  | .error e, _ => some (.error e)
  | _, .error e => some (.error e)

/-! ### broyden2 -/

/-- numerics/__init__.py:3882-3908: the loop of `broyden2`, `J` being the stored inverse Jacobian -/
def broydenLoop (f : List K → Py (List K)) (mv : List (List K) → List K → List K) (dot : List K → List K → K) (xtol : K) (maxiter : ℕ) :
    ℕ → List K → List K → List (List K) → ℕ → Py (List K × ℕ × List (List K))
  | 0, xs, _, J, it => .ok (xs, it, J)
  | fuel + 1, xs, fcur, J, it =>
    if absSum fcur > xtol ∧ it < maxiter then do
      let s := mv J fcur
      let xs := List.zipWith (fun a b => a - b) xs s
      let fnew ← f xs
      let z := List.zipWith (fun a b => a - b) fnew fcur
      let u := mv J z
      let d := s.map (- ·)
      let dmu := List.zipWith (fun a b => a - b) d u
      let den_inv ← pdiv 1 (dot d u)
      let factor := den_inv * dot dmu d
      let J' := J.map fun row => row.map fun v => v + factor * v
      broydenLoop f mv dot xtol maxiter fuel xs fnew J' (it + 1)
    else .ok (xs, it, J)

/-- numerics/__init__.py:3861-3910 `broyden2`, from the inverse Jacobian `J` computed at the start (3864-3873) -/
def broyden2 (f : List K → Py (List K)) (mv : List (List K) → List K → List K) (dot : List K → List K → K) (xtol : K) (maxiter : ℕ) (J : List (List K)) (xs : List K) : Py (List K × ℕ) := do
  let fcur ← f xs
  let r ← broydenLoop f mv dot xtol maxiter maxiter xs fcur J 0
  return (r.1, r.2.1)

end Verif.Systems
