import Verif.Py
import Verif.Model.Newton

/-!
# Model of the accelerated fixed-point iterations of `fluids/numerics/__init__.py`

Objectives are arbitrary callables that may raise.  Vectors are lists read together as `zip` does; the indexing loops of the code are taken on vectors of one length.  NaN and infinities do not exist in
the model's numbers, so `check_numbers` does nothing.  Line numbers are those of that file.
-/

namespace Verif.Accel
open Verif.Solve
variable {K : Type _} [Field K] [LinearOrder K]

/-- numerics/__init__.py:3959-3966: one component of `aitken_delta_squared_accelerate` -/
def aitken1 (r x x1 x2 : K) : K :=
  let dx1 := x2 - x1
  let dx := x1 - x
  let den := dx1 - dx
  if den ≠ 0 then
    let change := -dx1 * dx1 / den
    if change ≠ 0 ∧ x ≠ 0 ∧ |change / x| < r then change else 0
  else 0

/-- numerics/__init__.py:3955-3967 `aitken_delta_squared_accelerate` -/
def aitken_delta_squared_accelerate (r : K) (x x1 x2 : List K) : List K :=
  (List.range x.length).map fun i => aitken1 r (x.getD i 0) (x1.getD i 0) (x2.getD i 0)

/-- numerics/__init__.py:4025-4027, 4047-4052: a scalar product by a loop -/
def dotL (a b : List K) : K := (List.zipWith (· * ·) a b).foldl (· + ·) 0

/-- numerics/__init__.py:4021-4022, 4041-4043: a difference of vectors -/
def subL (a b : List K) : List K := List.zipWith (· - ·) a b

/-- numerics/__init__.py:4019-4037 `dem` -/
def dem (x x1 x2 : List K) : List K :=
  let dx1 := subL x1 x2
  let dx := subL x x1
  if dotL dx dx = 0 then List.replicate x.length 0
  else
    let den := 1 - dotL dx1 dx / dotL dx dx
    if den = 0 then List.replicate x.length 0
    else dx.map fun v => v * |1 / den|

/-- numerics/__init__.py:4039-4069 `gdem` -/
def gdem (r : K) (x x1 x2 x3 : List K) : List K :=
  let dx2 := subL x x3
  let dx1 := subL x x2
  let dx := subL x x1
  let b01 := dotL dx dx1
  let b02 := dotL dx dx2
  let b12 := dotL dx1 dx2
  let b11 := dotL dx1 dx1
  let b22 := dotL dx2 dx2
  let to_den := b11 * b22 - b12 * b12
  if to_den = 0 then dem x x1 x2
  else
    let mu1 := 1 / to_den * (b02 * b12 - b01 * b22)
    let mu2 := 1 / to_den * (b01 * b12 - b02 * b11)
    let to_den2 := 1 + mu1 + mu2
    if to_den2 = 0 then dem x x1 x2
    else (List.range x.length).map fun i =>
      let change := 1 / to_den2 * (dx.getD i 0 - mu2 * dx1.getD i 0)
      if x.getD i 0 ≠ 0 ∧ |change / x.getD i 0| < r then change else dx.getD i 0

/-- numerics/__init__.py:3990-3991: Aitken's step from the guesses, newest first; `all_guesses[-3]` may not exist -/
def aitkenStep (r : K) : List (List K) → Py (List K)
  | x :: x1 :: x2 :: _ => .ok (aitken_delta_squared_accelerate r x x1 x2)
  | _ => .error .indexError

/-- numerics/__init__.py:4092-4093: the general dominant eigenvalue step from the guesses, newest first -/
def gdemStep (r : K) : List (List K) → Py (List K)
  | x :: x1 :: x2 :: x3 :: _ => .ok (gdem r x x1 x2 x3)
  | _ => .error .indexError

/-- numerics/__init__.py:3989-3994, 4091-4097: the next point, accelerated every `freq` iterations; a zero frequency raises -/
def nextPoint (accel : List (List K) → Py (List K)) (freq : ℕ) (damping acc_damping : K) (iteration : ℕ) (guesses : List (List K)) (x fcur : List K) : Py (List K) :=
  if freq = 0 then .error .zeroDivisionError
  else if iteration % freq = 0 then do
    let dx ← accel guesses
    return List.zipWith (fun xi dxi => xi + dxi * acc_damping) x dx
  else .ok (List.zipWith (fun xi fi => xi - fi * damping) x fcur)

/-- numerics/__init__.py:3999-4004, 4102-4107: the test that ends the loop -/
def stops (norm2 : List K → K) (xtol ytol : Option K) (fcur : List K) : Bool :=
  match xtol with
  | some xt => decide (norm2 fcur < xt) && (match ytol with | none => true | some yt => decide (absSum fcur < yt))
  | none => match ytol with | some yt => decide (absSum fcur < yt) | none => false

/-- numerics/__init__.py:3982-4007, 4084-4110: the loop of `fixed_point_aitken` and `fixed_point_gdem` -/
def accLoop (accel : List (List K) → Py (List K)) (freq : ℕ) (norm2 : List K → K) (f : List K → Py (List K)) (xtol ytol : Option K) (damping acc_damping : K) (require_progress : Bool)
    (maxiter : ℕ) : ℕ → List (List K) → List K → List K → K → ℕ → Py (List K × List K × ℕ)
  | 0, _, x, fcur, _, it => .ok (x, fcur, it)
  | fuel + 1, guesses, x, fcur, err0, it =>
    if it < maxiter then do
      let fcur ← f x
      let x' ← nextPoint accel freq damping acc_damping it (x :: guesses) x fcur
      if stops norm2 xtol ytol fcur then .ok (x', fcur, it + 1)
      else if absSum fcur ≥ err0 ∧ require_progress then .error .valueError
      else accLoop accel freq norm2 f xtol ytol damping acc_damping require_progress maxiter fuel (x :: guesses) x' fcur (absSum fcur) (it + 1)
    else .ok (x, fcur, it)

/-- numerics/__init__.py:3969-4017 `fixed_point_aitken` (with `accel := aitkenStep r`), 4071-4120 `fixed_point_gdem` (with `accel := gdemStep r`) -/
def fixed_point_acc (accel : List (List K) → Py (List K)) (freq : ℕ) (norm2 : List K → K) (f : List K → Py (List K)) (xtol ytol : Option K) (damping acc_damping : K) (require_progress : Bool)
    (maxiter : ℕ) (x0 : List K) : Py (List K × ℕ) := do
  let fcur ← f x0
  if xtol = none ∧ ∃ yt ∈ ytol, absSum fcur < yt then .ok (x0, 0)
  else do
    let x := List.zipWith (fun xi fi => xi - fi) x0 fcur
    let s ← accLoop accel freq norm2 f xtol ytol damping acc_damping require_progress maxiter maxiter [x0] x fcur (absSum fcur) 1
    if ∃ xt ∈ xtol, norm2 s.2.1 > xt then .error .unconvergedError
    else if ∃ yt ∈ ytol, absSum s.2.1 > yt then .error .unconvergedError
    else .ok (s.1, s.2.2)

/-! ### Anderson acceleration -/

/-- numerics/__init__.py:4599-4607: the weights, from the raw coefficients of the least-squares problem -/
def weights (alpha : List K) : Py (List K) :=
  let t := alpha.foldl (· + ·) 0
  if t = 0 then .error .valueError
  else if t < 0 then .ok (alpha.map fun a => -a / -t)
  else .ok (alpha.map fun a => a / t)

/-- numerics/__init__.py:4612-4616: `zip` stops at the shortest of the three lists -/
def combine (m : K) : List K → List (List K) → List (List K) → List K → List K
  | a :: as, x :: xs, g :: gs, acc =>
    combine m as xs gs ((List.range acc.length).map fun i => acc.getD i 0 + ((1 - m) * a * x.getD i 0 + m * a * g.getD i 0))
  | _, _, _, acc => acc

/-- numerics/__init__.py:4576-4617 `compute_accelerated_step`; `coef` stands for 4585-4596: the raw coefficients from the residuals and the regularisation -/
def compute_accelerated_step (coef : List (List K) → Py (List K)) (m : K) (residuals x_hist gx_hist : List (List K)) : Py (List K) := do
  let alpha ← coef residuals
  let w ← weights alpha
  match x_hist with
  | [] => .error .indexError
  | x :: _ => return combine m w x_hist gx_hist (List.replicate x.length 0)

/-- numerics/__init__.py:4642-4645, 4658-4659: a history keeps at most `n` entries, dropping one -/
def trim (n : ℕ) (l : List (List K)) : List (List K) := if l.length > n then l.tail else l

/-- numerics/__init__.py:4619-4661 `anderson_step`, returning the point and the three histories `(x, gx, residuals)` -/
def anderson_step (coef : List (List K) → Py (List K)) (m : K) (window : ℕ) (x_hist gx_hist residuals : List (List K)) (x : List K) :
    Py (List K × List (List K) × List (List K) × List (List K)) :=
  match x_hist.getLast? with
  | none => .ok (x, [x], [], [])
  | some x_prev => do
    let res := residuals ++ [subL x x_prev]
    let gx := gx_hist ++ [x]
    let gx' := if res.length > window + 1 then gx.tail else gx
    let res' := trim (window + 1) res
    let acc ← compute_accelerated_step coef m res' x_hist gx'
    return (acc, trim (window + 1) (x_hist ++ [acc]), gx', res')

/-- numerics/__init__.py:4670-4682: the arguments of `fixed_point_anderson` -/
structure AndersonOpts (K : Type _) where
  f : List K → Py (List K)
  coef : List (List K) → Py (List K)
  xtol : Option K
  ytol : Option K
  maxiter : ℕ
  require_progress : Bool
  window : ℕ
  mixing : K
  initial_iterations : ℕ
  damping : K
  acc_damping : K
  max_step_size : K
  phase_in_steps : ℕ

/-- numerics/__init__.py:4713, 4742: the damped step of one component -/
def fpStep (d x xn : K) : K := (1 - d) * x + d * xn

/-- numerics/__init__.py:4742-4755: one component of the blended, limited step -/
def blended (o : AndersonOpts K) (phase x xn raw : K) : K :=
  let v := (1 - phase) * fpStep o.damping x xn + phase * fpStep o.acc_damping x raw
  let mc := |x * (1 - o.max_step_size)|
  let change := v - x
  if |change| > mc then x + mc * (if change > 0 then 1 else -1) else v

/-- numerics/__init__.py:4774, 4783: the largest relative change; a zero component raises, and so does an empty vector -/
def relChange (a b : List K) : Py K :=
  if ∃ v ∈ b, v = 0 then .error .zeroDivisionError
  else match List.zipWith (fun a b => abs ((a - b) / abs b)) a b with
    | [] => .error .valueError
    | v :: vs => .ok (vs.foldl max v)

/-- numerics/__init__.py:4710-4760: the new point and histories -/
def andersonPoint (o : AndersonOpts K) (window it : ℕ) (xh gh rh : List (List K)) (x xn : List K) : Py (List K × List (List K) × List (List K) × List (List K)) :=
  if it < o.initial_iterations then
    let acc := List.zipWith (fpStep o.damping) x xn
    if it > 0 then
      let rh' := rh ++ [subL xn x]
      let gh' := gh ++ [xn]
      let xh' := xh ++ [acc]
      if rh'.length > window then .ok (acc, xh'.tail, gh'.tail, rh'.tail) else .ok (acc, xh', gh', rh')
    else .ok (acc, xh, gh, rh)
  else do
    let r ← anderson_step o.coef o.mixing window xh gh rh xn
    if o.phase_in_steps = 0 then .error .zeroDivisionError
    else
      let phase : K := min 1 (((it - o.initial_iterations + 1 : ℕ) : K) / (o.phase_in_steps : K))
      let acc := (List.range x.length).map fun i => blended o phase (x.getD i 0) (xn.getD i 0) (r.1.getD i 0)
      return (acc, r.2.1.dropLast ++ [acc], r.2.2.1, r.2.2.2)

/-- numerics/__init__.py:4703-4780: how the loop ends: by a return, or with all iterations used -/
inductive AndersonEnd (K : Type _) where
  | returned (x : List K) (it : ℕ)
  | ranOut (x : List K)

/-- numerics/__init__.py:4772-4778: the test that ends the loop; `err` is the error of the *start* since `fcur` is never updated -/
def andersonStops (o : AndersonOpts K) (err : K) (acc x : List K) : Py Bool :=
  match o.xtol with
  | some xt => do
    let e ← relChange acc x
    return decide (e < xt) && (match o.ytol with | none => true | some yt => decide (err < yt))
  | none => .ok (match o.ytol with | none => false | some yt => decide (err < yt))

/-- numerics/__init__.py:4703-4780: the loop of `fixed_point_anderson` from iteration `it` on, `n` being the iterations left; `err` is `sum |fcur|` with `fcur` evaluated once, at the start. With `ytol`
the progress test compares this number with itself (4766). -/
def andersonLoop (o : AndersonOpts K) (window : ℕ) (err : K) : ℕ → ℕ → List (List K) → List (List K) → List (List K) → List K → Py (AndersonEnd K)
  | 0, _, _, _, _, x => .ok (.ranOut x)
  | n + 1, it, xh, gh, rh, x => do
    let xn ← o.f x
    let r ← andersonPoint o window it xh gh rh x xn
    if o.require_progress ∧ o.ytol ≠ none then .error .valueError
    else do
      let b ← andersonStops o err r.1 x
      if b then .ok (.returned r.1 it)
      else andersonLoop o window err n (it + 1) r.2.1 r.2.2.1 r.2.2.2 r.1

/-- numerics/__init__.py:4782-4789: after the loop `x` and `x_acc` are the same vector -/
def andersonFinish (o : AndersonOpts K) (err : K) (x : List K) : Py (List K × ℕ) := do
  if o.maxiter = 0 then .error .unboundLocalError
  else do
    let e ← relChange x x
    if ∃ xt ∈ o.xtol, e > xt then .error .valueError
    else if ∃ yt ∈ o.ytol, err > yt then .error .valueError
    else return (x, o.maxiter - 1)

/-- numerics/__init__.py:4666-4789 `fixed_point_anderson` -/
def fixed_point_anderson (o : AndersonOpts K) (x0 : List K) : Py (List K × ℕ) := do
  let fcur ← o.f x0
  let window := min fcur.length o.window
  let err := absSum fcur
  if o.xtol = none ∧ ∃ yt ∈ o.ytol, err < yt then .ok (x0, 0)
  else do
    let e ← andersonLoop o window err o.maxiter 0 [] [] [] x0
    match e with
    | .returned x it => return (x, it)
    | .ranOut x => andersonFinish o err x

/-- numerics/__init__.py:4830-4889: the step of `fixed_point_anderson_residual`: the next point and the histories `(steps, residuals)` -/
def residualPoint (coef : List (List K) → Py (List K)) (window initial it : ℕ) (damping acc_damping : K) (gh rh : List (List K)) (x fcur : List K) : Py (List K × List (List K) × List (List K)) :=
  let full := fcur.map (- ·)
  let rh' := rh ++ [fcur]
  let gh' := gh ++ [full]
  let rh'' := if rh'.length > window then rh'.tail else rh'
  let gh'' := if rh'.length > window then gh'.tail else gh'
  if it < initial then
    let xn := List.zipWith (fun xi fi => xi + -fi * damping) x fcur
    if it > 0 then .ok (xn, gh'', rh'') else .ok (xn, gh, rh)
  else do
    let alpha ← coef rh''
    let t := alpha.foldl (· + ·) 0
    if t = 0 then .error .valueError
    else
      let acc := combine 1 (alpha.map fun a => a / t) gh'' gh'' (List.replicate x.length 0)
      return (List.zipWith (fun xi si => xi + si * acc_damping) x acc, gh'', rh'')

/-- numerics/__init__.py:4900-4905: the test of `fixed_point_anderson_residual` -/
def residualStops (xtol ytol : Option K) (err : K) : Bool :=
  match xtol with
  | some xt => decide (err < xt) && (match ytol with | none => true | some yt => decide (err < yt))
  | none => match ytol with | none => false | some yt => decide (err < yt)

/-- numerics/__init__.py:4822-4914: the loop of `fixed_point_anderson_residual` and its final check; `err1` is the error of the last evaluation, unbound before the first -/
def residualLoop (f : List K → Py (List K)) (coef : List (List K) → Py (List K)) (xtol ytol : Option K) (window initial maxiter : ℕ) (damping acc_damping : K) (require_progress : Bool) :
    ℕ → ℕ → List (List K) → List (List K) → List K → K → Option K → Py (List K × ℕ)
  | 0, it, _, _, x, _, err1 =>
    match err1 with
    | none => .error .unboundLocalError
    | some e =>
      if ∃ xt ∈ xtol, e > xt then .error .valueError
      else if ∃ yt ∈ ytol, e > yt then .error .valueError
      else .ok (x, it - 1)
  | n + 1, it, gh, rh, x, err0, _ => do
    let fcur ← f x
    let r ← residualPoint coef window initial it damping acc_damping gh rh x fcur
    let err := absSum fcur
    if require_progress ∧ err ≥ err0 then .error .valueError
    else if residualStops xtol ytol err then .ok (r.1, it)
    else residualLoop f coef xtol ytol window initial maxiter damping acc_damping require_progress n (it + 1) r.2.1 r.2.2 r.1 err (some err)

/-- numerics/__init__.py:4793-4914 `fixed_point_anderson_residual`. Without tolerances and without iterations the code fails with an unbound `iteration`, as here. -/
def fixed_point_anderson_residual (f : List K → Py (List K)) (coef : List (List K) → Py (List K)) (xtol ytol : Option K) (window initial maxiter : ℕ) (damping acc_damping : K)
    (require_progress : Bool) (x0 : List K) : Py (List K × ℕ) := do
  let fcur ← f x0
  let err0 := absSum fcur
  if xtol = none ∧ ∃ yt ∈ ytol, err0 < yt then .ok (x0, 0)
  else residualLoop f coef xtol ytol (min fcur.length window) initial maxiter damping acc_damping require_progress maxiter 0 [] [] x0 err0 none

/-- numerics/__init__.py:5607-5625 `fixed_point_to_residual`, 5627-5645 `residual_to_fixed_point`: both negate -/
def negated (f : List K → Py (List K)) (x : List K) : Py (List K) := do
  let d ← f x
  return d.map (- ·)

end Verif.Accel
