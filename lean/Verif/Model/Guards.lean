import Verif.Model.Sequences
import Verif.Model.Roots
import Verif.Model.PolyUtils

/-!
# Model of the iteration guards, the one-sided secant solver and the closeness assertions of `fluids/numerics/__init__.py`

NaN and infinities do not exist in the model's numbers.  `AssertionError` is `.exception`.  Line numbers are those of that file.
-/

namespace Verif.Guards
open Verif

section Generic
variable {K : Type _} [Field K] [LinearOrder K]

/-- numerics/__init__.py:2466-2473: the options of `OscillationChecker` -/
structure OscOpts (K : Type _) where
  minimum_progress : K
  both_sides : Bool
  good_err : Option K

/-- numerics/__init__.py:2469-2472: the stored points of `OscillationChecker`, newest first -/
structure Osc (K : Type _) where
  xs_pos : List K
  ys_pos : List K
  xs_neg : List K
  ys_neg : List K

/-- numerics/__init__.py:2469-2472, 2475-2479: a new checker, or one after `clear` -/
def Osc.empty : Osc K := ⟨[], [], [], []⟩

/-- numerics/__init__.py:2488-2493: storing a point -/
def Osc.push (s : Osc K) (x y : K) : Osc K :=
  if y < 0 then { s with xs_neg := x :: s.xs_neg, ys_neg := y :: s.ys_neg } else { s with xs_pos := x :: s.xs_pos, ys_pos := y :: s.ys_pos }

/-- numerics/__init__.py:2498-2502: the relative change of the last two values of one sign -/
def gain (l : List K) : Py K :=
  match l with
  | y :: y' :: _ => do
    let q ← pdiv (y - y') y
    return |q|
  | _ => .error .indexError

/-- numerics/__init__.py:2509-2513: the answer, given whether the gains are small -/
def oscAnswer (o : OscOpts K) (s : Osc K) (oscillating : Bool) : Py Bool :=
  match oscillating, o.good_err, s.ys_neg, s.ys_pos with
  | false, _, _, _ => .ok false
  | true, none, _, _ => .ok true
  | true, some g, n :: _, p :: _ => .ok (decide ¬ (min |n| |p| < g))
  | true, some _, _, _ => .error .indexError

/-- numerics/__init__.py:2481-2513 `OscillationChecker.is_oscillating`: the answer and the stored points afterwards. The last stored value of the sign of `y` is `y` itself. -/
def is_oscillating (o : OscOpts K) (s : Osc K) (x y : K) : Py (Bool × Osc K) :=
  if y = 0 then .ok (false, s)
  else
    let s := s.push x y
    if s.xs_pos.length < 2 ∨ s.xs_neg.length < 2 then .ok (false, s)
    else do
      let gain_neg ← gain s.ys_neg
      let gain_pos ← gain s.ys_pos
      let b ← oscAnswer o s (if o.both_sides then decide (gain_pos < o.minimum_progress) && decide (gain_neg < o.minimum_progress)
        else decide (gain_pos < o.minimum_progress) || decide (gain_neg < o.minimum_progress))
      return (b, s)

/-- numerics/__init__.py:2517-2533 `OscillationChecker.wrap`, 2539-2547 `oscillation_checking_wrapper`: one call of the wrapped function on scalars, with the stored points before and after. A checker
that divides by zero or indexes a short list is ignored (the points it stored stay stored, as in `push`). -/
def wrapped (o : OscOpts K) (f : K → Py K) (s : Osc K) (x : K) : Py K × Osc K :=
  match f x with
  | .error e => (.error e, s)
  | .ok err =>
    match is_oscillating o s x err with
    | .ok (true, s') => (.error .oscillationError, s')
    | .ok (false, s') => (.ok err, s')
    | .error _ => (.ok err, s.push x err)

/-- numerics/__init__.py:2389-2399: one call of the function made by `make_damp_initial` on scalars: the counter before and after -/
def dampCall (damping : K) (n : ℤ) (x step : K) : K × ℤ :=
  if n ≤ 0 then (x + step, n) else (x + step * damping, n - 1)

/-- numerics/__init__.py:2389-2399: the same on lists -/
def dampCallL (damping : K) (n : ℤ) (x step : List K) : List K × ℤ :=
  if n ≤ 0 then (List.zipWith (fun a b => a + b) x step, n) else (List.zipWith (fun a b => a + b * damping) x step, n - 1)

/-- numerics/__init__.py:2387-2400 `make_damp_initial`: the results of successive calls on scalars -/
def dampCalls (damping : K) : ℤ → List (K × K) → List K
  | _, [] => []
  | n, (x, step) :: l => let r := dampCall damping n x step; r.1 :: dampCalls damping r.2 l

/-- numerics/__init__.py:2387-2400 `make_damp_initial`: the results of successive calls on lists -/
def dampCallsL (damping : K) : ℤ → List (List K × List K) → List (List K)
  | _, [] => []
  | n, (x, step) :: l => let r := dampCallL damping n x step; r.1 :: dampCallsL damping r.2 l

/-- `math.copysign` (numerics/__init__.py:2421; the sign of a zero is not modelled) -/
def copysign (m s : K) : K := if s < 0 then -|m| else |m|

/-- numerics/__init__.py:2420-2423, 2432-2434: a step limited to `m` -/
def limited (m x step : K) : K := if |step| > m then x + copysign m step else x + step

/-- numerics/__init__.py:2408-2434: one call of the function made by `make_max_step_initial` on scalars -/
def maxStepCall (m : K) (n : ℤ) (x step : K) : K × ℤ :=
  if n ≤ 0 then (x + step, n) else (limited m x step, n - 1)

/-- numerics/__init__.py:2403-2436 `make_max_step_initial`: the results of successive calls on scalars -/
def maxStepCalls (m : K) : ℤ → List (K × K) → List K
  | _, [] => []
  | n, (x, step) :: l => let r := maxStepCall m n x step; r.1 :: maxStepCalls m r.2 l

/-- numerics/__init__.py:2415-2429: the limited step on a list, `max_step` one number (`none` for a list entry that is missing) -/
def limitedL (m : ℕ → Option K) (x step : List K) : Py (List K) :=
  (List.range x.length).mapM fun i =>
    match step[i]?, m i with
    | some s, some mi => .ok (limited mi (x.getD i 0) s)
    | _, _ => .error .indexError

/-- numerics/__init__.py:1913-1914: `numpy.testing.assert_allclose` on finite real numbers -/
def allclose (a b rtol atol : K) : Bool := decide (|a - b| ≤ atol + rtol * |b|)

/-- numerics/__init__.py:1897-1914 `assert_close` on distinct objects holding real numbers: `math.isclose`, `cmath.isclose` (the same on reals), then `assert_allclose` -/
def assert_close (a b rtol atol : K) : Py Unit :=
  match Seq.isclose a b rtol atol with
  | .ok true => .ok ()
  | _ => if allclose a b rtol atol then .ok () else .error .exception

/-- numerics/__init__.py:1920-1921: the loop of `assert_close1d` -/
def closeLoop (rtol atol : K) : List K → List K → Py Unit
  | a :: A, b :: B => do
    assert_close a b rtol atol
    closeLoop rtol atol A B
  | _, _ => .ok ()

/-- numerics/__init__.py:1916-1921 `assert_close1d` -/
def assert_close1d (a b : List K) (rtol atol : K) : Py Unit :=
  if a.length ≠ b.length then .error .valueError else closeLoop rtol atol a b

/-- numerics/__init__.py:1943-1955: `good`: an exception of `isclose` leaves it true -/
def good (a b rtol atol : K) : Bool :=
  match Seq.isclose a b rtol atol with
  | .ok g => g
  | .error _ => true

/-- numerics/__init__.py:1941-1958: the inner loop of `assert_close2d`; `true` if the function returned from inside it -/
def elems2d (rtol atol : K) : List K → List K → Py Bool
  | a :: A, b :: B => if good a b rtol atol then elems2d rtol atol A B else if allclose a b rtol atol then .ok true else .error .exception
  | _, _ => .ok false

/-- numerics/__init__.py:1936-1958: the outer loop of `assert_close2d` -/
def rows2d (rtol atol : K) : List (List K) → List (List K) → Py Unit
  | a :: A, b :: B =>
    if a.length ≠ b.length then .error .valueError
    else do
      let returned ← elems2d rtol atol a b
      if returned then .ok () else rows2d rtol atol A B
  | _, _ => .ok ()

/-- numerics/__init__.py:1923-1958 `assert_close2d` (with `__debug__`) -/
def assert_close2d (a b : List (List K)) (rtol atol : K) : Py Unit :=
  if a.length ≠ b.length then .error .valueError else rows2d rtol atol a b

/-- numerics/__init__.py:1969-1970: the loop of `assert_close3d`, also 1983-1984 -/
def loop3d (rtol atol : K) : List (List (List K)) → List (List (List K)) → Py Unit
  | a :: A, b :: B => do
    assert_close2d a b rtol atol
    loop3d rtol atol A B
  | _, _ => .ok ()

/-- numerics/__init__.py:1965-1970 `assert_close3d` -/
def assert_close3d (a b : List (List (List K))) (rtol atol : K) : Py Unit :=
  if a.length ≠ b.length then .error .valueError else loop3d rtol atol a b

/-- numerics/__init__.py:1978-1984: the outer loop of `assert_close4d` -/
def loop4d (rtol atol : K) : List (List (List (List K))) → List (List (List (List K))) → Py Unit
  | a :: A, b :: B =>
    if a.length ≠ b.length then .error .valueError
    else do
      loop3d rtol atol a b
      loop4d rtol atol A B
  | _, _ => .ok ()

/-- numerics/__init__.py:1972-1984 `assert_close4d` -/
def assert_close4d (a b : List (List (List (List K)))) (rtol atol : K) : Py Unit :=
  if a.length ≠ b.length then .error .valueError else loop4d rtol atol a b

end Generic

noncomputable section
open Verif.Roots

/-- numerics/__init__.py:3050-3065: the step to the closest root of the parabola; none if the roots are complex -/
def quadRoot (x1 : ℝ) (sln : ℂ × ℂ) : Option ℝ :=
  if sln.1.im = 0 then
    if sln.1 ≠ sln.2 then
      let a_step := sln.1.re - x1
      let another_step := sln.2.re - x1
      some (if |a_step| < |another_step| then a_step else another_step)
    else some (sln.1.re - x1)
  else none

/-- numerics/__init__.py:3044-3069: the quadratic step; none if any exception was raised -/
def quadStep (x0 x1 x2 y0 y1 y2 : ℝ) : Option ℝ :=
  match PolyUtils.quadratic_from_points x0 x1 x2 y0 y1 y2 with
  | .error _ => none
  | .ok (a, b, c) =>
    match roots_quadratic a b c with
    | .error _ => none
    | .ok sln => quadRoot x1 sln

/-- numerics/__init__.py:3042-3073: the step: quadratic if there is a third point and few iterations were made, otherwise secant -/
def ossStep (damping : ℝ) (max_quadratic_iter i : ℕ) (x0 x1 y0 y1 : ℝ) (p2 : Option (ℝ × ℝ)) : Py ℝ :=
  let q : Option ℝ := match p2 with
    | some (x2, y2) => if i < max_quadratic_iter then quadStep x0 x1 x2 y0 y1 y2 else none
    | none => none
  match q with
  | some step => .ok step
  | none => do
    let q ← pdiv (-y1 * (x1 - x0)) (y1 - y0)
    return q * damping

/-- numerics/__init__.py:3098-3105: the line search: the point, its value and the flat point afterwards -/
def ossLine (f : ℝ → Py ℝ) (y_flat x0 step : ℝ) : List ℝ → ℝ → ℝ → ℝ → Py (ℝ × ℝ × ℝ)
  | [], x, y, x_flat => .ok (x, y, x_flat)
  | fac :: l, _, _, x_flat => do
    let x := x0 + step * fac
    let y ← f x
    if y ≠ y_flat then .ok (x, y, x_flat) else ossLine f y_flat x0 step l x y x

/-- numerics/__init__.py:2986-3000: `line_search_factors`, as exact decimals -/
def line_search_factors : List ℝ :=
  [0.99, 0.98, 0.96, 0.92, 0.84, 0.68, 0.36, 1e-1, 1e-2, 1e-3, 1e-4, 1e-5, 1e-6, 1e-7, 1e-8, 1e-9, 1e-10]

/-- numerics/__init__.py:3002: `line_search_factors_low_prec` -/
def line_search_factors_low_prec : List ℝ := line_search_factors.drop 3

/-- numerics/__init__.py:3076: whether the wanted point is at or beyond the known flat point -/
def beyond (higher : Prop) [Decidable higher] (x_flat x : ℝ) : Prop := if higher then x_flat ≤ x else x_flat ≥ x

open Classical in
/-- numerics/__init__.py:3089-3108: limiting the step and searching along it -/
def ossSearch (f : ℝ → Py ℝ) (higher : Prop) (y_flat : ℝ) (low_prec_ls_iter i : ℕ) (x0 step x_flat : ℝ) : Py (ℝ × ℝ × ℝ) := do
  let step := if beyond higher x_flat (x0 + step) then x_flat - x0 else step
  let r ← ossLine f y_flat x0 step (if i > low_prec_ls_iter then line_search_factors else line_search_factors_low_prec) x0 y_flat x_flat
  if r.2.1 = y_flat then .error .valueError else .ok r

open Classical in
/-- numerics/__init__.py:3076-3108: the new point, its value and the flat point -/
def ossPoint (f : ℝ → Py ℝ) (higher : Prop) (y_flat : ℝ) (low_prec_ls_iter i : ℕ) (x0 x1 step x_flat : ℝ) : Py (ℝ × ℝ × ℝ) :=
  if beyond higher x_flat (x1 + step) then ossSearch f higher y_flat low_prec_ls_iter i x0 step x_flat
  else do
    let y ← f (x1 + step)
    if y = y_flat then ossSearch f higher y_flat low_prec_ls_iter i x0 step (x1 + step) else .ok (x1 + step, y, x_flat)

open Classical in
/-- numerics/__init__.py:3110-3119: the convergence test -/
def ossDone (xtol ytol : Option ℝ) (x x0 y : ℝ) : Prop :=
  match xtol, ytol with
  | some xt, some yt => |y| < yt ∧ |x - x0| ≤ |xt * x|
  | some xt, none => |x - x0| ≤ |xt * x|
  | none, some yt => |y| < yt
  | none, none => False

/-- numerics/__init__.py:3007-3010: the options of `one_sided_secant` -/
structure OssOpts where
  maxiter : ℕ
  xtol : Option ℝ
  ytol : Option ℝ
  damping : ℝ
  max_quadratic_iter : ℕ
  low_prec_ls_iter : ℕ

open Classical in
/-- numerics/__init__.py:3040-3124: the loop -/
def ossLoop (f : ℝ → Py ℝ) (o : OssOpts) (higher : Prop) (y_flat : ℝ) : ℕ → ℕ → ℝ → ℝ → ℝ → ℝ → Option (ℝ × ℝ) → ℝ → Py ℝ
  | 0, i, _, _, _, _, _, _ => if i = 0 then .error .unboundLocalError else .error .unconvergedError
  | n + 1, i, x0, x1, y0, y1, p2, x_flat => do
    let step ← ossStep o.damping o.max_quadratic_iter i x0 x1 y0 y1 p2
    let r ← ossPoint f higher y_flat o.low_prec_ls_iter i x0 x1 step x_flat
    if ossDone o.xtol o.ytol r.1 x0 r.2.1 then .ok r.1
    else ossLoop f o higher y_flat n (i + 1) r.1 x0 r.2.1 y0 (some (x1, y1)) r.2.2

/-- numerics/__init__.py:3012-3016: the second point, if it is not given -/
def ossX1 (x0 : ℝ) (x1 : Option ℝ) : ℝ :=
  match x1 with
  | some x1 => x1
  | none => if x0 ≥ 0 then x0 * 1.0001 + 1e-4 else x0 * 1.0001 - 1e-4

/-- numerics/__init__.py:3018, 3021, 3028: a value supplied by the caller, or else the evaluation -/
def valueOr (v : Option ℝ) (eval : Py ℝ) : Py ℝ :=
  match v with
  | some v => .ok v
  | none => eval

open Classical in
/-- numerics/__init__.py:3007-3124 `one_sided_secant` -/
def one_sided_secant (f : ℝ → Py ℝ) (o : OssOpts) (x0 x_flat : ℝ) (x1 y_flat y0 y1 : Option ℝ) : Py ℝ := do
  let y0 ← valueOr y0 (f x0)
  let y1 ← valueOr y1 (f (ossX1 x0 x1))
  let y_flat ← valueOr y_flat (f x_flat)
  if y0 = y_flat then .error .valueError
  else if y0 = y1 then .error .valueError
  else if y1 = y_flat then .error .valueError
  else ossLoop f o (x_flat > x0) y_flat o.maxiter 0 x0 (ossX1 x0 x1) y0 y1 none x_flat

end
end Verif.Guards
