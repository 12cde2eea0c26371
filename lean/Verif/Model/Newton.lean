import Verif.Model.Bracketing
import Verif.Model.Sequences

/-!
# Model of `secant`, `newton`, `halley`, `fixed_point` of `fluids/numerics/__init__.py`

Objectives are arbitrary Python callables `K → Py _`.  `args`/`kwargs` are part of the callable.  NaN and infinities do not exist
in the model's numbers, so the branches `isnan`/`isinf` are never taken.  Line numbers are those of that file.
-/

namespace Verif.Solve
variable {K : Type _} [Field K] [LinearOrder K]

/-- numerics/__init__.py:2838-2841: `if low is not None and p < low: p = low` followed by the same for `high` (2838-2841, 2899-2902, 3233-3236). -/
def clampB (low high : Option K) (p : K) : K :=
  let p := match low with
    | some l => if p < l then l else p
    | none => p
  match high with
  | some h => if p > h then h else p
  | none => p

/-- numerics/__init__.py:2808-2821 `secant_bisection_factors`. -/
def secantFactors : List K :=
  let gp : List K := (List.range 19).map fun i => (3 : K) ^ (i + 1)
  let sp : List K := (List.range 19).map fun i => 1 / (3 : K) ^ (i + 1)
  let ni : List K := Seq.linspace (1 : K) 3 20 true
  let nd : List K := ni.map fun v => 1 / v
  (List.range 19).flatMap fun i =>
    ([gp, sp, gp.map (- ·), sp.map (- ·), ni, nd].map fun l => l.getD i 0).filter fun v => v ≠ 1

/-- numerics/__init__.py:2824-2827: options of `secant` (2824-2827) -/
structure SecantOpts (K : Type _) where
  low : Option K
  high : Option K
  damping : K
  xtol : Option K
  ytol : Option K
  require_eval : Bool
  bisection : Bool
  same_tol : K
  require_xtol : Bool
  additional_guesses : Bool
  additional_guess_scale : K

/-- numerics/__init__.py:2891-2984: loop variables of `secant` -/
structure SecantSt (K : Type _) where
  p0 : K
  q0 : K
  p1 : K
  q1 : K
  a : Option K
  b : Option K
  xtol : Option K
  ytol : Option K
  did : Bool

/-- numerics/__init__.py:2910-2926: the exit test. -/
def secantDone (o : SecantOpts K) (s : SecantSt K) : Bool :=
  match s.ytol, s.xtol with
  | some yt, some xt => decide (|s.q1| < yt ∧ (!o.require_xtol ∨ |s.p0 - s.p1| ≤ |xt * s.p0|))
  | none, some xt => decide (|s.p0 - s.p1| ≤ |xt * s.p0| ∧ ¬ (s.p0 = s.p1 ∧ (some s.p0 = o.low ∨ some s.p0 = o.high)))
  | some yt, none => decide (|s.q1| < yt)
  | none, none => false

/-- numerics/__init__.py:2936-2945: the exit test repeated with the loosened tolerances. -/
def secantDone2 (o : SecantOpts K) (s : SecantSt K) : Bool :=
  match s.ytol, s.xtol with
  | some yt, some xt => decide (|s.p0 - s.p1| ≤ |xt * s.p0| ∧ |s.q1| < yt)
  | none, some xt => decide (|s.p0 - s.p1| ≤ |xt * s.p0| ∧ ¬ (s.p0 = s.p1 ∧ (some s.p0 = o.low ∨ some s.p0 = o.high)))
  | some yt, none => decide (|s.q1| < yt)
  | none, none => false

/-- numerics/__init__.py:2894-2908: the next point. -/
def secantNext (o : SecantOpts K) (s : SecantSt K) : K :=
  let p := if s.q1 ≠ s.q0 then s.p1 - s.q1 * (s.p1 - s.p0) / (s.q1 - s.q0) * o.damping else s.p1
  let p := clampB o.low o.high p
  if o.bisection then
    match s.a, s.b with
    | some a, some b => if ¬ (a < p ∧ p < b) ∨ (b < p ∧ p < a) then 1 / 2 * (a + b) else p
    | _, _ => p
  else p

/-- numerics/__init__.py:2952-2960: the search along the factors from inside the loop; `p` keeps its last value even when skipped or useless. -/
def secantSearch (func : K → Py K) (o : SecantOpts K) (x0 q0 : K) : List K → K → Py K
  | [], p => .ok p
  | g :: gs, _ => do
    let p := x0 * g * o.additional_guess_scale
    if (∃ l ∈ o.low, p < l) ∨ (∃ h ∈ o.high, p > h) then secantSearch func o x0 q0 gs p
    else do
      let temp_q ← func p
      if temp_q * q0 < 0 then .ok p else secantSearch func o x0 q0 gs p

/-- numerics/__init__.py:2864-2874: the widened second guess. -/
def secantGuess (func : K → Py K) (o : SecantOpts K) (x0 q0 : K) : List K → K × K → Py (K × K)
  | [], pq => .ok pq
  | g :: gs, _ => do
    let p1 := clampB o.low o.high (if x0 ≠ 0 then x0 * g else g)
    let q1 ← func p1
    let r ← q1 /ₚ q0
    if |r - 1| > 1 / 10 ^ 10 then .ok (p1, q1) else secantGuess func o x0 q0 gs (p1, q1)

/-- numerics/__init__.py:2881-2889, 2977-2981: the record of a point with negative / nonnegative value. -/
def secantRecord (ab : Option K × Option K) (p q : K) : Option K × Option K :=
  if q < 0 then (some p, ab.2) else (ab.1, some p)

/-- numerics/__init__.py:2929-2965: what happens to the next point when `q1 == q0`. `none`: the (loosened) test succeeded, return `p`. -/
def secantSame (func : K → Py K) (o : SecantOpts K) (x0 : K) (s : SecantSt K) (p : K) : Py (SecantSt K × Option K) :=
  let s := { s with xtol := s.xtol.map (· * o.same_tol), ytol := s.ytol.map (· * o.same_tol) }
  if secantDone2 o s then .ok (s, none)
  else
    match o.bisection, s.a, s.b with
    | true, some a, some b => .ok (s, some (1 / 2 * (a + b)))
    | _, _, _ =>
      if o.additional_guesses ∧ ¬ s.did then do
        let p ← secantSearch func o x0 s.q0 secantFactors p
        .ok ({ s with did := true }, some p)
      else .error .samePointError

/-- numerics/__init__.py:2891-2984: the loop of `secant`; `n` passes left. -/
def secantLoop (func : K → Py K) (o : SecantOpts K) (x0 : K) : ℕ → SecantSt K → Py K
  | 0, _ => .error .unconvergedError
  | n + 1, s => do
    let p := secantNext o s
    if secantDone o s then .ok (if o.require_eval then s.p1 else p)
    else do
      let r ← (if s.q1 = s.q0 then secantSame func o x0 s p else .ok (s, some p) : Py (SecantSt K × Option K))
      match r.2 with
      | none => .ok p
      | some p' => do
        let q ← func p'
        if q = 0 then .ok p'
        else
          let ab := if o.bisection then secantRecord (r.1.a, r.1.b) p' q else (r.1.a, r.1.b)
          secantLoop func o x0 n { r.1 with p0 := s.p1, q0 := s.q1, p1 := p', q1 := q, a := ab.1, b := ab.2 }

/-- numerics/__init__.py:2828-2841: the second guess. -/
def secantP1 (o : SecantOpts K) (x0 : K) (x1 : Option K) : K :=
  match x1 with
  | some x1 => x1
  | none => clampB o.low o.high (if x0 ≥ 0 then x0 * (10001 / 10000) + 1 / 10000 else x0 * (10001 / 10000) - 1 / 10000)

/-- numerics/__init__.py:2851 / 2878: the test on the two starting points. -/
def secantStartDone (o : SecantOpts K) (q : K) : Bool :=
  decide (((∃ yt ∈ o.ytol, |q| < yt) ∧ !o.require_xtol) ∨ q = 0)

/-- numerics/__init__.py:2824-2984 `secant`. With `maxiter = 0` the final `raise` reads unbound locals. -/
def secant (func : K → Py K) (o : SecantOpts K) (x0 : K) (x1 f0 f1 : Option K) (maxiter : ℕ) : Py K := do
  let p1 := secantP1 o x0 x1
  let q0 ← given f0 (func x0)
  if secantStartDone o q0 then .ok x0
  else do
    let q1 ← given f1 (func p1)
    let pq ← (if q1 = q0 ∧ o.additional_guesses then secantGuess func o x0 q0 secantFactors (p1, q1) else .ok (p1, q1) : Py (K × K))
    if secantStartDone o pq.2 then .ok pq.1
    else if maxiter = 0 then .error .unboundLocalError
    else
      let ab := if o.bisection then secantRecord (secantRecord (none, none) pq.1 pq.2) x0 q0 else (none, none)
      secantLoop func o x0 maxiter ⟨x0, q0, pq.1, pq.2, ab.1, ab.2, o.xtol, o.ytol, false⟩

/-! ### newton -/

/-- numerics/__init__.py:3130-3134: options of `newton` (3130-3134) -/
structure NewtonOpts (K : Type _) where
  low : Option K
  high : Option K
  damping : K
  xtol : Option K
  ytol : Option K
  require_eval : Bool
  require_xtol : Bool
  damping_func : Option (K → K → K → Py K)
  bisection : Bool
  additional_guesses : Bool
  max_bound_hits : ℕ

/-- numerics/__init__.py:3181: loop variables of `newton` -/
structure NewtonSt (K : Type _) where
  p0 : K
  p1 : Option K
  p2 : Option K
  p3 : Option K
  fval0 : Option K
  fval1 : Option K
  a : Option K
  b : Option K
  hit_low : ℕ
  hit_high : ℕ
  it : ℕ
  did : Bool

/-- numerics/__init__.py:2986-3000 `line_search_factors`. -/
def lineSearchFactors : List K :=
  ((List.range 7).map fun i => 1 - 1 / 100 * (2 : K) ^ i) ++ ((List.range 10).map fun i => 1 / (10 : K) ^ (i + 1))

/-- numerics/__init__.py:3196-3200. -/
def newtonStuck (s : NewtonSt K) : Bool :=
  match s.p1, s.p2 with
  | some p1, some p2 => decide (s.p0 = p2 ∧ p1 = s.p0) || (match s.p3 with | some p3 => decide (p3 = s.p0) | none => false)
  | _, _ => false

/-- numerics/__init__.py:3181: the values at a point: `(fval, fder, fcurv)`; `fcurv` is present exactly when `fprime2` was supplied (3181-3191) -/
abbrev NewtonEval (K : Type _) := K × K × Option K

/-- numerics/__init__.py:3229-3232: the next trial point, before clamping. -/
def newtonRaw (x0 : K) (reinit : Bool) (s : NewtonSt K) (g : K) : Py K :=
  if reinit then .ok (if x0 ≠ 0 then x0 * g else g)
  else match s.p1 with
    | some p1 => .ok (p1 + (s.p0 - p1) * g)
    | none => .error .typeError

/-- numerics/__init__.py:3258: `require_bracket and fval*fval1 >= 0.0` (`fval1` may still be `None`). -/
def newtonSkip (bracket : Bool) (s : NewtonSt K) (fval : K) : Py Bool :=
  if bracket then
    match s.fval1 with
    | some f1 => .ok (decide (fval * f1 ≥ 0))
    | none => .error .typeError
  else .ok false

/-- numerics/__init__.py:3227-3266: the search for a point to continue from; returns the final `it` and the point with its values. -/
def newtonSearch (f : K → Py (NewtonEval K)) (o : NewtonOpts K) (x0 : K) (reinit bracket : Bool) (s : NewtonSt K) :
    List K → ℕ → Py (ℕ × Option (K × NewtonEval K))
  | [], it => .ok (it, none)
  | g :: gs, it => do
    let raw ← newtonRaw x0 reinit s g
    let guess := clampB o.low o.high raw
    if guess = s.p0 then newtonSearch f o x0 reinit bracket s gs (it + 1)
    else do
      let v ← f guess
      let skip ← newtonSkip bracket s v.1
      if skip ∨ v.2.1 = 0 then newtonSearch f o x0 reinit bracket s gs (it + 1)
      else .ok (it + 1, some (guess, v))

/-- numerics/__init__.py:3181: what the first half of a pass decides -/
inductive NewtonGo (K : Type _)
  | ret (r : K)
  | go (p0 : K) (v : NewtonEval K) (it : ℕ) (did : Bool)

/-- numerics/__init__.py:3181-3268: evaluate, and recover from a zero derivative or a stuck search. -/
def newtonRecover (f : K → Py (NewtonEval K)) (o : NewtonOpts K) (x0 : K) (s : NewtonSt K) : Py (NewtonGo K) := do
  let v ← f s.p0
  let stuck := newtonStuck s
  if v.1 = 0 then .ok (.ret s.p0)
  else if v.2.1 = 0 ∨ stuck then
    if ∃ yt ∈ o.ytol, |v.1| < yt then .ok (.ret s.p0)
    else if stuck ∧ (¬ o.additional_guesses ∨ s.did) then .error .unconvergedError
    else if s.it = 0 ∧ ¬ o.additional_guesses then .error .unconvergedError
    else do
      let flat := decide (some v.1 = s.fval0)
      let reinit := o.additional_guesses && ((decide (s.it = 0) || stuck) || flat)
      let bracket := reinit && flat && o.bisection
      let r ← newtonSearch f o x0 reinit bracket s (if reinit then secantFactors else lineSearchFactors) s.it
      match r.2 with
      | none => .error .unconvergedError
      | some gv => .ok (.go gv.1 gv.2 r.1 (s.did || reinit))
  else .ok (.go s.p0 v s.it s.did)

/-- numerics/__init__.py:3277-3293: the raw next point. -/
def newtonStep (o : NewtonOpts K) (p0 : K) (v : NewtonEval K) : Py K := do
  let fder_inv ← 1 /ₚ v.2.1
  let step := v.1 * fder_inv
  match o.damping_func with
  | some df =>
    let step ← (match v.2.2 with
      | some c => step /ₚ (1 - 1 / 2 * step * c * fder_inv)
      | none => .ok step : Py K)
    df p0 (-step) o.damping
  | none =>
    match v.2.2 with
    | none => .ok (p0 - step * o.damping)
    | some c => do
      let newton_step := step * o.damping
      let halley_step ← newton_step /ₚ (1 - 1 / 2 * step * c * fder_inv)
      if halley_step * newton_step < 0 then .ok (p0 - newton_step) else .ok (p0 - halley_step)

/-- numerics/__init__.py:3295-3302: switch to bisection. -/
def newtonBisect (o : NewtonOpts K) (a b : Option K) (it : ℕ) (p : K) : K :=
  if o.bisection then
    match a, b with
    | some a, some b => if (¬ (a < p ∧ p < b) ∧ ¬ (b < p ∧ p < a)) ∨ it > 40 then 1 / 2 * (a + b) else p
    | _, _ => p
  else p

/-- numerics/__init__.py:3307-3315 / 3316-3323: one bound; `.inl r`: return `r`; `.inr (p, hits)`: continue. -/
def newtonBound (o : NewtonOpts K) (bound : Option K) (outside : K → K → Bool) (p0 fval p : K) (hits : ℕ) : Py (K ⊕ (K × ℕ)) :=
  match bound with
  | some l =>
    if outside p l then
      if p0 = l ∧ hits + 1 > o.max_bound_hits then
        if ∃ yt ∈ o.ytol, |fval| < yt then .ok (.inl l) else .error .unconvergedError
      else .ok (.inr (l, hits + 1))
    else .ok (.inr (p, hits))
  | none => .ok (.inr (p, hits))

/-- numerics/__init__.py:3327-3344: the exit test. -/
def newtonDone (o : NewtonOpts K) (p0 fval p : K) : Bool :=
  match o.ytol, o.xtol with
  | some yt, some xt => decide ((|p - p0| ≤ |xt * p| ∧ |fval| ≤ yt) ∨ (!o.require_xtol ∧ |fval| ≤ yt))
  | none, some xt => decide (|p - p0| < |xt * p|)
  | some yt, none => decide (|fval| < yt)
  | none, none => false

/-- numerics/__init__.py:3174-3351: the `while it < maxiter` loop. Every pass raises `it`, so `fuel = maxiter + 1` passes are never exhausted. -/
def newtonLoop (f : K → Py (NewtonEval K)) (o : NewtonOpts K) (x0 : K) (maxiter : ℕ) : ℕ → NewtonSt K → Py K
  | 0, _ => .error .unconvergedError
  | fuel + 1, s =>
    if s.it < maxiter then do
      let g ← newtonRecover f o x0 s
      match g with
      | .ret r => .ok r
      | .go p0 v it did => do
        let a := if o.bisection ∧ v.1 < 0 then some p0 else s.a
        let b := if o.bisection ∧ ¬ v.1 < 0 then some p0 else s.b
        let p ← newtonStep o p0 v
        let p := newtonBisect o a b it p
        let lo ← newtonBound o o.low (fun p l => decide (p < l)) p0 v.1 p s.hit_low
        match lo with
        | .inl r => .ok r
        | .inr lo => do
          let hi ← newtonBound o o.high (fun p h => decide (p > h)) p0 v.1 lo.1 s.hit_high
          match hi with
          | .inl r => .ok r
          | .inr hi =>
            let p := hi.1
            if newtonDone o p0 v.1 p then .ok (if o.require_eval then p0 else p)
            else
              let s' : NewtonSt K := ⟨p, some p0, s.p1, s.p2, some v.1, s.fval0, a, b, lo.2, hi.2, it + 1, did⟩
              newtonLoop f o x0 maxiter fuel s'
    else .error .unconvergedError

/-- numerics/__init__.py:3130-3351 `newton`. With `maxiter = 0` the final `raise` formats the unbound local `p`. -/
def newton (f : K → Py (NewtonEval K)) (o : NewtonOpts K) (x0 : K) (maxiter : ℕ) : Py K :=
  if maxiter = 0 then .error .unboundLocalError
  else newtonLoop f o x0 maxiter (maxiter + 1) ⟨x0, none, none, none, none, none, none, none, 0, 0, 0, false⟩

/-! ### halley -/

/-- numerics/__init__.py:3353-3357: options of `halley` (3353-3357) -/
structure HalleyOpts (K : Type _) where
  low : Option K
  high : Option K
  damping : K
  xtol : Option K
  ytol : Option K
  require_eval : Bool
  damping_func : Option (K → K → K → Py K)
  bisection : Bool
  max_bound_hits : ℕ
  max_2nd_ratio : Option K

/-- numerics/__init__.py:3383-3396: the raw next point, and `skipped_halley`. -/
def halleyStep (o : HalleyOpts K) (p0 fval fder fder2 : K) : Py (K × Bool) := do
  let fder_inv ← 1 /ₚ fder
  let step := fval * fder_inv
  match o.damping_func with
  | some df =>
    let step ← step /ₚ (1 - 1 / 2 * step * fder2 * fder_inv)
    let p ← df p0 (-step) o.damping
    .ok (p, false)
  | none =>
    let t ← step /ₚ (1 - 1 / 2 * step * fder2 * fder_inv)
    let step2 := t * o.damping
    match o.max_2nd_ratio with
    | none => .ok (p0 - step2, false)
    | some mr => do
      let ratio ← step2 /ₚ step
      if |1 - ratio| > mr then .ok (p0 - step, true) else .ok (p0 - step2, false)

/-- numerics/__init__.py:3402-3410 / 3411-3418: unlike `newton`, `abs(fval) < ytol` is evaluated even when `ytol is None`. -/
def halleyBound (o : HalleyOpts K) (bound : Option K) (outside : K → K → Bool) (p0 fval p : K) (hits : ℕ) : Py (K ⊕ (K × ℕ)) :=
  match bound with
  | some l =>
    if outside p l then
      if p0 = l ∧ hits + 1 > o.max_bound_hits then
        match o.ytol with
        | none => .error .typeError
        | some yt => if |fval| < yt then .ok (.inl l) else .error .unconvergedError
      else .ok (.inr (l, hits + 1))
    else .ok (.inr (p, hits))
  | none => .ok (.inr (p, hits))

/-- numerics/__init__.py:3425-3440: the exit test. -/
def halleyDone (o : HalleyOpts K) (p0 fval p : K) : Bool :=
  match o.ytol, o.xtol with
  | some yt, some xt => decide (|p - p0| < |xt * p| ∧ |fval| < yt)
  | none, some xt => decide (|p - p0| < |xt * p|)
  | some yt, none => decide (|fval| < yt)
  | none, none => false

/-- numerics/__init__.py:3365-3443: the loop of `halley`; `n` passes left; state `(p0, a, b, hit_low, hit_high)`. -/
def halleyLoop (f : K → Py (K × K × K)) (o : HalleyOpts K) : ℕ → K → Option K → Option K → ℕ → ℕ → Py K
  | 0, _, _, _, _, _ => .error .unconvergedError
  | n + 1, p0, a, b, hit_low, hit_high => do
    let v ← f p0
    if v.1 = 0 then .ok p0
    else if v.2.1 = 0 then
      match o.ytol with
      | none => .ok p0
      | some yt => if |v.1| < yt then .ok p0 else .error .unconvergedError
    else do
      let a := if o.bisection ∧ v.1 < 0 then some p0 else a
      let b := if o.bisection ∧ ¬ v.1 < 0 then some p0 else b
      let st ← halleyStep o p0 v.1 v.2.1 v.2.2
      let p := if o.bisection then
          match a, b with
          | some a, some b => if ¬ (a < st.1 ∧ st.1 < b) ∧ ¬ (b < st.1 ∧ st.1 < a) then 1 / 2 * (a + b) else st.1
          | _, _ => st.1
        else st.1
      let lo ← halleyBound o o.low (fun p l => decide (p < l)) p0 v.1 p hit_low
      match lo with
      | .inl r => .ok r
      | .inr lo => do
        let hi ← halleyBound o o.high (fun p h => decide (p > h)) p0 v.1 lo.1 hit_high
        match hi with
        | .inl r => .ok r
        | .inr hi =>
          if ¬ st.2 ∧ halleyDone o p0 v.1 hi.1 then .ok (if o.require_eval then p0 else hi.1)
          else halleyLoop f o n hi.1 a b lo.2 hi.2

/-- numerics/__init__.py:3353-3443 `halley`. -/
def halley (f : K → Py (K × K × K)) (o : HalleyOpts K) (x0 : K) (maxiter : ℕ) : Py K :=
  if maxiter = 0 then .error .unboundLocalError
  else halleyLoop f o maxiter x0 none none 0 0

/-! ### fixed_point -/

/-- numerics/__init__.py:3915-3917: `err += abs(v)` -/
def absSum (l : List K) : K := l.foldl (fun e v => e + |v|) 0

/-- numerics/__init__.py:3912: state of `fixed_point`'s loop: `(x, fcur, err0, iteration)` -/
structure FixedSt (K : Type _) where
  x : List K
  fcur : List K
  err0 : K
  iteration : ℕ

/-- numerics/__init__.py:3922-3941: the loop; `norm2` is passed in (it needs a square root); every pass raises `iteration`. -/
def fixedLoop (norm2 : List K → K) (f : List K → Py (List K)) (xtol ytol : Option K) (damping : K) (require_progress : Bool)
    (maxiter : ℕ) : ℕ → FixedSt K → Py (FixedSt K)
  | 0, s => .ok s
  | fuel + 1, s =>
    if s.iteration < maxiter then do
      let fcur ← f s.x
      let x := List.zipWith (fun xi fi => xi - fi * damping) s.x fcur
      let err1 := absSum fcur
      let brk : Bool := match xtol with
        | some xt => decide (norm2 fcur < xt) && (match ytol with | none => true | some yt => decide (err1 < yt))
        | none => match ytol with | some yt => decide (err1 < yt) | none => false
      if brk then .ok ⟨x, fcur, s.err0, s.iteration + 1⟩
      else if err1 ≥ s.err0 ∧ require_progress then .error .valueError
      else fixedLoop norm2 f xtol ytol damping require_progress maxiter fuel ⟨x, fcur, err1, s.iteration + 1⟩
    else .ok s

/-- numerics/__init__.py:3912-3953 `fixed_point`. -/
def fixed_point (norm2 : List K → K) (f : List K → Py (List K)) (x0 : List K) (xtol ytol : Option K) (maxiter : ℕ) (damping : K)
    (require_progress : Bool) : Py (List K × ℕ) := do
  let fcur ← f x0
  let err0 := absSum fcur
  if xtol = none ∧ ∃ yt ∈ ytol, err0 < yt then .ok (x0, 0)
  else do
    let x := List.zipWith (fun xi fi => xi - fi) x0 fcur
    let s ← fixedLoop norm2 f xtol ytol damping require_progress maxiter (maxiter + 1) ⟨x, fcur, err0, 1⟩
    if ∃ xt ∈ xtol, norm2 s.fcur > xt then .error .unconvergedError
    else if ∃ yt ∈ ytol, absSum s.fcur > yt then .error .unconvergedError
    else .ok (s.x, s.iteration)

end Verif.Solve
