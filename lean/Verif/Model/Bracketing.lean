import Verif.Py

/-!
# Model of the bracketing root finders of `fluids/numerics/__init__.py`

`damping_maintain_sign`, `best_bounding_bounds`, `bisect`, `ridder`, `brenth`.  The objective is an arbitrary Python callable,
modelled as `f : K → Py K`: it may raise, and its exception escapes through the solver.  A `for` loop with `maxiter` passes is a
recursion on the number of passes left.  `args`/`kwargs` are part of `f`.  NaN does not exist in the model's numbers.
Line numbers are those of that file.
-/

namespace Verif.Solve

section Field
variable {K : Type _} [Field K] [LinearOrder K]

/-- numerics/__init__.py:2378-2384: the scalar branch of `damping_maintain_sign`. -/
def dampScalar (x step damping factor : K) : K :=
  let positive := decide (x ≥ 0)
  let step_x := x + step
  let step := if (positive ∧ step_x < 0) ∨ (¬ positive ∧ step_x > 0) then -factor * x else step
  x + step * damping

/-- numerics/__init__.py:2375-2376 `damping_maintain_sign` on lists: `x[i]`, `step[i]` for `i in range(len(x))`; a short `step` raises. -/
def damping_maintain_sign (x step : List K) (damping factor : K) : Py (List K) :=
  (List.range x.length).mapM fun i =>
    match step[i]? with
    | none => .error .indexError
    | some s => .ok (dampScalar (x.getD i 0) s damping factor)

/-- numerics/__init__.py:2616: `min(l)` of a nonempty list -/
def minL (h : K) (l : List K) : K := l.foldl min h
/-- numerics/__init__.py:2616: `max(l)` of a nonempty list -/
def maxL (h : K) (l : List K) : K := l.foldl max h

/-- numerics/__init__.py:2610, 2726: `if v is None: v = f(..)`: a value supplied by the caller, or else the evaluation -/
def given (v : Option K) (eval : Py K) : Py K :=
  match v with
  | some v => .ok v
  | none => eval

/-- numerics/__init__.py:2615-2624: use of the positive history; also returns `y_min_pos` if it was bound. -/
def boundsPos (low high fa fb : K) (xs_pos ys_pos : List K) : Py (Option K × K × K × K × K) :=
  match ys_pos with
  | [] => .ok (none, low, high, fa, fb)
  | y :: ys =>
    let m := minL y ys
    match xs_pos[(y :: ys).idxOf m]? with
    | none => .error .indexError
    | some xm =>
      if fa > 0 then
        if m < fa then .ok (some m, xm, high, m, fb) else .ok (some m, low, high, fa, fb)
      else
        if m < fb then .ok (some m, low, xm, fa, m) else .ok (some m, low, high, fa, fb)

/-- numerics/__init__.py:2626-2635: use of the negative history. Line 2634 reads `y_min_pos`, which is unbound when `ys_pos` was empty. -/
def boundsNeg (y_min_pos : Option K) (low high fa fb : K) (xs_neg ys_neg : List K) : Py (K × K × K × K) :=
  match ys_neg with
  | [] => .ok (low, high, fa, fb)
  | y :: ys =>
    let m := maxL y ys
    match xs_neg[(y :: ys).idxOf m]? with
    | none => .error .indexError
    | some xm =>
      if fa < 0 then
        if m > fa then .ok (xm, high, m, fb) else .ok (low, high, fa, fb)
      else
        match y_min_pos with
        | none => .error .unboundLocalError
        | some ymp => if ymp > fb then .ok (low, xm, fa, m) else .ok (low, high, fa, fb)

/-- numerics/__init__.py:2550-2639 `best_bounding_bounds` with the previous points given as lists (an empty list and `None` behave alike). -/
def best_bounding_bounds (low high : K) (f : K → Py K) (xs_pos ys_pos xs_neg ys_neg : List K) (fa fb : Option K) :
    Py (K × K × K × K) := do
  let fa ← given fa (f low)
  let fb ← given fb (f high)
  let p ← boundsPos low high fa fb xs_pos ys_pos
  let r ← boundsNeg p.1 p.2.1 p.2.2.1 p.2.2.2.1 p.2.2.2.2 xs_neg ys_neg
  if r.2.2.1 * r.2.2.2 > 0 then .error .valueError
  else .ok r

/-- numerics/__init__.py:2656-2672: the loop of `bisect`; `n` passes left. `fa` is never updated by the code. -/
def bisectLoop (f : K → Py K) (fa xtol rtol : K) (ytol : Option K) : ℕ → K → K → Py K
  | 0, _, _ => .error .unconvergedError
  | n + 1, a, dm => do
    let dm := dm * (1 / 2)
    let xm := a + dm
    let fm ← f xm
    let a := if fm * fa ≥ 0 then xm else a
    let abs_dm := |dm|
    if fm = 0 then .ok xm
    else match ytol with
      | some yt => if abs_dm < xtol + rtol * abs_dm ∧ |fm| < yt then .ok xm else bisectLoop f fa xtol rtol ytol n a dm
      | none => if abs_dm < xtol + rtol * abs_dm then .ok xm else bisectLoop f fa xtol rtol ytol n a dm

/-- numerics/__init__.py:2641-2672 `bisect(f, a, b, xtol, rtol, maxiter, ytol)`. -/
def bisect (f : K → Py K) (a b xtol rtol : K) (maxiter : ℕ) (ytol : Option K) : Py K := do
  let fa ← f a
  let fb ← f b
  if fa * fb > 0 then .error .valueError
  else if fa = 0 then .ok a
  else if fb = 0 then .ok b
  else bisectLoop f fa xtol rtol ytol maxiter a (b - a)

/-- numerics/__init__.py:2720-2800: the variables carried by the loop of `brenth` -/
structure Brent (K : Type _) where
  xpre : K
  xcur : K
  xblk : K
  fpre : K
  fcur : K
  fblk : K
  spre : K
  scur : K

/-- numerics/__init__.py:2744-2758: the two renamings at the top of the loop of `brenth`. -/
def Brent.top (s : Brent K) : Brent K :=
  let s := if s.fpre * s.fcur < 0 then
    { s with xblk := s.xpre, fblk := s.fpre, spre := s.xcur - s.xpre, scur := s.xcur - s.xpre } else s
  if |s.fblk| < |s.fcur| then
    { s with xpre := s.xcur, xcur := s.xblk, xblk := s.xcur, fpre := s.fcur, fcur := s.fblk, fblk := s.fcur } else s

/-- numerics/__init__.py:2770-2793: the new pair `(spre, scur)`. -/
def Brent.steps (q : Bool) (delta sbis : K) (s : Brent K) : Py (K × K) :=
  if |s.spre| > delta ∧ |s.fcur| < |s.fpre| then do
    let stry ← (if s.xpre = s.xblk then (-s.fcur * (s.xcur - s.xpre)) /ₚ (s.fcur - s.fpre)
      else do
        let dpre ← (s.fpre - s.fcur) /ₚ (s.xpre - s.xcur)
        let dblk ← (s.fblk - s.fcur) /ₚ (s.xblk - s.xcur)
        if q then (-s.fcur * (s.fblk * dblk - s.fpre * dpre)) /ₚ (dblk * dpre * (s.fblk - s.fpre))
        else (-s.fcur * (s.fblk - s.fpre)) /ₚ (s.fblk * dpre - s.fpre * dblk))
    if |stry + stry| < min |s.spre| (3 * |sbis| - delta) then .ok (s.scur, stry) else .ok (sbis, sbis)
  else .ok (sbis, sbis)

/-- numerics/__init__.py:2797-2803: the next abscissa. -/
def Brent.next (delta sbis scur xcur : K) : K :=
  if |scur| > delta then xcur + scur
  else if sbis > 0 then xcur + delta
  else xcur - delta

/-- numerics/__init__.py:2743-2806: the loop of `brenth`; `n` passes left. -/
def brenthLoop (f : K → Py K) (xtol rtol : K) (ytol : Option K) (q : Bool) : ℕ → Brent K → Py K
  | 0, _ => .error .unconvergedError
  | n + 1, s => do
    let s := s.top
    let delta := 1 / 2 * (xtol + rtol * |s.xcur|)
    let sbis := 1 / 2 * (s.xblk - s.xcur)
    let done : Bool := match ytol with
      | some yt => s.fcur = 0 ∨ (|sbis| < delta ∧ |s.fcur| < yt)
      | none => s.fcur = 0 ∨ |sbis| < delta
    if done then .ok s.xcur
    else do
      let st ← s.steps q delta sbis
      let xnew := Brent.next delta sbis st.2 s.xcur
      let fnew ← f xnew
      brenthLoop f xtol rtol ytol q n
        { xpre := s.xcur, fpre := s.fcur, xcur := xnew, fcur := fnew, xblk := s.xblk, fblk := s.fblk,
          spre := st.1, scur := st.2 }

/-- numerics/__init__.py:2716-2806 `brenth(f, xa, xb, xtol, rtol, maxiter, ytol, q, fa, fb)`. -/
def brenth (f : K → Py K) (xa xb xtol rtol : K) (maxiter : ℕ) (ytol : Option K) (q : Bool) (fa fb : Option K) : Py K := do
  let fpre ← given fa (f xa)
  let fcur ← given fb (f xb)
  if fpre * fcur > 0 then .error .notBoundedError
  else if fpre = 0 then .ok xa
  else if fcur = 0 then .ok xb
  else
    let s0 : Brent K := ⟨xa, xb, 0, fpre, fcur, 0, 0, 0⟩
    brenthLoop f xtol rtol ytol q maxiter s0

end Field

noncomputable section
/-- numerics/__init__.py:2693, 2696: `math.copysign(x, y)` on reals (a negative zero `y` does not exist in the model). -/
def copysign (x y : ℝ) : ℝ := if 0 ≤ y then |x| else -|x|

/-- numerics/__init__.py:2690-2697: one pass of `ridder`: the new abscissa. -/
def ridderPoint (f : ℝ → Py ℝ) (a b fa fb tol : ℝ) : Py (ℝ × ℝ × ℝ) := do
  let dm := 1 / 2 * (b - a)
  let xm := a + dm
  let fm ← f xm
  let sq ← psqrt (fm * fm - fa * fb)
  let r ← 1 /ₚ sq
  let dn := copysign r (fb - fa) * fm * dm
  let dm_abs_tol := |dm| - 1 / 2 * tol
  let xn := xm - copysign (min dm_abs_tol |dn|) dn
  pure (xm, fm, xn)

/-- numerics/__init__.py:2689-2713: the loop of `ridder`; `n` passes left. -/
def ridderLoop (f : ℝ → Py ℝ) (xtol rtol : ℝ) : ℕ → ℝ → ℝ → ℝ → ℝ → ℝ → Py ℝ
  | 0, _, _, _, _, _ => .error .unconvergedError
  | n + 1, a, b, fa, fb, tol => do
    let r ← ridderPoint f a b fa fb tol
    let xm := r.1
    let fm := r.2.1
    let xn := r.2.2
    let fn ← f xn
    let br : ℝ × ℝ × ℝ × ℝ := if fn * fm < 0 then (xn, fn, xm, fm)
      else if fn * fa < 0 then (a, fa, xn, fn)
      else (xn, fn, b, fb)
    let tol := xtol + rtol * xn
    if fn = 0 ∨ |br.2.2.1 - br.1| < tol then .ok xn
    else ridderLoop f xtol rtol n br.1 br.2.2.1 br.2.1 br.2.2.2 tol

/-- numerics/__init__.py:2675-2713 `ridder(f, a, b, xtol, rtol, maxiter)`. -/
def ridder (f : ℝ → Py ℝ) (a b xtol rtol : ℝ) (maxiter : ℕ) : Py ℝ := do
  let tol := xtol + rtol * min |b| |a|
  let fa ← f a
  let fb ← f b
  if fa * fb > 0 then .error .valueError
  else if fa = 0 then .ok a
  else if fb = 0 then .ok b
  else ridderLoop f xtol rtol maxiter a b fa fb tol
end
end Verif.Solve
