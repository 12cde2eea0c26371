import Verif.Py

/-!
# Model of the list utilities of `fluids/numerics/__init__.py`

`linspace`, `logspace`, `cumulative_trapezoid`, `product`, `cumsum`, `diff`, `mean`, `std`, `min_max_ratios`, `normalize`,
`is_monotonic`, `is_increasing`, `binary_search`, `interp`, `interp2d_linear`, `isclose`, `caching_decorator`.
Line numbers are those of that file.
-/

namespace Verif.Seq

section Field
variable {K : Type _} [Field K]

/-- numerics/__init__.py:604-607 / 612-614: the loop `y.append(y[-1] + step)` run `n` times. -/
def appendSteps (step : K) : ℕ → List K → List K
  | 0, y => y
  | n + 1, y => appendSteps step n (y ++ [y.getLastD 0 + step])

/-- numerics/__init__.py:586-619 `linspace(start, stop, num, endpoint)` with `retstep = False`. -/
def linspace (start stop : K) (num : ℤ) (endpoint : Bool) : List K :=
  if num ≤ 0 then []
  else if endpoint then
    if num = 1 then [start]
    else
      let step := (stop - start) / ((num - 1 : ℤ) : K)
      appendSteps step (num - 2).toNat [start] ++ [stop]
  else
    let step := (stop - start) / (num : K)
    appendSteps step (num - 1).toNat [start]

/-- numerics/__init__.py:655-659 / 665-671: running trapezoid sums; `w i` is the spacing used at step `i`, state `(result, integral)`. -/
def trapLoop (y : List K) (w : ℕ → K) (n : ℕ) : List K × K :=
  (List.range n).foldl (fun st i =>
    let integral := st.2 + (y.getD i 0 + y.getD (i + 1) 0) * w i * (1 / 2)
    (st.1 ++ [integral], integral)) ([], 0)

/-- numerics/__init__.py:621-671 `cumulative_trapezoid(y, x=None, dx=None)` -/
def cumulative_trapezoid (y : List K) (x : Option (List K)) (dx : Option K) : Py (List K) :=
  if y = [] then .ok []
  else
    let n := y.length
    if n < 2 then .ok []
    else match x with
      | none =>
        match dx with
        | none => .error .valueError
        | some dx => .ok (trapLoop y (fun _ => dx) (n - 1)).1
      | some x =>
        if x.length ≠ n then .error .valueError
        else .ok (trapLoop y (fun i => x.getD (i + 1) 0 - x.getD i 0) (n - 1)).1

/-- numerics/__init__.py:681-686 `product`. -/
def product (l : List K) : K := l.foldl (fun tot i => tot * i) 1

/-- numerics/__init__.py:689-696 `cumsum`: `a[0]` of an empty list raises `IndexError`. State `(base, sums)`. -/
def cumsum (a : List K) : Py (List K) :=
  match a with
  | [] => .error .indexError
  | a0 :: rest => .ok (rest.foldl (fun st v => let base := st.1 + v; (base, st.2 ++ [base])) (a0, [a0])).2

/-- numerics/__init__.py:706-709: first differences. -/
def diff1 (a : List K) : List K := (List.range (a.length - 1)).map fun i => a.getD (i + 1) 0 - a.getD i 0

/-- numerics/__init__.py:711-713: `diff` for a positive order. -/
def diffPos : ℕ → List K → List K
  | 0, a => a
  | n + 1, a => diffPos n (diff1 a)

/-- numerics/__init__.py:699-713 `diff(a, n)`. -/
def diff (a : List K) (n : ℤ) : Py (List K) :=
  if n = 0 then .ok a
  else if n < 0 then .error .valueError
  else .ok (diffPos n.toNat a)

variable [DecidableEq K]

/-- numerics/__init__.py:570-572 `mean`: `sum(data)/len(data)`. -/
def mean (data : List K) : Py K := data.sum /ₚ (data.length : K)

/-- numerics/__init__.py:4927-4954 `normalize`. -/
def normalize (values : List K) : Py (List K) := do
  let tot_inv ← 1 /ₚ values.sum
  return values.map fun i => i * tot_inv

end Field

noncomputable section
/-- numerics/__init__.py:673-678 `logspace`. -/
def logspace (start stop : ℝ) (num : ℤ) (endpoint : Bool) (base : ℝ) : Py (List ℝ) :=
  (linspace start stop num endpoint).mapM fun y => base ^ₚ y

/-- numerics/__init__.py:1567-1581 `std`. -/
def std (data : List ℝ) : Py ℝ := do
  let N := data.length
  let tot := data.foldl (fun tot d => tot + d) 0
  let mean ← tot /ₚ (N : ℝ)
  let tot := data.foldl (fun tot d => tot + (d - mean) * (d - mean)) 0
  let v ← tot /ₚ (N : ℝ)
  psqrt v
end

section Order
variable {K : Type _} [LinearOrder K]

/-- numerics/__init__.py:1492-1503 `is_monotonic`; loop state `(a_point_increased, a_point_decreased)`. `points[i]` reads use the head as
default, which is never used because `i + 1 < N`. -/
def is_monotonic (points : List K) : Bool :=
  match points with
  | [] => true
  | [_] => true
  | p0 :: rest =>
    let points := p0 :: rest
    let st := (List.range (points.length - 1)).foldl (fun (st : Bool × Bool) i =>
      let st := if points.getD (i + 1) p0 > points.getD i p0 then (true, st.2) else st
      if points.getD (i + 1) p0 < points.getD i p0 then (st.1, true) else st) (false, false)
    !(st.1 && st.2)

/-- numerics/__init__.py:1537-1544: the loop of `is_increasing`. -/
def increasingLoop (previous : K) : List K → Bool
  | [] => true
  | current :: rest => if current ≤ previous then false else increasingLoop current rest

/-- numerics/__init__.py:1505-1544 `is_increasing`. -/
def is_increasing (points : List K) : Bool :=
  match points with
  | [] => true
  | [_] => true
  | p0 :: rest => increasingLoop p0 rest

/-- numerics/__init__.py:1848-1851: the bisection loop; terminates because `imax - imin` decreases. Returns the final `imin`. -/
def searchLoop (key : K) (arr : List K) (imin imax : ℕ) : Py ℕ :=
  if imin < imax then
    let imid := imin + (imax - imin) / 2
    match arr[imid]? with
    | none => .error .indexError
    | some v => if key ≥ v then searchLoop key arr (imid + 1) imax else searchLoop key arr imin imid
  else .ok imin
termination_by imax - imin
decreasing_by all_goals omega

/-- numerics/__init__.py:1841-1852 `binary_search(key, arr, size)`; `size=None` means `len(arr)`. `arr[size - 1]` with `size = 0` is Python's
`arr[-1]`, the last element, or `IndexError` on an empty list. -/
def binary_search (key : K) (arr : List K) (size : Option ℕ) : Py ℤ :=
  let size := size.getD arr.length
  match (if size = 0 then arr.getLast? else arr[size - 1]?) with
  | none => .error .indexError
  | some last =>
    if key > last then .ok size
    else do
      let imin ← searchLoop key arr 0 size
      return (imin : ℤ) - 1

end Order

section OrderedField
variable {K : Type _} [Field K] [LinearOrder K]

/-- numerics/__init__.py:1546-1565 `min_max_ratios`; loop state `(min_ratio, max_ratio)`. -/
def min_max_ratios (actual calculated : List K) : K × K :=
  (List.range actual.length).foldl (fun st i =>
    let r := if actual.getD i 0 = 0 then (if calculated.getD i 0 = actual.getD i 0 then 1 else 10)
      else calculated.getD i 0 / actual.getD i 0
    if r < st.1 then (r, st.2) else if r > st.2 then (st.1, r) else st) (1, 1)

/-- numerics/__init__.py:2017: `l[i]` for an integer index, with Python's negative indexing. -/
def pyGet {α : Type _} (l : List α) (i : ℤ) : Py α :=
  let j := if i < 0 then i + l.length else i
  if j < 0 then .error .indexError
  else match l[j.toNat]? with
    | none => .error .indexError
    | some v => .ok v

/-- numerics/__init__.py:2065, 2075, 2079: the chord expression of lines 2065, 2075 and 2079:
`(dy[j + 1] - dy[j])/(dx[j + 1] - dx[j])*(x - dx[j]) + dy[j]`. -/
def chord (x : K) (dx dy : List K) (j : ℤ) : Py K := do
  let y1 ← pyGet dy (j + 1)
  let y0 ← pyGet dy j
  let x1 ← pyGet dx (j + 1)
  let x0 ← pyGet dx j
  let s ← (y1 - y0) /ₚ (x1 - x0)
  return s * (x - x0) + y0

/-- numerics/__init__.py:2017-2079 `interp(x, dx, dy, left, right, extrapolate)`. -/
def interp (x : K) (dx dy : List K) (left right : Option K) (extrapolate : Bool) : Py K := do
  let lendx := dx.length
  let j ← binary_search x dx (some lendx)
  if j = -1 then
    match left with
    | some l => return l
    | none => if extrapolate then chord x dx dy 0 else pyGet dy 0
  else if j = (lendx : ℤ) - 1 then pyGet dy j
  else if j = lendx then
    match right with
    | some r => return r
    | none => if extrapolate then chord x dx dy (-2) else pyGet dy (-1)
  else chord x dx dy j

/-- numerics/__init__.py:2090-2093: first index `i` with `ys[i] >= y`. -/
def firstGe (y : K) (ys : List K) : Option ℕ := ys.findIdx? (fun v => decide (v ≥ y))

/-- numerics/__init__.py:2082-2099 `interp2d_linear`. The row pair `(i0, i1)`; if the loop never breaks the names are unbound. -/
def interp2d_rows (y : K) (ys : List K) : Py (ℤ × ℤ) :=
  match ys.head?, ys.getLast? with
  | some y0, some yl =>
    if y < y0 then .ok (0, 1)
    else if y > yl then .ok (-2, -1)
    else match firstGe y ys with
      | some i => .ok ((i : ℤ) - 1, i)
      | none => .error .unboundLocalError
  | _, _ => .error .indexError

/-- numerics/__init__.py:2082-2099 `interp2d_linear`. -/
def interp2d_linear (x y : K) (xs ys : List K) (vals : List (List K)) : Py K := do
  let (i0, i1) ← interp2d_rows y ys
  let y_low ← pyGet ys i0
  let y_high ← pyGet ys i1
  let r0 ← pyGet vals i0
  let v_low ← interp x xs r0 none none true
  let r1 ← pyGet vals i1
  let v_high ← interp x xs r1 none none true
  let q ← (y - y_low) /ₚ (y_high - y_low)
  return v_low + q * (v_high - v_low)

/-- numerics/__init__.py:1855-1888 `isclose` on finite real arguments (no infinities; real numbers have `imag = 0`). -/
def isclose (a b rel_tol abs_tol : K) : Py Bool :=
  if rel_tol < 0 ∨ abs_tol < 0 then .error .valueError
  else if a = b then .ok true
  else
    let diff := |a - b|
    .ok (decide ((diff ≤ rel_tol * |b| ∨ diff ≤ rel_tol * |a|) ∨ diff ≤ abs_tol))

end OrderedField

section Cache
variable {X A R : Type _} [DecidableEq X]

/-- numerics/__init__.py:2147-2166 `caching_decorator`: the cache as an association list. -/
abbrev Cache (X R : Type _) := List (X × R)

/-- numerics/__init__.py:2152-2163: one call `wrapper(x, *args)` without `info`, returning the new cache, the answer, and whether `f` was run. A
call that raises stores nothing. -/
def cachedCall (f : X → A → Py R) (cache : Cache X R) (x : X) (args : A) : Cache X R × Py R × Bool :=
  match cache.lookup x with
  | some v => (cache, .ok v, false)
  | none =>
    match f x args with
    | .ok v => ((x, v) :: cache, .ok v, true)
    | .error e => (cache, .error e, true)

/-- numerics/__init__.py:2147: a whole history of calls -/
def runCalls (f : X → A → Py R) : Cache X R → List (X × A) → List (Py R × Bool)
  | _, [] => []
  | c, (x, a) :: rest => let r := cachedCall f c x a; (r.2.1, r.2.2) :: runCalls f r.1 rest

end Cache

end Verif.Seq
