import Verif.Py
import Mathlib.Data.Real.Basic
import Mathlib.Data.List.Basic

/-!
# Model of the finite differences of `fluids/numerics/__init__.py`: `derivative`, `jacobian`, `hessian`
-/

namespace Verif.FiniteDiff
open Verif

/-- numerics/__init__.py:717-803 `central_diff_weights_precomputed`, keys `(n, order)`, the decimal literals as exact rationals. -/
def weightTable : List ((ℕ × ℕ) × List ℚ) :=
  [((1, 3), [-0.5, 0, 0.5]),
   ((1, 5), [0.08333333333333333, -0.6666666666666666, 0, 0.6666666666666666, -0.08333333333333333]),
   ((1, 7), [-0.016666666666666666, 0.15, -0.75, 0, 0.75, -0.15, 0.016666666666666666]),
   ((1, 9), [0.0035714285714285713, -0.0380952380952381, 0.2, -0.8, 0, 0.8, -0.2, 0.0380952380952381, -0.0035714285714285713]),
   ((1, 11), [-0.0007936507936507937, 0.00992063492063492, -0.05952380952380952, 0.23809523809523808, -0.8333333333333334, 0, 0.8333333333333334, -0.23809523809523808, 0.05952380952380952, -0.00992063492063492, 0.0007936507936507937]),
   ((1, 13), [0.00018037518037518038, -0.0025974025974025974, 0.017857142857142856, -0.07936507936507936, 0.26785714285714285, -0.8571428571428571, 0, 0.8571428571428571, -0.26785714285714285, 0.07936507936507936, -0.017857142857142856, 0.0025974025974025974, -0.00018037518037518038]),
   ((1, 15), [-4.1625041625041625e-05, 0.0006798756798756799, -0.005303030303030303, 0.026515151515151516, -0.09722222222222222, 0.2916666666666667, -0.875, 0, 0.875, -0.2916666666666667, 0.09722222222222222, -0.026515151515151516, 0.005303030303030303, -0.0006798756798756799, 4.1625041625041625e-05]),
   ((1, 17), [9.712509712509713e-06, -0.0001776001776001776, 0.001554001554001554, -0.008702408702408702, 0.03535353535353535, -0.11313131313131314, 0.3111111111111111, -0.8888888888888888, 0, 0.8888888888888888, -0.3111111111111111, 0.11313131313131314, -0.03535353535353535, 0.008702408702408702, -0.001554001554001554, 0.0001776001776001776, -9.712509712509713e-06]),
   ((1, 19), [-2.285296402943462e-06, 4.6277252159605104e-05, -0.00044955044955044955, 0.002797202797202797, -0.012587412587412588, 0.044055944055944055, -0.12727272727272726, 0.32727272727272727, -0.9, 0, 0.9, -0.32727272727272727, 0.12727272727272726, -0.044055944055944055, 0.012587412587412588, -0.002797202797202797, 0.00044955044955044955, -4.6277252159605104e-05, 2.285296402943462e-06]),
   ((2, 3), [1.0, -2.0, 1.0]),
   ((2, 5), [-0.08333333333333333, 1.3333333333333333, -2.5, 1.3333333333333333, -0.08333333333333333]),
   ((2, 7), [0.011111111111111112, -0.15, 1.5, -2.7222222222222223, 1.5, -0.15, 0.011111111111111112]),
   ((2, 9), [-0.0017857142857142857, 0.025396825396825397, -0.2, 1.6, -2.8472222222222223, 1.6, -0.2, 0.025396825396825397, -0.0017857142857142857]),
   ((2, 11), [0.00031746031746031746, -0.00496031746031746, 0.03968253968253968, -0.23809523809523808, 1.6666666666666667, -2.9272222222222224, 1.6666666666666667, -0.23809523809523808, 0.03968253968253968, -0.00496031746031746, 0.00031746031746031746]),
   ((2, 13), [-6.012506012506013e-05, 0.001038961038961039, -0.008928571428571428, 0.05291005291005291, -0.26785714285714285, 1.7142857142857142, -2.9827777777777778, 1.7142857142857142, -0.26785714285714285, 0.05291005291005291, -0.008928571428571428, 0.001038961038961039, -6.012506012506013e-05]),
   ((2, 15), [1.1892869035726179e-05, -0.00022662522662522663, 0.0021212121212121214, -0.013257575757575758, 0.06481481481481481, -0.2916666666666667, 1.75, -3.02359410430839, 1.75, -0.2916666666666667, 0.06481481481481481, -0.013257575757575758, 0.0021212121212121214, -0.00022662522662522663, 1.1892869035726179e-05]),
   ((2, 17), [-2.428127428127428e-06, 5.074290788576503e-05, -0.000518000518000518, 0.003480963480963481, -0.017676767676767676, 0.07542087542087542, -0.3111111111111111, 1.7777777777777777, -3.05484410430839, 1.7777777777777777, -0.3111111111111111, 0.07542087542087542, -0.017676767676767676, 0.003480963480963481, -0.000518000518000518, 5.074290788576503e-05, -2.428127428127428e-06]),
   ((2, 19), [5.078436450985471e-07, -1.1569313039901276e-05, 0.00012844298558584272, -0.0009324009324009324, 0.005034965034965035, -0.022027972027972027, 0.08484848484848485, -0.32727272727272727, 1.8, -3.0795354623330815, 1.8, -0.32727272727272727, 0.08484848484848485, -0.022027972027972027, 0.005034965034965035, -0.0009324009324009324, 0.00012844298558584272, -1.1569313039901276e-05, 5.078436450985471e-07]),
   ((3, 5), [-0.5, 1.0, 0, -1.0, 0.5]),
   ((3, 7), [0.125, -1.0, 1.625, 0, -1.625, 1.0, -0.125]),
   ((3, 9), [-0.029166666666666667, 0.30000000000000004, -1.4083333333333332, 2.033333333333333, 0, -2.033333333333333, 1.4083333333333332, -0.30000000000000004, 0.029166666666666667])]

/-- numerics/__init__.py:846-853: the weights of `derivative`. `ext` stands for `central_diff_weights` on keys that are not cached (805-835, an inverse matrix computed by sympy). -/
def weights (ext : ℕ → ℕ → Py (List ℝ)) (n order : ℕ) : Py (List ℝ) :=
  match weightTable.lookup (n, order) with
  | some w => .ok (w.map fun q : ℚ => (q : ℝ))
  | none => if order < n + 1 then .error .valueError else if order % 2 = 0 then .error .valueError else ext order n

/-- numerics/__init__.py:879-882: the loop over the points; `i` is `k - ho`. Points of zero weight are not evaluated. -/
noncomputable def pointLoop (f : ℝ → Py ℝ) (x0 dx : ℝ) : ℝ → ℤ → List ℝ → Py ℝ
  | tot, _, [] => .ok tot
  | tot, i, w :: ws =>
    if w ≠ 0 then do
      let y ← f (x0 + (i : ℝ) * dx)
      pointLoop f x0 dx (tot + w * y) (i + 1) ws
    else pointLoop f x0 dx tot (i + 1) ws

/-- numerics/__init__.py:865-868: an upper limit moves the base point down. -/
noncomputable def shiftDown (x0 dx : ℝ) (order ho : ℕ) (upper_limit : Option ℝ) : ℝ :=
  match upper_limit with
  | none => x0
  | some u =>
    let max_x : ℝ := x0 + ((order : ℝ) - 1 - ho) * dx
    if max_x > u then x0 - (max_x - x0) else x0

/-- numerics/__init__.py:869-872: a lower limit moves the base point up. -/
noncomputable def shiftUp (x0 dx : ℝ) (ho : ℕ) (lower_limit : Option ℝ) : ℝ :=
  match lower_limit with
  | none => x0
  | some l =>
    let min_x : ℝ := x0 + -(ho : ℝ) * dx
    if min_x < l then x0 + (x0 - min_x) else x0

/-- numerics/__init__.py:838-883 `derivative` with `scalar=True`. The loop `denominator *= dx` is a power. -/
noncomputable def derivative (ext : ℕ → ℕ → Py (List ℝ)) (f : ℝ → Py ℝ) (x0 : ℝ) (dx : ℝ := 1) (n : ℕ := 1) (order : ℕ := 3) (lower_limit : Option ℝ := none) (upper_limit : Option ℝ := none) : Py ℝ := do
  let w ← weights ext n order
  let ho : ℕ := order / 2
  let denominator ← 1 /ₚ (dx ^ n)
  let x0 : ℝ := shiftDown x0 dx order ho upper_limit
  let x0 : ℝ := shiftUp x0 dx ho lower_limit
  let tot ← pointLoop f x0 dx 0 (-(ho : ℤ)) w
  return tot * denominator

/-! ### gradients and second derivatives -/

variable {K : Type _} [Field K] [DecidableEq K]

/-- numerics/__init__.py:1206-1210 and 1249-1253: the step of one variable. -/
def step (perturbation zero_offset x : K) : K :=
  let delta := x * perturbation
  if delta = 0 then zero_offset else delta

/-- numerics/__init__.py:1205-1222: the loop over the variables for a scalar function; `x` is the work list, restored after each step. -/
def gradLoop (f : List K → Py K) (base perturbation zero_offset : K) (x0 : List K) : List K → List ℕ → Py (List K)
  | _, [] => .ok []
  | x, i :: is => do
    let delta := step perturbation zero_offset (x0.getD i 0)
    let x := x.modify i (· + delta)
    let point ← f x
    let dy ← (point - base) /ₚ delta
    let x := x.modify i (· - delta)
    let rest ← gradLoop f base perturbation zero_offset x0 x is
    return dy :: rest

/-- numerics/__init__.py:1182-1226 `jacobian` with `scalar=True`; defaults perturbation = 1e-9, zero_offset = 1e-7. -/
def jacobian (f : List K → Py K) (x0 : List K) (perturbation zero_offset : K) (base : Option K := none) : Py (List K) := do
  let b ← (match base with
    | some b => .ok b
    | none => f x0 : Py K)
  gradLoop f b perturbation zero_offset x0 x0 (List.range x0.length)

/-- numerics/__init__.py:1205-1222: the loop over the variables for a vector function (`scalar=False`). -/
def gradLoopV (f : List K → Py (List K)) (base : List K) (perturbation zero_offset : K) (x0 : List K) : List K → List ℕ → Py (List (List K))
  | _, [] => .ok []
  | x, i :: is => do
    let delta := step perturbation zero_offset (x0.getD i 0)
    let x := x.modify i (· + delta)
    let point ← f x
    let delta_inv ← 1 /ₚ delta
    let dys := List.zipWith (fun p b => delta_inv * (p - b)) point base
    let x := x.modify i (· - delta)
    let rest ← gradLoopV f base perturbation zero_offset x0 x is
    return dys :: rest

/-- numerics/__init__.py:1225: `list(map(list, zip(*rows)))`, the transpose cut to the shortest row. -/
def zipStar : List (List K) → List (List K)
  | [] => []
  | [r] => r.map fun a => [a]
  | r :: rs => List.zipWith (fun a as => a :: as) r (zipStar rs)

/-- numerics/__init__.py:1182-1226 `jacobian` with `scalar=False`. -/
def jacobianV (f : List K → Py (List K)) (x0 : List K) (perturbation zero_offset : K) (base : Option (List K) := none) : Py (List (List K)) := do
  let b ← (match base with
    | some b => .ok b
    | none => f x0 : Py (List K))
  let gradient ← gradLoopV f b perturbation zero_offset x0 x0 (List.range x0.length)
  return zipStar gradient

/-- numerics/__init__.py:1257-1265: the function at every singly perturbed point; `x` is restored after each evaluation. -/
def singleLoop (f : List K → Py K) (deltas : List K) : List K → List ℕ → Py (List K)
  | _, [] => .ok []
  | x, i :: is => do
    let tmp := x.getD i 0
    let x := x.set i (tmp + deltas.getD i 0)
    let y ← f x
    let x := x.set i tmp
    let rest ← singleLoop f deltas x is
    return y :: rest

/-- numerics/__init__.py:1279-1307: the inner loop over `j`; returns the entries `dij` of row `i`, `j ≤ i`. -/
def innerLoop (f : List K → Py K) (base : K) (deltas deltas_inv fs : List K) (i : ℕ) (tmp_i : K) : List K → List ℕ → Py (List K)
  | _, [] => .ok []
  | x, j :: js => do
    let tmp_j := x.getD j 0
    let x := if i = j then x.set j (tmp_i + 2 * deltas.getD j 0) else x.set j (tmp_j + deltas.getD j 0)
    let f_perturb_ij ← f x
    let dij := ((f_perturb_ij + base) - (fs.getD i 0 + fs.getD j 0)) * deltas_inv.getD j 0 * deltas_inv.getD i 0
    let x := x.set j tmp_j
    let rest ← innerLoop f base deltas deltas_inv fs i tmp_i x js
    return dij :: rest

/-- numerics/__init__.py:1272-1310: the outer loop over `i`; returns the rows `[d_i0, ..., d_ii]`. -/
def outerLoop (f : List K → Py K) (base : K) (deltas deltas_inv fs : List K) : List K → List ℕ → Py (List (List K))
  | _, [] => .ok []
  | x, i :: is => do
    let tmp_i := x.getD i 0
    let x := x.set i (tmp_i + deltas.getD i 0)
    let row ← innerLoop f base deltas deltas_inv fs i tmp_i x (List.range (i + 1))
    let x := x.set i tmp_i
    let rest ← outerLoop f base deltas deltas_inv fs x is
    return row :: rest

/-- numerics/__init__.py:1302-1305: the square matrix filled by `hessian[i][j] = hessian[j][i] = dij`. -/
def symmetric (rows : List (List K)) : List (List K) :=
  (List.range rows.length).map fun i => (List.range rows.length).map fun j => if j ≤ i then (rows.getD i []).getD j 0 else (rows.getD j []).getD i 0

/-- numerics/__init__.py:1229-1311 `hessian` with `scalar=True`; the rows of the lower triangle with `full=False`. -/
def hessian (f : List K → Py K) (x0 : List K) (perturbation zero_offset : K) (full : Bool := true) (base : Option K := none) : Py (List (List K)) := do
  let b ← (match base with
    | some b => .ok b
    | none => f x0 : Py K)
  let deltas := x0.map (step perturbation zero_offset)
  let deltas_inv ← deltas.mapM (fun d => 1 /ₚ d)
  let fs ← singleLoop f deltas x0 (List.range x0.length)
  let rows ← outerLoop f b deltas deltas_inv fs x0 (List.range x0.length)
  return if full then symmetric rows else rows

end Verif.FiniteDiff
