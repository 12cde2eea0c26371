import Verif.Py
import Verif.Model.Splines
import Verif.Model.Sequences
import Mathlib.Analysis.SpecialFunctions.Pow.Real

/-! Model of `fluids/filters.py`. -/

open Real Verif.Seq Verif.Splines

noncomputable section

namespace Verif.Filters

/-- filters.py:57 `round_Res` -/
def round_Res : List ℝ := [20, 30, 40, 60, 80, 100, 200, 400]
/-- filters.py:58 `round_betas` -/
def round_betas : List ℝ := [1.3, 1.1, 0.95, 0.83, 0.75, 0.7, 0.6, 0.52]
/-- filters.py:63 `round_thetas` -/
def round_thetas : List ℝ := [0, 10, 20, 30, 40, 50, 60, 70, 80, 85]
/-- filters.py:64 `round_gammas` -/
def round_gammas : List ℝ := [1, 0.97, 0.88, 0.75, 0.59, 0.45, 0.3, 0.23, 0.15, 0.09]
/-- filters.py:71 `square_alphas` -/
def square_alphas : List ℝ := [0.0015625, 0.003125, 0.00625, 0.0125, 0.025, 0.05, 0.1, 0.15, 0.2, 0.25, 0.3, 0.35, 0.4, 0.45, 0.5, 0.55, 0.6, 0.65, 0.7, 0.75, 0.8, 0.85, 0.9, 1]
/-- filters.py:72 `square_Ks` -/
def square_Ks : List ℝ := [1024000, 256000, 64000, 16000, 4000, 1000, 250, 85, 52, 30, 17, 11, 7.7, 5.5, 3.8, 2.8, 2, 1.5, 1.1, 0.78, 0.53, 0.35, 0.08, 0]
/-- filters.py:79 knots of `grills_rounded_tck`; `implementation_optimize_tck` (numerics/__init__.py:2115-2120) only changes the container -/
def grills_rounded_t : List ℝ := [0.3, 0.3, 0.3, 0.45, 0.55, 0.7, 0.7, 0.7]
/-- filters.py:80-81 coefficients of `grills_rounded_tck` -/
def grills_rounded_c : List ℝ := [2, 1.0014285714285716, 0.5799999999999998, 0.3585714285714287, 0.2, 0, 0, 0]

/-- filters.py:132-135: the angle factor of `round_edge_screen`; degrees by `π/180` -/
def screenAngle : Option ℝ → Py ℝ
  | none => .ok 1
  | some angle => if angle ≤ 45 then .ok (Real.cos (angle * (π / 180)) * Real.cos (angle * (π / 180))) else interp angle round_thetas round_gammas none none false

/-- filters.py:127-136 `round_edge_screen`. Defaults: angle = 0.0. The product with the angle factor is written once. -/
def round_edge_screen (alpha Re : ℝ) (angle : Option ℝ) : Py ℝ := do
  let beta : ℝ ← interp Re round_Res round_betas none none false
  let alpha2 : ℝ := alpha * alpha
  let K : ℝ ← beta * (1 - alpha2) /ₚ alpha2
  let v : ℝ ← screenAngle angle
  return K * v

/-- filters.py:198-207: the normal-flow factor of `round_edge_open_mesh` -/
def meshFactor (subtype : String) (one_m_alpha : ℝ) : Py ℝ :=
  if subtype = "round bar screen" then .ok (0.95 + 0.2 * one_m_alpha)
  else if subtype = "diamond pattern wire" then .ok (0.67 + 1.3 * one_m_alpha)
  else if subtype = "knotted net" then .ok (0.70 + 4.9 * one_m_alpha)
  else if subtype = "knotless net" then .ok (0.72 + 2.1 * one_m_alpha)
  else .error .valueError

/-- filters.py:209-213: the angle factor of `round_edge_open_mesh`; degrees by `π/180` -/
def meshAngle : Option ℝ → Py ℝ
  | none => .ok 1
  | some angle => if angle < 45 then .ok (Real.cos (angle * (π / 180)) ^ 2) else interp angle round_thetas round_gammas none none false

/-- filters.py:197-214 `round_edge_open_mesh`. Defaults: subtype = 'diamond pattern wire', angle = 0.0. -/
def round_edge_open_mesh (alpha : ℝ) (subtype : String) (angle : Option ℝ) : Py ℝ := do
  let one_m_alpha : ℝ := 1 - alpha
  let K : ℝ ← meshFactor subtype one_m_alpha
  let K : ℝ := K * one_m_alpha
  let v : ℝ ← meshAngle angle
  return K * v

/-- filters.py:247 `square_edge_screen` -/
def square_edge_screen (alpha : ℝ) : Py ℝ := interp alpha square_alphas square_Ks none none false

/-- filters.py:306-307: the friction term of `square_edge_grill` -/
def grillFriction : Option ℝ → Option ℝ → Option ℝ → Py ℝ
  | some l, some Dh, some fd => if l > 50 * Dh then fd * l /ₚ Dh else .ok 0
  | _, _, _ => .ok 0

/-- filters.py:303-308 `square_edge_grill`. Defaults: l = Dh = fd = None. -/
def square_edge_grill (alpha : ℝ) (l Dh fd : Option ℝ) : Py ℝ := do
  let x0 : ℝ := 0.5 * (1 - alpha)
  let alpha2 : ℝ := alpha * alpha
  let x0 : ℝ := x0 + (1 - alpha2)
  let f : ℝ ← grillFriction l Dh fd
  (x0 + f) /ₚ alpha2

/-- filters.py:366-370: the result of `round_edge_grill` from the spline value; a missing or zero argument counts as absent -/
def roundGrill (t1 alpha : ℝ) : Option ℝ → Option ℝ → Option ℝ → Py ℝ
  | some l, some Dh, some fd =>
    if Dh ≠ 0 ∧ l ≠ 0 ∧ fd ≠ 0 ∧ l > 50 * Dh then do
      let alpha2 : ℝ := alpha * alpha
      let t3 : ℝ ← fd * l /ₚ (alpha2 * Dh)
      return t1 + t3
    else .ok t1
  | _, _, _ => .ok t1

/-- filters.py:365-370 `round_edge_grill`. Defaults: l = Dh = fd = None. -/
def round_edge_grill (alpha : ℝ) (l Dh fd : Option ℝ) : Py ℝ := do
  let t1 : ℝ ← py_splev alpha grills_rounded_t grills_rounded_c 2 0
  roundGrill t1 alpha l Dh fd

end Verif.Filters
