import Verif.Py
import Verif.Model.Constants
import Mathlib.Analysis.SpecialFunctions.Log.Basic

/-! Model of `fluids/separator.py`.  The digitised Watkins spline is a parameter. -/

open Real

noncomputable section

namespace Verif.Separator

/-- feet to metres (constants.py:111) -/
def foot : ℝ := (Const.foot : ℚ)
/-- psi to Pa (constants.py:133) -/
def psi : ℝ := (Const.psi : ℚ)

/-- the curve fits of `K_separator_Watkins` (separator.py:150-170); `spline` is the value of `splev(·, tck_Watkins)` -/
def watkinsCurve (spline : ℝ → ℝ) (factor : ℝ) (method : String) : Py ℝ :=
  if method = "spline" then do
    let X : ℝ ← plog factor
    pure (exp (spline X))
  else if method = "blackwell" then do
    let X : ℝ ← plog factor
    pure (exp (-1.877478097 + X * (-0.81145804597 + X * (-0.1870744085 + X * (-0.0145228667 + -0.00101148518 * X)))))
  else if method = "branan" then do
    let X : ℝ ← plog factor
    pure (exp (-1.942936 + X * (-0.814894 + X * (-0.179390 + X * (-0.0123790 + X * (0.000386235 + 0.000259550 * X))))))
  else .error .valueError

/-- `K_separator_Watkins` (separator.py:149-174) -/
def K_separator_Watkins (spline : ℝ → ℝ) (x rhol rhog : ℝ) (horizontal : Bool := false) (method : String := "spline") : Py ℝ := do
  let t : ℝ ← (1 - x) /ₚ x
  let q : ℝ ← rhog /ₚ rhol
  let s : ℝ ← psqrt q
  let K : ℝ ← watkinsCurve spline (t * s) method
  let K2 : ℝ := K * foot
  pure (if horizontal then K2 * 1.25 else K2)

/-- the correlation of `K_separator_demister_York` in psia and ft/s (separator.py:233-245) -/
def yorkFt (P : ℝ) : Py ℝ :=
  if P < 15 then do
    let P' : ℝ := if P < 1 then 1 else P
    let l : ℝ ← plog P'
    pure (0.1821 + 0.0029 * P' + 0.0460 * l)
  else if P < 40 then pure 0.35
  else do
    let P' : ℝ := if P > 5500 then 5500 else P
    let l : ℝ ← plog P'
    pure (0.430 - 0.023 * l)

/-- `K_separator_demister_York` (separator.py:232-251) -/
def K_separator_demister_York (P : ℝ) (horizontal : Bool := false) : Py ℝ := do
  let Pp : ℝ ← P /ₚ psi
  let K : ℝ ← yorkFt Pp
  let K2 : ℝ := K * foot
  pure (if horizontal then K2 * 1.25 else K2)

/-- `v_Souders_Brown` (separator.py:311) -/
def v_Souders_Brown (K rhol rhog : ℝ) : Py ℝ := do
  let q : ℝ ← (rhol - rhog) /ₚ rhog
  let s : ℝ ← psqrt q
  pure (K * s)

/-- `K_Souders_Brown_theoretical` (separator.py:385) -/
def K_Souders_Brown_theoretical (D Cd : ℝ) (g : ℝ := 9.80665) : Py ℝ := do
  let q : ℝ ← (4.0 / 3.0) * g * D /ₚ Cd
  psqrt q

end Verif.Separator
