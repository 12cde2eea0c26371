import Verif.Model.PolyEval
import Verif.Model.Translate

/-! # Model of the linearly extrapolated polynomial fits of `fluids/numerics/__init__.py` -/

namespace Verif.Fits
open Verif.PolyEval
open Verif.Translate (idx)

section Field
variable {K : Type _} [Field K] [LinearOrder K]

/-- numerics/__init__.py:1586-1610 `fit_integral_linear_extrapolation`. -/
def fit_integral_linear_extrapolation (T1 T2 : K) (int_coeffs : List K) (Tmin Tmax Tmin_value Tmax_value Tmin_slope Tmax_slope : K) : K :=
  let flip := decide (T1 > T2)
  let T1' := if flip then T2 else T1
  let T2' := if flip then T1 else T2
  let low := if T1' < Tmin then
      let T2_low := min Tmin T2'
      let x1 := Tmin_value - Tmin_slope * Tmin
      T2_low * (1/2 * Tmin_slope * T2_low + x1) - T1' * (1/2 * Tmin_slope * T1' + x1)
    else 0
  let mid := if (Tmin ≤ T1' ∧ T1' ≤ Tmax) ∨ (Tmin ≤ T2' ∧ T2' ≤ Tmax) ∨ (T1' ≤ Tmin ∧ T2' ≥ Tmax) then
      let T1_mid := max Tmin T1'
      let T2_mid := min Tmax T2'
      horner int_coeffs T2_mid - horner int_coeffs T1_mid
    else 0
  let high := if T2' > Tmax then
      let T1_high := max Tmax T1'
      let x1 := Tmax_value - Tmax_slope * Tmax
      T2' * (1/2 * Tmax_slope * T2' + x1) - T1_high * (1/2 * Tmax_slope * T1_high + x1)
    else 0
  let tot := low + mid + high
  if flip then -tot else tot

/-- numerics/__init__.py:1612-1632 `poly_fit_integral_value`. -/
def poly_fit_integral_value (T : K) (int_coeffs : List K) (Tmin Tmax Tmin_value Tmax_value Tmin_slope Tmax_slope : K) : K :=
  if T < Tmin then
    let x1 := Tmin_value - Tmin_slope * Tmin
    T * (1/2 * Tmin_slope * T + x1)
  else if Tmin ≤ T ∧ T ≤ Tmax then
    let tot1 := horner int_coeffs T - horner int_coeffs Tmin
    let x1 := Tmin_value - Tmin_slope * Tmin
    let tot := Tmin * (1/2 * Tmin_slope * Tmin + x1)
    tot + tot1
  else
    let x1 := Tmin_value - Tmin_slope * Tmin
    let tot := Tmin * (1/2 * Tmin_slope * Tmin + x1)
    let tot1 := horner int_coeffs Tmax - horner int_coeffs Tmin
    let x1 := Tmax_value - Tmax_slope * Tmax
    let tot2 := T * (1/2 * Tmax_slope * T + x1) - Tmax * (1/2 * Tmax_slope * Tmax + x1)
    tot1 + tot + tot2

/-- the `data` argument of `evaluate_linear_fits*`: `data[0]` … `data[8]` (numerics/__init__.py:1690, 1707, 1723) -/
structure FitData (K : Type _) where
  low_limits : List K
  low_slopes : List K
  low_values : List K
  high_limits : List K
  high_slopes : List K
  high_values : List K
  coeffs : List (List K)
  dcoeffs : List (List K)
  d2coeffs : List (List K)

/-- numerics/__init__.py:1688-1702 `evaluate_linear_fits`. -/
def evaluate_linear_fits (data : FitData K) (x : K) : Py (List K) :=
  (List.range data.low_limits.length).mapM fun i => do
    let lo ← idx data.low_limits i
    if x < lo then do
      let s ← idx data.low_slopes i
      let v ← idx data.low_values i
      .ok ((x - lo) * s + v)
    else do
      let hi ← idx data.high_limits i
      if x > hi then do
        let s ← idx data.high_slopes i
        let v ← idx data.high_values i
        .ok ((x - hi) * s + v)
      else do
        let c ← idx data.coeffs i
        .ok (c.foldl (fun v c => v * x + c) 0)

/-- numerics/__init__.py:1705-1718 `evaluate_linear_fits_d`. -/
def evaluate_linear_fits_d (data : FitData K) (x : K) : Py (List K) :=
  (List.range data.low_limits.length).mapM fun i => do
    let lo ← idx data.low_limits i
    if x < lo then idx data.low_slopes i
    else do
      let hi ← idx data.high_limits i
      if x > hi then idx data.high_slopes i
      else do
        let c ← idx data.dcoeffs i
        .ok (c.foldl (fun v c => v * x + c) 0)

/-- numerics/__init__.py:1721-1730 `evaluate_linear_fits_d2`. -/
def evaluate_linear_fits_d2 (data : FitData K) (x : K) : Py (List K) :=
  (List.range data.low_limits.length).mapM fun i => do
    let lo ← idx data.low_limits i
    if lo < x then do
      let hi ← idx data.high_limits i
      if x < hi then do
        let c ← idx data.d2coeffs i
        .ok (c.foldl (fun v c => v * x + c) 0)
      else .ok 0
    else .ok 0

end Field

noncomputable section

/-- numerics/__init__.py:1634-1659 `fit_integral_over_T_linear_extrapolation`. -/
def fit_integral_over_T_linear_extrapolation (T1 T2 : ℝ) (T_int_T_coeffs : List ℝ) (log_coeff Tmin Tmax Tmin_value Tmax_value
    Tmin_slope Tmax_slope : ℝ) : Py ℝ := do
  let flip := decide (T1 > T2)
  let T1' := if flip then T2 else T1
  let T2' := if flip then T1 else T2
  let low ← (if T1' < Tmin then do
      let T2_low := min Tmin T2'
      let x1 := Tmin_value - Tmin_slope * Tmin
      let l2 ← plog T2_low
      let l1 ← plog T1'
      .ok ((Tmin_slope * T2_low + x1 * l2) - (Tmin_slope * T1' + x1 * l1))
    else .ok 0 : Py ℝ)
  let mid ← (if (Tmin ≤ T1' ∧ T1' ≤ Tmax) ∨ (Tmin ≤ T2' ∧ T2' ≤ Tmax) ∨ (T1' ≤ Tmin ∧ T2' ≥ Tmax) then do
      let T1_mid := max Tmin T1'
      let T2_mid := min Tmax T2'
      let h2 ← horner_log T_int_T_coeffs log_coeff T2_mid
      let h1 ← horner_log T_int_T_coeffs log_coeff T1_mid
      .ok (h2 - h1)
    else .ok 0 : Py ℝ)
  let high ← (if T2' > Tmax then do
      let T1_high := max Tmax T1'
      let x1 := Tmax_value - Tmax_slope * Tmax
      let l2 ← plog T2'
      let l1 ← plog T1_high
      .ok ((Tmax_slope * T2' + x1 * l2) - (Tmax_slope * T1_high + x1 * l1))
    else .ok 0 : Py ℝ)
  let tot := low + mid + high
  return if flip then -tot else tot

/-- numerics/__init__.py:1662-1684 `poly_fit_integral_over_T_value`. -/
def poly_fit_integral_over_T_value (T : ℝ) (T_int_T_coeffs : List ℝ) (log_coeff Tmin Tmax Tmin_value Tmax_value
    Tmin_slope Tmax_slope : ℝ) : Py ℝ :=
  if T < Tmin then do
    let x1 := Tmin_value - Tmin_slope * Tmin
    let l ← plog T
    .ok (Tmin_slope * T + x1 * l)
  else if Tmin ≤ T ∧ T ≤ Tmax then do
    let h2 ← horner_log T_int_T_coeffs log_coeff T
    let h1 ← horner_log T_int_T_coeffs log_coeff Tmin
    let tot1 := h2 - h1
    let x1 := Tmin_value - Tmin_slope * Tmin
    let l ← plog Tmin
    let tot := Tmin_slope * Tmin + x1 * l
    .ok (tot + tot1)
  else do
    let x1 := Tmin_value - Tmin_slope * Tmin
    let l ← plog Tmin
    let tot := Tmin_slope * Tmin + x1 * l
    let h2 ← horner_log T_int_T_coeffs log_coeff Tmax
    let h1 ← horner_log T_int_T_coeffs log_coeff Tmin
    let tot1 := h2 - h1
    let x2 := Tmax_value - Tmax * Tmax_slope
    let l2 ← plog T
    let l1 ← plog Tmax
    let tot2 := -Tmax_slope * (Tmax - T) + x2 * l2 - x2 * l1
    .ok (tot1 + tot + tot2)

end
end Verif.Fits
