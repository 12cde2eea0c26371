import Verif.Model.Sequences
import Verif.Py
import Mathlib.Analysis.SpecialFunctions.Pow.Real
import Mathlib.MeasureTheory.Integral.IntervalIntegral.Basic

/-! Model of `ATMOSPHERE_1976` in `fluids/atmosphere.py`.  The decimal constants are exact here. -/

open Real

noncomputable section

namespace Verif.Atmosphere

open Verif.Seq

/-- layer bases (atmosphere.py:67) -/
def H_std : List ℝ := [0.0, 11E3, 20E3, 32E3, 47E3, 51E3, 71E3, 84852.0]
/-- temperature gradients (atmosphere.py:68) -/
def T_grad : List ℝ := [-6.5E-3, 0.0, 1E-3, 2.8E-3, 0.0, -2.8E-3, -2E-3, 0.0]
/-- base temperatures (atmosphere.py:69) -/
def T_std : List ℝ := [288.15, 216.65, 216.65, 228.65, 270.65, 270.65, 214.65, 186.946]
/-- base pressures (atmosphere.py:70-72) -/
def P_std : List ℝ := [101325, 22632.06397346291, 5474.8886696777745, 868.0186847552279, 110.90630555496608, 66.93887311868738, 3.956420428040732, 0.3733835899762159]

/-- atmosphere.py:74-77 -/
def r0 : ℝ := 6356766.0
/-- atmosphere.py:76 -/
def M0 : ℝ := 28.9644
/-- atmosphere.py:77 -/
def g0 : ℝ := 9.80665
/-- the gas constant local to the constructor (atmosphere.py:162) -/
def Rgas : ℝ := 8314.32

/-- the search loop of `_get_ind_from_H` (atmosphere.py:185-188) -/
def indLoop : ℤ → List ℝ → ℝ → ℤ
  | _, [], _ => 7
  | ind, Hi :: rest, H => if Hi ≥ H then ind - 1 else indLoop (ind + 1) rest H

/-- `_get_ind_from_H` (atmosphere.py:178-188) -/
def get_ind_from_H (H : ℝ) : ℤ := if H ≤ 0.0 then 0 else indLoop 0 H_std H

/-- attributes of `ATMOSPHERE_1976` (atmosphere.py:147-175) -/
structure Atm where
  Z : ℝ
  dT : ℝ
  H : ℝ
  T_layer : ℝ
  T_increase : ℝ
  P_layer : ℝ
  H_layer : ℝ
  T : ℝ
  P : ℝ
  rho : ℝ
  v_sonic : ℝ
  mu : ℝ
  k : ℝ
  g : ℝ

/-- `thermal_conductivity` (atmosphere.py:210) -/
def thermal_conductivity (T : ℝ) : Py ℝ := do
  let s : ℝ ← psqrt T
  let e : ℝ ← -27.63102111592855 /ₚ T
  2.64638E-3 * T * s /ₚ (T + 245.4 * exp e)

/-- `viscosity` (atmosphere.py:230) -/
def viscosity (T : ℝ) : Py ℝ := do
  let s : ℝ ← psqrt T
  1.458E-6 * T * s /ₚ (T + 110.4)

/-- `density` (atmosphere.py:254) -/
def density (T P : ℝ) : Py ℝ := P * 0.00348367635597379 /ₚ T

/-- `sonic_velocity` (atmosphere.py:275) -/
def sonic_velocity (T : ℝ) : Py ℝ := psqrt (401.87430086589046 * T)

/-- `gravity` (atmosphere.py:295-296) -/
def gravity (Z : ℝ) : Py ℝ := do
  let x0 : ℝ ← r0 /ₚ (r0 + Z)
  pure (g0 * x0 * x0)

/-- the pressure in a layer (atmosphere.py:162-166) -/
def layerPressure (T_layer T_increase P_layer H_above T : ℝ) : Py ℝ :=
  if T_increase = 0.0 then do
    let e : ℝ ← -g0 * M0 * H_above /ₚ (Rgas * T_layer)
    pure (P_layer * exp e)
  else do
    let q : ℝ ← T_layer /ₚ T
    let n : ℝ ← g0 * M0 /ₚ (Rgas * T_increase)
    let w : ℝ ← q ^ₚ n
    pure (P_layer * w)

/-- the constructor once the layer is known (atmosphere.py:158-175) -/
def atmBuild (Z dT H T_layer T_increase P_layer H_layer : ℝ) : Py Atm := do
  let H_above_layer : ℝ := H - H_layer
  let T0 : ℝ := T_layer + T_increase * H_above_layer
  let P : ℝ ← layerPressure T_layer T_increase P_layer H_above_layer T0
  let T : ℝ := T0 + dT
  let rho : ℝ ← density T P
  let v_sonic : ℝ ← sonic_velocity T
  let mu : ℝ ← viscosity T
  let k : ℝ ← thermal_conductivity T
  let g : ℝ ← gravity Z
  pure ⟨Z, dT, H, T_layer, T_increase, P_layer, H_layer, T, P, rho, v_sonic, mu, k, g⟩

/-- `ATMOSPHERE_1976.__init__` (atmosphere.py:147-175) -/
def ATMOSPHERE_1976 (Z : ℝ) (dT : ℝ := 0) : Py Atm := do
  let H : ℝ ← r0 * Z /ₚ (r0 + Z)
  let i : ℤ := get_ind_from_H H
  let T_layer : ℝ ← pyGet T_std i
  let T_increase : ℝ ← pyGet T_grad i
  let P_layer : ℝ ← pyGet P_std i
  let H_layer : ℝ ← pyGet H_std i
  atmBuild Z dT H T_layer T_increase P_layer H_layer

/-- `H_for_P_ATMOSPHERE_1976_err` (atmosphere.py:80-81) -/
def H_for_P_err (H P1 : ℝ) : Py ℝ := do
  let a ← ATMOSPHERE_1976 H 0.0
  pure (a.P - P1)

/-- `to_int_dP_ATMOSPHERE_1976` (atmosphere.py:83-85) -/
def to_int_dP (Z dT : ℝ) : Py ℝ := do
  let atm ← ATMOSPHERE_1976 Z dT
  pure (atm.g * atm.rho)

/-- the integrand `quad` sees (atmosphere.py:331); 0 where it raises, which `pressure_integral` excludes -/
def dPValue (Z dT : ℝ) : ℝ :=
  match to_int_dP Z dT with
  | .ok v => v
  | .error _ => 0

open Classical in
/-- `pressure_integral` (atmosphere.py:300-331). `secant` is the solver for the elevation (given the error function it answers an elevation or raises); `quad` is the exact integral.
Simplified: if the integrand raises anywhere between the limits the result is a ValueError, whether or not `quad` evaluates it there. -/
def pressure_integral (secant : (ℝ → Py ℝ) → Py ℝ) (T1 P1 dH : ℝ) : Py ℝ := do
  let H_ref : ℝ ← secant (fun H => H_for_P_err H P1)
  let a ← ATMOSPHERE_1976 H_ref 0.0
  let dT : ℝ := T1 - a.T
  if ∀ Z ∈ Set.uIcc H_ref (H_ref + dH), ∃ v, to_int_dP Z dT = .ok v then
    pure (∫ Z in H_ref..(H_ref + dH), dPValue Z dT)
  else .error .valueError

end Verif.Atmosphere
