import Verif.Py
import Verif.Model.Core
import Verif.Model.Constants
import Verif.Model.Compressible

/-! Friction in plate exchangers (`fluids/friction.py`), wet gas venturi tubes (`fluids/flow_meter.py`) and a few single formulas of `fluids/pump.py`, `fluids/piping.py` and
`fluids/compressible.py`. -/

namespace Verif.Plates
open Verif Real

noncomputable section

/-- the Martin equation shared by friction.py:3492-3494 and 3577-3581, with the constants as arguments -/
def martin (a b c f0 f1 phi : ℝ) : Py ℝ := do
  let q ← f0 /ₚ Real.cos phi
  let s ← psqrt (b * Real.tan phi + c * Real.sin phi + q)
  let r1 ← Real.cos phi * 1 /ₚ s
  let s2 ← psqrt (a * f1)
  let r2 ← (1 - Real.cos phi) * 1 /ₚ s2
  (r1 + r2) ^ₚ (-2)

/-- friction.py:3485-3490 -/
def martinFactors1999 (Re : ℝ) : Py (ℝ × ℝ) :=
  if Re < 2000 then do
    let f0 ← 16 /ₚ Re
    let f1 ← 149 /ₚ Re
    return (f0, f1 + 0.9625)
  else do
    let l ← plog Re
    let f0 ← (1.56 * l - 3) ^ₚ (-2)
    let p ← Re ^ₚ (-0.289)
    return (f0, 9.75 * p)

/-- friction.py:3411-3495 `friction_plate_Martin_1999` -/
def friction_plate_Martin_1999 (Re chevron_angle : ℝ) : Py ℝ := do
  let phi : ℝ := chevron_angle * (π / 180)
  let f ← martinFactors1999 Re
  let ff ← martin 3.8 0.045 0.09 f.1 f.2 phi
  return ff * 4

/-- friction.py:3570-3575 -/
def martinFactorsVDI (Re : ℝ) : Py (ℝ × ℝ) :=
  if Re < 2000 then do
    let f0 ← 64 /ₚ Re
    let f1 ← 597 /ₚ Re
    return (f0, f1 + 3.85)
  else do
    let l ← plog10 Re
    let f0 ← (1.8 * l - 1.5) ^ₚ (-2)
    let p ← Re ^ₚ (-0.289)
    return (f0, 39 * p)

/-- friction.py:3498-3581 `friction_plate_Martin_VDI` -/
def friction_plate_Martin_VDI (Re chevron_angle : ℝ) : Py ℝ := do
  let phi : ℝ := chevron_angle * (π / 180)
  let f ← martinFactorsVDI Re
  martin 3.8 0.18 0.36 f.1 f.2 phi

/-- friction.py:3583-3604: the rows of the Kumar tables: angle, Reynolds ranges, `C2` and `p` -/
def kumarRows : List (ℚ × List ℚ × List ℚ × List ℚ) := [
  (30, [10, 100], [50, 97 / 5, 299 / 100], [1, 589 / 1000, 183 / 1000]),
  (45, [15, 300], [47, 1829 / 100, 1441 / 1000], [1, 652 / 1000, 206 / 1000]),
  (50, [20, 300], [34, 1125 / 100, 772 / 1000], [1, 631 / 1000, 161 / 1000]),
  (60, [40, 400], [24, 324 / 100, 76 / 100], [1, 457 / 1000, 215 / 1000]),
  (65, [50, 500], [24, 28 / 10, 639 / 1000], [1, 451 / 1000, 213 / 1000])]

/-- friction.py:3674-3679: the first row whose angle is at least the given one, else the last -/
def kumarRow (angle : ℝ) : List (ℚ × List ℚ × List ℚ × List ℚ) → Py (List ℚ × List ℚ × List ℚ)
  | [] => .error .unboundLocalError
  | [r] => .ok r.2
  | r :: rs => if angle ≤ (r.1 : ℝ) then .ok r.2 else kumarRow angle rs

/-- friction.py:3683-3688: the constants of the first range not exceeded, else the last of the row -/
def kumarPick (Re : ℝ) : List ℚ → List ℚ → List ℚ → Py (ℚ × ℚ)
  | [], _, _ => .error .unboundLocalError
  | [R], c :: cs, p :: ps => if Re ≤ (R : ℝ) then .ok (c, p) else .ok ((c :: cs).getLastD 0, (p :: ps).getLastD 0)
  | R :: Rs, c :: cs, p :: ps => if Re ≤ (R : ℝ) then .ok (c, p) else kumarPick Re Rs cs ps
  | _, _, _ => .error .indexError

/-- friction.py:3607-3691 `friction_plate_Kumar` -/
def friction_plate_Kumar (Re chevron_angle : ℝ) : Py ℝ := do
  let r ← kumarRow chevron_angle kumarRows
  let k ← kumarPick Re r.1 r.2.1 r.2.2
  let q ← Re ^ₚ (-(k.2 : ℝ))
  return 4 * (k.1 : ℝ) * q

/-- friction.py:3694-3758 `friction_plate_Muley_Manglik` -/
def friction_plate_Muley_Manglik (Re chevron_angle plate_enlargement_factor : ℝ) : Py ℝ := do
  let beta : ℝ := chevron_angle
  let phi : ℝ := plate_enlargement_factor
  let t1 : ℝ := 2.917 - 0.1277 * beta + 2.016e-3 * beta ^ 2
  let t2 : ℝ := 5.474 - 19.02 * phi + 18.93 * phi ^ 2 - 5.341 * phi ^ 3
  let t3 : ℝ := -(0.2 + 0.0577 * Real.sin (π * beta / 45 + 2.1))
  let p ← Re ^ₚ t3
  return 4 * t1 * t2 * p

/-- flow_meter.py:2168-2169 and 2266-2267: the densimetric gas Froude number -/
def wetFroude (mg rhog rhol D g : ℝ) : Py ℝ := do
  let V ← 4 * mg /ₚ (rhog * π * D * D)
  Core.Froude_densimetric V D rhol rhog false g

/-- flow_meter.py:2180 and 2264: the Lockhart-Martinelli parameter -/
def wetX (ml mg rhog rhol : ℝ) : Py ℝ := do
  let m ← ml /ₚ mg
  let t0 ← rhog /ₚ rhol
  let s ← psqrt t0
  return m * s

/-- flow_meter.py:2174-2179: the exponent and `C_Ch`, which the discharge coefficient does not use -/
def wetCCh (Frg H beta2 rhog rhol : ℝ) : Py ℝ := do
  let h ← -0.8 * Frg /ₚ H
  let n : ℝ := max (0.583 - 0.18 * beta2 - 0.578 * Real.exp h) (0.392 - 0.18 * beta2)
  let t0 ← rhog /ₚ rhol
  let t1 ← t0 ^ₚ n
  let i ← 1 /ₚ t1
  return t1 + i

/-- flow_meter.py:2075-2184 `C_Reader_Harris_Gallagher_wet_venturi_tube`; `g` is constants.py's standard gravity -/
def C_Reader_Harris_Gallagher_wet_venturi_tube (mg ml rhog rhol D Do H g : ℝ) : Py ℝ := do
  let Frg ← wetFroude mg rhog rhol D g
  let beta ← Do /ₚ D
  let beta2 : ℝ := beta * beta
  let sb ← psqrt beta
  let Frt ← Frg /ₚ (beta2 * sb)
  let _ ← wetCCh Frg H beta2 rhog rhol
  let X ← wetX ml mg rhog rhol
  let s ← psqrt (X / 0.016)
  return 1 - 0.0463 * Real.exp (-0.05 * Frt) * min 1 s

/-- flow_meter.py:2187-2274 `dP_Reader_Harris_Gallagher_wet_venturi_tube` -/
def dP_Reader_Harris_Gallagher_wet_venturi_tube (D Do P1 P2 ml mg rhol rhog H g : ℝ) : Py ℝ := do
  let dP : ℝ := P1 - P2
  let beta ← Do /ₚ D
  let X ← wetX ml mg rhog rhol
  let Frg ← wetFroude mg rhog rhol D g
  let x75 ← X ^ₚ 0.75
  let h ← -0.28 * Frg /ₚ H
  let Y_ratio : ℝ := 1 - Real.exp (-35 * x75 * Real.exp h)
  let r ← -11 * rhog /ₚ rhol
  let h2 ← 0.045 * Frg /ₚ H
  let Y_max : ℝ := 0.61 * Real.exp (r - h2)
  let Y : ℝ := Y_max * Y_ratio
  let rhs : ℝ := -0.0896 - 0.48 * beta ^ 9
  return dP * (Y - rhs)

/-- pump.py:105-146 `Corripio_pump_efficiency` -/
def Corripio_pump_efficiency (Q : ℝ) : Py ℝ := do
  let l ← plog (Q * 15850.323)
  return -0.316 + 0.24015 * l - 0.01199 * l * l

/-- pump.py:149-186 `Corripio_motor_efficiency` -/
def Corripio_motor_efficiency (P : ℝ) : Py ℝ := do
  let l ← plog (P / 745.69987)
  return 0.8 + 0.0319 * l - 0.00182 * l * l

/-- piping.py:1060-1112 `erosional_velocity` -/
def erosional_velocity (rho C : ℝ) : Py ℝ := do
  let r : ℝ := rho / ((Const.lb : ℝ) / (Const.foot : ℝ) ^ 3)
  let s ← psqrt r
  let v ← C /ₚ s
  return v * (Const.foot : ℝ)

/-- compressible.py:106-170 `isothermal_work_compression` -/
def isothermal_work_compression (P1 P2 T Z : ℝ) : Py ℝ := do
  let r ← P2 /ₚ P1
  let l ← plog r
  return Z * Compressible.R * T * l

end

end Verif.Plates
