import Verif.Model.Compressible
import Verif.Model.Sequences

/-!
# Model of the relief valve sizing functions of `fluids/safety_valve.py`

The two superheat tables, interpolated by FITPACK splines, are a parameter `SH`.
-/

namespace Verif.Safety
open Real
open Verif.Compressible (is_critical_flow)
open Verif.Seq (interp)

noncomputable section

/-- constants/constants.py:129: fluids/constants `atm` -/
def atm : ℝ := 101325

/-- safety_valve.py:905 -/
def rho0 : ℝ := 999.0107539518483

/-- safety_valve.py:507-510 -/
def Kb_16_over_x : List ℝ := [
  37.6478, 38.1735, 38.6991, 39.2904, 39.8817, 40.4731, 40.9987, 41.59, 42.1156, 42.707, 43.2326, 43.8239, 44.4152,
  44.9409, 45.5322, 46.0578, 46.6491, 47.2405, 47.7661, 48.3574, 48.883, 49.4744, 50]

/-- safety_valve.py:511-514 -/
def Kb_16_over_y : List ℝ := [
  0.998106, 0.994318, 0.99053, 0.985795, 0.982008, 0.97822, 0.973485, 0.96875, 0.964962, 0.961174, 0.956439, 0.951705,
  0.947917, 0.943182, 0.939394, 0.935606, 0.930871, 0.926136, 0.921402, 0.918561, 0.913826, 0.910038, 0.90625]

/-- safety_valve.py:516-522 -/
def Kb_10_over_x : List ℝ := [
  30.0263, 30.6176, 31.1432, 31.6689, 32.1945, 32.6544, 33.18, 33.7057, 34.1656, 34.6255, 35.0854, 35.5453, 36.0053,
  36.4652, 36.9251, 37.385, 37.8449, 38.2392, 38.6334, 39.0276, 39.4875, 39.9474, 40.4074, 40.8016, 41.1958, 41.59,
  42.0499, 42.4442, 42.8384, 43.2326, 43.6925, 44.0867, 44.4809, 44.8752, 45.2694, 45.6636, 46.0578, 46.452, 46.8463,
  47.2405, 47.6347, 48.0289, 48.4231, 48.883, 49.2773, 49.6715]

/-- safety_valve.py:523-530 -/
def Kb_10_over_y : List ℝ := [
  0.998106, 0.995265, 0.99053, 0.985795, 0.981061, 0.975379, 0.969697, 0.963068, 0.957386, 0.950758, 0.945076, 0.938447,
  0.930871, 0.925189, 0.918561, 0.910985, 0.904356, 0.897727, 0.891098, 0.883523, 0.876894, 0.870265, 0.862689, 0.856061,
  0.848485, 0.840909, 0.83428, 0.827652, 0.820076, 0.8125, 0.805871, 0.798295, 0.79072, 0.783144, 0.775568, 0.768939,
  0.762311, 0.754735, 0.747159, 0.739583, 0.732008, 0.724432, 0.716856, 0.70928, 0.701705, 0.695076]

/-- safety_valve.py:840-846 -/
def Kw_x : List ℝ := [
  15, 16.5493, 17.3367, 18.124, 18.8235, 19.5231, 20.1351, 20.8344, 21.4463, 22.0581, 22.9321, 23.5439, 24.1556, 24.7674,
  25.0296, 25.6414, 26.2533, 26.8651, 27.7393, 28.3511, 28.9629, 29.6623, 29.9245, 30.5363, 31.2357, 31.8475, 32.7217,
  33.3336, 34.0329, 34.6448, 34.8196, 35.4315, 36.1308, 36.7428, 37.7042, 38.3162, 39.0154, 39.7148, 40.3266, 40.9384,
  41.6378, 42.7742, 43.386, 43.9978, 44.6098, 45.2216, 45.921, 46.5329, 47.7567, 48.3685, 49.0679, 49.6797, 50]

/-- safety_valve.py:847-854 -/
def Kw_y : List ℝ := [
  1, 0.996283, 0.992565, 0.987918, 0.982342, 0.976766, 0.97119, 0.964684, 0.958178, 0.951673, 0.942379, 0.935874, 0.928439,
  0.921933, 0.919145, 0.912639, 0.906134, 0.899628, 0.891264, 0.884758, 0.878253, 0.871747, 0.868959, 0.862454, 0.855948,
  0.849442, 0.841078, 0.834572, 0.828067, 0.821561, 0.819703, 0.814126, 0.806691, 0.801115, 0.790892, 0.785316, 0.777881,
  0.771375, 0.76487, 0.758364, 0.751859, 0.740706, 0.734201, 0.727695, 0.722119, 0.715613, 0.709108, 0.702602, 0.69052,
  0.684015, 0.677509, 0.671004, 0.666357]

/-- safety_valve.py:183-187 `API520_C` -/
def API520_C (k : ℝ) : Py ℝ :=
  if k ≠ 1 then do
    let kp1 : ℝ := k + 1
    let b ← 2 /ₚ kp1
    let e ← kp1 /ₚ (k - 1)
    let p ← b ^ₚ e
    let s ← psqrt (k * p)
    return 0.03948 * s
  else .ok 0.023945830445454768

/-- safety_valve.py:233-234 `API520_F2` -/
def API520_F2 (k P1 P2 : ℝ) : Py ℝ := do
  let r ← P2 /ₚ P1
  let a ← k /ₚ (k - 1)
  let e1 ← 2 /ₚ k
  let p1 ← r ^ₚ e1
  let e2 ← (k - 1) /ₚ k
  let p2 ← r ^ₚ e2
  let q ← (1 - p2) /ₚ (1 - r)
  psqrt (a * p1 * q)

/-- safety_valve.py:274-279 `API520_N` -/
def API520_N (P1 : ℝ) : Py ℝ :=
  let P1 := P1 * 1e-3
  if P1 ≤ 10339 then .ok 1 else (0.02764 * P1 - 1000) /ₚ (0.03324 * P1 - 1061)

/-- safety_valve.py:486-502 `API520_SH`; `SH7`, `SH10` stand for the two spline surfaces. -/
def API520_SH (SH7 SH10 : ℝ → ℝ → ℝ) (T1 P1 : ℝ) (edition : String) : Py ℝ :=
  if T1 > 922.15 then .error .valueError
  else if edition = "7E" then
    if P1 > 20780325 then .error .valueError
    else if T1 < 422.15 then .ok 1
    else .ok (SH7 T1 P1)
  else if edition = "10E" then
    if T1 < 478.15 then .ok 1
    else if P1 > 22063223.338138755 then .error .valueError
    else .ok (SH10 T1 P1)
  else .error .valueError

/-- safety_valve.py:572-585 `API520_B` -/
def API520_B (Pset Pback overpressure : ℝ) : Py ℝ := do
  let g ← (Pback - atm) /ₚ (Pset - atm)
  let gauge_backpressure : ℝ := g * 100
  if ¬ (overpressure = 0.1 ∨ overpressure = 0.16 ∨ overpressure = 0.21) then .error .valueError
  else if (overpressure = 0.1 ∧ gauge_backpressure < 30) ∨ (overpressure = 0.16 ∧ gauge_backpressure < 38) ∨
      (overpressure = 0.21 ∧ gauge_backpressure ≤ 50) then .ok 1
  else if gauge_backpressure > 50 then .error .valueError
  else if overpressure = 0.16 then interp gauge_backpressure Kb_16_over_x Kb_16_over_y none none false
  else if overpressure = 0.1 then interp gauge_backpressure Kb_10_over_x Kb_10_over_y none none false
  else .error .unboundLocalError

/-- safety_valve.py:663-671 `API520_A_g` -/
def API520_A_g (m T Z MW k P1 P2 Kd Kb Kc : ℝ) : Py ℝ := do
  let P1 : ℝ := P1 * 1e-3
  let P2 : ℝ := P2 * 1e-3
  let m : ℝ := m * 3600
  let crit ← is_critical_flow P1 P2 k
  let A ← (if crit then do
      let C ← API520_C k
      let a ← m /ₚ (C * Kd * Kb * Kc * P1)
      let q ← T * Z /ₚ MW
      let s ← psqrt q
      return a * s
    else do
      let F2 ← API520_F2 k P1 P2
      let a ← 17.9 * m /ₚ (F2 * Kd * Kc)
      let q ← T * Z /ₚ (MW * P1 * (P1 - P2))
      let s ← psqrt q
      return a * s : Py ℝ)
  return A * 1e-6

/-- safety_valve.py:732-737 `API520_A_steam` -/
def API520_A_steam (SH7 SH10 : ℝ → ℝ → ℝ) (m T P1 Kd Kb Kc : ℝ) (edition : String) : Py ℝ := do
  let KN ← API520_N P1
  let KSH ← API520_SH SH7 SH10 T P1 edition
  let P1 : ℝ := P1 * 1e-3
  let m : ℝ := m * 3600
  let A ← 190.5 * m /ₚ (P1 * Kd * Kb * Kc * KN * KSH)
  return A * 1e-6

/-- safety_valve.py:827-835 `API520_Kv` -/
def API520_Kv (Re : ℝ) (edition : String) : Py ℝ :=
  if edition = "7E" then do
    let s ← psqrt Re
    let a ← 2.878 /ₚ s
    let b ← 342.75 /ₚ (Re * s)
    let factor ← 1 /ₚ (0.9935 + a + b)
    return if factor > 1 then 1 else factor
  else if edition = "10E" then do
    let a ← 170 /ₚ Re
    let s ← psqrt (a + 1)
    1 /ₚ s
  else .error .valueError

/-- safety_valve.py:898-901 `API520_W` -/
def API520_W (Pset Pback : ℝ) : Py ℝ := do
  let g ← (Pback - atm) /ₚ (Pset - atm)
  let gauge_backpressure : ℝ := g * 100
  if gauge_backpressure < 15 then .ok 1
  else interp gauge_backpressure Kw_x Kw_y none none false

/-- safety_valve.py:1087-1091: the final formula of `API520_A_l` (the only part executed by its recursive call) -/
def areaLiquid (m rho P1 P2 Kd Kc Kw Kv : ℝ) : Py ℝ := do
  let G1 ← rho /ₚ rho0
  let Q0 ← m /ₚ rho
  let Q : ℝ := Q0 * 60000
  let P1 : ℝ := P1 * 1e-3
  let P2 : ℝ := P2 * 1e-3
  let g ← G1 /ₚ (P1 - P2)
  let s ← psqrt g
  let A ← 11.78 * Q * s /ₚ (Kd * Kw * Kc * Kv)
  return A * 1e-6

/-- safety_valve.py:1073-1091 `API520_A_l`: with no `Kv` and no viscosity `Kv` stays `None` and the product raises TypeError. The recursive
call of line 1082 passes `Kw` and `Kv = 1`, so it only evaluates the final formula. -/
def API520_A_l (m rho P1 P2 overpressure Kd Kc : ℝ) (Kw Kv : Option ℝ) (edition : String) (mu : Option ℝ) : Py ℝ := do
  let _ ← rho /ₚ rho0
  let Q0 ← m /ₚ rho
  let g ← (P1 - atm) /ₚ (1 + overpressure)
  let P_set : ℝ := g + atm
  let Kw ← (match Kw with
    | some Kw => .ok Kw
    | none => API520_W P_set P2 : Py ℝ)
  match Kv with
  | some Kv => areaLiquid m rho P1 P2 Kd Kc Kw Kv
  | none => match mu with
    | none => do
      let G1 ← rho /ₚ rho0
      let q ← G1 /ₚ (P1 * 1e-3 - P2 * 1e-3)
      let _ ← psqrt q
      .error .typeError
    | some mu => do
      let A0 ← areaLiquid m rho P1 P2 Kd Kc Kw 1
      let D ← psqrt (A0 * 4 / π)
      let v ← Q0 * 60000 / 60000 /ₚ A0
      let Re ← rho * v * D /ₚ mu
      let Kv ← API520_Kv Re edition
      areaLiquid m rho P1 P2 Kd Kc Kw Kv

/-- safety_valve.py:1118-1131 `API521_noise_graph` -/
def API521_noise_graph (P_ratio : ℝ) : Py ℝ := do
  let P_ratio : ℝ := if P_ratio < 1 then 1 else P_ratio
  let lgX ← plog10 P_ratio
  let lower_value : ℝ := 87.9084 * lgX + 12.7647
  let higher_value : ℝ := 4.8239 * lgX + 51.6217
  if P_ratio < 2.92 then return lower_value
  else if P_ratio < 2.93 then interp P_ratio [2.92, 2.93] [lower_value, higher_value] none none false
  else return higher_value

/-- safety_valve.py:1179-1183 `API521_noise` -/
def API521_noise (m P1 P2 c r : ℝ) : Py ℝ := do
  let P_ratio : ℝ ← P1 /ₚ P2
  let L : ℝ ← API521_noise_graph P_ratio
  let w : ℝ ← plog10 (0.5 * m * c * c)
  let L30 : ℝ := L + 10 * w
  let d : ℝ ← plog10 (r * (1 / 30))
  return L30 - 20 * d

/-- safety_valve.py:1220-1221 `VDI_3732_noise_ground_flare` -/
def VDI_3732_noise_ground_flare (m : ℝ) : Py ℝ := do
  let m : ℝ := m * 360
  let l : ℝ ← plog10 m
  return 100 + 15 * l

/-- safety_valve.py:1256-1257 `VDI_3732_noise_elevated_flare` -/
def VDI_3732_noise_elevated_flare (m : ℝ) : Py ℝ := do
  let m : ℝ := m * 360
  let l : ℝ ← plog10 m
  return 112 + 17 * l

end
end Verif.Safety
