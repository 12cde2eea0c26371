import Verif.Py
import Verif.Model.Sequences
import Mathlib.Analysis.SpecialFunctions.Trigonometric.Inverse

/-!
# Model of `fluids/flow_meter.py`

Python floats are modelled by real numbers; `pi_inv`, `root_two` and `inch_inv` stand for the exact values.  The digitised Hollingshead
surfaces (`bisplev`) are parameters, and so are the root finders of `differential_pressure_meter_solver`.
-/

open Real
open Verif.Seq

noncomputable section

namespace Verif.FlowMeter

/-! flow_meter.py:137-188 meter names -/
/-- flow_meter.py:137 -/
scoped notation "CONCENTRIC_ORIFICE" => "orifice"
/-- flow_meter.py:138 -/
scoped notation "ECCENTRIC_ORIFICE" => "eccentric orifice"
/-- flow_meter.py:139 -/
scoped notation "CONICAL_ORIFICE" => "conical orifice"
/-- flow_meter.py:140 -/
scoped notation "SEGMENTAL_ORIFICE" => "segmental orifice"
/-- flow_meter.py:141 -/
scoped notation "QUARTER_CIRCLE_ORIFICE" => "quarter circle orifice"
/-- flow_meter.py:157 -/
scoped notation "ISO_5167_ORIFICE" => "ISO 5167 orifice"
/-- flow_meter.py:158 -/
scoped notation "ISO_15377_ECCENTRIC_ORIFICE" => "ISO 15377 eccentric orifice"
/-- flow_meter.py:159 -/
scoped notation "ISO_15377_QUARTER_CIRCLE_ORIFICE" => "ISO 15377 quarter-circle orifice"
/-- flow_meter.py:160 -/
scoped notation "ISO_15377_CONICAL_ORIFICE" => "ISO 15377 conical orifice"
/-- flow_meter.py:162 -/
scoped notation "MILLER_ORIFICE" => "Miller orifice"
/-- flow_meter.py:163 -/
scoped notation "MILLER_ECCENTRIC_ORIFICE" => "Miller eccentric orifice"
/-- flow_meter.py:164 -/
scoped notation "MILLER_SEGMENTAL_ORIFICE" => "Miller segmental orifice"
/-- flow_meter.py:165 -/
scoped notation "MILLER_CONICAL_ORIFICE" => "Miller conical orifice"
/-- flow_meter.py:166 -/
scoped notation "MILLER_QUARTER_CIRCLE_ORIFICE" => "Miller quarter circle orifice"
/-- flow_meter.py:168 -/
scoped notation "UNSPECIFIED_METER" => "unspecified meter"
/-- flow_meter.py:171 -/
scoped notation "LONG_RADIUS_NOZZLE" => "long radius nozzle"
/-- flow_meter.py:172 -/
scoped notation "ISA_1932_NOZZLE" => "ISA 1932 nozzle"
/-- flow_meter.py:173 -/
scoped notation "VENTURI_NOZZLE" => "venturi nozzle"
/-- flow_meter.py:175 -/
scoped notation "AS_CAST_VENTURI_TUBE" => "as cast convergent venturi tube"
/-- flow_meter.py:176 -/
scoped notation "MACHINED_CONVERGENT_VENTURI_TUBE" => "machined convergent venturi tube"
/-- flow_meter.py:177 -/
scoped notation "ROUGH_WELDED_CONVERGENT_VENTURI_TUBE" => "rough welded convergent venturi tube"
/-- flow_meter.py:180 -/
scoped notation "HOLLINGSHEAD_ORIFICE" => "Hollingshead orifice"
/-- flow_meter.py:181 -/
scoped notation "HOLLINGSHEAD_VENTURI_SMOOTH" => "Hollingshead venturi smooth"
/-- flow_meter.py:182 -/
scoped notation "HOLLINGSHEAD_VENTURI_SHARP" => "Hollingshead venturi sharp"
/-- flow_meter.py:183 -/
scoped notation "HOLLINGSHEAD_CONE" => "Hollingshead v cone"
/-- flow_meter.py:184 -/
scoped notation "HOLLINGSHEAD_WEDGE" => "Hollingshead wedge"
/-- flow_meter.py:187 -/
scoped notation "CONE_METER" => "cone meter"
/-- flow_meter.py:188 -/
scoped notation "WEDGE_METER" => "wedge meter"

/-- flow_meter.py:2390-2406 `beta_simple_meters` -/
abbrev beta_simple_meters : List String := [ISO_5167_ORIFICE, ISO_15377_ECCENTRIC_ORIFICE, ISO_15377_CONICAL_ORIFICE,
  ISO_15377_QUARTER_CIRCLE_ORIFICE, MILLER_ORIFICE, MILLER_ECCENTRIC_ORIFICE, MILLER_SEGMENTAL_ORIFICE, MILLER_CONICAL_ORIFICE,
  MILLER_QUARTER_CIRCLE_ORIFICE, CONCENTRIC_ORIFICE, ECCENTRIC_ORIFICE, CONICAL_ORIFICE, SEGMENTAL_ORIFICE, QUARTER_CIRCLE_ORIFICE,
  UNSPECIFIED_METER, HOLLINGSHEAD_VENTURI_SHARP, HOLLINGSHEAD_VENTURI_SMOOTH, HOLLINGSHEAD_ORIFICE, LONG_RADIUS_NOZZLE, ISA_1932_NOZZLE,
  VENTURI_NOZZLE, AS_CAST_VENTURI_TUBE, MACHINED_CONVERGENT_VENTURI_TUBE, ROUGH_WELDED_CONVERGENT_VENTURI_TUBE]

/-- flow_meter.py:2408 `all_meters` -/
abbrev all_meters : List String := beta_simple_meters ++ [CONE_METER, WEDGE_METER, HOLLINGSHEAD_CONE, HOLLINGSHEAD_WEDGE]

/-- flow_meter.py:1750-1751 `diameter_ratio_cone_meter` -/
def diameter_ratio_cone_meter (D Dc : ℝ) : Py ℝ := do
  let D_ratio ← Dc /ₚ D
  psqrt (1 - D_ratio * D_ratio)

/-- flow_meter.py:1897-1903 `diameter_ratio_wedge_meter` -/
def diameter_ratio_wedge_meter (D H : ℝ) : Py ℝ := do
  let H_D ← H /ₚ D
  let t0 : ℝ := 1 - 2 * H_D
  let t1 ← pacos t0
  let t2 : ℝ := t0 + t0
  let t3 ← psqrt (H_D - H_D * H_D)
  let t4 : ℝ := t1 - t2 * t3
  psqrt (1 / π * t4)

/-- flow_meter.py:2450-2458 `differential_pressure_meter_beta` -/
def differential_pressure_meter_beta (D D2 : ℝ) (meter_type : String) : Py ℝ :=
  if meter_type ∈ beta_simple_meters then D2 /ₚ D
  else if meter_type ∈ [CONE_METER, HOLLINGSHEAD_CONE] then diameter_ratio_cone_meter D D2
  else if meter_type ∈ [WEDGE_METER, HOLLINGSHEAD_WEDGE] then diameter_ratio_wedge_meter D D2
  else .error .valueError

/-- flow_meter.py:297-300 `flow_meter_discharge` -/
def flow_meter_discharge (D Do P1 P2 rho C expansibility : ℝ) (meter_type : String) : Py ℝ := do
  let beta ← differential_pressure_meter_beta D Do meter_type
  let beta2 : ℝ := beta * beta
  let D_beta : ℝ := D * beta
  let q ← 2 * rho * (P1 - P2) /ₚ (1 - beta2 * beta2)
  let s ← psqrt q
  return 0.25 * π * D_beta * D_beta * C * expansibility * s

/-- flow_meter.py:355-359 `orifice_expansibility` -/
def orifice_expansibility (D Do P1 P2 k : ℝ) : Py ℝ := do
  let beta ← Do /ₚ D
  let beta2 : ℝ := beta * beta
  let beta4 : ℝ := beta2 * beta2
  let r ← P2 /ₚ P1
  let e ← 1 /ₚ k
  let p ← r ^ₚ e
  return 1 - (0.351 + beta4 * (0.93 * beta4 + 0.256)) * (1 - p)

/-- flow_meter.py:423-426 `orifice_expansibility_1989` -/
def orifice_expansibility_1989 (D Do P1 P2 k : ℝ) : Py ℝ := do
  let b ← Do /ₚ D
  let b2 : ℝ := b * b
  let b4 : ℝ := b2 * b2
  let q ← (0.41 + 0.35 * b4) * (P1 - P2) /ₚ (k * P1)
  return 1 - q

/-- flow_meter.py:1426-1427: the diameter ratio of `nozzle_expansibility` -/
def nozzleBeta (D Do : ℝ) (beta : Option ℝ) : Py ℝ :=
  match beta with
  | none => Do /ₚ D
  | some b => .ok b

/-- flow_meter.py:1426-1463 `nozzle_expansibility` -/
def nozzle_expansibility (D Do P1 P2 k : ℝ) (beta : Option ℝ) : Py ℝ := do
  let beta ← nozzleBeta D Do beta
  let beta2 : ℝ := beta * beta
  let beta4 : ℝ := beta2 * beta2
  let tau ← P2 /ₚ P1
  if k = 1 then do
    let l ← plog tau
    let limit_val ← P1 * P2 ^ 2 * (-(D ^ 4) + Do ^ 4) * l /ₚ (D ^ 4 * P1 ^ 3 - D ^ 4 * P1 ^ 2 * P2 - Do ^ 4 * P1 * P2 ^ 2 + Do ^ 4 * P2 ^ 3)
    psqrt limit_val
  else do
    let e ← 2 /ₚ k
    let p ← tau ^ₚ e
    let term1 ← k * p /ₚ (k - 1)
    let term2 ← (1 - beta4) /ₚ (1 - beta4 * p)
    let term3 ← (if tau = 1 then (k - 1) /ₚ k
      else do
        let e' ← -1 /ₚ k
        let p' ← tau ^ₚ e'
        (P1 - P2 * p') /ₚ (P1 - P2) : Py ℝ)
    psqrt (term1 * term2 * term3)

/-- flow_meter.py:1803-1807 `cone_meter_expansibility_Stewart` -/
def cone_meter_expansibility_Stewart (D Dc P1 P2 k : ℝ) : Py ℝ := do
  let dP : ℝ := P1 - P2
  let b ← diameter_ratio_cone_meter D Dc
  let b2 : ℝ := b * b
  let b4 : ℝ := b2 * b2
  let q ← (0.649 + 0.696 * b4) * dP /ₚ (k * P1)
  return 1 - q

/-- the pipe Reynolds number as computed by every correlation (e.g. flow_meter.py:545-547) -/
def pipeRe (D rho mu m : ℝ) : Py ℝ := do
  let A_pipe : ℝ := 0.25 * π * D * D
  let v ← m /ₚ (A_pipe * rho)
  rho * v * D /ₚ mu

/-- flow_meter.py:551-559: tap distances of `C_Reader_Harris_Gallagher` -/
def tapLengths (D : ℝ) (taps : String) : Py (ℝ × ℝ) :=
  if taps = "corner" then .ok (0, 0)
  else if taps = "flange" then do
    let L ← 0.0254 /ₚ D
    return (L, L)
  else if taps ∈ ["D", "D/2", "D and D/2"] then .ok (1, 0.47)
  else .error .valueError

/-- flow_meter.py:545-608 `C_Reader_Harris_Gallagher` -/
def C_Reader_Harris_Gallagher (D Do rho mu m : ℝ) (taps : String) : Py ℝ := do
  let Re_D ← pipeRe D rho mu m
  let Re_D_inv ← 1 /ₚ Re_D
  let beta ← Do /ₚ D
  let (L1, L2_prime) ← tapLengths D taps
  let beta2 : ℝ := beta * beta
  let beta4 : ℝ := beta2 * beta2
  let beta8 : ℝ := beta4 * beta4
  let t6 ← (beta * Re_D_inv) ^ₚ 0.8
  let A : ℝ := 2648.5177066967326 * t6
  let M2_prime ← 2 * L2_prime /ₚ (1 - beta)
  let expnL1 : ℝ := Real.exp (-L1)
  let expnL2 : ℝ := expnL1 * expnL1
  let expnL3 : ℝ := expnL1 * expnL2
  let delta_C_upstream ← (0.043 + expnL3 * expnL2 * expnL2 * (0.080 * expnL3 - 0.123)) * (1 - 0.11 * A) * beta4 /ₚ (1 - beta4)
  let t1' ← plog10 (3700 * Re_D_inv)
  let t1 : ℝ := if t1' < 0 then 0 else t1'
  let t10 ← M2_prime ^ₚ 1.1
  let t11 ← beta ^ₚ 1.3
  let delta_C_downstream : ℝ := -0.031 * (M2_prime - 0.8 * t10) * t11 * (1 + 8 * t1)
  let t12 ← Re_D_inv ^ₚ 0.3
  let x1 : ℝ := 63.095734448019314 * t12
  let x2 : ℝ := 22.7 - 0.0047 * Re_D
  let t2 : ℝ := max x2 x1
  let t13 ← (1e6 * beta * Re_D_inv) ^ₚ 0.7
  let t14 ← psqrt beta
  let C_inf_C_s : ℝ := 0.5961 + 0.0261 * beta2 - 0.216 * beta8 + 0.000521 * t13 + (0.0188 + 0.0063 * A) * beta2 * beta * t14 * t2
  let C : ℝ := C_inf_C_s + delta_C_upstream + delta_C_downstream
  if D < 0.07112 then
    return C + 0.011 * (0.75 - beta) * (2.8 - D / 0.0254)
  else return C

/-- flow_meter.py:846-924: the coefficients `(b, n, C_inf)` of `C_Miller_1996` -/
def millerCoefs (D Re beta beta21 : ℝ) (subtype : String) (taps tap_position : Option String) : Py (ℝ × ℝ × ℝ) :=
  let D_mm : ℝ := D * 1000
  let beta2 : ℝ := beta * beta
  let beta3 : ℝ := beta2 * beta
  let beta4 : ℝ := beta * beta3
  let beta8 : ℝ := beta4 * beta4
  if subtype ∈ [MILLER_ORIFICE, CONCENTRIC_ORIFICE] then do
    let t5 ← psqrt beta
    let b : ℝ := 91.706 * beta2 * t5
    if taps = some "corner" then .ok (b, 0.75, 0.5959 + 0.0312 * beta21 - 0.184 * beta8)
    else if taps = some "flange" then
      if D_mm ≥ 58.4 then do
        let t6 ← 2.286 * beta4 /ₚ (D_mm * (1 - beta4))
        let t7 ← 0.856 * beta3 /ₚ D_mm
        .ok (b, 0.75, 0.5959 + 0.0312 * beta21 - 0.184 * beta8 + t6 - t7)
      else do
        let t8 ← 0.039 * beta4 /ₚ (1 - beta4)
        let t9 ← 0.856 * beta3 /ₚ D_mm
        .ok (b, 0.75, 0.5959 + 0.0312 * beta21 - 0.184 * beta8 + t8 - t9)
    else if taps = some "D and D/2" then do
      let t10 ← 0.039 * beta4 /ₚ (1 - beta4)
      .ok (b, 0.75, 0.5959 + 0.0312 * beta21 - 0.184 * beta8 + t10 - 0.01584)
    else if taps = some "pipe" then do
      let t11 ← 0.039 * beta4 /ₚ (1 - beta4)
      .ok (b, 0.75, 0.5959 + 0.461 * beta21 + 0.48 * beta8 + t11)
    else .error .valueError
  else if subtype ∈ [MILLER_ECCENTRIC_ORIFICE, ECCENTRIC_ORIFICE] then
    if tap_position ∉ [some "180 degree", some "90 degree"] then .error .valueError
    else if taps = some "flange" then
      if tap_position = some "180 degree" then
        if D < 0.1 then do
          let t ← 0.1019 * beta4 /ₚ (1 - beta4)
          .ok (7.3 - 15.7 * beta + 170.8 * beta2 - 399.7 * beta3 + 332.2 * beta4, 0.75,
            0.5917 + 0.3061 * beta21 + 0.3406 * beta8 - t - 0.2715 * beta3)
        else do
          let t ← 0.6510 * beta4 /ₚ (1 - beta4)
          .ok (-139.7 + 1328.8 * beta - 4228.2 * beta2 + 5691.9 * beta3 - 2710.4 * beta4, 0.75,
            0.6016 + 0.3312 * beta21 - 1.5581 * beta8 + t - 0.7308 * beta3)
      else
        if D < 0.1 then do
          let t ← 0.2273 * beta4 /ₚ (1 - beta4)
          .ok (69.1 - 469.4 * beta + 1245.6 * beta2 - 1287.5 * beta3 + 486.2 * beta4, 0.75,
            0.5866 + 0.3917 * beta21 + 0.7586 * beta8 - t - 0.3343 * beta3)
        else do
          let t ← 0.0244 * beta4 /ₚ (1 - beta4)
          .ok (-103.2 + 898.3 * beta - 2557.3 * beta2 + 2977 * beta3 - 1131.3 * beta4, 0.75,
            0.6037 + 0.1598 * beta21 - 0.2918 * beta8 + t - 0.0790 * beta3)
    else if taps = some "vena contracta" then
      if tap_position = some "180 degree" then
        if D < 0.1 then do
          let t ← 0.1046 * beta4 /ₚ (1 - beta4)
          .ok (23.3 - 207 * beta + 821.5 * beta2 - 1388.6 * beta3 + 900.3 * beta4, 0.75,
            0.5925 + 0.3380 * beta21 + 0.4016 * beta8 - t - 0.3212 * beta3)
        else do
          let t ← 0.0569 * beta4 /ₚ (1 - beta4)
          .ok (55.7 - 471.4 * beta + 1721.8 * beta2 - 2722.6 * beta3 + 1569.4 * beta4, 0.75,
            0.5922 + 0.3932 * beta21 + 0.3412 * beta8 - t - 0.4628 * beta3)
      else
        if D < 0.1 then do
          let t ← 0.1963 * beta4 /ₚ (1 - beta4)
          .ok (-69.3 + 556.9 * beta - 1332.2 * beta2 + 1303.7 * beta3 - 394.8 * beta4, 0.75,
            0.5875 + 0.3813 * beta21 + 0.6898 * beta8 - t - 0.3366 * beta3)
        else do
          let t ← 0.0955 * beta4 /ₚ (1 - beta4)
          .ok (52.8 - 434.2 * beta + 1571.2 * beta2 - 2460.9 * beta3 + 1420.2 * beta4, 0.75,
            0.5949 + 0.4078 * beta21 + 0.0547 * beta8 + t - 0.5608 * beta3)
    else .error .valueError
  else if subtype ∈ [MILLER_SEGMENTAL_ORIFICE, SEGMENTAL_ORIFICE] then
    if taps = some "flange" then
      if D < 0.1 then do
        let t ← 0.2603 * beta4 /ₚ (1 - beta4)
        .ok (0, 0, 0.6284 + 0.1462 * beta21 - 0.8464 * beta8 + t - 0.2886 * beta3)
      else do
        let t ← 0.0934 * beta4 /ₚ (1 - beta4)
        .ok (0, 0, 0.6276 + 0.0828 * beta21 + 0.2739 * beta8 - t - 0.1132 * beta3)
    else if taps = some "vena contracta" then
      if D < 0.1 then do
        let t ← 0.1170 * beta4 /ₚ (1 - beta4)
        .ok (0, 0, 0.6261 + 0.1851 * beta21 - 0.2879 * beta8 + t - 0.2845 * beta3)
      else do
        let t ← 0.0934 * beta4 /ₚ (1 - beta4)
        .ok (0, 0, 0.6276 + 0.0828 * beta21 + 0.2739 * beta8 - t - 0.1132 * beta3)
    else .error .valueError
  else if subtype ∈ [MILLER_CONICAL_ORIFICE, CONICAL_ORIFICE] then
    if 250 * beta ≤ Re ∧ Re ≤ 500 * beta then .ok (0, 0, 0.734) else .ok (0, 0, 0.730)
  else if subtype ∈ [MILLER_QUARTER_CIRCLE_ORIFICE, QUARTER_CIRCLE_ORIFICE] then do
    let t ← 0.0675 * beta4 /ₚ (1 - beta4)
    .ok (0, 0, 0.7746 - 0.1334 * beta21 + 1.4098 * beta8 + t + 0.3865 * beta3)
  else .error .valueError

/-- flow_meter.py:834-926 `C_Miller_1996` -/
def C_Miller_1996 (D Do rho mu m : ℝ) (subtype : String) (taps tap_position : Option String) : Py ℝ := do
  let Re ← pipeRe D rho mu m
  let beta ← Do /ₚ D
  let beta21 ← beta ^ₚ 2.1
  let (b, n, C_inf) ← millerCoefs D Re beta beta21 subtype taps tap_position
  let p ← Re ^ₚ (-n)
  return C_inf + b * p

/-- flow_meter.py:1045-1047 `C_eccentric_orifice_ISO_15377_1998` -/
def C_eccentric_orifice_ISO_15377_1998 (D Do : ℝ) : Py ℝ := do
  let beta ← Do /ₚ D
  return beta * (beta * (3.0428 - 1.7989 * beta) - 1.6889) + 0.9355

/-- flow_meter.py:1106-1108 `C_quarter_circle_orifice_ISO_15377_1998` -/
def C_quarter_circle_orifice_ISO_15377_1998 (D Do : ℝ) : Py ℝ := do
  let beta ← Do /ₚ D
  return beta * (beta * (1.5084 * beta - 1.16158) + 0.3309) + 0.73823

/-- flow_meter.py:1509-1513 `C_long_radius_nozzle` -/
def C_long_radius_nozzle (D Do rho mu m : ℝ) : Py ℝ := do
  let Re_D ← pipeRe D rho mu m
  let beta ← Do /ₚ D
  let s ← psqrt beta
  let q ← 1e6 /ₚ Re_D
  let s' ← psqrt q
  return 0.9965 - 0.00653 * s * s'

/-- flow_meter.py:1560-1566 `C_ISA_1932_nozzle` -/
def C_ISA_1932_nozzle (D Do rho mu m : ℝ) : Py ℝ := do
  let Re_D ← pipeRe D rho mu m
  let beta ← Do /ₚ D
  let t4 ← beta ^ₚ 4.1
  let t5 ← beta ^ₚ 4.15
  let t6 ← 1e6 /ₚ Re_D
  let t7 ← t6 ^ₚ 1.15
  return 0.9900 - 0.2262 * t4 - (0.00175 * beta * beta - 0.0033 * t5) * t7

/-- flow_meter.py:1604-1607 `C_venturi_nozzle` -/
def C_venturi_nozzle (D Do : ℝ) : Py ℝ := do
  let beta ← Do /ₚ D
  let b2 : ℝ := beta * beta
  let b4 : ℝ := b2 * b2
  let s ← psqrt beta
  return 0.9858 - 0.196 * b4 * s

/-- flow_meter.py:2023-2024 `C_wedge_meter_ISO_5167_6_2017` -/
def C_wedge_meter_ISO_5167_6_2017 (D H : ℝ) : Py ℝ := do
  let beta ← diameter_ratio_wedge_meter D H
  return 0.77 - 0.09 * beta

/-- flow_meter.py:1961-1971 `C_wedge_meter_Miller` -/
def C_wedge_meter_Miller (D H : ℝ) : Py ℝ := do
  let b ← diameter_ratio_wedge_meter D H
  let beta : ℝ := b * b
  if D ≤ 0.7 * 0.0254 then return 0.7883 + 0.107 * (1 - beta)
  else if D ≤ 1.4 * 0.0254 then return 0.6143 + 0.718 * (1 - beta)
  else return 0.5433 + 0.2453 * (1 - beta)

/-- flow_meter.py:1153-1157 `discharge_coefficient_to_K` -/
def discharge_coefficient_to_K (D Do C : ℝ) : Py ℝ := do
  let beta ← Do /ₚ D
  let beta2 : ℝ := beta * beta
  let beta4 : ℝ := beta2 * beta2
  let s ← psqrt (1 - beta4 * (1 - C * C))
  let q ← s /ₚ (C * beta2)
  let root_K : ℝ := q - 1
  return root_K * root_K

/-- flow_meter.py:1205-1209 `K_to_discharge_coefficient` -/
def K_to_discharge_coefficient (D Do K : ℝ) : Py ℝ := do
  let beta ← Do /ₚ D
  let beta2 : ℝ := beta * beta
  let beta4 : ℝ := beta2 * beta2
  let root_K ← psqrt K
  let q ← (1 - beta4) /ₚ ((2 * root_K + K) * beta4)
  psqrt q

/-- flow_meter.py:1263-1269 `dP_orifice` -/
def dP_orifice (D Do P1 P2 C : ℝ) : Py ℝ := do
  let beta ← Do /ₚ D
  let beta2 : ℝ := beta * beta
  let beta4 : ℝ := beta2 * beta2
  let dP : ℝ := P1 - P2
  let s ← psqrt (1 - beta4 * (1 - C * C))
  let q ← (s - C * beta2) /ₚ (s + C * beta2)
  return q * dP

/-- flow_meter.py:1304-1307 `velocity_of_approach_factor` -/
def velocity_of_approach_factor (D Do : ℝ) : Py ℝ := do
  let b ← Do /ₚ D
  let b2 : ℝ := b * b
  let b4 : ℝ := b2 * b2
  let s ← psqrt (1 - b4)
  1 /ₚ s

/-- flow_meter.py:1352-1355 `flow_coefficient` -/
def flow_coefficient (D Do C : ℝ) : Py ℝ := do
  let b ← Do /ₚ D
  let b2 : ℝ := b * b
  let b4 : ℝ := b2 * b2
  let s ← psqrt (1 - b4)
  C * 1 /ₚ s

/-- flow_meter.py:1616-1623 -/
def venturi_tube_betas : List ℝ := [0.299160, 0.299470, 0.312390, 0.319010, 0.326580, 0.337290,
  0.342020, 0.347060, 0.359030, 0.365960, 0.372580, 0.384870,
  0.385810, 0.401250, 0.405350, 0.415740, 0.424250, 0.434010,
  0.447880, 0.452590, 0.471810, 0.473090, 0.493540, 0.499240,
  0.516530, 0.523800, 0.537630, 0.548060, 0.556840, 0.573890,
  0.582350, 0.597820, 0.601560, 0.622650, 0.626490, 0.649480,
  0.650990, 0.668700, 0.675870, 0.688550, 0.693180, 0.706180,
  0.713330, 0.723510, 0.749540, 0.749650]
/-- flow_meter.py:1625-1634 -/
def venturi_tube_dP_high : List ℝ := [0.164534, 0.164504, 0.163591, 0.163508, 0.163439,
  0.162652, 0.162224, 0.161866, 0.161238, 0.160786,
  0.160295, 0.159280, 0.159193, 0.157776, 0.157467,
  0.156517, 0.155323, 0.153835, 0.151862, 0.151154,
  0.147840, 0.147613, 0.144052, 0.143050, 0.140107,
  0.138981, 0.136794, 0.134737, 0.132847, 0.129303,
  0.127637, 0.124758, 0.124006, 0.119269, 0.118449,
  0.113605, 0.113269, 0.108995, 0.107109, 0.103688,
  0.102529, 0.099567, 0.097791, 0.095055, 0.087681,
  0.087648]
/-- flow_meter.py:1636-1645 -/
def venturi_tube_dP_low : List ℝ := [0.089232, 0.089218, 0.088671, 0.088435, 0.088206,
  0.087853, 0.087655, 0.087404, 0.086693, 0.086241,
  0.085813, 0.085142, 0.085102, 0.084446, 0.084202,
  0.083301, 0.082470, 0.081650, 0.080582, 0.080213,
  0.078509, 0.078378, 0.075989, 0.075226, 0.072700,
  0.071598, 0.069562, 0.068128, 0.066986, 0.064658,
  0.063298, 0.060872, 0.060378, 0.057879, 0.057403,
  0.054091, 0.053879, 0.051726, 0.050931, 0.049362,
  0.048675, 0.046522, 0.045381, 0.043840, 0.039913,
  0.039896]

/-- flow_meter.py:1705-1709 `dP_venturi_tube` -/
def dP_venturi_tube (D Do P1 P2 : ℝ) : Py ℝ := do
  let beta ← Do /ₚ D
  let epsilon_D65 ← interp beta venturi_tube_betas venturi_tube_dP_high none none false
  let epsilon_D500 ← interp beta venturi_tube_betas venturi_tube_dP_low none none false
  let epsilon ← interp D [0.065, 0.5] [epsilon_D65, epsilon_D500] none none false
  return epsilon * (P1 - P2)

/-- flow_meter.py:1852-1854 `dP_cone_meter` -/
def dP_cone_meter (D Dc P1 P2 : ℝ) : Py ℝ := do
  let dP : ℝ := P1 - P2
  let beta ← diameter_ratio_cone_meter D Dc
  return (1.09 - 0.813 * beta) * dP

/-- flow_meter.py:2070-2072 `dP_wedge_meter` -/
def dP_wedge_meter (D H P1 P2 : ℝ) : Py ℝ := do
  let dP : ℝ := P1 - P2
  let beta ← diameter_ratio_wedge_meter D H
  return (1.09 - 0.79 * beta) * dP

/-- the digitised Hollingshead data: surfaces over `(beta, log Re)` and curves over `log Re` (flow_meter.py:929-1040, 2295-2387) -/
structure Hollingshead where
  orifice : ℝ → ℝ → ℝ
  cone : ℝ → ℝ → ℝ
  wedge : ℝ → ℝ → ℝ
  smooth : ℝ → ℝ
  sharp : ℝ → ℝ

/-- flow_meter.py:2553-2562: generic names stand for a default correlation -/
def translate (meter_type : String) : String :=
  if meter_type = CONCENTRIC_ORIFICE then ISO_5167_ORIFICE
  else if meter_type = ECCENTRIC_ORIFICE then ISO_15377_ECCENTRIC_ORIFICE
  else if meter_type = CONICAL_ORIFICE then ISO_15377_CONICAL_ORIFICE
  else if meter_type = QUARTER_CIRCLE_ORIFICE then ISO_15377_QUARTER_CIRCLE_ORIFICE
  else if meter_type = SEGMENTAL_ORIFICE then MILLER_SEGMENTAL_ORIFICE
  else meter_type

/-- flow_meter.py:2577-2578: average of the two expansibilities -/
def meanExpansibility (D D2 P1 P2 k : ℝ) : Py ℝ := do
  let e1 ← orifice_expansibility D D2 P1 P2 k
  let e2 ← nozzle_expansibility D D2 P1 P2 k none
  return 0.5 * (e1 + e2)

/-- flow_meter.py:2564-2649: the correlation of each meter, `(C, epsilon)`, before the overrides of lines 2650-2653 (for the unspecified meter
`C` is only assigned there). `float(bisplev ...)` and the `extrapolate=True` interpolations are the parameter `H`. -/
def correlation (H : Hollingshead) (D D2 m P1 P2 rho mu k : ℝ) (meter_type : String) (taps tap_position : Option String) (C_specified : Option ℝ) :
    Py (ℝ × ℝ) :=
  if meter_type = ISO_5167_ORIFICE then do
    let C ← C_Reader_Harris_Gallagher D D2 rho mu m (taps.getD "corner")
    let e ← orifice_expansibility D D2 P1 P2 k
    return (C, e)
  else if meter_type = ISO_15377_ECCENTRIC_ORIFICE then do
    let C ← C_eccentric_orifice_ISO_15377_1998 D D2
    let e ← orifice_expansibility D D2 P1 P2 k
    return (C, e)
  else if meter_type = ISO_15377_QUARTER_CIRCLE_ORIFICE then do
    let C ← C_quarter_circle_orifice_ISO_15377_1998 D D2
    let e ← orifice_expansibility D D2 P1 P2 k
    return (C, e)
  else if meter_type = ISO_15377_CONICAL_ORIFICE then do
    let e ← meanExpansibility D D2 P1 P2 k
    return (0.734, e)
  else if meter_type ∈ [MILLER_ORIFICE, MILLER_ECCENTRIC_ORIFICE, MILLER_SEGMENTAL_ORIFICE, MILLER_QUARTER_CIRCLE_ORIFICE] then do
    let C ← C_Miller_1996 D D2 rho mu m meter_type taps tap_position
    let e ← orifice_expansibility D D2 P1 P2 k
    return (C, e)
  else if meter_type = MILLER_CONICAL_ORIFICE then do
    let C ← C_Miller_1996 D D2 rho mu m meter_type taps tap_position
    let e ← meanExpansibility D D2 P1 P2 k
    return (C, e)
  else if meter_type = LONG_RADIUS_NOZZLE then do
    let e ← nozzle_expansibility D D2 P1 P2 k none
    let C ← C_long_radius_nozzle D D2 rho mu m
    return (C, e)
  else if meter_type = ISA_1932_NOZZLE then do
    let e ← nozzle_expansibility D D2 P1 P2 k none
    let C ← C_ISA_1932_nozzle D D2 rho mu m
    return (C, e)
  else if meter_type = VENTURI_NOZZLE then do
    let e ← nozzle_expansibility D D2 P1 P2 k none
    let C ← C_venturi_nozzle D D2
    return (C, e)
  else if meter_type = AS_CAST_VENTURI_TUBE then do
    let e ← nozzle_expansibility D D2 P1 P2 k none
    return (0.984, e)
  else if meter_type = MACHINED_CONVERGENT_VENTURI_TUBE then do
    let e ← nozzle_expansibility D D2 P1 P2 k none
    return (0.995, e)
  else if meter_type = ROUGH_WELDED_CONVERGENT_VENTURI_TUBE then do
    let e ← nozzle_expansibility D D2 P1 P2 k none
    return (0.985, e)
  else if meter_type = CONE_METER then do
    let e ← cone_meter_expansibility_Stewart D D2 P1 P2 k
    return (0.82, e)
  else if meter_type = WEDGE_METER then do
    let beta ← diameter_ratio_wedge_meter D D2
    let e ← nozzle_expansibility D D2 P1 P2 k (some beta)
    let C ← C_wedge_meter_ISO_5167_6_2017 D D2
    return (C, e)
  else if meter_type = HOLLINGSHEAD_ORIFICE then do
    let Re ← pipeRe D rho mu m
    let beta ← D2 /ₚ D
    let l ← plog Re
    let e ← orifice_expansibility D D2 P1 P2 k
    return (H.orifice beta l, e)
  else if meter_type = HOLLINGSHEAD_VENTURI_SMOOTH then do
    let Re ← pipeRe D rho mu m
    let l ← plog Re
    let e ← nozzle_expansibility D D2 P1 P2 k none
    return (H.smooth l, e)
  else if meter_type = HOLLINGSHEAD_VENTURI_SHARP then do
    let Re ← pipeRe D rho mu m
    let l ← plog Re
    let e ← nozzle_expansibility D D2 P1 P2 k none
    return (H.sharp l, e)
  else if meter_type = HOLLINGSHEAD_CONE then do
    let Re ← pipeRe D rho mu m
    let beta ← diameter_ratio_cone_meter D D2
    let l ← plog Re
    let e ← cone_meter_expansibility_Stewart D D2 P1 P2 k
    return (H.cone beta l, e)
  else if meter_type = HOLLINGSHEAD_WEDGE then do
    let Re ← pipeRe D rho mu m
    let beta ← diameter_ratio_wedge_meter D D2
    let l ← plog Re
    let e ← nozzle_expansibility D D2 P1 P2 k (some beta)
    return (H.wedge beta l, e)
  else if meter_type = UNSPECIFIED_METER then do
    let e ← orifice_expansibility D D2 P1 P2 k
    match C_specified with
    | none => .error .valueError
    | some C => .ok (C, e)
  else .error .valueError

/-- flow_meter.py:2552-2654 `differential_pressure_meter_C_epsilon` -/
def differential_pressure_meter_C_epsilon (H : Hollingshead) (D D2 m P1 P2 rho mu k : ℝ) (meter_type : String) (taps tap_position : Option String)
    (C_specified epsilon_specified : Option ℝ) : Py (ℝ × ℝ) := do
  let (C, e) ← correlation H D D2 m P1 P2 rho mu k (translate meter_type) taps tap_position C_specified
  return (C_specified.getD C, epsilon_specified.getD e)

/-- flow_meter.py:2658-2694: the common body of the four residuals: flow minus the flow computed from the meter equation -/
def residual (H : Hollingshead) (D D2 m P1 P2 rho mu k : ℝ) (meter_type : String) (taps tap_position : Option String)
    (C_specified epsilon_specified : Option ℝ) : Py ℝ := do
  let (C, e) ← differential_pressure_meter_C_epsilon H D D2 m P1 P2 rho mu k meter_type taps tap_position C_specified epsilon_specified
  let m_calc ← flow_meter_discharge D D2 P1 P2 rho C e meter_type
  return m - m_calc

/-- The root finders of `differential_pressure_meter_solver`, one per unknown: each stands for the whole `secant`/`brenth` cascade of that
branch (flow_meter.py:2810, 2813-2819, 2822-2828, 2831-2834) applied to the residual. -/
structure Solvers where
  m : (ℝ → Py ℝ) → Py ℝ
  D2 : (ℝ → Py ℝ) → Py ℝ
  P2 : (ℝ → Py ℝ) → Py ℝ
  P1 : (ℝ → Py ℝ) → Py ℝ

/-- flow_meter.py:2795-2836 `differential_pressure_meter_solver`.  The diameter is required; `k = None` without a specified expansibility
makes every residual evaluation raise TypeError.  The flow is solved for as `m/D` and multiplied by `D` at the end.  The initial guess of
line 2804 is not modelled. -/
def differential_pressure_meter_solver (S : Solvers) (H : Hollingshead) (D rho mu : ℝ) (k D2 P1 P2 m : Option ℝ) (meter_type : String)
    (taps tap_position : Option String) (C_specified epsilon_specified : Option ℝ) : Py ℝ :=
  let k : Option ℝ := if k = none ∧ epsilon_specified ≠ none then some 1.4 else k
  let res (D2 m P1 P2 : ℝ) : Py ℝ := match k with
    | none => .error .typeError
    | some k => residual H D D2 m P1 P2 rho mu k meter_type taps tap_position C_specified epsilon_specified
  match m, D2, P1, P2 with
  | none, some D2, some P1, some P2 => do
    let x ← S.m (fun x => res D2 (x * D) P1 P2)
    return x * D
  | some m, none, some P1, some P2 => S.D2 (fun x => res x m P1 P2)
  | some m, some D2, some P1, none => S.P2 (fun x => res D2 m P1 x)
  | some m, some D2, none, some P2 => S.P1 (fun x => res D2 m x P2)
  | _, _, _, _ => .error .valueError

/-- flow_meter.py:2839-2849 `_dP_orifice_set` -/
abbrev dP_orifice_set : List String := [ISO_5167_ORIFICE, ISO_15377_ECCENTRIC_ORIFICE, ISO_15377_CONICAL_ORIFICE,
  ISO_15377_QUARTER_CIRCLE_ORIFICE, MILLER_ORIFICE, MILLER_ECCENTRIC_ORIFICE, MILLER_SEGMENTAL_ORIFICE, MILLER_CONICAL_ORIFICE,
  MILLER_QUARTER_CIRCLE_ORIFICE, HOLLINGSHEAD_ORIFICE, CONCENTRIC_ORIFICE, ECCENTRIC_ORIFICE, CONICAL_ORIFICE, SEGMENTAL_ORIFICE,
  QUARTER_CIRCLE_ORIFICE]

/-- flow_meter.py:2908-2910: an orifice-like pressure loss needs `C` -/
def dP_with_C (D D2 P1 P2 : ℝ) (C : Option ℝ) : Py ℝ :=
  match C with
  | none => .error .valueError
  | some C => dP_orifice D D2 P1 P2 C

/-- flow_meter.py:2907-2931 `differential_pressure_meter_dP` -/
def differential_pressure_meter_dP (D D2 P1 P2 : ℝ) (C : Option ℝ) (meter_type : String) : Py ℝ :=
  if meter_type ∈ dP_orifice_set then dP_with_C D D2 P1 P2 C
  else if meter_type = LONG_RADIUS_NOZZLE then dP_with_C D D2 P1 P2 C
  else if meter_type = ISA_1932_NOZZLE then dP_with_C D D2 P1 P2 C
  else if meter_type = VENTURI_NOZZLE then .error .notImplementedError
  else if meter_type ∈ [AS_CAST_VENTURI_TUBE, MACHINED_CONVERGENT_VENTURI_TUBE, ROUGH_WELDED_CONVERGENT_VENTURI_TUBE,
      HOLLINGSHEAD_VENTURI_SMOOTH, HOLLINGSHEAD_VENTURI_SHARP] then dP_venturi_tube D D2 P1 P2
  else if meter_type ∈ [CONE_METER, HOLLINGSHEAD_CONE] then dP_cone_meter D D2 P1 P2
  else if meter_type ∈ [WEDGE_METER, HOLLINGSHEAD_WEDGE] then dP_wedge_meter D D2 P1 P2
  else .error .valueError

end Verif.FlowMeter
