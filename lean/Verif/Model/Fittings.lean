import Verif.Model.Friction
import Verif.Model.Sequences
import Mathlib.Analysis.SpecialFunctions.Trigonometric.Arctan

/-!
# Model of `fluids/fittings.py`

Digitised charts (`splev`, `bisplev`, `UnivariateSpline`, `RectBivariateSpline` objects, fitted polynomials) are the fields of
`Charts`, arbitrary functions; everything the code computes around them is modelled. Small literal tables used with `interp` are
modelled exactly. `deg2rad`, `radians` and `degrees` are multiplication by π/180 and 180/π.
-/

namespace Verif.Fittings
noncomputable section
open Real
open Verif.Friction
open Verif.Seq (interp)

/-- fittings.py:236-261 `change_K_basis`. -/
def change_K_basis (K1 D1 D2 : ℝ) : Py ℝ := do
  let r ← D2 /ₚ D1
  let r : ℝ := r * r
  return K1 * r * r

/-! ### flow coefficients -/

/-- fittings.py:3411-3454 -/
def Kv_to_Cv (Kv : ℝ) : ℝ := 1.1560992283536566 * Kv
/-- fittings.py:3457-3496 -/
def Cv_to_Kv (Cv : ℝ) : ℝ := Cv / 1.1560992283536566
/-- fittings.py:3499-3547: `1.6E9*D**4*Kv**-2` -/
def Kv_to_K (Kv D : ℝ) : Py ℝ := do
  let t ← 1 /ₚ (Kv ^ 2)
  return 1.6e9 * D ^ 4 * t
/-- fittings.py:3550-3597 -/
def K_to_Kv (K D : ℝ) : Py ℝ := do
  let t1 ← 1.6e9 /ₚ K
  let t2 ← psqrt t1
  return D * D * t2
/-- fittings.py:3600-3637 -/
def K_to_Cv (K D : ℝ) : Py ℝ := do
  let t1 ← 1.6e9 /ₚ K
  let t2 ← psqrt t1
  return 1.1560992283536566 * D * D * t2
/-- fittings.py:3640-3676 -/
def Cv_to_K (Cv D : ℝ) : Py ℝ := do
  let D2 : ℝ := D * D
  let term : ℝ := Cv * (1 / 1.1560992283536566)
  1.6e9 * D2 * D2 /ₚ (term * term)

/-- control_valve.py:1020-1093 `convert_flow_coefficient`; `c` is `sqrt(rho0/psi)*gallon/minute`. -/
def convert_flow_coefficient (c : ℝ) (flow_coefficient : ℝ) (old_scale new_scale : String) : Py ℝ := do
  let Kv ← (if old_scale = "Cv" then .ok (Cv_to_Kv flow_coefficient)
    else if old_scale = "Kv" then .ok flow_coefficient
    else if old_scale = "Av" then do
      let Cv ← flow_coefficient /ₚ c
      return Cv_to_Kv Cv
    else .error .notImplementedError : Py ℝ)
  if new_scale = "Cv" then return Kv_to_Cv Kv
  else if new_scale = "Kv" then return Kv
  else if new_scale = "Av" then return Kv_to_Cv Kv * c
  else .error .notImplementedError

/-! ### Crane valves -/

/-- fittings.py:3750: `if fd is None: fd = ft_Crane(D)` -/
def ftOr (fd : Option ℝ) (D : ℝ) : Py ℝ :=
  match fd with
  | some f => .ok f
  | none => ft_Crane D

/-- fittings.py:3812: `if fd is None: if D is None: raise ValueError(...); fd = ft_Crane(D)` -/
def ftOpt (fd D : Option ℝ) : Py ℝ :=
  match fd with
  | some f => .ok f
  | none => match D with
    | some D => ft_Crane D
    | none => .error .valueError

/-- fittings.py:3689-3761 `K_gate_valve_Crane`. -/
def K_gate_valve_Crane (D1 D2 angle : ℝ) (fd : Option ℝ) : Py ℝ := do
  let angle : ℝ := angle * (π / 180)
  let beta ← D1 /ₚ D2
  let fd ← ftOr fd D2
  let K1 : ℝ := 8 * fd
  if beta = 1 ∨ angle = 0 then return K1
  else do
    let beta2 : ℝ := beta * beta
    let one_m_beta2 : ℝ := 1 - beta2
    if angle ≤ π / 4 then (K1 + Real.sin (0.5 * angle) * (one_m_beta2 * (0.8 + 2.6 * one_m_beta2))) /ₚ (beta2 * beta2)
    else do
      let s ← psqrt (Real.sin (0.5 * angle))
      (K1 + one_m_beta2 * (0.5 * s + one_m_beta2)) /ₚ (beta2 * beta2)

/-- fittings.py:3764-3821 `K_globe_valve_Crane`. -/
def K_globe_valve_Crane (D1 D2 : ℝ) (fd : Option ℝ) : Py ℝ := do
  let beta ← D1 /ₚ D2
  let fd ← ftOr fd D2
  let K1 : ℝ := 340 * fd
  if beta = 1 then return K1
  else do
    let beta2 : ℝ := beta * beta
    let one_m_beta : ℝ := 1 - beta
    let one_m_beta2 : ℝ := 1 - beta2
    (K1 + beta * (0.5 * one_m_beta * one_m_beta + one_m_beta2 * one_m_beta2)) /ₚ (beta2 * beta2)

/-- fittings.py:3824-3888 `K_angle_valve_Crane`. -/
def K_angle_valve_Crane (D1 D2 : ℝ) (fd : Option ℝ) (style : ℤ) : Py ℝ := do
  let beta ← D1 /ₚ D2
  if ¬ (style = 0 ∨ style = 1 ∨ style = 2) then .error .valueError
  else do
    let fd ← ftOr fd D2
    let K1 : ℝ := if style = 0 ∨ style = 2 then 55 * fd else 150 * fd
    if beta = 1 then return K1
    else (K1 + beta * (0.5 * (1 - beta) ^ 2 + (1 - beta ^ 2) ^ 2)) /ₚ beta ^ 4

/-- fittings.py:3891-3938 `K_swing_check_valve_Crane`. -/
def K_swing_check_valve_Crane (D fd : Option ℝ) (angled : Bool) : Py ℝ := do
  let fd ← ftOpt fd D
  return (if angled then 100 * fd else 50 * fd)

/-- fittings.py:3941-4005 `K_lift_check_valve_Crane`. -/
def K_lift_check_valve_Crane (D1 D2 : ℝ) (fd : Option ℝ) (angled : Bool) : Py ℝ := do
  let beta ← D1 /ₚ D2
  let fd ← ftOr fd D2
  if angled then do
    let K1 : ℝ := 55 * fd
    if beta = 1 then return K1
    else (K1 + beta * (0.5 * (1 - beta ^ 2) + (1 - beta ^ 2) ^ 2)) /ₚ beta ^ 4
  else do
    let K1 : ℝ := 600 * fd
    if beta = 1 then return K1
    else (K1 + beta * (0.5 * (1 - beta ^ 2) + (1 - beta ^ 2) ^ 2)) /ₚ beta ^ 4

/-- fittings.py:4008-4089 `K_tilting_disk_check_valve_Crane`. -/
def K_tilting_disk_check_valve_Crane (D angle : ℝ) (fd : Option ℝ) : Py ℝ := do
  let fd ← ftOr fd D
  if angle < 10 then
    if D ≤ 0.2286 then return 40 * fd
    else if D ≤ 0.381 then return 30 * fd
    else return 20 * fd
  else
    if D < 0.2286 then return 120 * fd
    else if D < 0.381 then return 90 * fd
    else return 60 * fd

/-- fittings.py:4095-4163 `K_globe_stop_check_valve_Crane`. -/
def K_globe_stop_check_valve_Crane (D1 D2 : ℝ) (fd : Option ℝ) (style : ℤ) : Py ℝ := do
  let fd ← ftOr fd D2
  let K ← (if style = 0 then .ok (400 * fd) else if style = 1 then .ok (300 * fd) else if style = 2 then .ok (55 * fd)
    else .error .valueError : Py ℝ)
  let beta ← D1 /ₚ D2
  if beta = 1 then return K
  else (K + beta * (0.5 * (1 - beta ^ 2) + (1 - beta ^ 2) ^ 2)) /ₚ beta ^ 4

/-- fittings.py:4169-4238 `K_angle_stop_check_valve_Crane`. -/
def K_angle_stop_check_valve_Crane (D1 D2 : ℝ) (fd : Option ℝ) (style : ℤ) : Py ℝ := do
  let fd ← ftOr fd D2
  let K ← (if style = 0 then .ok (200 * fd) else if style = 1 then .ok (350 * fd) else if style = 2 then .ok (55 * fd)
    else .error .valueError : Py ℝ)
  let beta ← D1 /ₚ D2
  if beta = 1 then return K
  else (K + beta * (0.5 * (1 - beta ^ 2) + (1 - beta ^ 2) ^ 2)) /ₚ beta ^ 4

/-- fittings.py:4241-4307 `K_ball_valve_Crane`. -/
def K_ball_valve_Crane (D1 D2 angle : ℝ) (fd : Option ℝ) : Py ℝ := do
  let fd ← ftOr fd D2
  let beta ← D1 /ₚ D2
  let K1 : ℝ := 3 * fd
  let angle : ℝ := angle * (π / 180)
  if beta = 1 then return K1
  else if angle ≤ π / 4 then
    (K1 + Real.sin (angle / 2) * (0.8 * (1 - beta ^ 2) + 2.6 * (1 - beta ^ 2) ^ 2)) /ₚ beta ^ 4
  else do
    let s ← psqrt (Real.sin (angle / 2))
    (K1 + 0.5 * s * (1 - beta ^ 2) + (1 - beta ^ 2) ^ 2) /ₚ beta ^ 4

/-- fittings.py:4313-4367 `K_diaphragm_valve_Crane`. -/
def K_diaphragm_valve_Crane (D fd : Option ℝ) (style : ℤ) : Py ℝ := do
  let fd ← ftOpt fd D
  if style = 0 then return 149 * fd
  else if style = 1 then return 39 * fd
  else .error .valueError

/-- fittings.py:4373-4428 `K_foot_valve_Crane`. -/
def K_foot_valve_Crane (D fd : Option ℝ) (style : ℤ) : Py ℝ := do
  let fd ← ftOpt fd D
  if style = 0 then return 420 * fd
  else if style = 1 then return 75 * fd
  else .error .valueError

/-- fittings.py:4435-4508 `K_butterfly_valve_Crane`. -/
def K_butterfly_valve_Crane (D : ℝ) (fd : Option ℝ) (style : ℤ) : Py ℝ := do
  let fd ← ftOr fd D
  let c ← (if style = 0 then .ok (45, 35, 25) else if style = 1 then .ok (74, 52, 43) else if style = 2 then .ok (218, 96, 55)
    else .error .valueError : Py (ℝ × ℝ × ℝ))
  if D ≤ 0.2286 then return c.1 * fd
  else if D ≤ 0.381 then return c.2.1 * fd
  else return c.2.2 * fd

/-- fittings.py:4514-4586 `K_plug_valve_Crane`. -/
def K_plug_valve_Crane (D1 D2 angle : ℝ) (fd : Option ℝ) (style : ℤ) : Py ℝ := do
  let fd ← ftOr fd D2
  let beta ← D1 /ₚ D2
  let K ← (if style = 0 then .ok (18 * fd) else if style = 1 then .ok (30 * fd) else if style = 2 then .ok (90 * fd)
    else .error .valueError : Py ℝ)
  let angle : ℝ := angle * (π / 180)
  if beta = 1 then return K
  else do
    let s ← psqrt (Real.sin (angle / 2))
    (K + 0.5 * s * (1 - beta ^ 2) + (1 - beta ^ 2) ^ 2) /ₚ beta ^ 4

/-- fittings.py:4744-4756 `CRANE_VALVES`. -/
def CRANE_VALVES : List String := ["CRANE_GATE_VALVE", "CRANE_GLOBE_VALVE", "CRANE_ANGLE_VALVE_0",
  "CRANE_ANGLE_VALVE_1", "CRANE_ANGLE_VALVE_2", "CRANE_SWING_CHECK_VALVE",
  "CRANE_SWING_CHECK_VALVE_ANGLED", "CRANE_LIFT_CHECK_VALVE",
  "CRANE_LIFT_CHECK_VALVE_ANGLED", "CRANE_TILTING_CHECK_VALVE_5DEG",
  "CRANE_TILTING_CHECK_VALVE_15DEG", "CRANE_GLOBE_STOP_CHECK_VALVE_0",
  "CRANE_GLOBE_STOP_CHECK_VALVE_1", "CRANE_GLOBE_STOP_CHECK_VALVE_2",
  "CRANE_ANGLE_STOP_CHECK_VALVE_0", "CRANE_ANGLE_STOP_CHECK_VALVE_1",
  "CRANE_ANGLE_STOP_CHECK_VALVE_2", "CRANE_BALL_VALVE", "CRANE_DIAPHRAGM_VALVE_WEIR",
  "CRANE_DIAPHRAGM_VALVE_STRAIGHT_THROUGH_WEIR", "CRANE_FOOT_VALVE_POPPET_DISK",
  "CRANE_FOOT_VALVE_HINGED_DISK", "CRANE_BUTTERFLY_VALVE_CENTRIC",
  "CRANE_BUTTERFLY_VALVE_DOUBLE_OFFSET", "CRANE_BUTTERFLY_VALVE_TRIPLE_OFFSET",
  "CRANE_PLUG_VALVE_STRAIGHT_THROUGH", "CRANE_PLUG_VALVE_3_WAY_STRAIGHT_THROUGH",
  "CRANE_PLUG_VALVE_3_WAY_90_DEG"]

/-- fittings.py:4758-4855 `Crane_loss_coefficient`. -/
def Crane_loss_coefficient (D1 D2 angle : ℝ) (fitting : String) (fd : Option ℝ) : Py ℝ :=
  if fitting = "CRANE_GATE_VALVE" then K_gate_valve_Crane D1 D2 angle fd
  else if fitting = "CRANE_GLOBE_VALVE" then K_globe_valve_Crane D1 D2 fd
  else if fitting = "CRANE_ANGLE_VALVE_0" then K_angle_valve_Crane D1 D2 fd 0
  else if fitting = "CRANE_ANGLE_VALVE_1" then K_angle_valve_Crane D1 D2 fd 1
  else if fitting = "CRANE_ANGLE_VALVE_2" then K_angle_valve_Crane D1 D2 fd 2
  else if fitting = "CRANE_SWING_CHECK_VALVE" then K_swing_check_valve_Crane (some D2) fd false
  else if fitting = "CRANE_SWING_CHECK_VALVE_ANGLED" then K_swing_check_valve_Crane (some D2) fd true
  else if fitting = "CRANE_LIFT_CHECK_VALVE" then K_lift_check_valve_Crane D1 D2 fd false
  else if fitting = "CRANE_LIFT_CHECK_VALVE_ANGLED" then K_lift_check_valve_Crane D1 D2 fd true
  else if fitting = "CRANE_TILTING_CHECK_VALVE_5DEG" then K_tilting_disk_check_valve_Crane D2 5 fd
  else if fitting = "CRANE_TILTING_CHECK_VALVE_15DEG" then K_tilting_disk_check_valve_Crane D2 15 fd
  else if fitting = "CRANE_GLOBE_STOP_CHECK_VALVE_0" then K_globe_stop_check_valve_Crane D1 D2 fd 0
  else if fitting = "CRANE_GLOBE_STOP_CHECK_VALVE_1" then K_globe_stop_check_valve_Crane D1 D2 fd 1
  else if fitting = "CRANE_GLOBE_STOP_CHECK_VALVE_2" then K_globe_stop_check_valve_Crane D1 D2 fd 2
  else if fitting = "CRANE_ANGLE_STOP_CHECK_VALVE_0" then K_angle_stop_check_valve_Crane D1 D2 fd 0
  else if fitting = "CRANE_ANGLE_STOP_CHECK_VALVE_1" then K_angle_stop_check_valve_Crane D1 D2 fd 1
  else if fitting = "CRANE_ANGLE_STOP_CHECK_VALVE_2" then K_angle_stop_check_valve_Crane D1 D2 fd 2
  else if fitting = "CRANE_BALL_VALVE" then K_ball_valve_Crane D1 D2 angle fd
  else if fitting = "CRANE_DIAPHRAGM_VALVE_WEIR" then K_diaphragm_valve_Crane (some D2) fd 0
  else if fitting = "CRANE_DIAPHRAGM_VALVE_STRAIGHT_THROUGH_WEIR" then K_diaphragm_valve_Crane (some D2) fd 1
  else if fitting = "CRANE_FOOT_VALVE_POPPET_DISK" then K_foot_valve_Crane (some D2) fd 0
  else if fitting = "CRANE_FOOT_VALVE_HINGED_DISK" then K_foot_valve_Crane (some D2) fd 1
  else if fitting = "CRANE_BUTTERFLY_VALVE_CENTRIC" then K_butterfly_valve_Crane D2 fd 0
  else if fitting = "CRANE_BUTTERFLY_VALVE_DOUBLE_OFFSET" then K_butterfly_valve_Crane D2 fd 1
  else if fitting = "CRANE_BUTTERFLY_VALVE_TRIPLE_OFFSET" then K_butterfly_valve_Crane D2 fd 2
  else if fitting = "CRANE_PLUG_VALVE_STRAIGHT_THROUGH" then K_plug_valve_Crane D1 D2 angle fd 0
  else if fitting = "CRANE_PLUG_VALVE_3_WAY_STRAIGHT_THROUGH" then K_plug_valve_Crane D1 D2 angle fd 1
  else if fitting = "CRANE_PLUG_VALVE_3_WAY_90_DEG" then K_plug_valve_Crane D1 D2 angle fd 2
  else .error .valueError

/-- fittings.py:4589-4705 `v_lift_valve_Crane`; `beta2` is unbound when a diameter is missing. -/
def v_lift_valve_Crane (rho : ℝ) (D1 D2 : Option ℝ) (style : String) : Py ℝ := do
  let sv ← 1 /ₚ rho
  let b ← (match D1, D2 with
    | some D1, some D2 => do
      let beta ← D1 /ₚ D2
      return some (beta * beta)
    | _, _ => .ok none : Py (Option ℝ))
  let s (c : ℝ) : Py ℝ := do
    let r ← psqrt sv
    return c * r
  let sb (c : ℝ) : Py ℝ := match b with
    | none => .error .unboundLocalError
    | some beta2 => do
      let r ← psqrt sv
      return c * beta2 * r
  if style = "swing check angled" then s 45
  else if style = "swing check straight" then s 75
  else if style = "swing check UL" then s 120
  else if style = "lift check straight" then sb 50
  else if style = "lift check angled" then sb 170
  else if style = "tilting check 5°" then s 100
  else if style = "tilting check 15°" then s 40
  else if style = "stop check globe 1" then sb 70
  else if style = "stop check angle 1" then sb 95
  else if style = "stop check globe 2" ∨ style = "stop check angle 2" then sb 75
  else if style = "stop check globe 3" ∨ style = "stop check angle 3" then sb 170
  else if style = "foot valve poppet disc" then s 20
  else if style = "foot valve hinged disc" then s 45
  else .error .valueError

/-! ### tees -/

/-- fittings.py:4858-4859 -/
def branch_converging_Crane_Fs : List ℝ := [1.74, 1.41, 1, 0]
/-- fittings.py:4859 -/
def branch_converging_Crane_angles : List ℝ := [30, 45, 60, 90]

/-- fittings.py:4862-4959 `K_branch_converging_Crane`. -/
def K_branch_converging_Crane (D_run D_branch Q_run Q_branch angle : ℝ) : Py ℝ := do
  let beta ← D_branch /ₚ D_run
  let beta2 : ℝ := beta * beta
  let Q_comb : ℝ := Q_run + Q_branch
  let Q_ratio ← Q_branch /ₚ Q_comb
  let C : ℝ := if beta2 ≤ 0.35 then 1 else if Q_ratio ≤ 0.4 then 0.9 * (1 - Q_ratio) else 0.55
  let F ← interp angle branch_converging_Crane_angles branch_converging_Crane_Fs none none false
  let t1 ← Q_ratio /ₚ beta2
  let t2 ← F /ₚ beta2
  return C * (1 + 1 * t1 ^ 2 - 2 * (1 - Q_ratio) ^ 2 - t2 * Q_ratio ^ 2)

/-- fittings.py:4962-4963 -/
def run_converging_Crane_Fs : List ℝ := [1.74, 1.41, 1]
/-- fittings.py:4963 -/
def run_converging_Crane_angles : List ℝ := [30, 45, 60]

/-- fittings.py:4965-5054 `K_run_converging_Crane`. -/
def K_run_converging_Crane (D_run D_branch Q_run Q_branch angle : ℝ) : Py ℝ := do
  let beta ← D_branch /ₚ D_run
  let beta2 : ℝ := beta * beta
  let Q_comb : ℝ := Q_run + Q_branch
  let Q_ratio ← Q_branch /ₚ Q_comb
  if ¬ angle < 75 then return 1.55 * Q_ratio - Q_ratio * Q_ratio
  else do
    let F ← interp angle run_converging_Crane_angles run_converging_Crane_Fs none none false
    let t1 ← Q_ratio /ₚ beta2
    let t2 ← F /ₚ beta2
    return 1 * (1 + 0 * t1 ^ 2 - 1 * (1 - Q_ratio) ^ 2 - t2 * Q_ratio ^ 2)

/-- fittings.py:5057-5172 `K_branch_diverging_Crane`. -/
def K_branch_diverging_Crane (D_run D_branch Q_run Q_branch angle : ℝ) : Py ℝ := do
  let beta ← D_branch /ₚ D_run
  let beta2 : ℝ := beta * beta
  let Q_comb : ℝ := Q_run + Q_branch
  let Q_ratio ← Q_branch /ₚ Q_comb
  let HJ : ℝ × ℝ := if angle < 60 ∨ beta ≤ 2 / 3 then (1, 2) else (0.3, 0)
  let G : ℝ :=
    if angle < 75 then
      if beta2 ≤ 0.35 then (if Q_ratio ≤ 0.4 then 1.1 - 0.7 * Q_ratio else 0.85)
      else (if Q_ratio ≤ 0.6 then 1 - 0.6 * Q_ratio else 0.6)
    else if beta2 ≤ 2 / 3 then 1 else 1 + 0.3 * Q_ratio * Q_ratio
  let angle_rad : ℝ := angle * (π / 180)
  let t1 ← Q_ratio /ₚ beta2
  return G * (1 + HJ.1 * t1 ^ 2 - HJ.2 * t1 * Real.cos angle_rad)

/-- fittings.py:5175-5248 `K_run_diverging_Crane`. -/
def K_run_diverging_Crane (D_run D_branch Q_run Q_branch : ℝ) : Py ℝ := do
  let beta ← D_branch /ₚ D_run
  let beta2 : ℝ := beta * beta
  let Q_comb : ℝ := Q_run + Q_branch
  let Q_ratio ← Q_branch /ₚ Q_comb
  let M : ℝ := if beta2 ≤ 0.4 then 0.4 else if Q_ratio ≤ 0.5 then 2 * (2 * Q_ratio - 1) else 0.3 * (2 * Q_ratio - 1)
  return M * Q_ratio * Q_ratio

/-! ### entrances, bends, contractions and diffusers -/

/-- fittings.py:337-400, 520, 623: the digitised charts and fitted polynomials -/
structure Charts where
  distMiller : ℝ → ℝ
  distIdelchik : ℝ → ℝ → ℝ
  distHarris : ℝ → ℝ
  roundMiller : ℝ → ℝ
  roundHarris : ℝ → ℝ
  roundIdelchik : ℝ → ℝ
  roundIdelchikLast : ℝ
  bevelIdelchik : ℝ → ℝ → ℝ
  bendMiller : ℝ → ℝ → ℝ → ℝ → ℝ → ℝ → Option ℝ → Py ℝ
  bendCrane : ℝ → ℝ
  miterMiller : ℝ → ℝ → ℝ → ℝ → Option ℝ → Py ℝ
  contractRoundMiller : ℝ → ℝ → ℝ → Py ℝ
  contractFriction : ℝ → ℝ → ℝ
  contractBlevins : ℝ → ℝ → ℝ
  contractMiller : ℝ → ℝ → ℝ
  diffMiller : ℝ → ℝ → ℝ
  diffIdelchik : ℝ → ℝ → ℝ

variable (X : Charts)

/-- fittings.py:271-328 `entrance_sharp`. -/
def entrance_sharp (method : Option String) : Py ℝ :=
  let method := method.getD "Rennels"
  if method ∈ ["Swamee", "Blevins", "Crane", "Idelchik"] then .ok 0.5
  else if method = "Miller" then .ok 0.5092676683721356
  else if method = "Rennels" then .ok 0.57
  else .error .valueError

/-- fittings.py:405-512 `entrance_distance`. -/
def entrance_distance (Di : ℝ) (t l : Option ℝ) (method : Option String) : Py ℝ := do
  let method := method.getD "Rennels"
  let t2 ← (if method ∈ ["Rennels", "Miller", "Idelchik", "Harris"] then
      match t with
      | none => .error .valueError
      | some t => .ok t
    else .ok 0 : Py ℝ)
  if method = "Rennels" then do
    let r ← t2 /ₚ Di
    let t_Di : ℝ := if r > 0.05 then 0.05 else r
    return 1.12 + t_Di * (t_Di * (80 * t_Di + 216) - 22)
  else if method = "Miller" then do
    let r ← t2 /ₚ Di
    let t_Di : ℝ := if r > 0.3 then 0.3 else r
    return X.distMiller (20 / 3 * (t_Di - 0.15))
  else if method = "Idelchik" then do
    let l : ℝ := l.getD Di
    let r ← t2 /ₚ Di
    let rl ← l /ₚ Di
    let K : ℝ := X.distIdelchik (min rl 10) (min r 1)
    return (if K < 0 then 0 else K)
  else if method = "Harris" then do
    let r ← t2 /ₚ Di
    return X.distHarris (min r 0.289145)
  else if method = "Crane" then return 0.78
  else .error .valueError

/-- fittings.py:571-619 `entrance_angled`. -/
def entrance_angled (angle : ℝ) (method : Option String) : Py ℝ :=
  if method = some "Idelchik" ∨ method = none then
    let cos_term : ℝ := Real.cos (π / 180 * angle)
    .ok (0.57 + cos_term * (0.2 * cos_term + 0.3))
  else .error .valueError

/-- fittings.py:644-645 -/
def entrance_rounded_ratios_Crane : List ℝ := [0, 0.02, 0.04, 0.06, 0.1, 0.15]
/-- fittings.py:645 -/
def entrance_rounded_Ks_Crane : List ℝ := [0.5, 0.28, 0.24, 0.15, 0.09, 0.04]

/-- fittings.py:665-789 `entrance_rounded`. -/
def entrance_rounded (Di rc : ℝ) (method : Option String) : Py ℝ := do
  let method := method.getD "Rennels"
  let ratio ← rc /ₚ Di
  if method = "Rennels" then
    if ratio > 1 then return 0.03
    else do
      let s ← psqrt ratio
      let l0 : ℝ := 1 - 0.30 * s - 0.70 * ratio
      let l1 : ℝ := l0 * l0
      let lbd : ℝ := 1 + 0.622 * l1 * l1
      return 0.0696 * (1 - 0.569 * ratio) * lbd * lbd + (lbd - 1) * (lbd - 1)
  else if method = "Swamee" then do
    let t1 ← ratio ^ₚ 1.2
    0.5 /ₚ (1 + 36 * t1)
  else if method = "Crane" then
    if ratio < 0 then return 0.5
    else if ratio > 0.15 then return 0.04
    else interp ratio entrance_rounded_ratios_Crane entrance_rounded_Ks_Crane none none false
  else if method = "Miller" then
    return X.roundMiller (20 / 3 * ((if ratio > 0.3 then 0.3 else ratio) - 0.15))
  else if method = "Harris" then
    if ratio > 0.16 then return 0 else return X.roundHarris ratio
  else if method = "Idelchik" then
    if ratio > 0.2 then return X.roundIdelchikLast else return X.roundIdelchik ratio
  else .error .valueError

/-- fittings.py:796-892 `entrance_beveled`. -/
def entrance_beveled (Di l angle : ℝ) (method : Option String) : Py ℝ := do
  let method := method.getD "Rennels"
  if method = "Rennels" then do
    let r ← l /ₚ Di
    let e1 ← 1 /ₚ (1 + r)
    let t1 ← (angle / 90) ^ₚ e1
    let Cb : ℝ := (1 - angle / 90) * t1
    let s1 ← psqrt r
    let s2 ← psqrt s1
    let t2 ← r ^ₚ ((1 - s2) / 2)
    let lbd : ℝ := 1 + 0.622 * (1 - 1.5 * Cb * t2)
    let t3 ← Cb * l /ₚ Di
    return 0.0696 * (1 - t3) * lbd ^ 2 + (lbd - 1) ^ 2
  else if method = "Idelchik" then do
    let r ← l /ₚ Di
    return X.bevelIdelchik (angle * 2) r
  else .error .valueError

/-- fittings.py:1278-1354 `bend_rounded_Crane`. -/
def bend_rounded_Crane (Di angle : ℝ) (rc bend_diameters : Option ℝ) : Py ℝ := do
  let _ ← (match rc, bend_diameters with
    | some rc, some bd => do
      let t ← Di * bd /ₚ rc
      if |t - 1| > 1e-12 then .error .valueError else .ok ()
    | _, _ => .ok () : Py Unit)
  let rc : ℝ := match rc with
    | some rc => rc
    | none => Di * bend_diameters.getD 5
  let fd ← ft_Crane Di
  let rr ← rc /ₚ Di
  let radius_ratio : ℝ := if rr < 1 then 1 else if rr > 20 then 20 else rr
  let K : ℝ := fd * X.bendCrane (2 / 19 * (radius_ratio - 10.5))
  return (angle / 90 - 1) * (0.25 * π * fd * radius_ratio + 0.5 * K) + K

/-- the `if fd is None: if Re is None: raise …; fd = Clamond(…)` block of fittings.py:1516-1519, 2331-2334 and 2862-2865 -/
def fdOr (fd Re : Option ℝ) (roughness D : ℝ) : Py ℝ :=
  match fd with
  | some fd => .ok fd
  | none => match Re with
    | none => .error .valueError
    | some Re => do
      let e ← roughness /ₚ D
      Clamond Re e false

/-- fittings.py:1374-1380: the angle factor of `bend_rounded_Ito` -/
def itoAlpha (Di angle rc radius_ratio ir : ℝ) : Py ℝ :=
  if rc > 50 * Di then .ok 1 else do
    let p1 ← ir ^ₚ 1.47
    let alpha_45 : ℝ := 1 + 5.13 * p1
    let alpha_90 ← (if radius_ratio < 9.85 then do
        let p2 ← ir ^ₚ 1.96
        return 0.95 + 4.42 * p2
      else .ok 1 : Py ℝ)
    let p3 ← ir ^ₚ 4.52
    let alpha_180 : ℝ := 1 + 5.06 * p3
    interp angle [45, 90, 180] [alpha_45, alpha_90, alpha_180] none none false

/-- fittings.py:1357-1391 `bend_rounded_Ito` (called with `rc` a number; `rc = 0` falls back to `bend_diameters`). -/
def bend_rounded_Ito (W : ℝ → ℝ) (Di angle Re rc bend_diameters roughness : ℝ) : Py ℝ := do
  let rc : ℝ := if rc = 0 then Di * bend_diameters else rc
  let radius_ratio ← rc /ₚ Di
  let ir ← Di /ₚ rc
  let De2 : ℝ := Re * ir ^ 2
  let alpha ← itoAlpha Di angle rc radius_ratio ir
  if De2 ≤ 360 then do
    let fc ← friction_factor_curved W Re Di (2 * rc) roughness none "Srinivasan" "White" "Srinivasan turbulent" true
    0.0175 * alpha * fc * angle * rc /ₚ Di
  else do
    let p ← Re ^ₚ (-0.17)
    let q ← radius_ratio ^ₚ 0.84
    return 0.00431 * alpha * angle * p * q

/-- fittings.py:1393-1394 -/
def crane_standard_bend_angles : List ℝ := [45, 90, 180]
/-- fittings.py:1394 -/
def crane_standard_bend_losses : List ℝ := [16, 30, 50]

/-- fittings.py:1399-1546 `bend_rounded`. -/
def bend_rounded (W : ℝ → ℝ) (Di angle : ℝ) (fd rc bend_diameters Re : Option ℝ) (roughness : ℝ) (L_unimpeded : Option ℝ)
    (method : Option String) : Py ℝ := do
  let method := method.getD "Rennels"
  let bend_diameters2 : ℝ := bend_diameters.getD 5
  let rc : ℝ := rc.getD (Di * bend_diameters2)
  if method = "Rennels" then do
    let angle : ℝ := angle * (π / 180)
    let fd ← fdOr fd Re roughness Di
    let sin_term : ℝ := Real.sin (0.5 * angle)
    let t1 ← fd * angle * rc /ₚ Di
    let s ← psqrt sin_term
    let rr ← rc /ₚ Di
    let p ← rr ^ₚ (4 * angle / π)
    let t2 ← 6.6 * fd * (s + sin_term) /ₚ p
    return t1 + (0.10 + 2.4 * fd) * sin_term + t2
  else if method = "Miller" then
    match Re with
    | none => .error .valueError
    | some Re => X.bendMiller Di angle Re rc bend_diameters2 roughness L_unimpeded
  else if method = "Crane" then bend_rounded_Crane X Di angle (some rc) (some bend_diameters2)
  else if method = "Crane standard" then do
    let f ← ft_Crane Di
    let k ← interp angle crane_standard_bend_angles crane_standard_bend_losses none none true
    return f * k
  else if method = "Ito" then
    match Re with
    | none => .error .valueError
    | some Re => bend_rounded_Ito W Di angle Re rc bend_diameters2 roughness
  else if method = "Swamee" then do
    let r ← Di /ₚ rc
    let p ← r ^ₚ 3.5
    let s ← psqrt (angle * (π / 180))
    return (0.0733 + 0.923 * p) * s
  else .error .valueError

/-- fittings.py:1617-1621 -/
def bend_miter_Crane_angles : List ℝ := [0, 15, 30, 45, 60, 75, 90]
/-- fittings.py:1618 -/
def bend_miter_Crane_fds : List ℝ := [2, 4, 8, 15, 25, 40, 60]
/-- fittings.py:1620 -/
def bend_miter_Blevins_angles : List ℝ := [0, 10, 20, 30, 40, 50, 60, 70, 80, 90, 120]
/-- fittings.py:1621 -/
def bend_miter_Blevins_Ks : List ℝ := [0, 0.025, 0.055, 0.1, 0.2, 0.35, 0.5, 0.7, 0.9, 1.1, 1.5]

/-- fittings.py:1627-1730 `bend_miter`. -/
def bend_miter (angle : ℝ) (Di Re : Option ℝ) (roughness : ℝ) (L_unimpeded : Option ℝ) (method : Option String) : Py ℝ := do
  let method := method.getD "Rennels"
  if method = "Rennels" then
    let s : ℝ := Real.sin (angle * (π / 180) * 0.5)
    return 0.42 * s + 2.56 * s * s * s
  else if method = "Crane" then
    match Di with
    | none => .error .valueError
    | some Di => do
      let factor ← interp angle bend_miter_Crane_angles bend_miter_Crane_fds none none false
      let f ← ft_Crane Di
      return f * factor
  else if method = "Miller" then
    match Di with
    | none => .error .valueError
    | some Di => match Re with
      | none => .error .valueError
      | some Re => X.miterMiller Di angle Re roughness L_unimpeded
  else if method = "Blevins" then
    match Re with
    | none => .error .valueError
    | some Re => do
      let K_base ← interp angle bend_miter_Blevins_angles bend_miter_Blevins_Ks none none false
      let r ← 2e5 /ₚ Re
      let p ← r ^ₚ 0.2
      return K_base * p
  else .error .valueError

/-- fittings.py:2098-2166 `contraction_conical_Crane`. -/
def contraction_conical_Crane (Di1 Di2 : ℝ) (l angle : Option ℝ) : Py ℝ := do
  let angle_rad ← (match l, angle with
    | some l, _ =>
      if l = 0 then .ok π
      else do
        let r ← (Di1 - Di2) /ₚ (2 * l)
        return 2 * Real.arctan r
    | none, some angle => .ok (π / 180 * angle)
    | none, none => .error .valueError : Py ℝ)
  let beta ← Di2 /ₚ Di1
  let beta2 : ℝ := beta * beta
  if angle_rad < 0.25 * π then return 0.8 * Real.sin (0.5 * angle_rad) * (1 - beta2)
  else do
    let s ← psqrt (Real.sin (0.5 * angle_rad))
    return 0.5 * (s * (1 - beta2))

/-- the Hooper contraction formula shared by fittings.py:1988-1997 and 2458-2467 -/
def hooperContraction (Di1 Di2 : ℝ) (fd Re : Option ℝ) (roughness : ℝ) : Py ℝ :=
  match Re with
  | none => .error .valueError
  | some Re => do
    let D1_D2 ← Di1 /ₚ Di2
    let D1_D2_2 : ℝ := D1_D2 * D1_D2
    if Re ≤ 2500 then do
      let t ← 160 /ₚ Re
      return (1.2 + t) * (D1_D2_2 * D1_D2_2 - 1)
    else do
      let fd ← (match fd with
        | some fd => .ok fd
        | none => do
          let e ← roughness /ₚ Di1
          Clamond Re e false : Py ℝ)
      return (0.6 + 0.48 * fd) * D1_D2_2 * (D1_D2_2 - 1)

/-- fittings.py:1886-2003 `contraction_sharp`. -/
def contraction_sharp (Di1 Di2 : ℝ) (fd Re : Option ℝ) (roughness : ℝ) (method : String) : Py ℝ := do
  if method = "Rennels" then do
    let beta ← Di2 /ₚ Di1
    let beta2 : ℝ := beta * beta
    let beta5 : ℝ := beta2 * beta2 * beta
    let lbd : ℝ := 1 + 0.622 * (1 - 0.215 * beta2 - 0.785 * beta5)
    return 0.0696 * (1 - beta5) * lbd * lbd + (lbd - 1) * (lbd - 1)
  else if method = "Hooper" then do
    let K ← hooperContraction Di1 Di2 fd Re roughness
    change_K_basis K Di1 Di2
  else if method = "Crane" then contraction_conical_Crane Di1 Di2 (some 0) none
  else .error .valueError

/-- fittings.py:2005-2008 -/
def contraction_round_Idelchik_ratios : List ℝ := [0, 0.01, 0.02, 0.03, 0.04, 0.05, 0.06, 0.08, 0.12, 0.16, 0.2]
/-- fittings.py:2007 -/
def contraction_round_Idelchik_factors : List ℝ := [0.5, 0.43, 0.37, 0.31, 0.26, 0.22, 0.20, 0.15, 0.09, 0.06, 0.03]

/-- fittings.py:2015-2095 `contraction_round`. -/
def contraction_round (Di1 Di2 rc : ℝ) (method : Option String) : Py ℝ := do
  let beta ← Di2 /ₚ Di1
  let method := method.getD "Rennels"
  if method = "Rennels" then do
    let r ← rc /ₚ Di2
    let s ← psqrt r
    let lbd : ℝ := 1 + 0.622 * (1 - 0.30 * s - 0.70 * r) ^ 4 * (1 - 0.215 * beta ^ 2 - 0.785 * beta ^ 5)
    return 0.0696 * (1 - 0.569 * r) * (1 - s * beta) * (1 - beta ^ 5) * lbd * lbd + (lbd - 1) ^ 2
  else if method = "Miller" then X.contractRoundMiller Di1 Di2 rc
  else if method = "Idelchik" then do
    let r ← rc /ₚ Di2
    let K0 ← interp r contraction_round_Idelchik_ratios contraction_round_Idelchik_factors none none false
    return K0 * (1 - beta * beta)
  else .error .valueError

/-- fittings.py:488: clamp to an interval, as the `if … elif …` pairs do -/
def clampTo (lo hi x : ℝ) : ℝ := if x < lo then lo else if x > hi then hi else x

/-- fittings.py:2245-2476 `contraction_conical`. -/
def contraction_conical (Di1 Di2 : ℝ) (fd l angle Re : Option ℝ) (roughness : ℝ) (method : String) : Py ℝ := do
  let beta ← Di2 /ₚ Di1
  let la ← (match angle, l with
    | some angle, _ => do
      let angle_rad : ℝ := angle * (π / 180)
      let l ← (Di1 - Di2) /ₚ (2 * Real.tan (0.5 * angle_rad))
      return (l, angle_rad)
    | none, some l =>
      if l ≠ 0 then do
        let r ← (Di1 - Di2) /ₚ (2 * l)
        return (l, 2 * Real.arctan r)
      else .ok (l, π)
    | none, none => .error .valueError : Py (ℝ × ℝ))
  let l : ℝ := la.1
  let angle_rad : ℝ := la.2
  if method = "Rennels" then do
    let fd ← fdOr fd Re roughness Di2
    let beta2 : ℝ := beta * beta
    let beta4 : ℝ := beta2 * beta2
    let beta5 : ℝ := beta4 * beta
    let p ← (angle_rad / π) ^ₚ 0.8
    let lbd : ℝ := 1 + 0.622 * p * (1 - 0.215 * beta2 - 0.785 * beta5)
    let sin_half_angle : ℝ := Real.sin (0.5 * angle_rad)
    let K_fr2 ← fd * (1 - beta4) /ₚ (8 * sin_half_angle)
    let K_conv2 : ℝ := 0.0696 * sin_half_angle * (1 - beta5) * lbd * lbd + (lbd - 1) ^ 2
    return K_fr2 + K_conv2
  else if method = "Crane" then contraction_conical_Crane Di1 Di2 (some l) (some (angle_rad * (180 / π)))
  else if method = "Swamee" then do
    let p ← angle_rad ^ₚ (1 / 3)
    return 0.315 * p
  else if method = "Idelchik" then do
    let r ← l /ₚ Di2
    let K0 : ℝ := X.bevelIdelchik (angle_rad * (180 / π)) r
    let angle_fric : ℝ := if angle_rad > 20 * (π / 180) then 20 else if angle_rad < 2 * (π / 180) then 2 else angle_rad * (180 / π)
    let A_ratio ← Di2 * Di2 /ₚ (Di1 * Di1)
    let K_fr : ℝ := X.contractFriction angle_fric (clampTo 0.05 0.6 A_ratio)
    return K0 * (1 - A_ratio) + K_fr
  else if method = "Blevins" then do
    let A_ratio ← Di1 * Di1 /ₚ (Di2 * Di2)
    let r ← l /ₚ Di2
    return X.contractBlevins (if r > 0.6 then 0.6 else r) (clampTo 1.2 10 A_ratio)
  else if method = "Miller" then do
    let A_ratio ← Di1 * Di1 /ₚ (Di2 * Di2)
    let r ← l /ₚ (Di2 * 0.5)
    return X.contractMiller (clampTo 0.1 10 r) (clampTo 1.1 4 A_ratio)
  else if method = "Hooper" then do
    let K ← hooperContraction Di1 Di2 fd Re roughness
    let K ← (if angle_rad > 0.25 * π then do
        let s ← psqrt (Real.sin (0.5 * angle_rad))
        return K * s
      else .ok (K * (1.6 * Real.sin (0.5 * angle_rad))) : Py ℝ)
    change_K_basis K Di1 Di2
  else .error .valueError

/-- the Hooper expansion formula shared by fittings.py:2611-2618 and 2954-2965 -/
def hooperExpansion (beta Di1 : ℝ) (fd Re : Option ℝ) (roughness : ℝ) : Py ℝ :=
  match Re with
  | none => .error .valueError
  | some Re =>
    if Re < 4000 then .ok (2 * (1 - beta * beta * beta * beta))
    else do
      let fd ← (match fd with
        | some fd => .ok fd
        | none => do
          let e ← roughness /ₚ Di1
          Clamond Re e false : Py ℝ)
      let x : ℝ := 1 - beta * beta
      return (1 + 0.8 * fd) * x * x

/-- fittings.py:2543-2620 `diffuser_sharp`. -/
def diffuser_sharp (Di1 Di2 : ℝ) (Re fd : Option ℝ) (roughness : ℝ) (method : String) : Py ℝ := do
  let beta ← Di1 /ₚ Di2
  if method = "Rennels" then
    let r : ℝ := 1 - beta * beta
    return r * r
  else if method = "Hooper" then hooperExpansion beta Di1 fd Re roughness
  else .error .valueError

/-- fittings.py:2623-2646 `diffuser_conical_Crane`. -/
def diffuser_conical_Crane (Di1 Di2 : ℝ) (l angle : Option ℝ) : Py ℝ := do
  let beta ← Di1 /ₚ Di2
  let beta2 : ℝ := beta * beta
  let a ← (match angle, l with
    | some angle, _ => .ok (angle * (π / 180), angle)
    | none, some l =>
      if l ≠ 0 then do
        let r ← (Di1 - Di2) /ₚ (2 * l)
        let angle_rad : ℝ := 2 * Real.arctan r
        return (angle_rad, angle_rad * (180 / π))
      else .ok (π, 180)
    | none, none => .error .valueError : Py (ℝ × ℝ))
  let K2 ← (if a.2 < 45 then 2.6 * Real.sin (0.5 * a.1) * (1 - beta2) ^ 2 /ₚ (beta2 * beta2)
    else (1 - beta2) ^ 2 /ₚ (beta2 * beta2) : Py ℝ)
  return K2 * beta2 * beta2

/-- fittings.py:2750-2970 `diffuser_conical`. -/
def diffuser_conical (Di1 Di2 : ℝ) (l angle fd Re : Option ℝ) (roughness : ℝ) (method : Option String) : Py ℝ := do
  let beta ← Di1 /ₚ Di2
  let beta2 : ℝ := beta * beta
  let a ← (match l, angle with
    | some l, _ => do
      let r ← 0.5 * (Di2 - Di1) /ₚ l
      let angle_rad : ℝ := 2 * Real.arctan r
      return (angle_rad, angle_rad * (180 / π), l)
    | none, some angle => do
      let angle_rad : ℝ := angle * (π / 180)
      let l_calc ← (Di2 - Di1) /ₚ (2 * Real.tan (0.5 * angle_rad))
      return (angle_rad, angle, l_calc)
    | none, none => .error .valueError : Py (ℝ × ℝ × ℝ))
  let angle_rad : ℝ := a.1
  let angle_deg : ℝ := a.2.1
  let l_calc : ℝ := a.2.2
  let method := method.getD "Rennels"
  if method = "Rennels" then do
    let fd ← fdOr fd Re roughness Di2
    if 0 < angle_deg ∧ angle_deg ≤ 20 then do
      let p ← Real.tan (0.5 * angle_rad) ^ₚ 1.75
      let q ← 0.125 * fd * (1 - beta2 * beta2) /ₚ Real.sin (0.5 * angle_rad)
      return 8.30 * p * (1 - beta2) ^ 2 + q
    else if (20 < angle_deg ∧ angle_deg ≤ 60) ∧ 0 ≤ beta ∧ beta < 0.5 then do
      let s1 ← psqrt (Real.sin (2 * π * (angle_deg - 15) / 180))
      let s2 ← psqrt (0.025 * (angle_deg - 20))
      let q ← 0.125 * fd * (1 - beta2 * beta2) /ₚ Real.sin (0.5 * angle_rad)
      return (1.366 * s1 - 0.170 - 3.28 * (0.0625 - beta ^ 4) * s2) * (1 - beta2) ^ 2 + q
    else if (20 < angle_deg ∧ angle_deg ≤ 60) ∧ beta ≥ 0.5 then do
      let s1 ← psqrt (Real.sin (2 * π * (angle_deg - 15) / 180))
      let q ← 0.125 * fd * (1 - beta2 * beta2) /ₚ Real.sin (0.5 * angle_rad)
      return (1.366 * s1 - 0.170) * (1 - beta2) ^ 2 + q
    else if (60 < angle_deg ∧ angle_deg ≤ 180) ∧ 0 ≤ beta ∧ beta < 0.5 then do
      let beta4 : ℝ := beta2 * beta2
      let s ← psqrt ((angle_deg - 60) / 120)
      return (1.205 - 3.28 * (0.0625 - beta4) - 12.8 * beta4 * beta2 * s) * (1 - beta2) ^ 2
    else if (60 < angle_deg ∧ angle_deg ≤ 180) ∧ beta ≥ 0.5 then do
      let s ← psqrt ((angle_deg - 60) / 120)
      return (1.205 - 0.20 * s) * (1 - beta ^ 2) ^ 2
    else .error .valueError
  else if method = "Crane" then diffuser_conical_Crane Di1 Di2 (some l_calc) (some angle_deg)
  else if method = "Miller" then do
    let A ← 1 /ₚ beta2
    let r ← l_calc /ₚ (0.5 * Di1)
    return max (X.diffMiller (Real.log (clampTo 0.1 20 r)) (Real.log (clampTo 1.1 4 A))) 0
  else if method = "Idelchik" then
    let angle_fric : ℝ := if angle_deg > 20 then 20 else if angle_deg < 2 then 2 else angle_deg
    return X.contractFriction angle_fric (clampTo 0.05 0.6 beta2) + X.diffIdelchik (min 0.6 beta2) (max 3 angle_deg)
  else if method = "Swamee" then do
    let r ← Di2 /ₚ Di1
    let p1 ← r ^ₚ (-1.67)
    let p2 ← 0.6 * p1 * (π - angle_rad) /ₚ angle_rad
    let p3 ← (1 + p2) ^ₚ (0.533 * r - 2.6)
    let p4 ← angle_rad ^ₚ (-3)
    let s ← psqrt (0.25 * p4 * p3)
    1 /ₚ s
  else if method = "Hooper" then do
    let K_sharp ← hooperExpansion beta Di1 fd Re roughness
    if angle_rad > 0.25 * π then return K_sharp
    else return K_sharp * 2.6 * Real.sin (0.5 * angle_rad)
  else .error .valueError

/-- fittings.py:2973-3023 `diffuser_conical_staged`: first and last stage, then the middle ones. -/
def diffuser_conical_staged (Di1 Di2 : ℝ) (DEs ls : List ℝ) (fd : Option ℝ) (method : Option String) : Py ℝ := do
  let d0 ← Seq.pyGet DEs 0
  let l0 ← Seq.pyGet ls 0
  let k0 ← diffuser_conical X Di1 d0 (some l0) none fd none 0 method
  let K : ℝ := 0 + k0
  let dl ← Seq.pyGet DEs (-1)
  let ll ← Seq.pyGet ls (-1)
  let kl ← diffuser_conical X dl Di2 (some ll) none fd none 0 method
  let K : ℝ := K + kl
  (List.range (DEs.length - 1)).foldlM (fun (K : ℝ) (i : ℕ) => do
    let a ← Seq.pyGet DEs (i : ℤ)
    let b ← Seq.pyGet DEs ((i : ℤ) + 1)
    let l ← Seq.pyGet ls ((i : ℤ) + 1)
    let k ← diffuser_conical X a b (some l) none fd none 0 method
    return K + k) K

end
end Verif.Fittings
