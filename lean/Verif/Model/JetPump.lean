import Verif.Py
import Verif.Model.Constants
import Mathlib.Analysis.SpecialFunctions.Trigonometric.Basic

/-! Model of `fluids/jet_pump.py`. -/

open Real

noncomputable section

namespace Verif.JetPump

/-- The seven variables `liquid_jet_pump` can solve for (jet_pump.py:417). -/
inductive Var | d_nozzle | d_mixing | Qp | Qs | P1 | P2 | P5
deriving DecidableEq

/-- jet_pump.py:417 `solution_vars`. -/
def solution_vars : List Var := [.d_nozzle, .d_mixing, .Qp, .Qs, .P1, .P2, .P5]

/-- jet_pump.py:162-173: `C`, `M`, `A_nozzle`, `A_mixing`, `R` and the pressure difference `rhop/2*(Qp/A_nozzle)**2*((1+Kp) - C*(1 + Ks)*((M*R)/(1-R))**2)`. -/
def nozzle_dP (rhop rhos Kp Ks d_nozzle d_mixing Qp Qs : ℝ) : Py ℝ := do
  let C : ℝ ← rhos /ₚ rhop
  let M : ℝ ← Qs /ₚ Qp
  let A_nozzle : ℝ := π / 4 * d_nozzle * d_nozzle
  let A_mixing : ℝ := π / 4 * d_mixing * d_mixing
  let R : ℝ ← A_nozzle /ₚ A_mixing
  let v : ℝ ← Qp /ₚ A_nozzle
  let w : ℝ ← M * R /ₚ (1 - R)
  return rhop / 2 * v ^ 2 * ((1 + Kp) - C * (1 + Ks) * w ^ 2)

/-- jet_pump.py:172-173: the branch solving for `P1`. -/
def ancillary_P1 (rhop rhos Kp Ks d_nozzle d_mixing Qp Qs P2 : ℝ) : Py ℝ := do
  let dP : ℝ ← nozzle_dP rhop rhos Kp Ks d_nozzle d_mixing Qp Qs
  return dP + P2

/-- jet_pump.py:174-175: the branch solving for `P2` (the code negates the same product). -/
def ancillary_P2 (rhop rhos Kp Ks d_nozzle d_mixing Qp Qs P1 : ℝ) : Py ℝ := do
  let dP : ℝ ← nozzle_dP rhop rhos Kp Ks d_nozzle d_mixing Qp Qs
  return -dP + P1

/-- jet_pump.py:176-180: the branch solving for `Qs`; `none` stands for the NaN returned when the square root is of a negative number. `C` and `R` are evaluated before. -/
def ancillary_Qs (rhop rhos Kp Ks d_nozzle d_mixing Qp P1 P2 : ℝ) : Py (Option ℝ) := do
  let C : ℝ ← rhos /ₚ rhop
  let A_nozzle : ℝ := π / 4 * d_nozzle * d_nozzle
  let A_mixing : ℝ := π / 4 * d_mixing * d_mixing
  let _R : ℝ ← A_nozzle /ₚ A_mixing
  let y : ℝ ← (-2 * A_nozzle ^ 2 * P1 + 2 * A_nozzle ^ 2 * P2 + Kp * Qp ^ 2 * rhop + Qp ^ 2 * rhop) /ₚ (C * rhop * (Ks + 1))
  if y < 0 then
    return none
  else
    let z : ℝ ← Real.sqrt y * (A_mixing - A_nozzle) /ₚ A_nozzle
    return (some z)

/-- jet_pump.py:181-182: the branch solving for `Qp`. -/
def ancillary_Qp (rhop rhos Kp Ks d_nozzle d_mixing Qs P1 P2 : ℝ) : Py ℝ := do
  let C : ℝ ← rhos /ₚ rhop
  let A_nozzle : ℝ := π / 4 * d_nozzle * d_nozzle
  let A_mixing : ℝ := π / 4 * d_mixing * d_mixing
  let _R : ℝ ← A_nozzle /ₚ A_mixing
  let y : ℝ ← (2 * A_mixing ^ 2 * P1 - 2 * A_mixing ^ 2 * P2 - 4 * A_mixing * A_nozzle * P1 + 4 * A_mixing * A_nozzle * P2 + 2 * A_nozzle ^ 2 * P1 - 2 * A_nozzle ^ 2 * P2 + C * Ks * Qs ^ 2 * rhop + C * Qs ^ 2 * rhop) /ₚ (rhop * (Kp + 1))
  let s : ℝ ← psqrt y
  A_nozzle * s /ₚ (A_mixing - A_nozzle)

/-- jet_pump.py:187, 193-195: the two one-dimensional solvers used: `brenth(f, a, b)` and `secant(f, x0)` of numerics (parameters here). -/
structure Solvers where
  brenth : (ℝ → Py ℝ) → ℝ → ℝ → Py ℝ
  secant : (ℝ → Py ℝ) → ℝ → Py ℝ

variable (S : Solvers)

/-- jet_pump.py:183-187: the branch solving for `d_nozzle`. The quotients `C` and `M` are evaluated before. -/
def ancillary_d_nozzle (rhop rhos Kp Ks d_mixing Qp Qs P1 P2 : ℝ) : Py ℝ := do
  let _C : ℝ ← rhos /ₚ rhop
  let _M : ℝ ← Qs /ₚ Qp
  S.brenth (fun d => do let p : ℝ ← ancillary_P1 rhop rhos Kp Ks d d_mixing Qp Qs P2; return P1 - p) 1e-9 (d_mixing * 20)

/-- jet_pump.py:188-195: the branch solving for `d_mixing`: any exception of the bounded solver leads to the secant solver. -/
def ancillary_d_mixing (rhop rhos Kp Ks d_nozzle Qp Qs P1 P2 : ℝ) : Py ℝ := do
  let _C : ℝ ← rhos /ₚ rhop
  let _M : ℝ ← Qs /ₚ Qp
  let err : ℝ → Py ℝ := fun d => do let p : ℝ ← ancillary_P1 rhop rhos Kp Ks d_nozzle d Qp Qs P2; return P1 - p
  match S.brenth err 1e-9 (d_nozzle * 20) with
  | .ok d => .ok d
  | .error _ => S.secant err (d_nozzle * 2)

/-- jet_pump.py:157-197 `liquid_jet_pump_ancillary`; `ok none` is a NaN result. The order of the tests is irrelevant: exactly one
argument is missing when they are reached. -/
def liquid_jet_pump_ancillary (rhop rhos Kp Ks : ℝ) (d_nozzle d_mixing Qp Qs P1 P2 : Option ℝ) : Py (Option ℝ) :=
  match d_nozzle, d_mixing, Qp, Qs, P1, P2 with
  | some dn, some dm, some qp, some qs, none, some p2 => some <$> ancillary_P1 rhop rhos Kp Ks dn dm qp qs p2
  | some dn, some dm, some qp, some qs, some p1, none => some <$> ancillary_P2 rhop rhos Kp Ks dn dm qp qs p1
  | some dn, some dm, some qp, none, some p1, some p2 => ancillary_Qs rhop rhos Kp Ks dn dm qp p1 p2
  | some dn, some dm, none, some qs, some p1, some p2 => some <$> ancillary_Qp rhop rhos Kp Ks dn dm qs p1 p2
  | none, some dm, some qp, some qs, some p1, some p2 => some <$> ancillary_d_nozzle S rhop rhos Kp Ks dm qp qs p1 p2
  | some dn, none, some qp, some qs, some p1, some p2 => some <$> ancillary_d_mixing S rhop rhos Kp Ks dn qp qs p1 p2
  | _, _, _, _, _, _ => .error .valueError

/-- jet_pump.py:206-224: the pressure ratio `N` of `liquid_jet_pump_pressure_ratio`. -/
def pressure_ratio_N (rhop rhos Km Kd Ks Kp d_nozzle d_mixing d_diffuser Qp Qs : ℝ) (nozzle_retracted : Bool) : Py ℝ := do
  let C : ℝ ← rhos /ₚ rhop
  let j : ℝ := if nozzle_retracted then 0 else 1
  let R : ℝ ← d_nozzle ^ 2 /ₚ d_mixing ^ 2
  let alpha : ℝ ← d_mixing ^ 2 /ₚ d_diffuser ^ 2
  let M : ℝ ← Qs /ₚ Qp
  let M2 : ℝ := M * M
  let R2 : ℝ := R * R
  let alpha2 : ℝ := alpha * alpha
  let a : ℝ ← 2 * C * M2 * R2 /ₚ (1 - R)
  let num : ℝ := 2 * R + a
  let num : ℝ := num - R2 * (1 + C * M) * (1 + M) * (1 + Km + Kd + alpha2)
  let b : ℝ ← C * M2 * R2 /ₚ (1 - R) ^ 2
  let num : ℝ := num - b * (1 + Ks)
  let den : ℝ := (1 + Kp) - 2 * R - a
  let den : ℝ := den + R2 * (1 + C * M) * (1 + M) * (1 + Km + Kd + alpha2)
  let c : ℝ ← (1 - R) /ₚ R
  let d : ℝ ← C * M2 /ₚ c ^ 2
  let den : ℝ := den + (1 - j) * d * (1 - Ks)
  num /ₚ den

/-- jet_pump.py:225-248: the pressures completed by `liquid_jet_pump_pressure_ratio` when `P1`, else `P2`, else `P5` is missing: `(P1, P2, P5)`. With none missing
the function returns a residual instead (`pressure_ratio_residual`). Two missing pressures meet arithmetic on None. -/
def pressure_ratio_solution (N : ℝ) (P1 P2 P5 : Option ℝ) : Py (ℝ × ℝ × ℝ) :=
  match P1, P2, P5 with
  | none, some P2, some P5 => do
    let P1 : ℝ ← (-P2 + P5 * N + P5) /ₚ N
    return (P1, P2, P5)
  | some P1, none, some P5 => .ok (P1, -P1 * N + P5 * N + P5, P5)
  | some P1, some P2, none => do
    let P5 : ℝ ← (P1 * N + P2) /ₚ (N + 1)
    return (P1, P2, P5)
  | _, _, _ => .error .typeError

/-- jet_pump.py:231-232: the residual `N - (P5 - P2)/(P1 - P5)`. -/
def pressure_ratio_residual (N P1 P2 P5 : ℝ) : Py ℝ := do
  let r : ℝ ← (P5 - P2) /ₚ (P1 - P5)
  return N - r

/-- jet_pump.py:201-248 `liquid_jet_pump_pressure_ratio`: the residual (`inl`) when all three pressures are given, else the dictionary `(P1, P2, P5)` (`inr`). -/
def liquid_jet_pump_pressure_ratio (rhop rhos Km Kd Ks Kp d_nozzle d_mixing d_diffuser Qp Qs : ℝ) (P1 P2 P5 : Option ℝ) (nozzle_retracted : Bool) : Py (ℝ ⊕ (ℝ × ℝ × ℝ)) := do
  let N : ℝ ← pressure_ratio_N rhop rhos Km Kd Ks Kp d_nozzle d_mixing d_diffuser Qp Qs nozzle_retracted
  match P1, P2, P5 with
  | some P1, some P2, some P5 => Sum.inl <$> pressure_ratio_residual N P1 P2 P5
  | P1, P2, P5 => Sum.inr <$> pressure_ratio_solution N P1 P2 P5

/-- The dictionary returned by `liquid_jet_pump` (jet_pump.py:429-430, 488, 528-532). -/
structure Solution where
  vals : Var → ℝ
  d_diffuser : ℝ
  N : ℝ
  M : ℝ
  R : ℝ
  alpha : ℝ
  efficiency : ℝ

/-- jet_pump.py:251-254: the arguments `liquid_jet_pump` keeps fixed. -/
structure Fixed where
  rhop : ℝ
  rhos : ℝ
  Kp : ℝ
  Ks : ℝ
  Km : ℝ
  Kd : ℝ
  retracted : Bool

/-- jet_pump.py:481-487: the diffuser diameter used. -/
def diffuser (d_diffuser d_mixing d_nozzle : Option ℝ) : ℝ :=
  match d_diffuser, d_mixing, d_nozzle with
  | some d, _, _ => d
  | none, some dm, _ => dm * 1e3
  | none, none, some dn => dn * 1e3
  | none, none, none => 1000

/-- jet_pump.py:494-495: the dictionary after assigning the absolute values of the two iterates. Values never assigned do not occur (0 stands for them). -/
def assign (given : Var → Option ℝ) (u v : Var) (a b : ℝ) : Var → ℝ :=
  fun i => if i = v then |b| else if i = u then |a| else (given i).getD 0

/-- jet_pump.py:534-542: one error with the penalty for a negative efficiency. -/
def penalised (err eff : ℝ) : ℝ := if eff < 0 then (if err < 0 then err - |eff| else err + |eff|) else err

/-- jet_pump.py:509-547: the objective at a full set of values, with the dictionary entries it writes. -/
def obj_err (F : Fixed) (d_diffuser : ℝ) (x : Var → ℝ) : Py ((ℝ × ℝ) × Solution) := do
  let C : ℝ ← F.rhos /ₚ F.rhop
  let A_nozzle : ℝ := π / 4 * x .d_nozzle ^ 2
  let alpha : ℝ ← x .d_mixing ^ 2 /ₚ d_diffuser ^ 2
  let R : ℝ ← x .d_nozzle ^ 2 /ₚ x .d_mixing ^ 2
  let M : ℝ ← x .Qs /ₚ x .Qp
  let N0 : ℝ ← pressure_ratio_N F.rhop F.rhos F.Km F.Kd F.Ks F.Kp (x .d_nozzle) (x .d_mixing) d_diffuser (x .Qp) (x .Qs) F.retracted
  let err1 : ℝ ← pressure_ratio_residual N0 (x .P1) (x .P2) (x .P5)
  let v : ℝ ← x .Qp /ₚ A_nozzle
  let w : ℝ ← M * R /ₚ (1 - R)
  let rhs : ℝ := F.rhop / 2 * v ^ 2 * ((1 + F.Kp) - C * (1 + F.Ks) * w ^ 2)
  let err2 : ℝ := rhs - (x .P1 - x .P2)
  let N : ℝ ← (x .P5 - x .P2) /ₚ (x .P1 - x .P5)
  let eff : ℝ := M * N
  return ((penalised err1 eff, penalised err2 eff), { vals := x, d_diffuser := d_diffuser, N := N, M := M, R := R, alpha := alpha, efficiency := eff })

/-- jet_pump.py:551-566: the path with `P5` and one other variable `u` missing; `none` when that variable is NaN (every computed entry is then NaN; a division by a zero
diameter or flow after that point is not modelled). -/
def solve_P5 (F : Fixed) (d_diffuser : ℝ) (given : Var → Option ℝ) (u : Var) : Py (Option Solution) := do
  let a : Option ℝ ← liquid_jet_pump_ancillary S F.rhop F.rhos F.Kp F.Ks (given .d_nozzle) (given .d_mixing) (given .Qp) (given .Qs) (given .P1) (given .P2)
  match a with
  | none => .ok none
  | some a => do
    let x : Var → ℝ := fun i => if i = u then a else (given i).getD 0
    let N : ℝ ← pressure_ratio_N F.rhop F.rhos F.Km F.Kd F.Ks F.Kp (x .d_nozzle) (x .d_mixing) d_diffuser (x .Qp) (x .Qs) F.retracted
    let p : ℝ × ℝ × ℝ ← pressure_ratio_solution N (some (x .P1)) (some (x .P2)) none
    let r : (ℝ × ℝ) × Solution ← obj_err F d_diffuser (assign given u .P5 a p.2.2)
    return (some r.2)

/-- jet_pump.py:570-571: the system solver `SolverInterface(...).solve` (parameter): from an objective and a guess to two numbers. -/
abbrev SystemSolver := (ℝ × ℝ → Py (ℝ × ℝ)) → ℝ × ℝ → Py (ℝ × ℝ)

/-- jet_pump.py:569-579 `solve_with_newton`; the last evaluation of the objective fixes the dictionary. -/
def solve_with_newton (sys : SystemSolver) (F : Fixed) (d_diffuser : ℝ) (given : Var → Option ℝ) (u v : Var) (guess : ℝ × ℝ) : Py Solution := do
  let s : ℝ × ℝ ← sys (fun y => do let r : (ℝ × ℝ) × Solution ← obj_err F d_diffuser (assign given u v y.1 y.2); return r.1) guess
  let r : (ℝ × ℝ) × Solution ← obj_err F d_diffuser (assign given u v s.1 s.2)
  if |r.1.1| + |r.1.2| > 1e-5 then
    .error .valueError
  else
    return r.2

/-- The first attempt that succeeds (jet_pump.py:581-609: `try: return ... except: pass`); "Could not solve" when none does. -/
def first_success {α β : Type} (f : α → Py β) : List α → Py β
  | [] => .error .valueError
  | a :: l => match f a with
    | .ok b => .ok b
    | .error _ => first_success f l

/-- jet_pump.py:431-472: the initial guess of one unknown. Arithmetic on a missing value raises and the handler's formula is used; a guess that would itself raise
(two missing pressures besides) cannot occur with two unknowns. -/
def guess (given : Var → Option ℝ) : Var → ℝ
  | .d_nozzle => match given .d_mixing with | some d => d * 0.4 | none => 0.01
  | .d_mixing => match given .d_nozzle with | some d => d * 2 | none => 0.02
  | .P1 => match given .P2 with | some p => p * 5 | none => (given .P5).getD 0 * 5
  | .P2 => match given .P1, given .P5 with
    | some p, some q => (p + q) * 0.5
    | some p, none => p / 1.1
    | none, q => q.getD 0 * 1.25
  | .P5 => match given .P1 with | some p => p * 1.12 | none => (given .P2).getD 0 * 1.12
  | .Qp => match given .Qs with | some q => q * 1.04 | none => 0.01
  | .Qs => match given .Qp with | some q => q * 0.5 | none => 0.01

/-- jet_pump.py:416-609 `liquid_jet_pump`. `factors` are the random pairs by which the guesses are multiplied on the successive attempts after the first
(lines 585-608); how many there are and how they are drawn does not matter to the properties. `ok none` is a dictionary of NaN. -/
def liquid_jet_pump (sys : SystemSolver) (F : Fixed) (d_diffuser : Option ℝ) (given : Var → Option ℝ) (factors : List (ℝ × ℝ)) : Py (Option Solution) :=
  match solution_vars.filter fun i => (given i).isNone with
  | [u, v] =>
    let dd : ℝ := diffuser d_diffuser (given .d_mixing) (given .d_nozzle)
    if F.rhop = 0 then .error .zeroDivisionError
    else if v = .P5 then solve_P5 S F dd given u
    else some <$> first_success (fun k => solve_with_newton sys F dd given u v (guess given u * k.1, guess given v * k.2)) ((1, 1) :: factors)
  | _ => .error .valueError

/-! ### air leakage -/

/-- jet_pump.py:667-678 `vacuum_air_leakage_Ryans_Croll`. Defaults: P_atm = 101325. -/
def vacuum_air_leakage_Ryans_Croll (V P P_atm : ℝ) : Py ℝ := do
  let V : ℝ := V * (Const.foot_cubed_inv : ℚ)
  let P : ℝ := P * (Const.torr_inv : ℚ)
  let P_atm : ℝ := P_atm * (Const.torr_inv : ℚ)
  let P_vacuum : ℝ := P_atm - P
  let vv : ℝ ← (if P_vacuum < 10 then do
      let a : ℝ ← P_vacuum ^ₚ 0.34
      let b : ℝ ← V ^ₚ 0.6
      return 0.026 * a * b
    else if P_vacuum < 100 then do
      let a : ℝ ← P_vacuum ^ₚ 0.26
      let b : ℝ ← V ^ₚ 0.6
      return 0.032 * a * b
    else do
      let b : ℝ ← V ^ₚ 0.6
      return 0.106 * b : Py ℝ)
  return vv * (Const.lb : ℚ) * (Const.hour_inv : ℚ)

/-- jet_pump.py:721-728 `vacuum_air_leakage_Seider`. Defaults: P_atm = 101325. -/
def vacuum_air_leakage_Seider (V P P_atm : ℝ) : Py ℝ := do
  let P : ℝ := P * (Const.torr_inv : ℚ)
  let P_atm : ℝ := P_atm * (Const.torr_inv : ℚ)
  let P_vacuum : ℝ := P_atm - P
  let V : ℝ := V * (Const.foot_cubed_inv : ℚ)
  let lnP : ℝ ← plog P_vacuum
  let b : ℝ ← V ^ₚ 0.66
  let leakage_lb_hr : ℝ := 5 + (0.0289 + 0.03088 * lnP - 0.0005733 * lnP * lnP) * b
  return leakage_lb_hr * (Const.lb : ℚ) * (Const.hour_inv : ℚ)

/-- jet_pump.py:781-790: the coefficients of the five fits. -/
def HEI_coeffs (P_vacuum : ℝ) : ℝ × ℝ :=
  if P_vacuum ≤ 1 then (0.6667235169997174, -3.71246576520232)
  else if P_vacuum ≤ 3 then (0.664489357445796, -3.0147277548691274)
  else if P_vacuum ≤ 20 then (0.6656780453394583, -2.34007321331419)
  else if P_vacuum ≤ 90 then (0.663080000739313, -1.9278288516732665)
  else (0.6658471905826482, -1.6641585778506027)

/-- jet_pump.py:773-793 `vacuum_air_leakage_HEI2633`. Defaults: P_atm = 101325. -/
def vacuum_air_leakage_HEI2633 (V P P_atm : ℝ) : Py ℝ := do
  let P_atm : ℝ := P_atm * (Const.mmHg_inv : ℚ)
  let P : ℝ := P * (Const.mmHg_inv : ℚ)
  let P_vacuum : ℝ := P_atm - P
  let V : ℝ := V * (Const.foot_cubed_inv : ℚ)
  let V : ℝ := if V < 10 then 10 else V
  let logV : ℝ ← plog V
  let c : ℝ × ℝ := HEI_coeffs P_vacuum
  let leakage_lb_hr : ℝ := Real.exp (c.2 + logV * c.1)
  return leakage_lb_hr * (Const.lb : ℚ) * (Const.hour_inv : ℚ)

/-- jet_pump.py:828-850 `vacuum_air_leakage_Coker_Worthington`. Defaults: P_atm = 101325, conservative = True. -/
def vacuum_air_leakage_Coker_Worthington (P P_atm : ℝ) (conservative : Bool) : ℝ :=
  let P : ℝ := P / (Const.inchHg : ℚ)
  let P_atm : ℝ := P_atm / (Const.inchHg : ℚ)
  let P_vacuum : ℝ := P_atm - P
  let leakage : ℝ :=
    if conservative then (if P_vacuum > 8 then 40 else if P_vacuum > 5 then 30 else if P_vacuum > 3 then 25 else 20)
    else (if P_vacuum > 8 then 30 else if P_vacuum > 5 then 25 else if P_vacuum > 3 then 20 else 10)
  leakage * (Const.lb : ℚ) * (Const.hour_inv : ℚ)

end Verif.JetPump
