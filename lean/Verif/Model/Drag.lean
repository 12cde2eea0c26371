import Verif.Py
import Mathlib.Analysis.SpecialFunctions.Pow.Real
import Mathlib.Analysis.SpecialFunctions.Trigonometric.DerivHyp

/-! Model of `fluids/drag.py`.  The root finder used by `v_terminal` is a parameter; the ODE path of `integrate_drag_sphere` (scipy's
`odeint`) is not modelled, its closed-form laminar path is. -/

open Real

noncomputable section

namespace Verif.Drag

/-- standard gravity (constants.py:59) -/
def g : ℝ := 9.80665

/-- drag.py:131 `Stokes` -/
def Stokes (Re : ℝ) : Py ℝ := 24 /ₚ Re

/-- drag.py:173-177 `Barati` -/
def Barati (Re : ℝ) : Py ℝ := do
  let Re_inv : ℝ ← 1 /ₚ Re
  let t2 : ℝ ← 9.9851 /ₚ (Re + 2.3384)
  let Cd : ℝ := 5.4856e9 * Real.tanh (4.3774e-9 * Re_inv) + 0.0709 * Real.tanh (700.6574 * Re_inv) + 0.3894 * Real.tanh (74.1539 * Re_inv) - 0.1198 * Real.tanh (7429.0843 * Re_inv) + 1.7174 * Real.tanh t2 + 0.4744
  return Cd

/-- drag.py:226-240 `Barati_high` after the clip -/
def baratiHigh (Re : ℝ) : Py ℝ := do
  let Re2 : ℝ := Re * Re
  let t0 : ℝ ← 1 /ₚ Re
  let t1 : ℝ := Re * (1 / 6530)
  let t2 : ℝ := Re * (1 / 1620)
  let t3 : ℝ ← plog10 (Re2 + 10.7563)
  let t4a : ℝ ← 1 /ₚ (Re + Re2)
  let t4b : ℝ := t4a * t4a
  let t4 : ℝ := t4b * t4b
  let tanhRe : ℝ := Real.tanh Re
  let l1 : ℝ ← plog10 Re
  let l2 : ℝ ← plog10 (Real.tanh tanhRe)
  return 8e-6 * (t1 * t1 + tanhRe - 8 * l1) - 0.4119 * Real.exp (-2.08e43 * t4) - 2.1344 * Real.exp (-t0 * (t3 * t3 + 9.9867)) + 0.1357 * Real.exp (-t0 * (t2 * t2 + 10370)) - 8.5e-3 * t0 * (2 * l2 - 2825.7162) + 2.4795

/-- drag.py:224-225 `Barati_high`: the Reynolds number is clipped to `1e6` -/
def Barati_high (Re : ℝ) : Py ℝ := baratiHigh (if Re > 1e6 then 1e6 else Re)

/-- drag.py:280 `Rouse` -/
def Rouse (Re : ℝ) : Py ℝ := do
  let t1 : ℝ ← 24 /ₚ Re
  let t2 : ℝ ← psqrt Re
  let t3 : ℝ ← 3 /ₚ t2
  return t1 + t3 + 0.34

/-- drag.py:321 `Engelund_Hansen` -/
def Engelund_Hansen (Re : ℝ) : Py ℝ := do
  let t1 : ℝ ← 24 /ₚ Re
  return t1 + 1.5

/-- drag.py:362 `Clift_Gauvin` -/
def Clift_Gauvin (Re : ℝ) : Py ℝ := do
  let t1 : ℝ ← 24 /ₚ Re
  let t2 : ℝ ← Re ^ₚ 0.677
  let t3 : ℝ ← Re ^ₚ (-0.94)
  let t4 : ℝ ← 0.417 /ₚ (1 + 5070 * t3)
  return t1 * (1 + 0.152 * t2) + t4

/-- drag.py:441-456 `Morsi_Alexander` -/
def Morsi_Alexander (Re : ℝ) : Py ℝ :=
  if Re < 0.1 then
    24 /ₚ Re
  else if Re < 1 then do
    let t2 : ℝ ← 22.73 /ₚ Re
    let t3 : ℝ ← 0.0903 /ₚ Re ^ 2
    return t2 + t3 + 3.69
  else if Re < 10 then do
    let t4 : ℝ ← 29.1667 /ₚ Re
    let t5 : ℝ ← 3.8889 /ₚ Re ^ 2
    return t4 - t5 + 1.2220
  else if Re < 100 then do
    let t6 : ℝ ← 46.5 /ₚ Re
    let t7 : ℝ ← 116.67 /ₚ Re ^ 2
    return t6 - t7 + 0.6167
  else if Re < 1000 then do
    let t8 : ℝ ← 98.33 /ₚ Re
    let t9 : ℝ ← 2778 /ₚ Re ^ 2
    return t8 - t9 + 0.3644
  else if Re < 5000 then do
    let t10 : ℝ ← 148.62 /ₚ Re
    let t11 : ℝ ← 4.75e4 /ₚ Re ^ 2
    return t10 - t11 + 0.3570
  else if Re < 10000 then do
    let t12 : ℝ ← -490.546 /ₚ Re
    let t13 : ℝ ← 57.87e4 /ₚ Re ^ 2
    return t12 + t13 + 0.46
  else do
    let t14 : ℝ ← -1662.5 /ₚ Re
    let t15 : ℝ ← 5.4167e6 /ₚ Re ^ 2
    return t14 + t15 + 0.5191

/-- drag.py:496 `Graf` -/
def Graf (Re : ℝ) : Py ℝ := do
  let t1 : ℝ ← 24 /ₚ Re
  let t2 : ℝ ← psqrt Re
  let t3 : ℝ ← 7.3 /ₚ (1 + t2)
  return t1 + t3 + 0.25

/-- drag.py:540-541 `Flemmer_Banks` -/
def Flemmer_Banks (Re : ℝ) : Py ℝ := do
  let t1 : ℝ ← Re ^ₚ 0.356
  let t2 : ℝ ← Re ^ₚ 0.396
  let t3 : ℝ ← plog10 Re
  let t4 : ℝ ← 0.143 /ₚ (1 + t3 ^ 2)
  let E : ℝ := 0.383 * t1 - 0.207 * t2 - t4
  let t5 : ℝ ← 24 /ₚ Re
  let t6 : ℝ ← (10 : ℝ) ^ₚ E
  return t5 * t6

/-- drag.py:582 `Khan_Richardson` -/
def Khan_Richardson (Re : ℝ) : Py ℝ := do
  let t1 : ℝ ← Re ^ₚ (-0.328)
  let t2 : ℝ ← Re ^ₚ 0.067
  (2.49 * t1 + 0.34 * t2) ^ₚ 3.18

/-- drag.py:624-625 `Swamee_Ojha` -/
def Swamee_Ojha (Re : ℝ) : Py ℝ := do
  let t1 : ℝ ← 24 /ₚ Re
  let t2 : ℝ ← t1 ^ₚ 1.6
  let t3 : ℝ ← 130 /ₚ Re
  let t4 : ℝ ← t3 ^ₚ 0.72
  let t5 : ℝ ← (t2 + t4) ^ₚ 2.5
  let t6 : ℝ ← 40000 /ₚ Re
  let t7 : ℝ ← psqrt (t6 ^ 2 + 1)
  let t8 : ℝ ← psqrt t7
  let t9 : ℝ ← 1 /ₚ t8
  let t10 : ℝ ← psqrt (16 * t5 + t9)
  let t11 : ℝ ← psqrt t10
  let Cd : ℝ := 0.5 * t11
  return Cd

/-- drag.py:666 `Yen` -/
def Yen (Re : ℝ) : Py ℝ := do
  let t1 : ℝ ← 24 /ₚ Re
  let t2 : ℝ ← psqrt Re
  let t3 : ℝ ← psqrt Re
  let t4 : ℝ ← 1e4 * 1 /ₚ t3
  let t5 : ℝ ← 0.208 /ₚ (1 + t4)
  return t1 * (1 + 0.15 * t2 + 0.017 * Re) - t5

/-- drag.py:709 `Haider_Levenspiel` -/
def Haider_Levenspiel (Re : ℝ) : Py ℝ := do
  let t1 : ℝ ← 24 /ₚ Re
  let t2 : ℝ ← Re ^ₚ 0.6459
  let t3 : ℝ ← 6880.95 /ₚ Re
  let t4 : ℝ ← 0.4251 /ₚ (1 + t3)
  return t1 * (1 + 0.1806 * t2) + t4

/-- drag.py:750 `Cheng` -/
def Cheng (Re : ℝ) : Py ℝ := do
  let t1 : ℝ ← 24 /ₚ Re
  let t2 : ℝ ← (1 + 0.27 * Re) ^ₚ 0.43
  let t3 : ℝ ← Re ^ₚ 0.38
  return t1 * t2 + 0.47 * (1 - Real.exp (-0.04 * t3))

/-- drag.py:792 `Terfous` -/
def Terfous (Re : ℝ) : Py ℝ := do
  let t1 : ℝ ← 21.683 /ₚ Re
  let t2 : ℝ ← 0.131 /ₚ Re ^ 2
  let t3 : ℝ ← Re ^ₚ 0.1
  let t4 : ℝ ← 10.616 /ₚ t3
  let t5 : ℝ ← Re ^ₚ 0.2
  let t6 : ℝ ← 12.216 /ₚ t5
  return 2.689 + t1 + t2 - t4 + t6

/-- drag.py:834-836 `Mikhailov_Freire` -/
def Mikhailov_Freire (Re : ℝ) : Py ℝ := do
  let Cd : ℝ ← 3808 * (1617933 / 2030 + 178861 / 1063 * Re + 1219 / 1084 * Re ^ 2) /ₚ (681 * Re * (77531 / 422 + 13529 / 976 * Re - 1 / 71154 * Re ^ 2))
  return Cd

/-- drag.py:918-935 `Clift` -/
def Clift (Re : ℝ) : Py ℝ :=
  if Re < 0.01 then do
    let t1 : ℝ ← 24 /ₚ Re
    return t1 + 3 / 16
  else if Re < 20 then do
    let t2 : ℝ ← 24 /ₚ Re
    let t3 : ℝ ← plog10 Re
    let t4 : ℝ ← Re ^ₚ (0.82 - 0.05 * t3)
    return t2 * (1 + 0.1315 * t4)
  else if Re < 260 then do
    let t5 : ℝ ← 24 /ₚ Re
    let t6 : ℝ ← Re ^ₚ 0.6305
    return t5 * (1 + 0.1935 * t6)
  else if Re < 1500 then do
    let t7 : ℝ ← plog10 Re
    let t8 : ℝ ← plog10 Re
    (10 : ℝ) ^ₚ (1.6435 - 1.1242 * t7 + 0.1558 * t8 ^ 2)
  else if Re < 12000 then do
    let t10 : ℝ ← plog10 Re
    let t11 : ℝ ← plog10 Re
    let t12 : ℝ ← plog10 Re
    (10 : ℝ) ^ₚ (-2.4571 + 2.5558 * t10 - 0.9295 * t11 ^ 2 + 0.1049 * t12 ^ 3)
  else if Re < 44000 then do
    let t14 : ℝ ← plog10 Re
    let t15 : ℝ ← plog10 Re
    (10 : ℝ) ^ₚ (-1.9181 + 0.6370 * t14 - 0.0636 * t15 ^ 2)
  else if Re < 338000 then do
    let t17 : ℝ ← plog10 Re
    let t18 : ℝ ← plog10 Re
    (10 : ℝ) ^ₚ (-4.3390 + 1.5809 * t17 - 0.1546 * t18 ^ 2)
  else if Re < 400000 then do
    let t20 : ℝ ← plog10 Re
    return 29.78 - 5.3 * t20
  else do
    let t21 : ℝ ← plog10 Re
    return 0.19 * t21 - 0.49

/-- drag.py:981-984 `Ceylan` -/
def Ceylan (Re : ℝ) : Py ℝ := do
  let t1 : ℝ ← Re ^ₚ (-2 / 3)
  let t2 : ℝ ← psqrt Re
  let t3 : ℝ ← psqrt t2
  let t4 : ℝ ← 0.952 /ₚ t3
  let t5 : ℝ ← Re ^ₚ (-4 / 3)
  let t6 : ℝ ← psqrt Re
  let t7 : ℝ ← 1.30 /ₚ t6
  let Cd : ℝ := 1 - 0.5 * Real.exp 0.182 + 10.11 * t1 * Real.exp t4 - 0.03859 * t5 * Real.exp t7 + 0.037e-4 * Re * Real.exp (-0.125e-4 * Re) - 0.116e-10 * Re ^ 2 * Real.exp (-0.444e-5 * Re)
  return Cd

/-- drag.py:1038-1042 `Almedeij` -/
def Almedeij (Re : ℝ) : Py ℝ := do
  let t1 : ℝ ← Re ^ₚ 2.63
  let t2 : ℝ ← (6e-17 * t1) ^ₚ (-10)
  let t3 : ℝ ← (0.2 : ℝ) ^ₚ (-10)
  let phi4 : ℝ ← (t2 + t3) ^ₚ (-1)
  let t5 : ℝ ← Re ^ₚ (-1.625)
  let phi3 : ℝ := (1.57e8 * t5) ^ 10
  let t6 : ℝ ← Re ^ₚ 0.11
  let t7 : ℝ ← (0.148 * t6) ^ₚ (-10)
  let t8 : ℝ ← (0.5 : ℝ) ^ₚ (-10)
  let phi2 : ℝ ← (t7 + t8) ^ₚ (-1)
  let t10 : ℝ ← Re ^ₚ (-1)
  let t11 : ℝ ← Re ^ₚ (-0.67)
  let t12 : ℝ ← Re ^ₚ (-0.33)
  let phi1 : ℝ := (24 * t10) ^ 10 + (21 * t11) ^ 10 + (4 * t12) ^ 10 + 0.4 ^ 10
  let t13 : ℝ ← (phi1 + phi2) ^ₚ (-1)
  let t14 : ℝ ← phi3 ^ₚ (-1)
  let t15 : ℝ ← 1 /ₚ (t13 + t14)
  (t15 + phi4) ^ₚ 0.1

/-- drag.py:1084-1086 `Morrison` -/
def Morrison (Re : ℝ) : Py ℝ := do
  let t1 : ℝ ← 24 /ₚ Re
  let t2 : ℝ ← (Re / 5) ^ₚ 1.52
  let t3 : ℝ ← 2.6 * Re / 5 /ₚ (1 + t2)
  let t4 : ℝ ← (Re / 263000) ^ₚ (-7.94)
  let t5 : ℝ ← (Re / 263000) ^ₚ (-8)
  let t6 : ℝ ← 0.411 * t4 /ₚ (1 + t5)
  let t7 : ℝ ← Re ^ₚ 0.8
  let Cd : ℝ := t1 + t3 + t6 + t7 / 461000
  return Cd

/-- drag.py:1131 `Song_Xu` -/
def Song_Xu (Re : ℝ) (sphericity : ℝ := 1) (S : ℝ := 1) : Py ℝ := do
  let t1 : ℝ ← sphericity ^ₚ 0.65
  let t2 : ℝ ← S ^ₚ 0.3
  let t3 : ℝ ← 24 /ₚ (Re * t1 * t2)
  let t4 : ℝ ← (1 + 0.35 * Re) ^ₚ 0.44
  return t3 * t4

/-- drag.py:1134-1156 `drag_sphere_correlations`: name, lower and upper Reynolds limit (the function itself is in `dispatch`) -/
def correlations : List (String × Option ℝ × Option ℝ) :=
  [("Stokes", none, some 0.3),
   ("Barati", none, some 2e5),
   ("Barati_high", none, some 1e6),
   ("Rouse", none, some 2e5),
   ("Engelund_Hansen", none, some 2e5),
   ("Clift_Gauvin", none, some 2e5),
   ("Morsi_Alexander", none, some 2e5),
   ("Graf", none, some 2e5),
   ("Flemmer_Banks", none, some 2e5),
   ("Khan_Richardson", none, some 2e5),
   ("Swamee_Ojha", none, some 1.5e5),
   ("Yen", none, some 2e5),
   ("Haider_Levenspiel", none, some 2e5),
   ("Cheng", none, some 2e5),
   ("Terfous", some 0.1, some 5e4),
   ("Mikhailov_Freire", none, some 118300),
   ("Clift", none, some 1e6),
   ("Ceylan", some 0.1, some 1e6),
   ("Almedeij", none, some 1e6),
   ("Morrison", none, some 1e6),
   ("Song_Xu", none, some 1e3)]

open Classical in
/-- drag.py:1187-1191 `drag_sphere_methods` -/
def drag_sphere_methods (Re : ℝ) (check_ranges : Bool := true) : List String :=
  (correlations.filter fun c =>
    decide (((c.2.1 = none ∨ ∃ m ∈ c.2.1, Re > m) ∧ (c.2.2 = none ∨ ∃ m ∈ c.2.2, Re < m)) ∨ check_ranges = false)).map fun c => c.1

/-- drag.py:1246-1289: the named correlations of `drag_sphere` -/
def dispatch (Re : ℝ) (Method : String) : Py ℝ :=
  if Method = "Stokes" then Stokes Re
  else if Method = "Barati" then Barati Re
  else if Method = "Barati_high" then Barati_high Re
  else if Method = "Rouse" then Rouse Re
  else if Method = "Engelund_Hansen" then Engelund_Hansen Re
  else if Method = "Clift_Gauvin" then Clift_Gauvin Re
  else if Method = "Morsi_Alexander" then Morsi_Alexander Re
  else if Method = "Graf" then Graf Re
  else if Method = "Flemmer_Banks" then Flemmer_Banks Re
  else if Method = "Khan_Richardson" then Khan_Richardson Re
  else if Method = "Swamee_Ojha" then Swamee_Ojha Re
  else if Method = "Yen" then Yen Re
  else if Method = "Haider_Levenspiel" then Haider_Levenspiel Re
  else if Method = "Cheng" then Cheng Re
  else if Method = "Terfous" then Terfous Re
  else if Method = "Mikhailov_Freire" then Mikhailov_Freire Re
  else if Method = "Clift" then Clift Re
  else if Method = "Ceylan" then Ceylan Re
  else if Method = "Almedeij" then Almedeij Re
  else if Method = "Morrison" then Morrison Re
  else if Method = "Song_Xu" then Song_Xu Re
  else .error .valueError

/-- drag.py:1240-1242: the linear blend between Stokes' law and `Barati` -/
def blend (Re : ℝ) : Py ℝ := do
  let ratio : ℝ := (Re - 0.01) / (0.1 - 0.01)
  let b : ℝ ← Barati Re
  let s : ℝ ← Stokes Re
  return ratio * b + (1 - ratio) * s

/-- drag.py:1231-1289 `drag_sphere` -/
def drag_sphere (Re : ℝ) (Method : Option String := none) : Py ℝ :=
  match Method with
  | none =>
    if Re > 0.1 then
      if Re ≤ 212963.26847812787 then Barati Re else Barati_high Re
    else if Re ≥ 0.01 then blend Re
    else Stokes Re
  | some m => dispatch Re m

/-- drag.py:1292-1294 `_v_terminal_err` -/
def v_terminal_err (Method : Option String) (Re_almost main V : ℝ) : Py ℝ := do
  let Cd : ℝ ← drag_sphere (Re_almost * V) Method
  let q : ℝ ← main /ₚ Cd
  let s : ℝ ← psqrt q
  return V - s

/-- drag.py:1368-1374: the numerical branch of `v_terminal`; `secant` is the root finder, called with the residual and the initial guess -/
def v_terminal_search (secant : (ℝ → Py ℝ) → ℝ → Py ℝ) (D rhop rho mu : ℝ) (Method : Option String) : Py ℝ := do
  let Re_almost : ℝ ← rho * D /ₚ mu
  let main : ℝ ← 4 / 3 * g * D * (rhop - rho) /ₚ rho
  let a : ℝ ← 1e6 /ₚ rho
  let b : ℝ ← a /ₚ D
  let V_max : ℝ := b * mu
  secant (fun V => v_terminal_err Method Re_almost main V) (V_max * 1e-2)

/-- drag.py:1363-1374 `v_terminal`; `Reynolds` (core.py) with `rho` and `mu` divides by `nu = mu/rho` -/
def v_terminal (secant : (ℝ → Py ℝ) → ℝ → Py ℝ) (D rhop rho mu : ℝ) (Method : Option String := none) : Py ℝ := do
  let v_lam : ℝ ← g * D * D * (rhop - rho) /ₚ (18 * mu)
  let nu : ℝ ← mu /ₚ rho
  let Re_lam : ℝ ← v_lam * D /ₚ nu
  if Re_lam < 0.01 ∨ Method = some "Stokes" then return v_lam
  else v_terminal_search secant D rhop rho mu Method

/-- drag.py:1438-1444: the body of the `try` -/
def timeAttempt (D rhop rho mu V0 tol : ℝ) : Py ℝ := do
  let term : ℝ := D * D * g * rho - D * D * g * rhop
  let denominator : ℝ := term + 18 * mu * V0
  let v_term_base : ℝ ← g * D * D * (rhop - rho) /ₚ (18 * mu)
  let c : ℝ ← D * D * rhop /ₚ mu
  let const : ℝ := c * (-1) / 18
  let v_term : ℝ := if v_term_base < V0 then v_term_base * (1 + tol) else v_term_base * (1 - tol)
  let numerator : ℝ := term + 18 * mu * v_term
  let q : ℝ ← numerator /ₚ denominator
  let l : ℝ ← plog q
  return l * const

/-- drag.py:1437-1449: at most `fuel` attempts, the tolerance doubling after each failure (the `except` is bare) -/
def timeLoop (D rhop rho mu V0 : ℝ) : ℕ → ℝ → Py ℝ
  | 0, _ => .error .valueError
  | n + 1, tol =>
    match timeAttempt D rhop rho mu V0 tol with
    | .ok t => .ok t
    | .error _ => if tol + tol > 0.01 then .error .valueError else timeLoop D rhop rho mu V0 n (tol + tol)

/-- drag.py:1430-1449 `time_v_terminal_Stokes`; the divisions by `mu` of lines 1434-1436 happen before the loop -/
def time_v_terminal_Stokes (D rhop rho mu V0 : ℝ) (tol : ℝ := 1e-14) : Py ℝ := do
  let tol : ℝ := if tol < 1e-17 then 2e-17 else tol
  let _ : ℝ ← g * D * D * (rhop - rho) /ₚ (18 * mu)
  let _ : ℝ ← D * D * rhop /ₚ mu
  timeLoop D rhop rho mu V0 50 tol

/-- drag.py:1537-1540: velocity and distance in the Stokes regime -/
def laminarPath (D rhop rho mu t V : ℝ) : Py (ℝ × ℝ) := do
  let t1 : ℝ ← 18 * mu /ₚ (D * D * rhop)
  let t2 : ℝ ← g * (rhop - rho) /ₚ rhop
  let V_end : ℝ ← exp (-t1 * t) * (t1 * V + t2 * (exp (t1 * t) - 1)) /ₚ t1
  let x_end : ℝ ← exp (-t1 * t) * (V * t1 * (exp (t1 * t) - 1) + t2 * exp (t1 * t) * (t1 * t - 1) + t2) /ₚ (t1 * t1)
  return (V_end, x_end)

/-- drag.py:1532-1558 `integrate_drag_sphere`: the closed-form branch; every other call goes to the ODE integrator `ode` (scipy).
`OverflowError` of `exp` does not arise in exact arithmetic. -/
def integrate_drag_sphere (secant : (ℝ → Py ℝ) → ℝ → Py ℝ) (ode : Py (ℝ × ℝ)) (D rhop rho mu t V : ℝ) (Method : Option String := none) :
    Py (ℝ × ℝ) := do
  let nu : ℝ ← mu /ₚ rho
  let Re0 : ℝ ← V * D /ₚ nu
  let v_end : ℝ ← v_terminal secant D rhop rho mu Method
  let Re1 : ℝ ← v_end * D /ₚ nu
  if Method = some "Stokes" ∨ (Re0 < 0.01 ∧ Re1 < 0.01 ∧ Method = none) then laminarPath D rhop rho mu t V
  else ode

end Verif.Drag
