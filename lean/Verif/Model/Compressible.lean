import Verif.Py

/-! # Model of `fluids/compressible.py`

Numerical solvers (`secant`, `brenth`) and `lambertw` (branch -1, real part) are parameters where they occur.
Optional arguments are `Option`. Python's `if X is None and ... elif ...` chains, whose conditions name every optional
argument, are written as one `match`. -/

namespace Verif.Compressible
noncomputable section
open Real

/-- constants/constants.py:69 `R`: molar gas constant, J/(mol K) -/
def R : ℝ := 8.31446261815324

/-- compressible.py:173-277 `isentropic_work_compression`. Defaults: Z = 1.0. -/
def isentropic_work_compression (T1 k Z : ℝ) (P1 : Option ℝ) (P2 : Option ℝ) (W : Option ℝ) (eta : Option ℝ) : Py ℝ := do
  match P1, P2, W, eta with
  | some P1, some P2, none, some eta =>
    let t1 ← k /ₚ (k - 1)
    let t2 ← P2 /ₚ P1
    let t3 ← (k - 1) /ₚ k
    let t4 ← t2 ^ₚ t3
    t1 * Z * R * T1 * (t4 - 1) /ₚ eta
  | none, some P2, some W, some eta =>
    let t6 ← W * eta /ₚ (R * T1 * Z)
    let t7 ← W * eta /ₚ (R * T1 * Z * k)
    let t8 ← -k /ₚ (k - 1)
    let t9 ← (1 + t6 - t7) ^ₚ t8
    return P2 * t9
  | some P1, none, some W, some eta =>
    let t10 ← W * eta /ₚ (R * T1 * Z)
    let t11 ← W * eta /ₚ (R * T1 * Z * k)
    let t12 ← k /ₚ (k - 1)
    let t13 ← (1 + t10 - t11) ^ₚ t12
    return P1 * t13
  | some P1, some P2, some W, none =>
    let t14 ← P2 /ₚ P1
    let t15 ← (k - 1) /ₚ k
    let t16 ← t14 ^ₚ t15
    R * T1 * Z * k * (t16 - 1) /ₚ (W * (k - 1))
  | _, _, _, _ =>
    .error .valueError

/-- compressible.py:280-332 `isentropic_T_rise_compression`. Defaults: eta = 1. -/
def isentropic_T_rise_compression (T1 P1 P2 k eta : ℝ) : Py ℝ := do
  let t1 ← P2 /ₚ P1
  let t2 ← (k - 1) /ₚ k
  let t3 ← t1 ^ₚ t2
  let dT ← T1 * (t3 - 1) /ₚ eta
  return T1 + dT

/-- compressible.py:335-388 `isentropic_efficiency`. -/
def isentropic_efficiency (P1 P2 k : ℝ) (eta_s : Option ℝ) (eta_p : Option ℝ) : Py ℝ := do
  match eta_s, eta_p with
  | none, some eta_p =>
    let t1 ← P2 /ₚ P1
    let t2 ← (k - 1) /ₚ k
    let t3 ← t1 ^ₚ t2
    let t4 ← P2 /ₚ P1
    let t5 ← (k - 1) /ₚ (k * eta_p)
    let t6 ← t4 ^ₚ t5
    (t3 - 1) /ₚ (t6 - 1)
  | some eta_s, none =>
    let t8 ← P2 /ₚ P1
    let t9 ← plog t8
    let t10 ← P2 /ₚ P1
    let t11 ← (k - 1) /ₚ k
    let t12 ← t10 ^ₚ t11
    let t13 ← (eta_s + t12 - 1) /ₚ eta_s
    let t14 ← plog t13
    (k - 1) * t9 /ₚ (k * t14)
  | _, _ =>
    .error .valueError

/-- compressible.py:391-434 `polytropic_exponent`. -/
def polytropic_exponent (k : ℝ) (n : Option ℝ) (eta_p : Option ℝ) : Py ℝ := do
  match n, eta_p with
  | none, some eta_p =>
    k * eta_p /ₚ (1 - k * (1 - eta_p))
  | some n, none =>
    n * (k - 1) /ₚ (k * (n - 1))
  | _, _ =>
    .error .valueError

/-- compressible.py:437-474 `T_critical_flow`. -/
def T_critical_flow (T k : ℝ) : Py ℝ := do
  T * 2 /ₚ (k + 1)

/-- compressible.py:477-514 `P_critical_flow`. -/
def P_critical_flow (P k : ℝ) : Py ℝ := do
  let t1 ← 2 /ₚ (k + 1)
  let t2 ← k /ₚ (k - 1)
  let t3 ← t1 ^ₚ t2
  return P * t3

open Classical in
/-- compressible.py:580-619 `is_critical_flow`. -/
def is_critical_flow (P1 P2 k : ℝ) : Py Bool := do
  let Pcf ← P_critical_flow P1 k
  return decide (Pcf > P2)

/-- compressible.py:622-653 `stagnation_energy`. -/
def stagnation_energy (V : ℝ) : Py ℝ := do
  return 0.5 * V * V

/-- compressible.py:656-696 `P_stagnation`. -/
def P_stagnation (P T Tst k : ℝ) : Py ℝ := do
  let t1 ← Tst /ₚ T
  let t2 ← k /ₚ (k - 1)
  let t3 ← t1 ^ₚ t2
  return P * t3

/-- compressible.py:699-739 `T_stagnation`. -/
def T_stagnation (T P Pst k : ℝ) : Py ℝ := do
  let t1 ← Pst /ₚ P
  let t2 ← (k - 1) /ₚ k
  let t3 ← t1 ^ₚ t2
  return T * t3

/-- compressible.py:742-776 `T_stagnation_ideal`. -/
def T_stagnation_ideal (T V Cp : ℝ) : Py ℝ := do
  let t1 ← 0.5 * V * V /ₚ Cp
  return T + t1

/-- compressible.py:973-1092 `Panhandle_A`. Defaults: Ts = 288.7, Ps = 101325.0, Zavg = 1.0, E = 0.92. -/
def Panhandle_A (SG Tavg Ts Ps Zavg E : ℝ) (L : Option ℝ) (D : Option ℝ) (P1 : Option ℝ) (P2 : Option ℝ) (Q : Option ℝ) : Py ℝ := do
  let c1 : ℝ := 1.0788
  let c2 : ℝ := 0.8539
  let c3 : ℝ := 0.5394
  let c4 : ℝ := 2.6182
  let c5 : ℝ := 158.0205328706957220332831680508433862787
  match L, D, P1, P2, Q with
  | some L, some D, some P1, some P2, none =>
    let t1 ← Ts /ₚ Ps
    let t2 ← t1 ^ₚ c1
    let t3 ← SG ^ₚ c2
    let t4 ← (P1 ^ 2 - P2 ^ 2) /ₚ (L * t3 * Tavg * Zavg)
    let t5 ← t4 ^ₚ c3
    let t6 ← D ^ₚ c4
    return c5 * E * t2 * t5 * t6
  | some L, none, some P1, some P2, some Q =>
    let t7 ← Ts /ₚ Ps
    let t8 ← t7 ^ₚ (-c1)
    let t9 ← SG ^ₚ (-c2)
    let t10 ← t9 * (P1 ^ 2 - P2 ^ 2) /ₚ (L * Tavg * Zavg)
    let t11 ← t10 ^ₚ (-c3)
    let t12 ← Q * t8 * t11 /ₚ (E * c5)
    let t13 ← 1 /ₚ c4
    t12 ^ₚ t13
  | some L, some D, none, some P2, some Q =>
    let t15 ← SG ^ₚ c2
    let t16 ← D ^ₚ (-c4)
    let t17 ← Ts /ₚ Ps
    let t18 ← t17 ^ₚ (-c1)
    let t19 ← t16 * Q * t18 /ₚ (E * c5)
    let t20 ← 1 /ₚ c3
    let t21 ← t19 ^ₚ t20
    psqrt (L * t15 * Tavg * Zavg * t21 + P2 ^ 2)
  | some L, some D, some P1, none, some Q =>
    let t23 ← SG ^ₚ c2
    let t24 ← D ^ₚ (-c4)
    let t25 ← Ts /ₚ Ps
    let t26 ← t25 ^ₚ (-c1)
    let t27 ← t24 * Q * t26 /ₚ (E * c5)
    let t28 ← 1 /ₚ c3
    let t29 ← t27 ^ₚ t28
    psqrt (-L * t23 * Tavg * Zavg * t29 + P1 ^ 2)
  | none, some D, some P1, some P2, some Q =>
    let t31 ← SG ^ₚ (-c2)
    let t32 ← D ^ₚ (-c4)
    let t33 ← Ts /ₚ Ps
    let t34 ← t33 ^ₚ (-c1)
    let t35 ← t32 * Q * t34 /ₚ (E * c5)
    let t36 ← -1 /ₚ c3
    let t37 ← t35 ^ₚ t36
    t31 * t37 * (P1 ^ 2 - P2 ^ 2) /ₚ (Tavg * Zavg)
  | _, _, _, _, _ =>
    .error .valueError

/-- compressible.py:1095-1211 `Panhandle_B`. Defaults: Ts = 288.7, Ps = 101325.0, Zavg = 1.0, E = 0.92. -/
def Panhandle_B (SG Tavg Ts Ps Zavg E : ℝ) (L : Option ℝ) (D : Option ℝ) (P1 : Option ℝ) (P2 : Option ℝ) (Q : Option ℝ) : Py ℝ := do
  let c1 : ℝ := 1.02
  let c2 : ℝ := 0.961
  let c3 : ℝ := 0.51
  let c4 : ℝ := 2.53
  let c5 : ℝ := 152.8811634298055458624385985866624419060
  match L, D, P1, P2, Q with
  | some L, some D, some P1, some P2, none =>
    let t1 ← Ts /ₚ Ps
    let t2 ← t1 ^ₚ c1
    let t3 ← SG ^ₚ c2
    let t4 ← (P1 ^ 2 - P2 ^ 2) /ₚ (L * t3 * Tavg * Zavg)
    let t5 ← t4 ^ₚ c3
    let t6 ← D ^ₚ c4
    return c5 * E * t2 * t5 * t6
  | some L, none, some P1, some P2, some Q =>
    let t7 ← Ts /ₚ Ps
    let t8 ← t7 ^ₚ (-c1)
    let t9 ← SG ^ₚ (-c2)
    let t10 ← t9 * (P1 ^ 2 - P2 ^ 2) /ₚ (L * Tavg * Zavg)
    let t11 ← t10 ^ₚ (-c3)
    let t12 ← Q * t8 * t11 /ₚ (E * c5)
    let t13 ← 1 /ₚ c4
    t12 ^ₚ t13
  | some L, some D, none, some P2, some Q =>
    let t15 ← SG ^ₚ c2
    let t16 ← D ^ₚ (-c4)
    let t17 ← Ts /ₚ Ps
    let t18 ← t17 ^ₚ (-c1)
    let t19 ← t16 * Q * t18 /ₚ (E * c5)
    let t20 ← 1 /ₚ c3
    let t21 ← t19 ^ₚ t20
    psqrt (L * t15 * Tavg * Zavg * t21 + P2 ^ 2)
  | some L, some D, some P1, none, some Q =>
    let t23 ← SG ^ₚ c2
    let t24 ← D ^ₚ (-c4)
    let t25 ← Ts /ₚ Ps
    let t26 ← t25 ^ₚ (-c1)
    let t27 ← t24 * Q * t26 /ₚ (E * c5)
    let t28 ← 1 /ₚ c3
    let t29 ← t27 ^ₚ t28
    psqrt (-L * t23 * Tavg * Zavg * t29 + P1 ^ 2)
  | none, some D, some P1, some P2, some Q =>
    let t31 ← SG ^ₚ (-c2)
    let t32 ← D ^ₚ (-c4)
    let t33 ← Ts /ₚ Ps
    let t34 ← t33 ^ₚ (-c1)
    let t35 ← t32 * Q * t34 /ₚ (E * c5)
    let t36 ← -1 /ₚ c3
    let t37 ← t35 ^ₚ t36
    t31 * t37 * (P1 ^ 2 - P2 ^ 2) /ₚ (Tavg * Zavg)
  | _, _, _, _, _ =>
    .error .valueError

/-- compressible.py:1214-1327 `Weymouth`. Defaults: Ts = 288.7, Ps = 101325.0, Zavg = 1.0, E = 0.92. -/
def Weymouth (SG Tavg Ts Ps Zavg E : ℝ) (L : Option ℝ) (D : Option ℝ) (P1 : Option ℝ) (P2 : Option ℝ) (Q : Option ℝ) : Py ℝ := do
  let c3 : ℝ := 0.5
  let c4 : ℝ := 2.667
  let c5 : ℝ := 137.3295809942512546732179684618143090992
  match L, D, P1, P2, Q with
  | some L, some D, some P1, some P2, none =>
    let t1 ← Ts /ₚ Ps
    let t2 ← (P1 ^ 2 - P2 ^ 2) /ₚ (L * SG * Tavg * Zavg)
    let t3 ← t2 ^ₚ c3
    let t4 ← D ^ₚ c4
    return c5 * E * t1 * t3 * t4
  | some L, none, some P1, some P2, some Q =>
    let t5 ← (P1 ^ 2 - P2 ^ 2) /ₚ (L * SG * Tavg * Zavg)
    let t6 ← t5 ^ₚ (-c3)
    let t7 ← Ps * Q * t6 /ₚ (E * Ts * c5)
    let t8 ← 1 /ₚ c4
    t7 ^ₚ t8
  | some L, some D, none, some P2, some Q =>
    let t10 ← D ^ₚ (-c4)
    let t11 ← t10 * Ps * Q /ₚ (E * Ts * c5)
    let t12 ← 1 /ₚ c3
    let t13 ← t11 ^ₚ t12
    psqrt (L * SG * Tavg * Zavg * t13 + P2 ^ 2)
  | some L, some D, some P1, none, some Q =>
    let t15 ← D ^ₚ (-c4)
    let t16 ← t15 * Ps * Q /ₚ (E * Ts * c5)
    let t17 ← 1 /ₚ c3
    let t18 ← t16 ^ₚ t17
    psqrt (-L * SG * Tavg * Zavg * t18 + P1 ^ 2)
  | none, some D, some P1, some P2, some Q =>
    let t20 ← D ^ₚ (-c4)
    let t21 ← t20 * Ps * Q /ₚ (E * Ts * c5)
    let t22 ← -1 /ₚ c3
    let t23 ← t21 ^ₚ t22
    t23 * (P1 ^ 2 - P2 ^ 2) /ₚ (SG * Tavg * Zavg)
  | _, _, _, _, _ =>
    .error .valueError

/-- compressible.py:1334-1433 `Spitzglass_high`, the branch that solves for `Q`. -/
def Spitzglass_high_Q (SG Tavg Ts Ps Zavg E L D P1 P2 : ℝ) : Py ℝ := do
  let c3 : ℝ := 1.181102362204724409448818897637795275591
  let c4 : ℝ := 0.09144
  let c5 : ℝ := 125.1060
  let t1 ← c5 * E * Ts /ₚ Ps
  let t2 ← D ^ₚ 2.5
  let t3 ← c4 /ₚ D
  let t4 ← (P1 ^ 2 - P2 ^ 2) /ₚ (L * SG * Zavg * Tavg * (1 + t3 + c3 * D))
  let t5 ← psqrt t4
  return t1 * t2 * t5

/-- compressible.py:1334-1433 `Spitzglass_high`. Defaults: Ts = 288.7, Ps = 101325.0, Zavg = 1.0, E = 1.0. The diameter mode
hands the residual `_to_solve_Spitzglass_high` (module level, same file) to `numerics.secant`; the solver is a parameter. -/
def Spitzglass_high (secant : (ℝ → Py ℝ) → ℝ → Py ℝ) (SG Tavg Ts Ps Zavg E : ℝ) (L : Option ℝ) (D : Option ℝ) (P1 : Option ℝ) (P2 : Option ℝ) (Q : Option ℝ) : Py ℝ := do
  let c3 : ℝ := 1.181102362204724409448818897637795275591
  let c4 : ℝ := 0.09144
  let c5 : ℝ := 125.1060
  match L, D, P1, P2, Q with
  | some L, some D, some P1, some P2, none =>
    Spitzglass_high_Q SG Tavg Ts Ps Zavg E L D P1 P2
  | some L, none, some P1, some P2, some Q =>
    secant (fun D => do
      let q ← Spitzglass_high_Q SG Tavg Ts Ps Zavg E L D P1 P2
      return Q - q) 0.5
  | some L, some D, none, some P2, some Q =>
    let t7 ← (D ^ 6 * E ^ 2 * P2 ^ 2 * Ts ^ 2 * c5 ^ 2 + D ^ 2 * L * Ps ^ 2 * Q ^ 2 * SG * Tavg * Zavg * c3 + D * L * Ps ^ 2 * Q ^ 2 * SG * Tavg * Zavg + L * Ps ^ 2 * Q ^ 2 * SG * Tavg * Zavg * c4) /ₚ (D ^ 6 * E ^ 2 * Ts ^ 2 * c5 ^ 2)
    psqrt t7
  | some L, some D, some P1, none, some Q =>
    let t9 ← (D ^ 6 * E ^ 2 * P1 ^ 2 * Ts ^ 2 * c5 ^ 2 - D ^ 2 * L * Ps ^ 2 * Q ^ 2 * SG * Tavg * Zavg * c3 - D * L * Ps ^ 2 * Q ^ 2 * SG * Tavg * Zavg - L * Ps ^ 2 * Q ^ 2 * SG * Tavg * Zavg * c4) /ₚ (D ^ 6 * E ^ 2 * Ts ^ 2 * c5 ^ 2)
    psqrt t9
  | none, some D, some P1, some P2, some Q =>
    D ^ 6 * E ^ 2 * Ts ^ 2 * c5 ^ 2 * (P1 ^ 2 - P2 ^ 2) /ₚ (Ps ^ 2 * Q ^ 2 * SG * Tavg * Zavg * (D ^ 2 * c3 + D + c4))
  | _, _, _, _, _ =>
    .error .valueError

/-- compressible.py:1438-1549 `Spitzglass_low`, the branch that solves for `Q`. -/
def Spitzglass_low_Q (SG Tavg Ts Ps Zavg E L D P1 P2 : ℝ) : Py ℝ := do
  let c3 : ℝ := 1.181102362204724409448818897637795275591
  let c4 : ℝ := 0.09144
  let c5 : ℝ := 125.1060
  let t1 ← c5 * Ts /ₚ Ps
  let t2 ← D ^ₚ 2.5
  let t3 ← c4 /ₚ D
  let t4 ← (P1 - P2) * 2 * (Ps + 1210) /ₚ (L * SG * Tavg * Zavg * (1 + t3 + c3 * D))
  let t5 ← psqrt t4
  return t1 * t2 * E * t5

/-- compressible.py:1438-1549 `Spitzglass_low`. Defaults: Ts = 288.7, Ps = 101325.0, Zavg = 1.0, E = 1.0. The diameter mode
hands the residual `_to_solve_Spitzglass_low` (module level, same file) to `numerics.secant`; the solver is a parameter. -/
def Spitzglass_low (secant : (ℝ → Py ℝ) → ℝ → Py ℝ) (SG Tavg Ts Ps Zavg E : ℝ) (L : Option ℝ) (D : Option ℝ) (P1 : Option ℝ) (P2 : Option ℝ) (Q : Option ℝ) : Py ℝ := do
  let c3 : ℝ := 1.181102362204724409448818897637795275591
  let c4 : ℝ := 0.09144
  let c5 : ℝ := 125.1060
  match L, D, P1, P2, Q with
  | some L, some D, some P1, some P2, none =>
    Spitzglass_low_Q SG Tavg Ts Ps Zavg E L D P1 P2
  | some L, none, some P1, some P2, some Q =>
    secant (fun D => do
      let q ← Spitzglass_low_Q SG Tavg Ts Ps Zavg E L D P1 P2
      return Q - q) 0.5
  | some L, some D, none, some P2, some Q =>
    0.5 * (2 * D ^ 6 * E ^ 2 * P2 * Ts ^ 2 * c5 ^ 2 * (Ps + 1210) + D ^ 2 * L * Ps ^ 2 * Q ^ 2 * SG * Tavg * Zavg * c3 + D * L * Ps ^ 2 * Q ^ 2 * SG * Tavg * Zavg + L * Ps ^ 2 * Q ^ 2 * SG * Tavg * Zavg * c4) /ₚ (D ^ 6 * E ^ 2 * Ts ^ 2 * c5 ^ 2 * (Ps + 1210))
  | some L, some D, some P1, none, some Q =>
    0.5 * (2 * D ^ 6 * E ^ 2 * P1 * Ts ^ 2 * c5 ^ 2 * (Ps + 1210) - D ^ 2 * L * Ps ^ 2 * Q ^ 2 * SG * Tavg * Zavg * c3 - D * L * Ps ^ 2 * Q ^ 2 * SG * Tavg * Zavg - L * Ps ^ 2 * Q ^ 2 * SG * Tavg * Zavg * c4) /ₚ (D ^ 6 * E ^ 2 * Ts ^ 2 * c5 ^ 2 * (Ps + 1210))
  | none, some D, some P1, some P2, some Q =>
    2 * D ^ 6 * E ^ 2 * Ts ^ 2 * c5 ^ 2 * (P1 * Ps + 1210 * P1 - P2 * Ps - 1210 * P2) /ₚ (Ps ^ 2 * Q ^ 2 * SG * Tavg * Zavg * (D ^ 2 * c3 + D + c4))
  | _, _, _, _, _ =>
    .error .valueError

/-- compressible.py:1554-1645 `Oliphant`, the branch that solves for `Q`. -/
def Oliphant_Q (SG Tavg Ts Ps Zavg E L D P1 P2 : ℝ) : Py ℝ := do
  let c1 : ℝ := 84.587176139918568651410168968141078948974609375000
  let c2 : ℝ := 0.2091519350460528670065940559652517549694
  let t1 ← D ^ₚ 2.5
  let t2 ← c1 * (t1 + c2 * D ^ 3) * Ts /ₚ Ps
  let t3 ← (P1 ^ 2 - P2 ^ 2) /ₚ (L * SG * Tavg)
  let t4 ← psqrt t3
  return t2 * t4

/-- compressible.py:1554-1645 `Oliphant`. Defaults: Ts = 288.7, Ps = 101325.0, Zavg = 1.0, E = 0.92. The diameter mode
hands the residual `_to_solve_Oliphant` (module level, same file) to `numerics.secant`; the solver is a parameter. -/
def Oliphant (secant : (ℝ → Py ℝ) → ℝ → Py ℝ) (SG Tavg Ts Ps Zavg E : ℝ) (L : Option ℝ) (D : Option ℝ) (P1 : Option ℝ) (P2 : Option ℝ) (Q : Option ℝ) : Py ℝ := do
  let c1 : ℝ := 84.587176139918568651410168968141078948974609375000
  let c2 : ℝ := 0.2091519350460528670065940559652517549694
  match L, D, P1, P2, Q with
  | some L, some D, some P1, some P2, none =>
    Oliphant_Q SG Tavg Ts Ps Zavg E L D P1 P2
  | some L, none, some P1, some P2, some Q =>
    secant (fun D => do
      let q ← Oliphant_Q SG Tavg Ts Ps Zavg E L D P1 P2
      return Q - q) 0.5
  | some L, some D, none, some P2, some Q =>
    let t6 ← D ^ₚ 2.5
    let t7 ← L * Ps ^ 2 * Q ^ 2 * SG * Tavg /ₚ (Ts ^ 2 * c1 ^ 2 * (D ^ 3 * c2 + t6) ^ 2)
    psqrt (t7 + P2 ^ 2)
  | some L, some D, some P1, none, some Q =>
    let t9 ← D ^ₚ 2.5
    let t10 ← -L * Ps ^ 2 * Q ^ 2 * SG * Tavg /ₚ (Ts ^ 2 * c1 ^ 2 * (D ^ 3 * c2 + t9) ^ 2)
    psqrt (t10 + P1 ^ 2)
  | none, some D, some P1, some P2, some Q =>
    let t12 ← D ^ₚ 2.5
    Ts ^ 2 * c1 ^ 2 * (P1 ^ 2 - P2 ^ 2) * (D ^ 3 * c2 + t12) ^ 2 /ₚ (Ps ^ 2 * Q ^ 2 * SG * Tavg)
  | _, _, _, _, _ =>
    .error .valueError

/-- compressible.py:1648-1739 `Fritzsche`. Defaults: Ts = 288.7, Ps = 101325.0, Zavg = 1.0, E = 1.0. -/
def Fritzsche (SG Tavg Ts Ps Zavg E : ℝ) (L : Option ℝ) (D : Option ℝ) (P1 : Option ℝ) (P2 : Option ℝ) (Q : Option ℝ) : Py ℝ := do
  let c5 : ℝ := 93.50009798751128188757518688244137811221
  let c2 : ℝ := 0.8587
  let c3 : ℝ := 0.538
  let c4 : ℝ := 2.69
  match L, D, P1, P2, Q with
  | some L, some D, some P1, some P2, none =>
    let t1 ← Ts /ₚ Ps
    let t2 ← SG ^ₚ c2
    let t3 ← (P1 ^ 2 - P2 ^ 2) /ₚ (t2 * Tavg * L * Zavg)
    let t4 ← t3 ^ₚ c3
    let t5 ← D ^ₚ c4
    return c5 * E * t1 * t4 * t5
  | some L, none, some P1, some P2, some Q =>
    let t6 ← SG ^ₚ (-c2)
    let t7 ← t6 * (P1 ^ 2 - P2 ^ 2) /ₚ (L * Tavg * Zavg)
    let t8 ← t7 ^ₚ (-c3)
    let t9 ← Ps * Q * t8 /ₚ (E * Ts * c5)
    let t10 ← 1 /ₚ c4
    t9 ^ₚ t10
  | some L, some D, none, some P2, some Q =>
    let t12 ← SG ^ₚ c2
    let t13 ← D ^ₚ (-c4)
    let t14 ← t13 * Ps * Q /ₚ (E * Ts * c5)
    let t15 ← 1 /ₚ c3
    let t16 ← t14 ^ₚ t15
    psqrt (L * t12 * Tavg * Zavg * t16 + P2 ^ 2)
  | some L, some D, some P1, none, some Q =>
    let t18 ← SG ^ₚ c2
    let t19 ← D ^ₚ (-c4)
    let t20 ← t19 * Ps * Q /ₚ (E * Ts * c5)
    let t21 ← 1 /ₚ c3
    let t22 ← t20 ^ₚ t21
    psqrt (-L * t18 * Tavg * Zavg * t22 + P1 ^ 2)
  | none, some D, some P1, some P2, some Q =>
    let t24 ← SG ^ₚ (-c2)
    let t25 ← D ^ₚ (-c4)
    let t26 ← t25 * Ps * Q /ₚ (E * Ts * c5)
    let t27 ← -1 /ₚ c3
    let t28 ← t26 ^ₚ t27
    t24 * t28 * (P1 ^ 2 - P2 ^ 2) /ₚ (Tavg * Zavg)
  | _, _, _, _, _ =>
    .error .valueError

/-- compressible.py:1742-1849 `Muller`. Defaults: Ts = 288.7, Ps = 101325.0, Zavg = 1.0, E = 1.0. -/
def Muller (SG Tavg mu Ts Ps Zavg E : ℝ) (L : Option ℝ) (D : Option ℝ) (P1 : Option ℝ) (P2 : Option ℝ) (Q : Option ℝ) : Py ℝ := do
  let c5 : ℝ := 15.77439908642077352939746374951659525108
  let c2 : ℝ := 0.575
  let c3 : ℝ := 2.725
  let c4 : ℝ := 0.425
  let c1 : ℝ := 0.15
  match L, D, P1, P2, Q with
  | some L, some D, some P1, some P2, none =>
    let t1 ← c5 * Ts /ₚ Ps
    let t2 ← (P1 ^ 2 - P2 ^ 2) /ₚ Tavg
    let t3 ← t2 /ₚ L
    let t4 ← t3 /ₚ Zavg
    let t5 ← t4 ^ₚ c2
    let t6 ← D ^ₚ c3
    let t7 ← SG ^ₚ c4
    let t8 ← t1 * E * t5 * t6 /ₚ t7
    let t9 ← mu ^ₚ c1
    t8 /ₚ t9
  | some L, none, some P1, some P2, some Q =>
    let t11 ← SG ^ₚ c4
    let t12 ← mu ^ₚ c1
    let t13 ← (P1 ^ 2 - P2 ^ 2) /ₚ (L * Tavg * Zavg)
    let t14 ← t13 ^ₚ (-c2)
    let t15 ← Ps * Q * t11 * t12 * t14 /ₚ (E * Ts * c5)
    let t16 ← 1 /ₚ c3
    t15 ^ₚ t16
  | some L, some D, none, some P2, some Q =>
    let t18 ← D ^ₚ (-c3)
    let t19 ← SG ^ₚ c4
    let t20 ← mu ^ₚ c1
    let t21 ← t18 * Ps * Q * t19 * t20 /ₚ (E * Ts * c5)
    let t22 ← 1 /ₚ c2
    let t23 ← t21 ^ₚ t22
    psqrt (L * Tavg * Zavg * t23 + P2 ^ 2)
  | some L, some D, some P1, none, some Q =>
    let t25 ← D ^ₚ (-c3)
    let t26 ← SG ^ₚ c4
    let t27 ← mu ^ₚ c1
    let t28 ← t25 * Ps * Q * t26 * t27 /ₚ (E * Ts * c5)
    let t29 ← 1 /ₚ c2
    let t30 ← t28 ^ₚ t29
    psqrt (-L * Tavg * Zavg * t30 + P1 ^ 2)
  | none, some D, some P1, some P2, some Q =>
    let t32 ← D ^ₚ (-c3)
    let t33 ← SG ^ₚ c4
    let t34 ← mu ^ₚ c1
    let t35 ← t32 * Ps * Q * t33 * t34 /ₚ (E * Ts * c5)
    let t36 ← -1 /ₚ c2
    let t37 ← t35 ^ₚ t36
    t37 * (P1 ^ 2 - P2 ^ 2) /ₚ (Tavg * Zavg)
  | _, _, _, _, _ =>
    .error .valueError

/-- compressible.py:1852-1956 `IGT`. Defaults: Ts = 288.7, Ps = 101325.0, Zavg = 1.0, E = 1.0. -/
def IGT (SG Tavg mu Ts Ps Zavg E : ℝ) (L : Option ℝ) (D : Option ℝ) (P1 : Option ℝ) (P2 : Option ℝ) (Q : Option ℝ) : Py ℝ := do
  let c5 : ℝ := 24.62412451461407054875301709443930350550
  let c2 : ℝ := 5 / 9
  let c3 : ℝ := 8 / 3
  let c4 : ℝ := 4 / 9
  let c1 : ℝ := 1 / 9
  match L, D, P1, P2, Q with
  | some L, some D, some P1, some P2, none =>
    let t1 ← c5 * Ts /ₚ Ps
    let t2 ← (P1 ^ 2 - P2 ^ 2) /ₚ Tavg
    let t3 ← t2 /ₚ L
    let t4 ← t3 /ₚ Zavg
    let t5 ← t4 ^ₚ c2
    let t6 ← D ^ₚ c3
    let t7 ← SG ^ₚ c4
    let t8 ← t1 * E * t5 * t6 /ₚ t7
    let t9 ← mu ^ₚ c1
    t8 /ₚ t9
  | some L, none, some P1, some P2, some Q =>
    let t11 ← SG ^ₚ c4
    let t12 ← mu ^ₚ c1
    let t13 ← (P1 ^ 2 - P2 ^ 2) /ₚ (L * Tavg * Zavg)
    let t14 ← t13 ^ₚ (-c2)
    let t15 ← Ps * Q * t11 * t12 * t14 /ₚ (E * Ts * c5)
    let t16 ← 1 /ₚ c3
    t15 ^ₚ t16
  | some L, some D, none, some P2, some Q =>
    let t18 ← D ^ₚ (-c3)
    let t19 ← SG ^ₚ c4
    let t20 ← mu ^ₚ c1
    let t21 ← t18 * Ps * Q * t19 * t20 /ₚ (E * Ts * c5)
    let t22 ← 1 /ₚ c2
    let t23 ← t21 ^ₚ t22
    psqrt (L * Tavg * Zavg * t23 + P2 ^ 2)
  | some L, some D, some P1, none, some Q =>
    let t25 ← D ^ₚ (-c3)
    let t26 ← SG ^ₚ c4
    let t27 ← mu ^ₚ c1
    let t28 ← t25 * Ps * Q * t26 * t27 /ₚ (E * Ts * c5)
    let t29 ← 1 /ₚ c2
    let t30 ← t28 ^ₚ t29
    psqrt (-L * Tavg * Zavg * t30 + P1 ^ 2)
  | none, some D, some P1, some P2, some Q =>
    let t32 ← D ^ₚ (-c3)
    let t33 ← SG ^ₚ c4
    let t34 ← mu ^ₚ c1
    let t35 ← t32 * Ps * Q * t33 * t34 /ₚ (E * Ts * c5)
    let t36 ← -1 /ₚ c2
    let t37 ← t35 ^ₚ t36
    t37 * (P1 ^ 2 - P2 ^ 2) /ₚ (Tavg * Zavg)
  | _, _, _, _, _ =>
    .error .valueError

/-- compressible.py:517-564 `P_isothermal_critical_flow`. `lambertw y` is the real part of `lambertw(y, -1)`. -/
def P_isothermal_critical_flow (lambertw : ℝ → Py ℝ) (P fd D L : ℝ) : Py ℝ := do
  let t1 ← (-D - L * fd) /ₚ D
  let lambert_term ← lambertw (-exp t1)
  let t2 ← (D * (lambert_term + 1) + L * fd) /ₚ (2 * D)
  return P * exp t2

/-- compressible.py:567-577 `P_upstream_isothermal_critical_flow`. -/
def P_upstream_isothermal_critical_flow (lambertw : ℝ → Py ℝ) (P fd D L : ℝ) : Py ℝ := do
  let t1 ← -(fd * L + D) /ₚ D
  let lambertw_term ← lambertw (-exp t1)
  let t2 ← -0.5 * (D * lambertw_term + fd * L + D) /ₚ D
  return exp t2 * P

open Classical in
/-- compressible.py:898-908 `isothermal_gas`, the branch that solves for `m`. -/
def isothermal_gas_m (lambertw : ℝ → Py ℝ) (rho fd P1 P2 L D : ℝ) : Py ℝ := do
  let Pcf ← P_isothermal_critical_flow lambertw P1 fd D L
  if P2 < Pcf then .error .valueError
  else if P2 > P1 then .error .valueError
  else
    let t1 ← fd * L /ₚ D
    let t2 ← P1 /ₚ P2
    let t3 ← plog t2
    let t4 ← 0.0625 * π * π * D ^ 4 * rho /ₚ (P1 * (t1 + 2 * t3))
    psqrt (t4 * (P1 * P1 - P2 * P2))

/-- compressible.py:909-910 `isothermal_gas`, the branch that solves for `L`. -/
def isothermal_gas_L (rho fd P1 P2 D m : ℝ) : Py ℝ := do
  let t1 ← P1 /ₚ P2
  let t2 ← plog t1
  D * (π * π * D ^ 4 * rho * (P1 * P1 - P2 * P2) - 32 * P1 * m * m * t2) /ₚ (16 * P1 * fd * m * m)

open Classical in
/-- compressible.py:932-950 the `try` body of the branch of `isothermal_gas` that solves for `P2`. Simplified: the
`isinf` test is dropped, a real is never infinite. -/
def isothermal_gas_P2_closed (lambertw : ℝ → Py ℝ) (rho fd P1 L D m : ℝ) : Py ℝ := do
  let Pcf ← P_isothermal_critical_flow lambertw P1 fd D L
  let m_max ← isothermal_gas_m lambertw rho fd P1 Pcf L D
  if ¬ (m ≤ m_max) then .error .valueError
  else
    let C ← fd * L /ₚ D
    let B := (π / 4 * D ^ 2) ^ 2 * rho
    let t1 ← -B /ₚ m ^ 2
    let t2 ← -(-C * m ^ 2 + B * P1) /ₚ m ^ 2
    let arg := t1 * P1 * exp t2
    let lambert_ans ← lambertw arg
    let t3 ← (-C * m ^ 2 + lambert_ans * m ^ 2 + B * P1) /ₚ m ^ 2
    let P2 ← P1 /ₚ exp (t3 / 2)
    if ¬ (P2 < P1) then .error .valueError
    else return P2

/-- compressible.py:787-788 `isothermal_gas_err_D`, and lines 778-782 `isothermal_gas_err_P1`, `isothermal_gas_err_P2`,
which are the same residual with another argument varied. -/
def isothermal_gas_err (lambertw : ℝ → Py ℝ) (rho fd P1 P2 L D m : ℝ) : Py ℝ := do
  let t1 ← isothermal_gas_m lambertw rho fd P1 P2 L D
  return m - t1

/-- compressible.py:931-963 `isothermal_gas`, the branch that solves for `P2`: a bare `except` falls back to `brenth`,
whose own failure becomes a `ValueError` (after recomputing the critical flow for the message). -/
def isothermal_gas_P2 (lambertw : ℝ → Py ℝ) (brenth : (ℝ → Py ℝ) → ℝ → ℝ → Py ℝ) (rho fd P1 L D m : ℝ) : Py ℝ :=
  match isothermal_gas_P2_closed lambertw rho fd P1 L D m with
  | .ok P2 => .ok P2
  | .error _ => do
    let Pcf ← P_isothermal_critical_flow lambertw P1 fd D L
    match brenth (fun P2 => isothermal_gas_err lambertw rho fd P1 P2 L D m) Pcf P1 with
    | .ok P2 => .ok P2
    | .error _ => do
      let _m_max ← isothermal_gas_m lambertw rho fd P1 Pcf L D
      .error .valueError

/-- compressible.py:784-785 `isothermal_gas_err_P2_basis`. -/
def isothermal_gas_err_P2_basis (lambertw : ℝ → Py ℝ) (brenth : (ℝ → Py ℝ) → ℝ → ℝ → Py ℝ)
    (P1 P2 rho fd m L D : ℝ) : Py ℝ := do
  let t1 ← isothermal_gas_P2 lambertw brenth rho fd P1 L D m
  return |P2 - t1|

open Classical in
/-- compressible.py:911-930 `isothermal_gas`, the branch that solves for `P1`. -/
def isothermal_gas_P1 (lambertw : ℝ → Py ℝ) (secant : (ℝ → Py ℝ) → ℝ → Py ℝ)
    (brenth : (ℝ → Py ℝ) → ℝ → ℝ → Py ℝ) (rho fd P2 L D m : ℝ) : Py ℝ := do
  let Pcf ← P_upstream_isothermal_critical_flow lambertw P2 fd D L
  let first : Py ℝ := do
    let P1 ← secant (fun P1 => isothermal_gas_err_P2_basis lambertw brenth P1 P2 rho fd m L D) ((P2 + Pcf) / 2)
    if ¬ (P2 ≤ P1) then .error .valueError else return P1
  match first with
  | .ok P1 => .ok P1
  | .error _ =>
    match brenth (fun P1 => isothermal_gas_err lambertw rho fd P1 P2 L D m) P2 Pcf with
    | .ok P1 => .ok P1
    | .error _ => do
      let _m_max ← isothermal_gas_m lambertw rho fd Pcf P2 L D
      .error .valueError

/-- compressible.py:790-970 `isothermal_gas`. -/
def isothermal_gas (lambertw : ℝ → Py ℝ) (secant : (ℝ → Py ℝ) → ℝ → Py ℝ)
    (brenth : (ℝ → Py ℝ) → ℝ → ℝ → Py ℝ) (rho fd : ℝ) (P1 P2 L D m : Option ℝ) : Py ℝ :=
  match m, P1, P2, L, D with
  | none, some P1, some P2, some L, some D => isothermal_gas_m lambertw rho fd P1 P2 L D
  | some m, some P1, some P2, none, some D => isothermal_gas_L rho fd P1 P2 D m
  | some m, none, some P2, some L, some D => isothermal_gas_P1 lambertw secant brenth rho fd P2 L D m
  | some m, some P1, none, some L, some D => isothermal_gas_P2 lambertw brenth rho fd P1 L D m
  | some m, some P1, some P2, some L, none =>
    secant (fun D => isothermal_gas_err lambertw rho fd P1 P2 L D m) 0.1
  | _, _, _, _, _ => .error .valueError

end
end Verif.Compressible
