import Verif.Model.TwoPhase
import Verif.Model.Splines
import Mathlib.Analysis.SpecialFunctions.Trigonometric.Basic

/-! Model of the rest of `fluids/two_phase.py`: Beggs-Brill, the `two_phase_dP` front end, the acceleration and gravitational terms and the
Mandhane-Gregory-Aziz and Taitel-Dukler flow regime maps. -/

open Real

noncomputable section

namespace Verif.TwoPhase

variable (ff : ℝ → ℝ → Py ℝ)

/-- two_phase.py:118-123: the horizontal holdup coefficients of `_Beggs_Brill_holdup`; any other regime leaves them unassigned. -/
def Beggs_Brill_abc (regime : ℕ) : Py (ℝ × ℝ × ℝ) :=
  if regime = 0 then .ok (0.98, 0.4846, 0.0868)
  else if regime = 2 then .ok (0.845, 0.5351, 0.0173)
  else if regime = 3 then .ok (1.065, 0.5824, 0.0609)
  else .error .unboundLocalError

/-- two_phase.py:128-138: the inclination coefficients of `_Beggs_Brill_holdup` (regimes 0, 2, 3). -/
def Beggs_Brill_defh (regime : ℕ) (angle : ℝ) : ℝ × ℝ × ℝ × ℝ :=
  if angle > 0 then
    if regime = 0 then (0.011, -3.768, 3.539, -1.614)
    else (2.96, 0.305, -0.4473, 0.0978)
  else (4.70, -0.3692, 0.1244, -0.5056)

/-- two_phase.py:117-150 `_Beggs_Brill_holdup`; `angle` in radians. -/
def Beggs_Brill_holdup (regime : ℕ) (lambda_L Fr angle LV : ℝ) : Py ℝ := do
  let abc : ℝ × ℝ × ℝ ← Beggs_Brill_abc regime
  let t1 : ℝ ← lambda_L ^ₚ abc.2.1
  let t2 : ℝ ← Fr ^ₚ (-abc.2.2)
  let HL0 : ℝ := abc.1 * t1 * t2
  let HL0 : ℝ := if HL0 < lambda_L then lambda_L else HL0
  let k : ℝ × ℝ × ℝ × ℝ := Beggs_Brill_defh regime angle
  let t3 : ℝ ← lambda_L ^ₚ k.2.1
  let t4 : ℝ ← LV ^ₚ k.2.2.1
  let t5 : ℝ ← Fr ^ₚ k.2.2.2
  let t6 : ℝ ← plog (k.1 * t3 * t4 * t5)
  let C : ℝ := (1 - lambda_L) * t6
  let C : ℝ := if C < 0 then 0 else C
  let x1 : ℝ := Real.sin (1.8 * angle)
  let Psi : ℝ := 1 + C * x1 * (1 - 1 / 3 * x1 * x1)
  let Psi : ℝ := if (angle > 0 ∧ regime = 3) ∨ angle = 0 then 1 else Psi
  return HL0 * Psi

/-- two_phase.py:234-243: the flow regime of `Beggs_Brill`; 0 segregated, 1 transition, 2 intermittent, 3 distributed. -/
def Beggs_Brill_regime (lambda_L Fr L1 L2 L3 L4 : ℝ) : Py ℕ :=
  if (lambda_L < 0.01 ∧ Fr < L1) ∨ (lambda_L ≥ 0.01 ∧ Fr < L2) then .ok 0
  else if lambda_L ≥ 0.01 ∧ (L2 ≤ Fr ∧ Fr ≤ L3) then .ok 1
  else if ((0.01 ≤ lambda_L ∧ lambda_L < 0.4) ∧ (L3 < Fr ∧ Fr ≤ L1)) ∨ (lambda_L ≥ 0.4 ∧ (L3 < Fr ∧ Fr ≤ L4)) then .ok 2
  else if (lambda_L < 0.4 ∧ Fr ≥ L1) ∨ (lambda_L ≥ 0.4 ∧ Fr > L4) then .ok 3
  else .error .valueError

/-- two_phase.py:250-255: the liquid holdup of `Beggs_Brill`, interpolated in the transition regime. -/
def Beggs_Brill_Hl (regime : ℕ) (lambda_L Fr angle LV L2 L3 : ℝ) : Py ℝ := do
  if regime ≠ 1 then
    Beggs_Brill_holdup regime lambda_L Fr angle LV
  else
    let A : ℝ ← (L3 - Fr) /ₚ (L3 - L2)
    let h0 : ℝ ← Beggs_Brill_holdup 0 lambda_L Fr angle LV
    let h2 : ℝ ← Beggs_Brill_holdup 2 lambda_L Fr angle LV
    return A * h0 + (1 - A) * h2

/-- two_phase.py:265-272: the exponent S of the two-phase friction factor of `Beggs_Brill`. -/
def Beggs_Brill_S (x : ℝ) : Py ℝ := do
  if 1 < x ∧ x < 1.2 then
    let S : ℝ ← plog (2.2 * x - 1.2)
    return (if S > 7 then 7 else S)
  else
    let logx : ℝ ← plog x
    let S : ℝ ← logx /ₚ (logx * (logx * (0.01853 * logx * logx - 0.8725) + 3.182) - 0.0523)
    return (if S > 7 then 7 else S)

/-- two_phase.py:277-284: the total pressure drop of `Beggs_Brill` from its parts. -/
def Beggs_Brill_total (dP_ele dP_fric Vsg Vm rhos : ℝ) (P : Option ℝ) (acceleration : Bool) : Py ℝ := do
  let P : ℝ := P.getD 101325
  if ¬ acceleration then
    return dP_ele + dP_fric
  else
    let Ek : ℝ ← Vsg * Vm * rhos /ₚ P
    (dP_ele + dP_fric) /ₚ (1 - Ek)

/-- two_phase.py:219-284 `Beggs_Brill`. Defaults: roughness = 0.0, L = 1.0, g = 9.80665, acceleration = True. `deg2rad` is idealised to π/180. -/
def Beggs_Brill (m x rhol rhog mul mug sigma : ℝ) (P : Option ℝ) (D : ℝ) (angle : Option ℝ) (roughness L grav : ℝ) (acceleration : Bool) : Py ℝ := do
  let qg : ℝ ← x * m /ₚ rhog
  let ql : ℝ ← (1 - x) * m /ₚ rhol
  let A : ℝ := 0.25 * π * D * D
  let Vsg : ℝ ← qg /ₚ A
  let Vsl : ℝ ← ql /ₚ A
  let Vm : ℝ := Vsg + Vsl
  let Fr : ℝ ← Vm * Vm /ₚ (grav * D)
  let lambda_L : ℝ ← Vsl /ₚ Vm
  let t7 : ℝ ← lambda_L ^ₚ 0.302
  let L1 : ℝ := 316 * t7
  let t8 : ℝ ← lambda_L ^ₚ (-2.4684)
  let L2 : ℝ := 0.0009252 * t8
  let t9 : ℝ ← lambda_L ^ₚ (-1.4516)
  let L3 : ℝ := 0.1 * t9
  let t10 : ℝ ← lambda_L ^ₚ (-6.738)
  let L4 : ℝ := 0.5 * t10
  let regime : ℕ ← Beggs_Brill_regime lambda_L Fr L1 L2 L3 L4
  let t11 : ℝ ← rhol /ₚ (grav * sigma)
  let t12 : ℝ ← psqrt t11
  let t13 : ℝ ← psqrt t12
  let LV : ℝ := Vsl * t13
  let angle : ℝ := π / 180 * angle.getD 0
  let Hl : ℝ ← Beggs_Brill_Hl regime lambda_L Fr angle LV L2 L3
  let rhos : ℝ := rhol * Hl + rhog * (1 - Hl)
  let mum : ℝ := mul * lambda_L + mug * (1 - lambda_L)
  let rhom : ℝ := rhol * lambda_L + rhog * (1 - lambda_L)
  let t18 : ℝ ← rhom * D /ₚ mum
  let Rem : ℝ := t18 * Vm
  let t19 : ℝ ← roughness /ₚ D
  let fn : ℝ ← ff Rem t19
  let x : ℝ ← lambda_L /ₚ (Hl * Hl)
  let S : ℝ ← Beggs_Brill_S x
  let ftp : ℝ := fn * Real.exp S
  let dP_ele : ℝ := grav * Real.sin angle * rhos * L
  let t25 : ℝ ← ftp * L /ₚ D
  let dP_fric : ℝ := t25 * 0.5 * rhom * Vm * Vm
  Beggs_Brill_total dP_ele dP_fric Vsg Vm rhos P acceleration

/-! ### the front end -/

/-- two_phase.py:2322-2354 `two_phase_correlations`: names with the index of their argument list, in order. -/
def two_phase_correlations : List (String × ℕ) :=
  [("Zhang_Webb", 0), ("Lockhart_Martinelli", 1), ("Bankoff", 2), ("Baroczy_Chisholm", 2), ("Chisholm", 2), ("Gronnerud", 2), ("Jung_Radermacher", 2), ("Muller_Steinhagen_Heck", 2), ("Theissing", 2), ("Wang_Chiang_Lu", 2), ("Yu_France", 2), ("Kim_Mudawar", 3), ("Friedel", 4), ("Hwang_Kim", 4), ("Mishima_Hibiki", 4), ("Tran", 4), ("Xu_Fang", 4), ("Zhang_Hibiki_Mishima", 4), ("Chen_Friedel", 4), ("Lombardi_Pedrocchi", 5), ("Chisholm rough", 101), ("Zhang_Hibiki_Mishima adiabatic gas", 102), ("Zhang_Hibiki_Mishima flow boiling", 103), ("Beggs-Brill", 104)]

/-- two_phase.py:2406-2418 `two_phase_dP_methods`; only the presence of the optional arguments matters (the pressure drop inputs and `check_ranges`
are not read). -/
def two_phase_dP_methods (rhog mul mug sigma P Pc angle : Option ℝ) : List String :=
  let usable : List ℕ :=
    (if rhog.isSome ∧ sigma.isSome then [5] else [])
    ++ (if rhog.isSome ∧ sigma.isSome ∧ mul.isSome ∧ mug.isSome then [4, 3, 102, 103] else [])
    ++ (if rhog.isSome ∧ mul.isSome ∧ mug.isSome then [1, 2, 101] else [])
    ++ (if mul.isSome ∧ P.isSome ∧ Pc.isSome then [0] else [])
    ++ (if rhog.isSome ∧ mul.isSome ∧ mug.isSome ∧ sigma.isSome ∧ P.isSome ∧ angle.isSome then [104] else [])
  (two_phase_correlations.filter fun e => e.2 ∈ usable).map (·.1)

/-- two_phase.py:2453 `two_phase_dP_methods_needing_rhog`. -/
def needing_rhog : List String :=
  ["Bankoff", "Baroczy_Chisholm", "Beggs-Brill", "Chen_Friedel", "Chisholm", "Chisholm rough", "Friedel", "Gronnerud", "Hwang_Kim", "Jung_Radermacher", "Kim_Mudawar", "Lockhart_Martinelli", "Lombardi_Pedrocchi", "Mishima_Hibiki", "Muller_Steinhagen_Heck", "Theissing", "Tran", "Wang_Chiang_Lu", "Xu_Fang", "Yu_France", "Zhang_Hibiki_Mishima", "Zhang_Hibiki_Mishima adiabatic gas", "Zhang_Hibiki_Mishima flow boiling"]

/-- two_phase.py:2454 `two_phase_dP_methods_needing_mul`. -/
def needing_mul : List String :=
  ["Bankoff", "Baroczy_Chisholm", "Beggs-Brill", "Chen_Friedel", "Chisholm", "Chisholm rough", "Friedel", "Gronnerud", "Hwang_Kim", "Jung_Radermacher", "Kim_Mudawar", "Lockhart_Martinelli", "Mishima_Hibiki", "Muller_Steinhagen_Heck", "Theissing", "Tran", "Wang_Chiang_Lu", "Xu_Fang", "Yu_France", "Zhang_Hibiki_Mishima", "Zhang_Hibiki_Mishima adiabatic gas", "Zhang_Hibiki_Mishima flow boiling", "Zhang_Webb"]

/-- two_phase.py:2455 `two_phase_dP_methods_needing_mug`. -/
def needing_mug : List String :=
  ["Bankoff", "Baroczy_Chisholm", "Beggs-Brill", "Chen_Friedel", "Chisholm", "Chisholm rough", "Friedel", "Gronnerud", "Hwang_Kim", "Jung_Radermacher", "Kim_Mudawar", "Lockhart_Martinelli", "Mishima_Hibiki", "Muller_Steinhagen_Heck", "Theissing", "Tran", "Wang_Chiang_Lu", "Xu_Fang", "Yu_France", "Zhang_Hibiki_Mishima", "Zhang_Hibiki_Mishima adiabatic gas", "Zhang_Hibiki_Mishima flow boiling"]

/-- two_phase.py:2456 `two_phase_dP_methods_needing_sigma`. -/
def needing_sigma : List String :=
  ["Beggs-Brill", "Chen_Friedel", "Friedel", "Hwang_Kim", "Kim_Mudawar", "Lombardi_Pedrocchi", "Mishima_Hibiki", "Tran", "Xu_Fang", "Zhang_Hibiki_Mishima", "Zhang_Hibiki_Mishima adiabatic gas", "Zhang_Hibiki_Mishima flow boiling"]

/-- two_phase.py:2457 `two_phase_dP_methods_needing_P`. -/
def needing_P : List String :=
  ["Beggs-Brill", "Zhang_Webb"]

/-- two_phase.py:2458 `two_phase_dP_methods_needing_Pc`. -/
def needing_Pc : List String :=
  ["Zhang_Webb"]

/-- two_phase.py:2459 `two_phase_dP_methods_needing_angle`. -/
def needing_angle : List String :=
  ["Beggs-Brill"]

/-- two_phase.py:2531-2544: the method used when none is given. -/
def two_phase_dP_default (rhog mul mug sigma P Pc : Option ℝ) : Py String :=
  if rhog.isSome ∧ mul.isSome ∧ mug.isSome ∧ sigma.isSome then .ok "Kim_Mudawar"
  else if rhog.isSome ∧ mul.isSome ∧ mug.isSome then .ok "Chisholm"
  else if mul.isSome ∧ P.isSome ∧ Pc.isSome then .ok "Zhang_Webb"
  else if rhog.isSome ∧ sigma.isSome then .ok "Lombardi_Pedrocchi"
  else .error .valueError

/-- two_phase.py:2548-2583: one optional argument: checked when the method needs it, 0 otherwise. -/
def two_phase_dP_need (set : List String) (Method : String) (v : Option ℝ) : Py ℝ :=
  if Method ∈ set then
    match v with
    | none => .error .typeError
    | some v => .ok v
  else .ok 0

/-- two_phase.py:2585-2641: the method selection of `two_phase_dP`. -/
def two_phase_dP_select (m x rhol D L rhog mul mug sigma P Pc roughness angle : ℝ) (Method : String) : Py ℝ :=
  if Method = "Zhang_Webb" then Zhang_Webb ff m x rhol mul (some P) (some Pc) D roughness L
  else if Method = "Lockhart_Martinelli" then Lockhart_Martinelli m x rhol rhog mul mug D L 2000
  else if Method = "Bankoff" then Bankoff ff m x rhol rhog mul mug D roughness L
  else if Method = "Baroczy_Chisholm" then Baroczy_Chisholm ff m x rhol rhog mul mug D roughness L
  else if Method = "Chisholm" then Chisholm ff m x rhol rhog mul mug D roughness L false
  else if Method = "Gronnerud" then Gronnerud ff m x rhol rhog mul mug D roughness L
  else if Method = "Jung_Radermacher" then Jung_Radermacher ff m x rhol rhog mul mug D roughness L
  else if Method = "Muller_Steinhagen_Heck" then Muller_Steinhagen_Heck ff m x rhol rhog mul mug D roughness L
  else if Method = "Theissing" then Theissing ff m x rhol rhog mul mug D roughness L
  else if Method = "Wang_Chiang_Lu" then Wang_Chiang_Lu ff m x rhol rhog mul mug D roughness L
  else if Method = "Yu_France" then Yu_France ff m x rhol rhog mul mug D roughness L
  else if Method = "Kim_Mudawar" then Kim_Mudawar m x rhol rhog mul mug sigma D L
  else if Method = "Friedel" then Friedel ff m x rhol rhog mul mug sigma D roughness L
  else if Method = "Hwang_Kim" then Hwang_Kim ff m x rhol rhog mul mug sigma D roughness L
  else if Method = "Mishima_Hibiki" then Mishima_Hibiki ff m x rhol rhog mul mug sigma D roughness L
  else if Method = "Tran" then Tran ff m x rhol rhog mul mug sigma D roughness L
  else if Method = "Xu_Fang" then Xu_Fang ff m x rhol rhog mul mug sigma D roughness L
  else if Method = "Zhang_Hibiki_Mishima" then Zhang_Hibiki_Mishima ff m x rhol rhog mul mug sigma D roughness L "adiabatic vapor"
  else if Method = "Chen_Friedel" then Chen_Friedel ff m x rhol rhog mul mug sigma D roughness L
  else if Method = "Lombardi_Pedrocchi" then Lombardi_Pedrocchi m x rhol rhog sigma D L
  else if Method = "Chisholm rough" then Chisholm ff m x rhol rhog mul mug D roughness L true
  else if Method = "Zhang_Hibiki_Mishima adiabatic gas" then Zhang_Hibiki_Mishima ff m x rhol rhog mul mug sigma D roughness L "adiabatic gas"
  else if Method = "Zhang_Hibiki_Mishima flow boiling" then Zhang_Hibiki_Mishima ff m x rhol rhog mul mug sigma D roughness L "flow boiling"
  else if Method = "Beggs-Brill" then Beggs_Brill ff m x rhol rhog mul mug sigma (some P) D (some angle) roughness L g false
  else .error .valueError

/-- two_phase.py:2531-2641 `two_phase_dP`. Defaults: L = 1.0, roughness = 0.0, the rest None. -/
def two_phase_dP (m x rhol D L : ℝ) (rhog mul mug sigma P Pc : Option ℝ) (roughness : ℝ) (angle : Option ℝ) (Method : Option String) : Py ℝ := do
  let Method2 : String ← (match Method with | none => two_phase_dP_default rhog mul mug sigma P Pc | some M => .ok M : Py String)
  let rhog2 : ℝ ← two_phase_dP_need needing_rhog Method2 rhog
  let mul2 : ℝ ← two_phase_dP_need needing_mul Method2 mul
  let mug2 : ℝ ← two_phase_dP_need needing_mug Method2 mug
  let sigma2 : ℝ ← two_phase_dP_need needing_sigma Method2 sigma
  let P2 : ℝ ← two_phase_dP_need needing_P Method2 P
  let Pc2 : ℝ ← two_phase_dP_need needing_Pc Method2 Pc
  let angle2 : ℝ ← two_phase_dP_need needing_angle Method2 angle
  two_phase_dP_select ff m x rhol D L rhog2 mul2 mug2 sigma2 P2 Pc2 roughness angle2 Method2

/-! ### acceleration and gravity -/

/-- two_phase.py:2719-2726 `two_phase_dP_acceleration`. -/
def two_phase_dP_acceleration (m D xi xo alpha_i alpha_o rho_li rho_gi : ℝ) (rho_lo rho_go : Option ℝ) : Py ℝ := do
  let G : ℝ ← 4 * m /ₚ (π * D * D)
  let rho_lo : ℝ := rho_lo.getD rho_li
  let rho_go : ℝ := rho_go.getD rho_gi
  let t2 : ℝ ← (1 - xi) * (1 - xi) /ₚ (rho_li * (1 - alpha_i))
  let t3 : ℝ ← xi * xi /ₚ (rho_gi * alpha_i)
  let in_term : ℝ := t2 + t3
  let t4 : ℝ ← (1 - xo) * (1 - xo) /ₚ (rho_lo * (1 - alpha_o))
  let t5 : ℝ ← xo * xo /ₚ (rho_go * alpha_o)
  let out_term : ℝ := t4 + t5
  return G * G * (out_term - in_term)

/-- two_phase.py:2802-2808 `two_phase_dP_dz_acceleration`. -/
def two_phase_dP_dz_acceleration (m D x rhol rhog dv_dP_l dv_dP_g dx_dP dP_dL dA_dL : ℝ) : Py ℝ := do
  let A : ℝ := 0.25 * π * D * D
  let G : ℝ ← m /ₚ A
  let t2 : ℝ ← 1 /ₚ rhog
  let t3 : ℝ ← 1 /ₚ rhol
  let t1 : ℝ := (t2 - t3) * dP_dL * dx_dP + dP_dL * (x * dv_dP_g + (1 - x) * dv_dP_l)
  let voidage_h : ℝ ← Voidage.homogeneous x rhol rhog
  let rho_h : ℝ := rhol * (1 - voidage_h) + rhog * voidage_h
  let t5 : ℝ ← dA_dL /ₚ (rho_h * A)
  return -G * G * (t1 - t5)

/-- two_phase.py:2892-2901 `two_phase_dP_gravitational`. Defaults: g = 9.80665, the outlet values None. `radians` is π/180 times. -/
def two_phase_dP_gravitational (angle z alpha_i rho_li rho_gi : ℝ) (alpha_o rho_lo rho_go : Option ℝ) (grav : ℝ) : ℝ :=
  let rho_lo : ℝ := rho_lo.getD rho_li
  let rho_go : ℝ := rho_go.getD rho_gi
  let alpha_o : ℝ := alpha_o.getD alpha_i
  let angle : ℝ := π / 180 * angle
  let in_term : ℝ := alpha_i * rho_gi + (1 - alpha_i) * rho_li
  let out_term : ℝ := alpha_o * rho_go + (1 - alpha_o) * rho_lo
  grav * z * Real.sin angle * (out_term + in_term) * 0.5

/-- two_phase.py:2951-2952 `two_phase_dP_dz_gravitational`. Defaults: g = 9.80665. -/
def two_phase_dP_dz_gravitational (angle alpha rhol rhog grav : ℝ) : ℝ :=
  let angle : ℝ := π / 180 * angle
  grav * Real.sin angle * (alpha * rhog + (1 - alpha) * rhol)

/-! ### flow regime maps -/

/-- two_phase.py:3180-3189: the gas velocity between stratified/bubble and slug/wave flow, before scaling. -/
def Mandhane_Y1345 (Vsl : ℝ) : Py ℝ := do
  if Vsl ≤ 0.1 then
    let t1 : ℝ ← (Vsl / 0.1) ^ₚ (-0.368)
    return 14 * t1
  else if Vsl ≤ 0.2 then
    let t1 : ℝ ← (Vsl / 0.1) ^ₚ (-0.415)
    return 14 * t1
  else if Vsl ≤ 1.15 then
    let t1 : ℝ ← (Vsl / 0.2) ^ₚ (-0.816)
    return 10.5 * t1
  else if Vsl ≤ 4.8 then
    return 2.5
  else
    let t1 : ℝ ← (Vsl / 4.8) ^ₚ 0.248
    return 2.5 * t1

/-- two_phase.py:3191-3202: the gas velocity where annular mist begins, before scaling. -/
def Mandhane_Y456 (Vsl : ℝ) : Py ℝ := do
  if Vsl ≤ 0.1 then
    let t1 : ℝ ← (Vsl / 0.01) ^ₚ (-0.0675)
    return 70 * t1
  else if Vsl ≤ 0.3 then
    let t1 : ℝ ← (Vsl / 0.1) ^ₚ (-0.415)
    return 60 * t1
  else if Vsl ≤ 0.56 then
    let t1 : ℝ ← (Vsl / 0.3) ^ₚ 0.0813
    return 38 * t1
  else if Vsl ≤ 1 then
    let t1 : ℝ ← (Vsl / 0.56) ^ₚ 0.385
    return 40 * t1
  else if Vsl ≤ 2.5 then
    let t1 : ℝ ← (Vsl / 1) ^ₚ 0.756
    return 50 * t1
  else
    let t1 : ℝ ← (Vsl / 2.5) ^ₚ 0.463
    return 100 * t1

/-- two_phase.py:3179-3222: the regime from the superficial velocities (ft/s) and the property scales. -/
def Mandhane_pick (Vsl Vsg X1 Y1 : ℝ) : Py String := do
  if Vsl < 14 * Y1 then
    let Y1345 : ℝ ← Mandhane_Y1345 Vsl
    let Y456 : ℝ ← Mandhane_Y456 Vsl
    let Y45 : ℝ := 0.3 * Y1
    let Y31 : ℝ ← 0.5 /ₚ Y1
    let Y1345 : ℝ := Y1345 * X1
    let Y456 : ℝ := Y456 * X1
    return (if Vsg ≤ Y1345 ∧ Vsl ≥ Y31 then "elongated bubble"
      else if Vsg ≤ Y1345 ∧ Vsl ≤ Y31 then "stratified"
      else if Vsg ≥ Y1345 ∧ Vsg ≤ Y456 ∧ Vsl > Y45 then "slug"
      else if Vsg ≥ Y1345 ∧ Vsg ≤ Y456 ∧ Vsl ≤ Y45 then "wave"
      else "annular mist")
  else
    let t1 : ℝ ← (Vsl / 14) ^ₚ 0.206
    return (if Vsg ≤ 230 * t1 * X1 then "dispersed bubble" else "annular mist")

/-- two_phase.py:3168-3223 `Mandhane_Gregory_Aziz_regime`. -/
def Mandhane_Gregory_Aziz_regime (m x rhol rhog mul mug sigma D : ℝ) : Py (String × ℝ × ℝ) := do
  let A : ℝ := 0.25 * π * D * D
  let t1 : ℝ ← m * (1 - x) /ₚ (rhol * A)
  let t2 : ℝ ← m * x /ₚ (rhog * A)
  let Vsl : ℝ := t1 / 0.3048
  let Vsg : ℝ := t2 / 0.3048
  let t3 : ℝ ← (rhog / 1.294292) ^ₚ 0.333
  let t4 : ℝ ← rhol * 0.0724 /ₚ (999.552 * sigma)
  let t5 : ℝ ← psqrt t4
  let t6 : ℝ ← psqrt t5
  let t7 : ℝ ← (mug * 1.8e5) ^ₚ 0.2
  let X1 : ℝ := t3 * t6 * t7
  let t8 : ℝ ← rhol * 0.0724 / 999.552 /ₚ sigma
  let t9 : ℝ ← psqrt t8
  let t10 : ℝ ← psqrt t9
  let t11 : ℝ ← (mul * 1e3) ^ₚ 0.2
  let Y1 : ℝ := t10 * t11
  let regime : String ← Mandhane_pick Vsl Vsg X1 Y1
  return (regime, Vsl, Vsg)

/-- two_phase.py:3225-3227 `Mandhane_Gregory_Aziz_regimes`. -/
def Mandhane_Gregory_Aziz_regimes : List (String × ℕ) :=
  [("elongated bubble", 1), ("stratified", 2), ("slug", 3), ("wave", 4), ("annular mist", 5), ("dispersed bubble", 6)]

/-- two_phase.py:2954-2956: knots of `Dukler_XA_tck`. -/
def Dukler_XA_t : List ℝ := [-2.4791105294648372, -2.4791105294648372, -2.4791105294648372, -2.4791105294648372, 0.14360803483759585,
  1.7199938263676038, 1.7199938263676038, 1.7199938263676038, 1.7199938263676038]
/-- two_phase.py:2957-2959: coefficients of `Dukler_XA_tck`. -/
def Dukler_XA_c : List ℝ := [0.21299880246561081, 0.16299733301915248, -0.042340970712679615, -1.9967836909384598, -2.9917366639619414, 0, 0, 0, 0]
/-- two_phase.py:2960-2962: knots of `Dukler_XC_tck`. -/
def Dukler_XC_t : List ℝ := [-1.8323873272724698, -1.8323873272724698, -1.8323873272724698, -1.8323873272724698, -0.15428198203334137,
  1.7031193462360779, 1.7031193462360779, 1.7031193462360779, 1.7031193462360779]
/-- two_phase.py:2963-2965: coefficients of `Dukler_XC_tck`. -/
def Dukler_XC_c : List ℝ := [0.2827776229531682, 0.6207113329042158, 1.0609541626742232, 0.44917638072891825, 0.014664597632360495, 0, 0, 0, 0]
/-- two_phase.py:2966-2968: knots of `Dukler_XD_tck`. -/
def Dukler_XD_t : List ℝ := [0.2532652936901574, 0.2532652936901574, 0.2532652936901574, 0.2532652936901574, 3.5567847823070253,
  3.5567847823070253, 3.5567847823070253, 3.5567847823070253]
/-- two_phase.py:2969-2971: coefficients of `Dukler_XD_tck`. -/
def Dukler_XD_c : List ℝ := [0.09054274779541564, -0.05102629221303253, -0.23907463153703945, -0.7757156285450911, 0, 0, 0, 0]

/-- two_phase.py:2973-2975 `XA_interp_obj`, `XC_interp_obj`, `XD_interp_obj`: ten to the power of a cubic spline of the decimal logarithm. -/
def Dukler_curve (t c : List ℝ) (x : ℝ) : Py ℝ := do
  let t1 : ℝ ← plog10 x
  let t2 : ℝ ← Splines.py_splev t1 t c 3 0
  (10 : ℝ) ^ₚ t2

/-- two_phase.py:3088-3105: the regime of `Taitel_Dukler_regime`. -/
def Taitel_Dukler_pick (X T F K : ℝ) : Py String := do
  let F_A_at_X : ℝ ← Dukler_curve Dukler_XA_t Dukler_XA_c X
  let X_B_transition : ℝ := 1.7917
  if F ≥ F_A_at_X ∧ X ≤ X_B_transition then
    return "annular"
  else if F ≥ F_A_at_X then
    let T_D_at_X : ℝ ← Dukler_curve Dukler_XD_t Dukler_XD_c X
    return (if T ≥ T_D_at_X then "bubbly" else "intermittent")
  else
    let K_C_at_X : ℝ ← Dukler_curve Dukler_XC_t Dukler_XC_c X
    return (if K ≥ K_C_at_X then "stratified wavy" else "stratified smooth")

/-- two_phase.py:3063-3107 `Taitel_Dukler_regime`. Defaults: roughness = 0.0, g = 9.80665. `radians` is π/180 times. -/
def Taitel_Dukler_regime (m x rhol rhog mul mug D angle roughness grav : ℝ) : Py (String × ℝ × ℝ × ℝ × ℝ) := do
  let angle : ℝ := π / 180 * angle
  let A : ℝ := 0.25 * π * D * D
  let v_ls : ℝ ← m * (1 - x) /ₚ (rhol * A)
  let Re_ls : ℝ ← Core.Reynolds v_ls D (some rhol) (some mul) none
  let t4 : ℝ ← roughness /ₚ D
  let fd_ls : ℝ ← ff Re_ls t4
  let t6 : ℝ ← fd_ls /ₚ D
  let dP_ls : ℝ := t6 * (0.5 * rhol * v_ls * v_ls)
  let v_gs : ℝ ← m * x /ₚ (rhog * A)
  let Re_gs : ℝ ← Core.Reynolds v_gs D (some rhog) (some mug) none
  let t9 : ℝ ← roughness /ₚ D
  let fd_gs : ℝ ← ff Re_gs t9
  let t11 : ℝ ← fd_gs /ₚ D
  let dP_gs : ℝ := t11 * (0.5 * rhog * v_gs * v_gs)
  let t12 : ℝ ← dP_ls /ₚ dP_gs
  let X : ℝ ← psqrt t12
  let t14 : ℝ ← rhog /ₚ (rhol - rhog)
  let t15 : ℝ ← psqrt t14
  let t16 : ℝ ← psqrt (D * grav * Real.cos angle)
  let F : ℝ ← t15 * v_gs /ₚ t16
  let nul : ℝ ← mul /ₚ rhol
  let t19 : ℝ ← dP_ls /ₚ ((rhol - rhog) * grav * Real.cos angle)
  let T : ℝ ← psqrt t19
  let t21 : ℝ ← rhog * v_gs * v_gs * v_ls /ₚ ((rhol - rhog) * grav * nul * Real.cos angle)
  let K : ℝ ← psqrt t21
  let regime : String ← Taitel_Dukler_pick X T F K
  return (regime, X, T, F, K)

end Verif.TwoPhase
