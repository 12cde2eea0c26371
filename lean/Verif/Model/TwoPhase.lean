import Verif.Py
import Verif.Model.Constants
import Verif.Model.Core
import Verif.Model.Friction
import Verif.Model.Voidage
import Mathlib.Analysis.SpecialFunctions.Pow.Real

/-! Model of the frictional pressure drop correlations of `fluids/two_phase.py`. The single-phase `friction_factor` (Darcy, default method) is a
parameter `ff` of the Reynolds number and the relative roughness; `Verif.Friction.friction_factor` is its model. -/

open Real

noncomputable section

namespace Verif.TwoPhase

/-- two_phase.py:107 `from fluids.constants import g` -/
scoped notation "g" => ((Verif.Const.g : ℚ) : ℝ)

variable (ff : ℝ → ℝ → Py ℝ)

/-- two_phase.py:383-408 `Friedel`. Defaults: roughness = 0.0, L = 1.0. -/
def Friedel (m x rhol rhog mul mug sigma D roughness L : ℝ) : Py ℝ := do
  let A : ℝ := 0.25 * π * D * D
  let v_lo : ℝ ← m /ₚ (A * rhol)
  let Re_lo : ℝ ← Core.Reynolds v_lo D (some rhol) (some mul) none
  let t3 : ℝ ← roughness /ₚ D
  let fd_lo : ℝ ← ff Re_lo t3
  let t5 : ℝ ← fd_lo * L /ₚ D
  let dP_lo : ℝ := t5 * (0.5 * rhol * v_lo * v_lo)
  let v_go : ℝ ← m /ₚ (rhog * A)
  let Re_go : ℝ ← Core.Reynolds v_go D (some rhog) (some mug) none
  let t8 : ℝ ← roughness /ₚ D
  let fd_go : ℝ ← ff Re_go t8
  let t10 : ℝ ← x ^ₚ 0.78
  let t11 : ℝ ← (1 - x) ^ₚ 0.224
  let F : ℝ := t10 * t11
  let t12 : ℝ ← rhol /ₚ rhog
  let t13 : ℝ ← t12 ^ₚ 0.91
  let t14 : ℝ ← mug /ₚ mul
  let t15 : ℝ ← t14 ^ₚ 0.19
  let t16 : ℝ ← mug /ₚ mul
  let t17 : ℝ ← (1 - t16) ^ₚ 0.7
  let H : ℝ := t13 * t15 * t17
  let t18 : ℝ ← rhol * fd_go /ₚ (rhog * fd_lo)
  let E : ℝ := (1 - x) * (1 - x) + x * x * t18
  let voidage_h : ℝ ← Voidage.homogeneous x rhol rhog
  let rho_h : ℝ := rhol * (1 - voidage_h) + rhog * voidage_h
  let Q_h : ℝ ← m /ₚ rho_h
  let v_h : ℝ ← Q_h /ₚ A
  let Fr : ℝ ← Core.Froude v_h D g true
  let We : ℝ ← Core.Weber v_h D rho_h sigma
  let t24 : ℝ ← Fr ^ₚ 0.0454
  let t25 : ℝ ← We ^ₚ 0.035
  let t26 : ℝ ← 3.24 * F * H /ₚ (t24 * t25)
  let phi_lo2 : ℝ := E + t26
  return phi_lo2 * dP_lo

/-- two_phase.py:487-492: the Froude-number friction term of `Gronnerud`. -/
def Gronnerud_f_Fr (Frl : ℝ) : Py ℝ := do
  if Frl ≥ 1 then
    return 1
  let t1 : ℝ ← 1 /ₚ Frl
  let term : ℝ ← plog t1
  let t2 : ℝ ← Frl ^ₚ 0.3
  return t2 + 0.0055 * term * term

/-- two_phase.py:485-501 `Gronnerud`. Defaults: roughness = 0.0, L = 1.0. -/
def Gronnerud (m x rhol rhog mul mug D roughness L : ℝ) : Py ℝ := do
  let G : ℝ ← m /ₚ (0.25 * π * D * D)
  let V : ℝ ← G /ₚ rhol
  let Frl : ℝ ← Core.Froude V D g true
  let f_Fr : ℝ ← Gronnerud_f_Fr Frl
  let t7 : ℝ ← x ^ₚ 1.8
  let t8 : ℝ ← psqrt f_Fr
  let dP_dL_Fr : ℝ := f_Fr * (x + 4 * (t7 - x ^ 10 * t8))
  let t9 : ℝ ← rhol /ₚ rhog
  let t10 : ℝ ← mul /ₚ mug
  let t11 : ℝ ← psqrt t10
  let t12 : ℝ ← psqrt t11
  let t13 : ℝ ← t9 /ₚ t12
  let phi_gd : ℝ := 1 + dP_dL_Fr * (t13 - 1)
  let v_lo : ℝ ← m /ₚ (rhol * (0.25 * π * D * D))
  let Re_lo : ℝ ← Core.Reynolds v_lo D (some rhol) (some mul) none
  let t16 : ℝ ← roughness /ₚ D
  let fd_lo : ℝ ← ff Re_lo t16
  let t18 : ℝ ← fd_lo * L /ₚ D
  let dP_lo : ℝ := t18 * (0.5 * rhol * v_lo * v_lo)
  return phi_gd * dP_lo

/-- two_phase.py:628-641: the coefficient B of `Chisholm`. -/
def Chisholm_B (Gamma G_tp : ℝ) : Py ℝ := do
  if Gamma ≤ 9.5 then
    if G_tp ≤ 500 then
      return 4.8
    else if G_tp < 1900 then
      2400 /ₚ G_tp
    else
      let t1 : ℝ ← psqrt G_tp
      55 /ₚ t1
  else if Gamma ≤ 28 then
    if G_tp ≤ 600 then
      let t1 : ℝ ← psqrt G_tp
      let t2 : ℝ ← 520 /ₚ t1
      t2 /ₚ Gamma
    else
      21 /ₚ Gamma
  else
    let t1 : ℝ ← psqrt G_tp
    15000 /ₚ (Gamma * Gamma * t1)

/-- two_phase.py:614, 643-647: the friction exponent n and the coefficient B of `Chisholm` with the optional roughness correction. -/
def Chisholm_rough (fd_lo fd_go Re_lo Re_go mul mug D roughness B : ℝ) (rough_correction : Bool) : Py (ℝ × ℝ) := do
  if rough_correction then
    let t1 : ℝ ← fd_lo /ₚ fd_go
    let t2 : ℝ ← plog t1
    let t3 : ℝ ← Re_go /ₚ Re_lo
    let t4 : ℝ ← plog t3
    let n : ℝ ← t2 /ₚ t4
    let mu_ratio : ℝ ← mug /ₚ mul
    let t5 : ℝ ← -600 * roughness /ₚ D
    let t6 : ℝ ← 10 ^ₚ t5
    let B_ratio : ℝ ← (0.5 * (1 + mu_ratio * mu_ratio + t6)) ^ₚ ((0.25 - n) * 4)
    return (n, B * B_ratio)
  else
    return (0.25, B)

/-- two_phase.py:612-650 `Chisholm`. Defaults: roughness = 0.0, L = 1.0, rough_correction = False. -/
def Chisholm (m x rhol rhog mul mug D roughness L : ℝ) (rough_correction : Bool) : Py ℝ := do
  let A : ℝ := 0.25 * π * D * D
  let G_tp : ℝ ← m /ₚ A
  let v_lo : ℝ ← m /ₚ (rhol * A)
  let Re_lo : ℝ ← Core.Reynolds v_lo D (some rhol) (some mul) none
  let t4 : ℝ ← roughness /ₚ D
  let fd_lo : ℝ ← ff Re_lo t4
  let t6 : ℝ ← fd_lo * L /ₚ D
  let dP_lo : ℝ := t6 * (0.5 * rhol * v_lo * v_lo)
  let v_go : ℝ ← m /ₚ (rhog * A)
  let Re_go : ℝ ← Core.Reynolds v_go D (some rhog) (some mug) none
  let t9 : ℝ ← roughness /ₚ D
  let fd_go : ℝ ← ff Re_go t9
  let t11 : ℝ ← fd_go * L /ₚ D
  let dP_go : ℝ := t11 * (0.5 * rhog * v_go * v_go)
  let t12 : ℝ ← dP_go /ₚ dP_lo
  let Gamma : ℝ ← psqrt t12
  let B : ℝ ← Chisholm_B Gamma G_tp
  let nB : ℝ × ℝ ← Chisholm_rough fd_lo fd_go Re_lo Re_go mul mug D roughness B rough_correction
  let n : ℝ := nB.1
  let B : ℝ := nB.2
  let t32 : ℝ ← x ^ₚ ((2 - n) * 0.5)
  let t33 : ℝ ← (1 - x) ^ₚ ((2 - n) * 0.5)
  let t34 : ℝ ← x ^ₚ (2 - n)
  let phi2_ch : ℝ := 1 + (Gamma * Gamma - 1) * (B * t32 * t33 + t34)
  return phi2_ch * dP_lo

/-- two_phase.py:749-754: the coefficient B of `Baroczy_Chisholm`. -/
def Baroczy_Chisholm_B (Gamma G_tp : ℝ) : Py ℝ := do
  let t1 : ℝ ← psqrt G_tp
  if Gamma ≤ 9.5 then
    55 /ₚ t1
  else if Gamma ≤ 28 then
    520 /ₚ (t1 * Gamma)
  else
    15000 /ₚ (t1 * (Gamma * Gamma))

/-- two_phase.py:733-756 `Baroczy_Chisholm`. Defaults: roughness = 0.0, L = 1.0. -/
def Baroczy_Chisholm (m x rhol rhog mul mug D roughness L : ℝ) : Py ℝ := do
  let A : ℝ := 0.25 * π * D * D
  let G_tp : ℝ ← m /ₚ A
  let n : ℝ := 0.25
  let v_lo : ℝ ← m /ₚ (A * rhol)
  let Re_lo : ℝ ← Core.Reynolds v_lo D (some rhol) (some mul) none
  let t4 : ℝ ← roughness /ₚ D
  let fd_lo : ℝ ← ff Re_lo t4
  let t6 : ℝ ← fd_lo * L /ₚ D
  let dP_lo : ℝ := t6 * (0.5 * rhol * v_lo * v_lo)
  let v_go : ℝ ← m /ₚ (A * rhog)
  let Re_go : ℝ ← Core.Reynolds v_go D (some rhog) (some mug) none
  let t9 : ℝ ← roughness /ₚ D
  let fd_go : ℝ ← ff Re_go t9
  let t11 : ℝ ← fd_go * L /ₚ D
  let dP_go : ℝ := t11 * (0.5 * rhog * v_go * v_go)
  let t12 : ℝ ← dP_go /ₚ dP_lo
  let Gamma : ℝ ← psqrt t12
  let B : ℝ ← Baroczy_Chisholm_B Gamma G_tp
  let t20 : ℝ ← x ^ₚ ((2 - n) * 0.5)
  let t21 : ℝ ← (1 - x) ^ₚ ((2 - n) * 0.5)
  let t22 : ℝ ← x ^ₚ (2 - n)
  let phi2_ch : ℝ := 1 + (Gamma * Gamma - 1) * (B * t20 * t21 + t22)
  return phi2_ch * dP_lo

/-- two_phase.py:819-833 `Muller_Steinhagen_Heck`. Defaults: roughness = 0.0, L = 1.0. -/
def Muller_Steinhagen_Heck (m x rhol rhog mul mug D roughness L : ℝ) : Py ℝ := do
  let A : ℝ := 0.25 * π * D * D
  let v_lo : ℝ ← m /ₚ (rhol * A)
  let Re_lo : ℝ ← Core.Reynolds v_lo D (some rhol) (some mul) none
  let t3 : ℝ ← roughness /ₚ D
  let fd_lo : ℝ ← ff Re_lo t3
  let t5 : ℝ ← fd_lo * L /ₚ D
  let dP_lo : ℝ := t5 * (0.5 * rhol * v_lo * v_lo)
  let v_go : ℝ ← m /ₚ (rhog * A)
  let Re_go : ℝ ← Core.Reynolds v_go D (some rhog) (some mug) none
  let t8 : ℝ ← roughness /ₚ D
  let fd_go : ℝ ← ff Re_go t8
  let t10 : ℝ ← fd_go * L /ₚ D
  let dP_go : ℝ := t10 * (0.5 * rhog * v_go * v_go)
  let G_MSH : ℝ := dP_lo + 2 * (dP_go - dP_lo) * x
  let t11 : ℝ ← Friction.pcbrt (1 - x)
  return G_MSH * t11 + dP_go * x * x * x

/-- two_phase.py:890-893 `Lombardi_Pedrocchi`. Defaults: L = 1.0. -/
def Lombardi_Pedrocchi (m x rhol rhog sigma D L : ℝ) : Py ℝ := do
  let voidage_h : ℝ ← Voidage.homogeneous x rhol rhog
  let rho_h : ℝ := rhol * (1 - voidage_h) + rhog * voidage_h
  let G_tp : ℝ ← m /ₚ (0.25 * π * D * D)
  let t3 : ℝ ← G_tp ^ₚ 1.4
  let t4 : ℝ ← sigma ^ₚ 0.4
  let t5 : ℝ ← D ^ₚ 1.2
  let t6 : ℝ ← rho_h ^ₚ 0.866
  0.83 * t3 * t4 * L /ₚ (t5 * t6)

/-- two_phase.py:1007-1010 `Theissing`, the exponent. -/
def Theissing_n (x dP_lo dP_go dP_l dP_g : ℝ) : Py ℝ := do
  let t21 : ℝ ← dP_l /ₚ dP_lo
  let t22 : ℝ ← plog t21
  let t23 : ℝ ← plog (1 - x)
  let n1 : ℝ ← t22 /ₚ t23
  let t25 : ℝ ← dP_g /ₚ dP_go
  let t26 : ℝ ← plog t25
  let t27 : ℝ ← plog x
  let n2 : ℝ ← t26 /ₚ t27
  let t29 : ℝ ← dP_g /ₚ dP_l
  let ratio : ℝ ← t29 ^ₚ 0.1
  (n1 + n2 * ratio) /ₚ (1 + ratio)

/-- two_phase.py:1011 `Theissing`, ε. -/
def Theissing_epsilon (rhol rhog n : ℝ) : Py ℝ := do
  let t32 : ℝ ← rhol /ₚ rhog
  let t33 : ℝ ← psqrt t32
  let t34 : ℝ ← rhol /ₚ rhog
  let t35 : ℝ ← 2 * t33 /ₚ (1 + t34)
  let t36 : ℝ ← 0.7 /ₚ n
  let t37 : ℝ ← t35 ^ₚ t36
  return 3 - 2 * t37

/-- two_phase.py:1007-1014 `Theissing`, the interpolation from the four single-phase drops. -/
def Theissing_interp (x rhol rhog dP_lo dP_go dP_l dP_g : ℝ) : Py ℝ := do
  let n : ℝ ← Theissing_n x dP_lo dP_go dP_l dP_g
  let epsilon : ℝ ← Theissing_epsilon rhol rhog n
  let t38 : ℝ ← 1 /ₚ (n * epsilon)
  let t39 : ℝ ← dP_lo ^ₚ t38
  let t40 : ℝ ← 1 /ₚ epsilon
  let t41 : ℝ ← (1 - x) ^ₚ t40
  let t42 : ℝ ← 1 /ₚ (n * epsilon)
  let t43 : ℝ ← dP_go ^ₚ t42
  let t44 : ℝ ← 1 /ₚ epsilon
  let t45 : ℝ ← x ^ₚ t44
  let dP : ℝ ← (t39 * t41 + t43 * t45) ^ₚ (n * epsilon)
  return dP

/-- two_phase.py:994-1004 `Theissing`, both phases present. -/
def Theissing_mix (m x rhol rhog mul mug D roughness L A dP_lo dP_go : ℝ) : Py ℝ := do
  let v_l : ℝ ← m * (1 - x) /ₚ (rhol * A)
  let Re_l : ℝ ← Core.Reynolds v_l D (some rhol) (some mul) none
  let t13 : ℝ ← roughness /ₚ D
  let fd_l : ℝ ← ff Re_l t13
  let t15 : ℝ ← fd_l * L /ₚ D
  let dP_l : ℝ := t15 * (0.5 * rhol * v_l * v_l)
  let v_g : ℝ ← m * x /ₚ (rhog * A)
  let Re_g : ℝ ← Core.Reynolds v_g D (some rhog) (some mug) none
  let t18 : ℝ ← roughness /ₚ D
  let fd_g : ℝ ← ff Re_g t18
  let t20 : ℝ ← fd_g * L /ₚ D
  let dP_g : ℝ := t20 * (0.5 * rhog * v_g * v_g)
  Theissing_interp x rhol rhog dP_lo dP_go dP_l dP_g

/-- two_phase.py:975-1014 `Theissing`. Defaults: roughness = 0.0, L = 1.0. -/
def Theissing (m x rhol rhog mul mug D roughness L : ℝ) : Py ℝ := do
  let A : ℝ := 0.25 * π * D * D
  let v_lo : ℝ ← m /ₚ (rhol * A)
  let Re_lo : ℝ ← Core.Reynolds v_lo D (some rhol) (some mul) none
  let t3 : ℝ ← roughness /ₚ D
  let fd_lo : ℝ ← ff Re_lo t3
  let t5 : ℝ ← fd_lo * L /ₚ D
  let dP_lo : ℝ := t5 * (0.5 * rhol * v_lo * v_lo)
  let v_go : ℝ ← m /ₚ (rhog * A)
  let Re_go : ℝ ← Core.Reynolds v_go D (some rhog) (some mug) none
  let t8 : ℝ ← roughness /ₚ D
  let fd_go : ℝ ← ff Re_go t8
  let t10 : ℝ ← fd_go * L /ₚ D
  let dP_go : ℝ := t10 * (0.5 * rhog * v_go * v_go)
  if x = 0 then
    return dP_lo
  else if x = 1 then
    return dP_go
  Theissing_mix ff m x rhol rhog mul mug D roughness L A dP_lo dP_go

/-- two_phase.py:1080-1088 `Jung_Radermacher`. Defaults: roughness = 0.0, L = 1.0. -/
def Jung_Radermacher (m x rhol rhog mul mug D roughness L : ℝ) : Py ℝ := do
  let A : ℝ := 0.25 * π * D * D
  let v_lo : ℝ ← m /ₚ (rhol * A)
  let Re_lo : ℝ ← Core.Reynolds v_lo D (some rhol) (some mul) none
  let t3 : ℝ ← roughness /ₚ D
  let fd_lo : ℝ ← ff Re_lo t3
  let t5 : ℝ ← fd_lo * L /ₚ D
  let dP_lo : ℝ := t5 * (0.5 * rhol * v_lo * v_lo)
  let Xtt : ℝ ← Voidage.Lockhart_Martinelli_Xtt x rhol rhog mul mug
  let t7 : ℝ ← Xtt ^ₚ (-1.47)
  let t8 : ℝ ← (1 - x) ^ₚ 1.8
  let phi_tp2 : ℝ := 12.82 * t7 * t8
  return phi_tp2 * dP_lo

/-- two_phase.py:1162-1178 `Tran`. Defaults: roughness = 0.0, L = 1.0. -/
def Tran (m x rhol rhog mul mug sigma D roughness L : ℝ) : Py ℝ := do
  let A : ℝ := 0.25 * π * D * D
  let v_lo : ℝ ← m /ₚ (rhol * A)
  let Re_lo : ℝ ← Core.Reynolds v_lo D (some rhol) (some mul) none
  let t3 : ℝ ← roughness /ₚ D
  let fd_lo : ℝ ← ff Re_lo t3
  let t5 : ℝ ← fd_lo * L /ₚ D
  let dP_lo : ℝ := t5 * (0.5 * rhol * v_lo * v_lo)
  let v_go : ℝ ← m /ₚ (rhog * A)
  let Re_go : ℝ ← Core.Reynolds v_go D (some rhog) (some mug) none
  let t8 : ℝ ← roughness /ₚ D
  let fd_go : ℝ ← ff Re_go t8
  let t10 : ℝ ← fd_go * L /ₚ D
  let dP_go : ℝ := t10 * (0.5 * rhog * v_go * v_go)
  let Gamma2 : ℝ ← dP_go /ₚ dP_lo
  let Co : ℝ ← Core.Confinement D rhol rhog sigma g
  let t13 : ℝ ← x ^ₚ 0.875
  let t14 : ℝ ← (1 - x) ^ₚ 0.875
  let t15 : ℝ ← x ^ₚ 1.75
  let phi_lo2 : ℝ := 1 + (4.3 * Gamma2 - 1) * (Co * t13 * t14 + t15)
  return dP_lo * phi_lo2

/-- two_phase.py:1295-1301: the factor Ω of `Chen_Friedel`. -/
def Chen_Friedel_Omega (m x rhog mug D A Re_lo We Bo : ℝ) : Py ℝ := do
  if Bo < 2.5 then
    let v_g : ℝ ← m * x /ₚ (rhog * A)
    let Re_g : ℝ ← Core.Reynolds v_g D (some rhog) (some mug) none
    let t1 : ℝ ← Re_lo ^ₚ 0.45
    let t2 : ℝ ← Re_g ^ₚ 0.09
    0.0333 * t1 /ₚ (t2 * (1 + 0.4 * Real.exp (-Bo)))
  else
    let t1 : ℝ ← We ^ₚ 0.2
    t1 /ₚ (2.5 + 0.06 * Bo)

/-- two_phase.py:1263-1302 `Chen_Friedel`. Defaults: roughness = 0.0, L = 1.0. -/
def Chen_Friedel (m x rhol rhog mul mug sigma D roughness L : ℝ) : Py ℝ := do
  let A : ℝ := 0.25 * π * D * D
  let v_lo : ℝ ← m /ₚ (rhol * A)
  let Re_lo : ℝ ← Core.Reynolds v_lo D (some rhol) (some mul) none
  let t3 : ℝ ← roughness /ₚ D
  let fd_lo : ℝ ← ff Re_lo t3
  let t5 : ℝ ← fd_lo * L /ₚ D
  let dP_lo : ℝ := t5 * (0.5 * rhol * v_lo * v_lo)
  let v_go : ℝ ← m /ₚ (rhog * A)
  let Re_go : ℝ ← Core.Reynolds v_go D (some rhog) (some mug) none
  let t8 : ℝ ← roughness /ₚ D
  let fd_go : ℝ ← ff Re_go t8
  let t10 : ℝ ← x ^ₚ 0.78
  let t11 : ℝ ← (1 - x) ^ₚ 0.224
  let F : ℝ := t10 * t11
  let t12 : ℝ ← rhol /ₚ rhog
  let t13 : ℝ ← t12 ^ₚ 0.91
  let t14 : ℝ ← mug /ₚ mul
  let t15 : ℝ ← t14 ^ₚ 0.19
  let t16 : ℝ ← mug /ₚ mul
  let t17 : ℝ ← (1 - t16) ^ₚ 0.7
  let H : ℝ := t13 * t15 * t17
  let t18 : ℝ ← rhol * fd_go /ₚ (rhog * fd_lo)
  let E : ℝ := (1 - x) * (1 - x) + x * x * t18
  let t19 : ℝ ← x /ₚ rhog
  let t20 : ℝ ← (1 - x) /ₚ rhol
  let rho_h : ℝ ← 1 /ₚ (t19 + t20)
  let Q_h : ℝ ← m /ₚ rho_h
  let v_h : ℝ ← Q_h /ₚ A
  let Fr : ℝ ← Core.Froude v_h D g true
  let We : ℝ ← Core.Weber v_h D rho_h sigma
  let t26 : ℝ ← Fr ^ₚ 0.0454
  let t27 : ℝ ← We ^ₚ 0.035
  let t28 : ℝ ← 3.24 * F * H /ₚ (t26 * t27)
  let phi_lo2 : ℝ := E + t28
  let dP : ℝ := phi_lo2 * dP_lo
  let t29 : ℝ ← Core.Bond rhol rhog sigma D
  let Bo : ℝ := t29 / 4
  let Omega : ℝ ← Chen_Friedel_Omega m x rhog mug D A Re_lo We Bo
  return dP * Omega

/-- two_phase.py:1372: the reduced pressure of `Zhang_Webb`, one half when either pressure is missing. -/
def Zhang_Webb_Pr (P Pc : Option ℝ) : Py ℝ :=
  match P, Pc with
  | some P, some Pc => P /ₚ Pc
  | _, _ => .ok 0.5

/-- two_phase.py:1367-1374 `Zhang_Webb`. Defaults: roughness = 0.0, L = 1.0. -/
def Zhang_Webb (m x rhol mul : ℝ) (P Pc : Option ℝ) (D roughness L : ℝ) : Py ℝ := do
  let A : ℝ := 0.25 * π * D * D
  let v_lo : ℝ ← m /ₚ (rhol * A)
  let Re_lo : ℝ ← Core.Reynolds v_lo D (some rhol) (some mul) none
  let t3 : ℝ ← roughness /ₚ D
  let fd_lo : ℝ ← ff Re_lo t3
  let t5 : ℝ ← fd_lo * L /ₚ D
  let dP_lo : ℝ := t5 * (0.5 * rhol * v_lo * v_lo)
  let Pr : ℝ ← Zhang_Webb_Pr P Pc
  let t7 : ℝ ← 2.87 * x * x /ₚ Pr
  let t8 : ℝ ← x ^ₚ 0.8
  let t9 : ℝ ← psqrt (1 - x)
  let t10 : ℝ ← psqrt t9
  let t11 : ℝ ← Pr ^ₚ (-1.64)
  let phi_lo2 : ℝ := (1 - x) * (1 - x) + t7 + 1.68 * t8 * t10 * t11
  return dP_lo * phi_lo2

/-- two_phase.py:1444-1453 `Bankoff`. Defaults: roughness = 0.0, L = 1.0. -/
def Bankoff (m x rhol rhog mul mug D roughness L : ℝ) : Py ℝ := do
  let A : ℝ := 0.25 * π * D * D
  let v_lo : ℝ ← m /ₚ (rhol * A)
  let Re_lo : ℝ ← Core.Reynolds v_lo D (some rhol) (some mul) none
  let t3 : ℝ ← roughness /ₚ D
  let fd_lo : ℝ ← ff Re_lo t3
  let t5 : ℝ ← fd_lo * L /ₚ D
  let dP_lo : ℝ := t5 * (0.5 * rhol * v_lo * v_lo)
  let t6 : ℝ ← 2.35 * rhog /ₚ rhol
  let t7 : ℝ ← (1 - x) /ₚ x
  let t8 : ℝ ← t7 * rhog /ₚ rhol
  let gamma : ℝ ← (0.71 + t6) /ₚ (1 + t8)
  let t10 : ℝ ← 1 /ₚ (1 - x)
  let t11 : ℝ ← rhog /ₚ rhol
  let t12 : ℝ ← (1 - gamma * (1 - t11)) ^ₚ (3 / 7)
  let t13 : ℝ ← rhol /ₚ rhog
  let phi_Bf : ℝ := t10 * t12 * (1 + x * (t13 - 1))
  let t14 : ℝ ← phi_Bf ^ₚ (7 / 4)
  return dP_lo * t14

/-- two_phase.py:1524-1551 `Xu_Fang`. Defaults: roughness = 0.0, L = 1.0. -/
def Xu_Fang (m x rhol rhog mul mug sigma D roughness L : ℝ) : Py ℝ := do
  let A : ℝ := 0.25 * π * D * D
  let v_lo : ℝ ← m /ₚ (rhol * A)
  let Re_lo : ℝ ← Core.Reynolds v_lo D (some rhol) (some mul) none
  let t3 : ℝ ← roughness /ₚ D
  let fd_lo : ℝ ← ff Re_lo t3
  let t5 : ℝ ← fd_lo * L /ₚ D
  let dP_lo : ℝ := t5 * (0.5 * rhol * v_lo * v_lo)
  let v_go : ℝ ← m /ₚ (rhog * A)
  let Re_go : ℝ ← Core.Reynolds v_go D (some rhog) (some mug) none
  let t8 : ℝ ← roughness /ₚ D
  let fd_go : ℝ ← ff Re_go t8
  let t10 : ℝ ← fd_go * L /ₚ D
  let dP_go : ℝ := t10 * (0.5 * rhog * v_go * v_go)
  let voidage_h : ℝ ← Voidage.homogeneous x rhol rhog
  let rho_h : ℝ := rhol * (1 - voidage_h) + rhog * voidage_h
  let Q_h : ℝ ← m /ₚ rho_h
  let v_h : ℝ ← Q_h /ₚ A
  let Fr : ℝ ← Core.Froude v_h D g true
  let We : ℝ ← Core.Weber v_h D rho_h sigma
  let Y2 : ℝ ← dP_go /ₚ dP_lo
  let t17 : ℝ ← x ^ₚ 2.59
  let t18 : ℝ ← (1 - t17) ^ₚ 0.632
  let t19 : ℝ ← x ^ₚ 1.17
  let t20 : ℝ ← x ^ₚ (-0.475)
  let t21 : ℝ ← Fr ^ₚ 0.535
  let t22 : ℝ ← We ^ₚ 0.188
  let phi_lo2 : ℝ := Y2 * x * x * x + t18 * (1 + 2 * t19 * (Y2 - 1) + 0.00775 * t20 * t21 * t22)
  return phi_lo2 * dP_lo

/-- two_phase.py:1619-1632 `Yu_France`. Defaults: roughness = 0.0, L = 1.0. -/
def Yu_France (m x rhol rhog mul mug D roughness L : ℝ) : Py ℝ := do
  let A : ℝ := 0.25 * π * D * D
  let v_l : ℝ ← m * (1 - x) /ₚ (rhol * A)
  let Re_l : ℝ ← Core.Reynolds v_l D (some rhol) (some mul) none
  let t3 : ℝ ← roughness /ₚ D
  let fd_l : ℝ ← ff Re_l t3
  let t5 : ℝ ← fd_l * L /ₚ D
  let dP_l : ℝ := t5 * (0.5 * rhol * v_l * v_l)
  let v_g : ℝ ← m * x /ₚ (rhog * A)
  let Re_g : ℝ ← Core.Reynolds v_g D (some rhog) (some mug) none
  let t8 : ℝ ← rhog /ₚ rhol
  let t9 : ℝ ← psqrt t8
  let t10 : ℝ ← 18.65 * t9 * (1 - x) /ₚ x
  let t11 : ℝ ← Re_g ^ₚ 0.1
  let t12 : ℝ ← psqrt Re_l
  let X : ℝ ← t10 * t11 /ₚ t12
  let phi_l2 : ℝ ← X ^ₚ (-1.9)
  return phi_l2 * dP_l

/-- two_phase.py:1723-1730: the gas multiplier of `Wang_Chiang_Lu`. -/
def Wang_Chiang_Lu_phi (m rhol rhog mul mug D A G_tp X : ℝ) : Py ℝ := do
  if G_tp ≥ 200 then
    let t1 : ℝ ← X ^ₚ 0.62
    let t2 : ℝ ← X ^ₚ 2.45
    return 1 + 9.397 * t1 + 0.564 * t2
  else
    let v_lo : ℝ ← m /ₚ (rhol * A)
    let Re_lo : ℝ ← Core.Reynolds v_lo D (some rhol) (some mul) none
    let t1 : ℝ ← X ^ₚ 0.128
    let t2 : ℝ ← Re_lo ^ₚ 0.938
    let t3 : ℝ ← rhol /ₚ rhog
    let t4 : ℝ ← t3 ^ₚ (-2.15)
    let t5 : ℝ ← mul /ₚ mug
    let t6 : ℝ ← t5 ^ₚ 5.1
    let C : ℝ := 0.000004566 * t1 * t2 * t4 * t6
    return 1 + C * X + X * X

/-- two_phase.py:1706-1731 `Wang_Chiang_Lu`. Defaults: roughness = 0.0, L = 1.0. -/
def Wang_Chiang_Lu (m x rhol rhog mul mug D roughness L : ℝ) : Py ℝ := do
  let A : ℝ := 0.25 * π * D * D
  let G_tp : ℝ ← m /ₚ A
  let v_l : ℝ ← m * (1 - x) /ₚ (rhol * A)
  let Re_l : ℝ ← Core.Reynolds v_l D (some rhol) (some mul) none
  let t4 : ℝ ← roughness /ₚ D
  let fd_l : ℝ ← ff Re_l t4
  let t6 : ℝ ← fd_l * L /ₚ D
  let dP_l : ℝ := t6 * (0.5 * rhol * v_l * v_l)
  let v_g : ℝ ← m * x /ₚ (rhog * A)
  let Re_g : ℝ ← Core.Reynolds v_g D (some rhog) (some mug) none
  let t9 : ℝ ← roughness /ₚ D
  let fd_g : ℝ ← ff Re_g t9
  let t11 : ℝ ← fd_g * L /ₚ D
  let dP_g : ℝ := t11 * (0.5 * rhog * v_g * v_g)
  let t12 : ℝ ← dP_l /ₚ dP_g
  let X : ℝ ← psqrt t12
  let phi_g2 : ℝ ← Wang_Chiang_Lu_phi m rhol rhog mul mug D A G_tp X
  return dP_g * phi_g2

/-- two_phase.py:1805-1827 `Hwang_Kim`. Defaults: roughness = 0.0, L = 1.0. -/
def Hwang_Kim (m x rhol rhog mul mug sigma D roughness L : ℝ) : Py ℝ := do
  let A : ℝ := 0.25 * π * D * D
  let v_lo : ℝ ← m /ₚ (rhol * A)
  let Re_lo : ℝ ← Core.Reynolds v_lo D (some rhol) (some mul) none
  let v_l : ℝ ← m * (1 - x) /ₚ (rhol * A)
  let Re_l : ℝ ← Core.Reynolds v_l D (some rhol) (some mul) none
  let t5 : ℝ ← roughness /ₚ D
  let fd_l : ℝ ← ff Re_l t5
  let t7 : ℝ ← fd_l * L /ₚ D
  let dP_l : ℝ := t7 * (0.5 * rhol * v_l * v_l)
  let v_g : ℝ ← m * x /ₚ (rhog * A)
  let Re_g : ℝ ← Core.Reynolds v_g D (some rhog) (some mug) none
  let t10 : ℝ ← roughness /ₚ D
  let fd_g : ℝ ← ff Re_g t10
  let t12 : ℝ ← fd_g * L /ₚ D
  let dP_g : ℝ := t12 * (0.5 * rhog * v_g * v_g)
  let t13 : ℝ ← dP_l /ₚ dP_g
  let X : ℝ ← psqrt t13
  let Co : ℝ ← Core.Confinement D rhol rhog sigma g
  let t16 : ℝ ← Re_lo ^ₚ 0.452
  let t17 : ℝ ← X ^ₚ (-0.320)
  let t18 : ℝ ← Co ^ₚ (-0.820)
  let C : ℝ := 0.227 * t16 * t17 * t18
  let t19 : ℝ ← C /ₚ X
  let t20 : ℝ ← 1 /ₚ (X * X)
  let phi_l2 : ℝ := 1 + t19 + t20
  return dP_l * phi_l2

/-- two_phase.py:1932-1940: the Chisholm parameter of `Zhang_Hibiki_Mishima`. -/
def Zhang_Hibiki_Mishima_C (Co : ℝ) (flowtype : String) : Py ℝ := do
  if flowtype = "adiabatic vapor" then
    let t1 : ℝ ← -0.142 /ₚ Co
    return 21 * (1 - Real.exp t1)
  else if flowtype = "adiabatic gas" then
    let t1 : ℝ ← -0.674 /ₚ Co
    return 21 * (1 - Real.exp t1)
  else if flowtype = "flow boiling" then
    let t1 : ℝ ← -0.358 /ₚ Co
    return 21 * (1 - Real.exp t1)
  else
    .error .valueError

/-- two_phase.py:1916-1943 `Zhang_Hibiki_Mishima`. Defaults: roughness = 0.0, L = 1.0, flowtype = 'adiabatic vapor'. -/
def Zhang_Hibiki_Mishima (m x rhol rhog mul mug sigma D roughness L : ℝ) (flowtype : String) : Py ℝ := do
  let A : ℝ := 0.25 * π * D * D
  let v_l : ℝ ← m * (1 - x) /ₚ (rhol * A)
  let Re_l : ℝ ← Core.Reynolds v_l D (some rhol) (some mul) none
  let t3 : ℝ ← roughness /ₚ D
  let fd_l : ℝ ← ff Re_l t3
  let t5 : ℝ ← fd_l * L /ₚ D
  let dP_l : ℝ := t5 * (0.5 * rhol * v_l * v_l)
  let v_g : ℝ ← m * x /ₚ (rhog * A)
  let Re_g : ℝ ← Core.Reynolds v_g D (some rhog) (some mug) none
  let t8 : ℝ ← roughness /ₚ D
  let fd_g : ℝ ← ff Re_g t8
  let t10 : ℝ ← fd_g * L /ₚ D
  let dP_g : ℝ := t10 * (0.5 * rhog * v_g * v_g)
  let t11 : ℝ ← dP_l /ₚ dP_g
  let X : ℝ ← psqrt t11
  let Co : ℝ ← Core.Confinement D rhol rhog sigma g
  let C : ℝ ← Zhang_Hibiki_Mishima_C Co flowtype
  let t17 : ℝ ← C /ₚ X
  let t18 : ℝ ← 1 /ₚ (X * X)
  let phi_l2 : ℝ := 1 + t17 + t18
  return dP_l * phi_l2

/-- two_phase.py:2015-2032 `Mishima_Hibiki`. Defaults: roughness = 0.0, L = 1.0. -/
def Mishima_Hibiki (m x rhol rhog mul mug sigma D roughness L : ℝ) : Py ℝ := do
  let A : ℝ := 0.25 * π * D * D
  let v_l : ℝ ← m * (1 - x) /ₚ (rhol * A)
  let Re_l : ℝ ← Core.Reynolds v_l D (some rhol) (some mul) none
  let t3 : ℝ ← roughness /ₚ D
  let fd_l : ℝ ← ff Re_l t3
  let t5 : ℝ ← fd_l * L /ₚ D
  let dP_l : ℝ := t5 * (0.5 * rhol * v_l * v_l)
  let v_g : ℝ ← m * x /ₚ (rhog * A)
  let Re_g : ℝ ← Core.Reynolds v_g D (some rhog) (some mug) none
  let t8 : ℝ ← roughness /ₚ D
  let fd_g : ℝ ← ff Re_g t8
  let t10 : ℝ ← fd_g * L /ₚ D
  let dP_g : ℝ := t10 * (0.5 * rhog * v_g * v_g)
  let t11 : ℝ ← dP_l /ₚ dP_g
  let X : ℝ ← psqrt t11
  let C : ℝ := 21 * (1 - Real.exp (-0.319e3 * D))
  let t13 : ℝ ← C /ₚ X
  let t14 : ℝ ← 1 /ₚ (X * X)
  let phi_l2 : ℝ := 1 + t13 + t14
  return dP_l * phi_l2

/-- two_phase.py:2035-2040 `friction_factor_Kim_Mudawar`. -/
def friction_factor_Kim_Mudawar (Re : ℝ) : Py ℝ := do
  if Re < 2000 then
    64 /ₚ Re
  else if Re < 20000 then
    let t2 : ℝ ← psqrt Re
    let t3 : ℝ ← psqrt t2
    0.316 /ₚ t3
  else
    let t5 : ℝ ← Re ^ₚ (-0.2)
    return 0.184 * t5

/-- two_phase.py:2169-2178: the Chisholm parameter of `Kim_Mudawar`. -/
def Kim_Mudawar_C (Re_l Re_g Re_lo Su rhol rhog : ℝ) : Py ℝ := do
  let Re_c : ℝ := 2000
  if Re_l < Re_c ∧ Re_g < Re_c then
    let t1 : ℝ ← Re_lo ^ₚ 0.44
    let t2 : ℝ ← psqrt Su
    let t3 : ℝ ← rhol /ₚ rhog
    let t4 : ℝ ← t3 ^ₚ 0.48
    return 3.5e-5 * t1 * t2 * t4
  else if Re_l < Re_c ∧ Re_g ≥ Re_c then
    let t1 : ℝ ← Re_lo ^ₚ 0.59
    let t2 : ℝ ← Su ^ₚ 0.19
    let t3 : ℝ ← rhol /ₚ rhog
    let t4 : ℝ ← t3 ^ₚ 0.36
    return 0.0015 * t1 * t2 * t4
  else if Re_l ≥ Re_c ∧ Re_g < Re_c then
    let t1 : ℝ ← Re_lo ^ₚ 0.17
    let t2 : ℝ ← psqrt Su
    let t3 : ℝ ← rhol /ₚ rhog
    let t4 : ℝ ← t3 ^ₚ 0.14
    return 8.7e-4 * t1 * t2 * t4
  else
    let t1 : ℝ ← Re_lo ^ₚ 0.03
    let t2 : ℝ ← Su ^ₚ 0.10
    let t3 : ℝ ← rhol /ₚ rhog
    let t4 : ℝ ← t3 ^ₚ 0.35
    return 0.39 * t1 * t2 * t4

/-- two_phase.py:2150-2181 `Kim_Mudawar`. Defaults: L = 1.0. -/
def Kim_Mudawar (m x rhol rhog mul mug sigma D L : ℝ) : Py ℝ := do
  let A : ℝ := 0.25 * π * D * D
  let v_l : ℝ ← m * (1 - x) /ₚ (rhol * A)
  let Re_l : ℝ ← Core.Reynolds v_l D (some rhol) (some mul) none
  let fd_l : ℝ ← friction_factor_Kim_Mudawar Re_l
  let t4 : ℝ ← fd_l * L /ₚ D
  let dP_l : ℝ := t4 * (0.5 * rhol * v_l * v_l)
  let v_g : ℝ ← m * x /ₚ (rhog * A)
  let Re_g : ℝ ← Core.Reynolds v_g D (some rhog) (some mug) none
  let fd_g : ℝ ← friction_factor_Kim_Mudawar Re_g
  let t8 : ℝ ← fd_g * L /ₚ D
  let dP_g : ℝ := t8 * (0.5 * rhog * v_g * v_g)
  let v_lo : ℝ ← m /ₚ (rhol * A)
  let Re_lo : ℝ ← Core.Reynolds v_lo D (some rhol) (some mul) none
  let Su : ℝ ← Core.Suratman D rhog mug sigma
  let t12 : ℝ ← dP_l /ₚ dP_g
  let X : ℝ ← psqrt t12
  let C : ℝ ← Kim_Mudawar_C Re_l Re_g Re_lo Su rhol rhog
  let t30 : ℝ ← C /ₚ X
  let t31 : ℝ ← 1 /ₚ (X * X)
  let phi_l2 : ℝ := 1 + t30 + t31
  return dP_l * phi_l2

/-- two_phase.py:2293-2302: the constant C of `Lockhart_Martinelli`. -/
def Lockhart_Martinelli_C (Re_l Re_g Re_c : ℝ) : ℝ :=
  if Re_l < Re_c ∧ Re_g < Re_c then 5
  else if Re_l < Re_c ∧ Re_g ≥ Re_c then 12
  else if Re_l ≥ Re_c ∧ Re_g < Re_c then 10
  else 20

/-- two_phase.py:2307, 2311: the friction factor of `Lockhart_Martinelli`. -/
def Lockhart_Martinelli_fd (Re Re_c : ℝ) : Py ℝ := do
  if Re < Re_c then
    64 /ₚ Re
  else
    let t1 : ℝ ← Re ^ₚ (-0.2)
    return 0.184 * t1

/-- two_phase.py:2287-2319 `Lockhart_Martinelli`. Defaults: L = 1.0, Re_c = 2000.0. -/
def Lockhart_Martinelli (m x rhol rhog mul mug D L Re_c : ℝ) : Py ℝ := do
  let A : ℝ := 0.25 * π * D * D
  let v_l : ℝ ← m * (1 - x) /ₚ (rhol * A)
  let Re_l : ℝ ← Core.Reynolds v_l D (some rhol) (some mul) none
  let v_g : ℝ ← m * x /ₚ (rhog * A)
  let Re_g : ℝ ← Core.Reynolds v_g D (some rhog) (some mug) none
  let C : ℝ := Lockhart_Martinelli_C Re_l Re_g Re_c
  let x_only_liquid_tol : ℝ := 1e-30
  let x_only_vapor_tol : ℝ := 1e-13
  let fd_g : ℝ ← Lockhart_Martinelli_fd Re_g Re_c
  let t7 : ℝ ← fd_g * L /ₚ D
  let dP_g : ℝ := t7 * (0.5 * rhog * v_g ^ 2)
  if x > 1 - x_only_vapor_tol then
    return dP_g
  let fd_l : ℝ ← Lockhart_Martinelli_fd Re_l Re_c
  let t10 : ℝ ← fd_l * L /ₚ D
  let dP_l : ℝ := t10 * (0.5 * rhol * v_l * v_l)
  if x < x_only_liquid_tol then
    return dP_l
  let t11 : ℝ ← dP_l /ₚ dP_g
  let X : ℝ ← psqrt t11
  let t13 : ℝ ← C /ₚ X
  let t14 : ℝ ← 1 /ₚ (X * X)
  let phi_l2 : ℝ := 1 + t13 + t14
  return dP_l * phi_l2

end Verif.TwoPhase
