import Verif.Py
import Verif.Model.Core
import Mathlib.Analysis.SpecialFunctions.Pow.Real
import Mathlib.Analysis.SpecialFunctions.Trigonometric.Basic

/-! Model of `fluids/two_phase_voidage.py`. -/

open Real

noncomputable section

namespace Verif.Voidage

/-- standard gravity (constants.py:59) -/
def g0 : ℝ := 9.80665

/-- two_phase_voidage.py:145-199 `Thom`. -/
def Thom (x rhol rhog mul mug : ℝ) : Py ℝ := do
  let t1 : ℝ ← (1 - x) /ₚ x
  let t2 : ℝ ← rhog /ₚ rhol
  let t3 : ℝ ← t2 ^ₚ (0.89 : ℝ)
  let t4 : ℝ ← mul /ₚ mug
  let t5 : ℝ ← t4 ^ₚ (0.18 : ℝ)
  1 /ₚ (1 + t1 * t3 * t5)

/-- two_phase_voidage.py:203-249 `Zivi`. -/
def Zivi (x rhol rhog : ℝ) : Py ℝ := do
  let t1 : ℝ ← (1 - x) /ₚ x
  let t2 : ℝ ← rhog /ₚ rhol
  let t3 : ℝ ← t2 ^ₚ (2 / 3)
  1 /ₚ (1 + t1 * t3)

/-- two_phase_voidage.py:252-308 `Smith`. -/
def Smith (x rhol rhog : ℝ) : Py ℝ := do
  let K : ℝ := 0.4
  let x_ratio : ℝ ← (1 - x) /ₚ x
  let t2 : ℝ ← rhol /ₚ rhog
  let t3 : ℝ ← (t2 + K * x_ratio) /ₚ (1 + K * x_ratio)
  let root : ℝ ← psqrt t3
  let t5 : ℝ ← rhog /ₚ rhol
  let alpha : ℝ ← 1 /ₚ (1 + x_ratio * t5 * (K + (1 - K) * root))
  return alpha

/-- two_phase_voidage.py:311-357 `Fauske`. -/
def Fauske (x rhol rhog : ℝ) : Py ℝ := do
  let t1 : ℝ ← (1 - x) /ₚ x
  let t2 : ℝ ← rhog /ₚ rhol
  let t3 : ℝ ← psqrt t2
  1 /ₚ (1 + t1 * t3)

/-- two_phase_voidage.py:360-410 `Chisholm_voidage`. -/
def Chisholm_voidage (x rhol rhog : ℝ) : Py ℝ := do
  let t1 : ℝ ← rhol /ₚ rhog
  let S : ℝ ← psqrt (1 - x * (1 - t1))
  let t3 : ℝ ← (1 - x) /ₚ x
  let t4 : ℝ ← t3 * rhog /ₚ rhol
  let alpha : ℝ ← 1 /ₚ (1 + t4 * S)
  return alpha

/-- two_phase_voidage.py:413-464 `Turner_Wallis`. -/
def Turner_Wallis (x rhol rhog mul mug : ℝ) : Py ℝ := do
  let t1 : ℝ ← (1 - x) /ₚ x
  let t2 : ℝ ← t1 ^ₚ (0.72 : ℝ)
  let t3 : ℝ ← rhog /ₚ rhol
  let t4 : ℝ ← t3 ^ₚ (0.4 : ℝ)
  let t5 : ℝ ← mul /ₚ mug
  let t6 : ℝ ← t5 ^ₚ (0.08 : ℝ)
  1 /ₚ (1 + t2 * t4 * t6)

/-- two_phase_voidage.py:470-518 `homogeneous`. -/
def homogeneous (x rhol rhog : ℝ) : Py ℝ := do
  if x = 1 then
    return 1
  else if x = 0 then
    return 0
  else
    let t1 : ℝ ← (1 - x) /ₚ x
    let t2 : ℝ ← rhog /ₚ rhol
    1 /ₚ (1 + t1 * t2)

/-- two_phase_voidage.py:521-571 `Chisholm_Armand`. -/
def Chisholm_Armand (x rhol rhog : ℝ) : Py ℝ := do
  let alpha_h : ℝ ← homogeneous x rhol rhog
  let t2 : ℝ ← psqrt (1 - alpha_h)
  alpha_h /ₚ (alpha_h + t2)

/-- two_phase_voidage.py:574-621 `Armand`. -/
def Armand (x rhol rhog : ℝ) : Py ℝ := do
  let t1 : ℝ ← homogeneous x rhol rhog
  return 0.833 * t1

/-- two_phase_voidage.py:624-674 `Nishino_Yamazaki`. -/
def Nishino_Yamazaki (x rhol rhog : ℝ) : Py ℝ := do
  let alpha_h : ℝ ← homogeneous x rhol rhog
  let t2 : ℝ ← (1 - x) * rhog /ₚ (x * rhol)
  let t3 : ℝ ← psqrt t2
  let t4 : ℝ ← psqrt alpha_h
  return 1 - t3 * t4

/-- two_phase_voidage.py:677-733 `Guzhov`. -/
def Guzhov (x rhol rhog m D : ℝ) : Py ℝ := do
  let t1 : ℝ ← (1 - x) /ₚ rhol
  let t2 : ℝ ← x /ₚ rhog
  let rho_tp : ℝ ← 1 /ₚ (t1 + t2)
  let G : ℝ ← m /ₚ (0.25 * π * D * D)
  let V_tp : ℝ ← G /ₚ rho_tp
  let Fr : ℝ ← Core.Froude V_tp D g0 true
  let alpha_h : ℝ ← homogeneous x rhol rhog
  let t8 : ℝ ← psqrt Fr
  return 0.81 * (1 - Real.exp (-2.2 * t8)) * alpha_h

/-- two_phase_voidage.py:793-798, the narrow channel branches of `Kawahara` -/
def Kawahara_narrow (x rhol rhog C1 C2 : ℝ) : Py ℝ := do
  let alpha_h : ℝ ← homogeneous x rhol rhog
  let t3 : ℝ ← psqrt alpha_h
  let t4 : ℝ ← psqrt alpha_h
  C1 * t3 /ₚ (1 - C2 * t4)

/-- two_phase_voidage.py:736-798 `Kawahara`. -/
def Kawahara (x rhol rhog D : ℝ) : Py ℝ :=
  if D > 250e-6 then Armand x rhol rhog
  else if D > 75e-6 then Kawahara_narrow x rhol rhog 0.03 0.97
  else Kawahara_narrow x rhol rhog 0.02 0.98

/-- two_phase_voidage.py:802-868 `Lockhart_Martinelli_Xtt`. Defaults: pow_x = 0.9, pow_rho = 0.5, pow_mu = 0.1. -/
def Lockhart_Martinelli_Xtt (x rhol rhog mul mug : ℝ) (pow_x : ℝ := 0.9) (pow_rho : ℝ := 0.5) (pow_mu : ℝ := 0.1) (n : Option ℝ := none) : Py ℝ := do
  let pow_x : ℝ := match n with | some n => (2 - n) / 2 | none => pow_x
  let pow_mu : ℝ := match n with | some n => n / 2 | none => pow_mu
  let t1 : ℝ ← (1 - x) /ₚ x
  let t2 : ℝ ← t1 ^ₚ pow_x
  let t3 : ℝ ← rhog /ₚ rhol
  let t4 : ℝ ← t3 ^ₚ pow_rho
  let t5 : ℝ ← mul /ₚ mug
  let t6 : ℝ ← t5 ^ₚ pow_mu
  return t2 * t4 * t6

/-- two_phase_voidage.py:871-926 `Baroczy`. -/
def Baroczy (x rhol rhog mul mug : ℝ) : Py ℝ := do
  let Xtt : ℝ ← Lockhart_Martinelli_Xtt x rhol rhog mul mug (pow_x := 0.74) (pow_rho := 0.65) (pow_mu := 0.13)
  1 /ₚ (1 + Xtt)

/-- two_phase_voidage.py:929-1012 `Tandon_Varma_Gupta`. -/
def Tandon_Varma_Gupta (x rhol rhog mul mug m D : ℝ) : Py ℝ := do
  let G : ℝ ← m /ₚ (0.25 * π * D * D)
  let Rel : ℝ ← G * D /ₚ mul
  let Xtt : ℝ ← Lockhart_Martinelli_Xtt x rhol rhog mul mug
  let t4 : ℝ ← 1 /ₚ Xtt
  let t5 : ℝ ← Xtt ^ₚ (-0.476 : ℝ)
  let Fxtt : ℝ := 0.15 * (t4 + 2.85 * t5)
  if Rel < 1125 then
    let t6 : ℝ ← Rel ^ₚ (-0.315 : ℝ)
    let t7 : ℝ ← 1.928 * t6 /ₚ Fxtt
    let t8 : ℝ ← Rel ^ₚ (-0.63 : ℝ)
    let t9 : ℝ ← 0.9293 * t8 /ₚ (Fxtt * Fxtt)
    return 1 - t7 + t9
  else
    let t10 : ℝ ← Rel ^ₚ (-0.088 : ℝ)
    let t11 : ℝ ← 0.38 * t10 /ₚ Fxtt
    let t12 : ℝ ← Rel ^ₚ (-0.176 : ℝ)
    let t13 : ℝ ← 0.0361 * t12 /ₚ (Fxtt * Fxtt)
    return 1 - t11 + t13

/-- two_phase_voidage.py:1015-1077 `Harms`. -/
def Harms (x rhol rhog mul mug m D : ℝ) : Py ℝ := do
  let G : ℝ ← m /ₚ (0.25 * π * D * D)
  let Rel : ℝ ← G * D * (1 - x) /ₚ mul
  let Xtt : ℝ ← Lockhart_Martinelli_Xtt x rhol rhog mul mug
  let t4 : ℝ ← psqrt Rel
  let term : ℝ := 1.74 + 0.104 * t4
  let t5 : ℝ ← Rel ^ₚ (-0.875 : ℝ)
  let t6 : ℝ ← Xtt ^ₚ (-1.655 : ℝ)
  let t7 : ℝ ← psqrt (1.376 + 7.242 * t6)
  let t8 : ℝ ← 10.06 * t5 * term * term * 1 /ₚ t7
  return (1 - t8) ^ 2

/-- two_phase_voidage.py:1080-1144 `Domanski_Didion`. -/
def Domanski_Didion (x rhol rhog mul mug : ℝ) : Py ℝ := do
  let Xtt : ℝ ← Lockhart_Martinelli_Xtt x rhol rhog mul mug
  if Xtt < 10 then
    let t2 : ℝ ← Xtt ^ₚ (0.8 : ℝ)
    (1 + t2) ^ₚ (-0.378 : ℝ)
  else
    let t4 : ℝ ← plog Xtt
    return 0.823 - 0.157 * t4

/-- two_phase_voidage.py:1147-1215 `Graham`. The default `g` is standard gravity. -/
def Graham (x rhol rhog mul mug m D g : ℝ) : Py ℝ := do
  let G : ℝ ← m /ₚ (0.25 * π * D * D)
  let t2 : ℝ ← G * G * x * x * x /ₚ ((1 - x) * rhog * rhog * g * D)
  let Ft : ℝ ← psqrt t2
  if Ft < 0.01032 then
    return 0
  else
    let log_Ft : ℝ ← plog Ft
    return 1 - Real.exp (-1 - 0.3 * log_Ft - 0.0328 * log_Ft * log_Ft)

/-- two_phase_voidage.py:1218-1279 `Yashar`. The default `g` is standard gravity. -/
def Yashar (x rhol rhog mul mug m D g : ℝ) : Py ℝ := do
  let G : ℝ ← m /ₚ (0.25 * π * D * D)
  let t2 : ℝ ← G * G * x * x * x /ₚ ((1 - x) * rhog * rhog * g * D)
  let Ft : ℝ ← psqrt t2
  let Xtt : ℝ ← Lockhart_Martinelli_Xtt x rhol rhog mul mug
  let t5 : ℝ ← 1 /ₚ Ft
  (1 + t5 + Xtt) ^ₚ (-0.321 : ℝ)

/-- two_phase_voidage.py:1282-1336 `Huq_Loth`. -/
def Huq_Loth (x rhol rhog : ℝ) : Py ℝ := do
  let term : ℝ := 1 - x
  let B : ℝ := 2 * x * term
  let t1 : ℝ ← rhol /ₚ rhog
  let D : ℝ ← psqrt (1 + 2 * B * (t1 - 1))
  let t3 : ℝ ← 2 * term * term /ₚ (1 - 2 * x + D)
  return 1 - t3

/-- two_phase_voidage.py:1339-1399 `Kopte_Newell_Chato`. The default `g` is standard gravity. -/
def Kopte_Newell_Chato (x rhol rhog m D g : ℝ) : Py ℝ := do
  let G : ℝ ← m /ₚ (0.25 * π * D * D)
  let t2 : ℝ ← G * G * x * x * x /ₚ ((1 - x) * rhog * rhog * g * D)
  let Ft : ℝ ← psqrt t2
  if Ft < 0.044 then
    homogeneous x rhol rhog
  else
    let log_Ft : ℝ ← plog Ft
    return 1.045 - Real.exp (-1 - 0.342 * log_Ft - 0.0268 * log_Ft * log_Ft + 0.00597 * log_Ft * log_Ft * log_Ft)

/-- two_phase_voidage.py:1404-1465 `Steiner`. The default `g` is standard gravity. -/
def Steiner (x rhol rhog sigma m D g : ℝ) : Py ℝ := do
  let G : ℝ ← m /ₚ (0.25 * π * D * D)
  let C0 : ℝ := 1 + 0.12 * (1 - x)
  let t2 : ℝ ← psqrt rhol
  let t3 : ℝ ← 1.18 * (1 - x) /ₚ t2
  let t4 : ℝ ← psqrt (g * sigma * (rhol - rhog))
  let t5 : ℝ ← psqrt t4
  let vgm : ℝ := t3 * t5
  let t6 : ℝ ← x /ₚ rhog
  let t7 : ℝ ← (1 - x) /ₚ rhol
  let t8 : ℝ ← vgm /ₚ G
  x /ₚ (rhog * (C0 * (t6 + t7) + t8))

/-- two_phase_voidage.py:1468-1530 `Rouhani_1`. The default `g` is standard gravity. -/
def Rouhani_1 (x rhol rhog sigma m D g : ℝ) : Py ℝ := do
  let G : ℝ ← m /ₚ (0.25 * π * D * D)
  let C0 : ℝ := 1 + 0.2 * (1 - x)
  let t2 : ℝ ← psqrt rhol
  let t3 : ℝ ← 1.18 * (1 - x) /ₚ t2
  let t4 : ℝ ← psqrt (g * sigma * (rhol - rhog))
  let t5 : ℝ ← psqrt t4
  let vgm : ℝ := t3 * t5
  let t6 : ℝ ← x /ₚ rhog
  let t7 : ℝ ← (1 - x) /ₚ rhol
  let t8 : ℝ ← vgm /ₚ G
  x /ₚ (rhog * (C0 * (t6 + t7) + t8))

/-- two_phase_voidage.py:1533-1595 `Rouhani_2`. The default `g` is standard gravity. -/
def Rouhani_2 (x rhol rhog sigma m D g : ℝ) : Py ℝ := do
  let G : ℝ ← m /ₚ (0.25 * π * D * D)
  let t2 : ℝ ← psqrt (g * D)
  let t3 : ℝ ← psqrt t2
  let t4 : ℝ ← rhol /ₚ G
  let t5 : ℝ ← psqrt t4
  let C0 : ℝ := 1 + 0.2 * (1 - x) * t3 * t5
  let t6 : ℝ ← psqrt rhol
  let t7 : ℝ ← 1.18 * (1 - x) /ₚ t6
  let t8 : ℝ ← psqrt (g * sigma * (rhol - rhog))
  let t9 : ℝ ← psqrt t8
  let vgm : ℝ := t7 * t9
  let t10 : ℝ ← x /ₚ rhog
  let t11 : ℝ ← (1 - x) /ₚ rhol
  let t12 : ℝ ← vgm /ₚ G
  x /ₚ (rhog * (C0 * (t10 + t11) + t12))

/-- two_phase_voidage.py:1598-1655 `Nicklin_Wilkes_Davidson`. The default `g` is standard gravity. -/
def Nicklin_Wilkes_Davidson (x rhol rhog m D g : ℝ) : Py ℝ := do
  let G : ℝ ← m /ₚ (0.25 * π * D * D)
  let C0 : ℝ := 1.2
  let t2 : ℝ ← psqrt (g * D)
  let vgm : ℝ := 0.35 * t2
  let t3 : ℝ ← x /ₚ rhog
  let t4 : ℝ ← (1 - x) /ₚ rhol
  let t5 : ℝ ← vgm /ₚ G
  x /ₚ (rhog * (C0 * (t3 + t4) + t5))

/-- two_phase_voidage.py:1658-1709 `Gregory_Scott`. -/
def Gregory_Scott (x rhol rhog : ℝ) : Py ℝ := do
  let C0 : ℝ := 1.19
  let t1 : ℝ ← x /ₚ rhog
  let t2 : ℝ ← (1 - x) /ₚ rhol
  x /ₚ (rhog * (C0 * (t1 + t2)))

/-- two_phase_voidage.py:1712-1783 `Dix`. The default `g` is standard gravity. -/
def Dix (x rhol rhog sigma m D g : ℝ) : Py ℝ := do
  let A : ℝ := 0.25 * π * D * D
  let vgs : ℝ ← m * x /ₚ (rhog * A)
  let vls : ℝ ← m * (1 - x) /ₚ (rhol * A)
  let G : ℝ ← m /ₚ A
  let t4 : ℝ ← vgs /ₚ (vls + vgs)
  let t5 : ℝ ← vls /ₚ vgs
  let t6 : ℝ ← rhog /ₚ rhol
  let t7 : ℝ ← t6 ^ₚ (0.1 : ℝ)
  let t8 : ℝ ← t5 ^ₚ t7
  let C0 : ℝ := t4 * (1 + t8)
  let t9 : ℝ ← g * sigma * (rhol - rhog) /ₚ (rhol * rhol)
  let t10 : ℝ ← psqrt t9
  let t11 : ℝ ← psqrt t10
  let vgm : ℝ := 2.9 * t11
  let t12 : ℝ ← x /ₚ rhog
  let t13 : ℝ ← (1 - x) /ₚ rhol
  let t14 : ℝ ← vgm /ₚ G
  x /ₚ (rhog * (C0 * (t12 + t13) + t14))

/-- two_phase_voidage.py:1843-1846, the reduced pressure of `Sun_Duffey_Peng`; `none` is Python's `None` -/
def reducedPressure (P : ℝ) (Pc : Option ℝ) : Py ℝ :=
  match Pc with
  | some Pc => P /ₚ Pc
  | none => .ok 0.5

/-- two_phase_voidage.py:1786-1852 `Sun_Duffey_Peng`; `Pc = none` is Python's `None`. The default `g` is standard gravity. -/
def Sun_Duffey_Peng (x rhol rhog sigma m D P : ℝ) (Pc : Option ℝ) (g : ℝ) : Py ℝ := do
  let G : ℝ ← m /ₚ (0.25 * π * D * D)
  let Pr : ℝ ← reducedPressure P Pc
  let C0 : ℝ ← 1 /ₚ (0.82 + 0.18 * Pr)
  let t4 : ℝ ← g * sigma * (rhol - rhog) /ₚ (rhol * rhol)
  let t5 : ℝ ← psqrt t4
  let t6 : ℝ ← psqrt t5
  let vgm : ℝ := 1.41 * t6
  let t7 : ℝ ← x /ₚ rhog
  let t8 : ℝ ← (1 - x) /ₚ rhol
  let t9 : ℝ ← vgm /ₚ G
  x /ₚ (rhog * (C0 * (t7 + t8) + t9))

/-- two_phase_voidage.py:1858-1907 `Xu_Fang_voidage`. The default `g` is standard gravity. -/
def Xu_Fang_voidage (x rhol rhog m D g : ℝ) : Py ℝ := do
  let G : ℝ ← m /ₚ (0.25 * π * D * D)
  let alpha_h : ℝ ← homogeneous x rhol rhog
  let Frlo : ℝ ← G * G /ₚ (g * D * rhol * rhol)
  let t4 : ℝ ← Frlo ^ₚ (-0.2 : ℝ)
  let t5 : ℝ ← alpha_h ^ₚ (3.5 : ℝ)
  let t6 : ℝ ← (1 - x) /ₚ x
  let t7 : ℝ ← rhog /ₚ rhol
  1 /ₚ (1 + (1 + 2 * t4 * t5) * t6 * t7)

/-- two_phase_voidage.py:1910-1978 `Woldesemayat_Ghajar`. The defaults are angle 0 and standard gravity; `radians` is exact. -/
def Woldesemayat_Ghajar (x rhol rhog sigma m D : ℝ) (P : Option ℝ) (angle g : ℝ) : Py ℝ := do
  let A : ℝ := 0.25 * π * D * D
  let vgs : ℝ ← m * x /ₚ (rhog * A)
  let vls : ℝ ← m * (1 - x) /ₚ (rhol * A)
  let t3 : ℝ ← vls /ₚ vgs
  let t4 : ℝ ← rhog /ₚ rhol
  let t5 : ℝ ← t4 ^ₚ (0.1 : ℝ)
  let t6 : ℝ ← t3 ^ₚ t5
  let first : ℝ := vgs * (1 + t6)
  let t7 : ℝ := angle * (π / 180)
  let t8 : ℝ ← g * D * sigma * (1 + Real.cos t7) * (rhol - rhog) /ₚ (rhol * rhol)
  let t9 : ℝ ← psqrt t8
  let t10 : ℝ ← psqrt t9
  let second : ℝ := 2.9 * t10
  let P : ℝ := P.getD 101325
  let t11 : ℝ := angle * (π / 180)
  let t12 : ℝ ← 101325 /ₚ P
  let third : ℝ ← (1.22 + 1.22 * Real.sin t11) ^ₚ t12
  vgs /ₚ (first + second * third)

/-- two_phase_voidage.py:2289-2330 `density_two_phase`. -/
def density_two_phase (alpha rhol rhog : ℝ) : ℝ :=
  alpha * rhog + (1 - alpha) * rhol

/-- two_phase_voidage.py:2333-2373 `two_phase_voidage_experimental`. -/
def two_phase_voidage_experimental (rho_lg rhol rhog : ℝ) : Py ℝ := do
  (rho_lg - rhol) /ₚ (rhog - rhol)

/-- two_phase_voidage.py:2379-2436 `Beattie_Whalley`. -/
def Beattie_Whalley (x mul mug rhol rhog : ℝ) : Py ℝ := do
  let alpha : ℝ ← homogeneous x rhol rhog
  return mul * (1 - alpha) * (1 + 2.5 * alpha) + mug * alpha

/-- two_phase_voidage.py:2439-2488 `McAdams`. -/
def McAdams (x mul mug : ℝ) : Py ℝ := do
  let t1 : ℝ ← x /ₚ mug
  let t2 : ℝ ← (1 - x) /ₚ mul
  1 /ₚ (t1 + t2)

/-- two_phase_voidage.py:2491-2539 `Cicchitti`. -/
def Cicchitti (x mul mug : ℝ) : ℝ :=
  x * mug + (1 - x) * mul

/-- two_phase_voidage.py:2542-2585 `Lin_Kwok`. -/
def Lin_Kwok (x mul mug : ℝ) : Py ℝ := do
  let t1 : ℝ ← x ^ₚ (1.4 : ℝ)
  mul * mug /ₚ (mug + t1 * (mul - mug))

/-- two_phase_voidage.py:2588-2648 `Fourar_Bories`. -/
def Fourar_Bories (x mul mug rhol rhog : ℝ) : Py ℝ := do
  let t1 : ℝ ← x /ₚ rhog
  let t2 : ℝ ← (1 - x) /ₚ rhol
  let rhom : ℝ ← 1 /ₚ (t1 + t2)
  let nul : ℝ ← mul /ₚ rhol
  let nug : ℝ ← mug /ₚ rhog
  let t6 : ℝ ← psqrt (x * nug)
  let t7 : ℝ ← psqrt ((1 - x) * nul)
  let term : ℝ := t6 + t7
  return rhom * term * term

/-- two_phase_voidage.py:2651-2715 `Duckler`. -/
def Duckler (x mul mug rhol rhog : ℝ) : Py ℝ := do
  let t1 : ℝ ← x * mug /ₚ rhog
  let t2 : ℝ ← (1 - x) * mul /ₚ rhol
  let t3 : ℝ ← x /ₚ rhog
  let t4 : ℝ ← (1 - x) /ₚ rhol
  (t1 + t2) /ₚ (t3 + t4)

/-- two_phase_voidage.py:1982-2010 `two_phase_voidage_correlations`: names and required arguments, in the table's order -/
def correlations : List (String × List String) := [
  ("Thom", ["x", "rhol", "rhog", "mul", "mug"]),
  ("Zivi", ["x", "rhol", "rhog"]),
  ("Smith", ["x", "rhol", "rhog"]),
  ("Fauske", ["x", "rhol", "rhog"]),
  ("Chisholm_voidage", ["x", "rhol", "rhog"]),
  ("Turner Wallis", ["x", "rhol", "rhog", "mul", "mug"]),
  ("homogeneous", ["x", "rhol", "rhog"]),
  ("Chisholm Armand", ["x", "rhol", "rhog"]),
  ("Armand", ["x", "rhol", "rhog"]),
  ("Nishino Yamazaki", ["x", "rhol", "rhog"]),
  ("Guzhov", ["x", "rhol", "rhog", "m", "D"]),
  ("Kawahara", ["x", "rhol", "rhog", "D"]),
  ("Baroczy", ["x", "rhol", "rhog", "mul", "mug"]),
  ("Tandon Varma Gupta", ["x", "rhol", "rhog", "mul", "mug", "m", "D"]),
  ("Harms", ["x", "rhol", "rhog", "mul", "mug", "m", "D"]),
  ("Domanski Didion", ["x", "rhol", "rhog", "mul", "mug"]),
  ("Graham", ["x", "rhol", "rhog", "mul", "mug", "m", "D", "g"]),
  ("Yashar", ["x", "rhol", "rhog", "mul", "mug", "m", "D", "g"]),
  ("Huq_Loth", ["x", "rhol", "rhog"]),
  ("Kopte_Newell_Chato", ["x", "rhol", "rhog", "m", "D", "g"]),
  ("Steiner", ["x", "rhol", "rhog", "sigma", "m", "D", "g"]),
  ("Rouhani 1", ["x", "rhol", "rhog", "sigma", "m", "D", "g"]),
  ("Rouhani 2", ["x", "rhol", "rhog", "sigma", "m", "D", "g"]),
  ("Nicklin Wilkes Davidson", ["x", "rhol", "rhog", "m", "D", "g"]),
  ("Gregory_Scott", ["x", "rhol", "rhog"]),
  ("Dix", ["x", "rhol", "rhog", "sigma", "m", "D", "g"]),
  ("Sun Duffey Peng", ["x", "rhol", "rhog", "sigma", "m", "D", "P", "Pc", "g"]),
  ("Xu Fang voidage", ["x", "rhol", "rhog", "m", "D", "g"]),
  ("Woldesemayat Ghajar", ["x", "rhol", "rhog", "sigma", "m", "D", "P", "angle", "g"])]

/-- two_phase_voidage.py:2118: the optional arguments of `liquid_gas_voidage` -/
structure Args where
  x : ℝ
  rhol : ℝ
  rhog : ℝ
  D : Option ℝ := none
  m : Option ℝ := none
  mul : Option ℝ := none
  mug : Option ℝ := none
  sigma : Option ℝ := none
  P : Option ℝ := none
  Pc : Option ℝ := none
  angle : ℝ := 0
  g : ℝ := 9.80665

/-- two_phase_voidage.py:2065-2067, `vals[i] is not None` -/
def Args.given (a : Args) (name : String) : Bool :=
  if name = "D" then a.D.isSome else if name = "m" then a.m.isSome else if name = "mul" then a.mul.isSome else if name = "mug" then a.mug.isSome
  else if name = "sigma" then a.sigma.isSome else if name = "P" then a.P.isSome else if name = "Pc" then a.Pc.isSome else true

/-- two_phase_voidage.py:2065-2073 `liquid_gas_voidage_methods` (`check_ranges` is never read) -/
def liquid_gas_voidage_methods (a : Args) : List String :=
  (correlations.filter fun e => e.2.all a.given).map (·.1)

/-- two_phase_voidage.py:2109 -/
def needing_D : List String := ["Dix", "Graham", "Guzhov", "Harms", "Kawahara", "Kopte_Newell_Chato", "Nicklin Wilkes Davidson", "Rouhani 1", "Rouhani 2", "Steiner", "Sun Duffey Peng", "Tandon Varma Gupta", "Woldesemayat Ghajar", "Xu Fang voidage", "Yashar"]
/-- two_phase_voidage.py:2110 -/
def needing_m : List String := ["Dix", "Graham", "Guzhov", "Harms", "Kopte_Newell_Chato", "Nicklin Wilkes Davidson", "Rouhani 1", "Rouhani 2", "Steiner", "Sun Duffey Peng", "Tandon Varma Gupta", "Woldesemayat Ghajar", "Xu Fang voidage", "Yashar"]
/-- two_phase_voidage.py:2111 -/
def needing_mul : List String := ["Baroczy", "Domanski Didion", "Graham", "Harms", "Tandon Varma Gupta", "Thom", "Turner Wallis", "Yashar"]
/-- two_phase_voidage.py:2112 -/
def needing_mug : List String := ["Baroczy", "Domanski Didion", "Graham", "Harms", "Tandon Varma Gupta", "Thom", "Turner Wallis", "Yashar"]
/-- two_phase_voidage.py:2113 -/
def needing_sigma : List String := ["Dix", "Rouhani 1", "Rouhani 2", "Steiner", "Sun Duffey Peng", "Woldesemayat Ghajar"]
/-- two_phase_voidage.py:2114 -/
def needing_P : List String := ["Sun Duffey Peng", "Woldesemayat Ghajar"]
/-- two_phase_voidage.py:2115 -/
def needing_Pc : List String := ["Sun Duffey Peng"]

/-- two_phase_voidage.py:2198-2225: the check of one argument: its value if the method needs it (TypeError if it is missing), 0.0 otherwise -/
def narrow (method : String) (needing : List String) (v : Option ℝ) : Py ℝ :=
  if method ∈ needing then
    match v with
    | some v => .ok v
    | none => .error .typeError
  else .ok 0

/-- two_phase_voidage.py:2227-2286, the dispatch once the arguments are checked -/
def dispatch (x rhol rhog D m mul mug sigma P Pc angle g : ℝ) (method : String) : Py ℝ :=
  if method = "Thom" then Thom x rhol rhog mul mug
  else if method = "Zivi" then Zivi x rhol rhog
  else if method = "Smith" then Smith x rhol rhog
  else if method = "Fauske" then Fauske x rhol rhog
  else if method = "Chisholm_voidage" then Chisholm_voidage x rhol rhog
  else if method = "Turner Wallis" then Turner_Wallis x rhol rhog mul mug
  else if method = "homogeneous" then homogeneous x rhol rhog
  else if method = "Chisholm Armand" then Chisholm_Armand x rhol rhog
  else if method = "Armand" then Armand x rhol rhog
  else if method = "Nishino Yamazaki" then Nishino_Yamazaki x rhol rhog
  else if method = "Guzhov" then Guzhov x rhol rhog m D
  else if method = "Kawahara" then Kawahara x rhol rhog D
  else if method = "Baroczy" then Baroczy x rhol rhog mul mug
  else if method = "Tandon Varma Gupta" then Tandon_Varma_Gupta x rhol rhog mul mug m D
  else if method = "Harms" then Harms x rhol rhog mul mug m D
  else if method = "Domanski Didion" then Domanski_Didion x rhol rhog mul mug
  else if method = "Graham" then Graham x rhol rhog mul mug m D g
  else if method = "Yashar" then Yashar x rhol rhog mul mug m D g
  else if method = "Huq_Loth" then Huq_Loth x rhol rhog
  else if method = "Kopte_Newell_Chato" then Kopte_Newell_Chato x rhol rhog m D g
  else if method = "Steiner" then Steiner x rhol rhog sigma m D g
  else if method = "Rouhani 1" then Rouhani_1 x rhol rhog sigma m D g
  else if method = "Rouhani 2" then Rouhani_2 x rhol rhog sigma m D g
  else if method = "Nicklin Wilkes Davidson" then Nicklin_Wilkes_Davidson x rhol rhog m D g
  else if method = "Gregory_Scott" then Gregory_Scott x rhol rhog
  else if method = "Dix" then Dix x rhol rhog sigma m D g
  else if method = "Sun Duffey Peng" then Sun_Duffey_Peng x rhol rhog sigma m D P (some Pc) g
  else if method = "Xu Fang voidage" then Xu_Fang_voidage x rhol rhog m D g
  else if method = "Woldesemayat Ghajar" then Woldesemayat_Ghajar x rhol rhog sigma m D (some P) angle g
  else .error .valueError

/-- two_phase_voidage.py:2183-2286 `liquid_gas_voidage` -/
def liquid_gas_voidage (a : Args) (Method : Option String := none) : Py ℝ := do
  let method : String := Method.getD "homogeneous"
  let D : ℝ ← narrow method needing_D a.D
  let m : ℝ ← narrow method needing_m a.m
  let mul : ℝ ← narrow method needing_mul a.mul
  let mug : ℝ ← narrow method needing_mug a.mug
  let sigma : ℝ ← narrow method needing_sigma a.sigma
  let P : ℝ ← narrow method needing_P a.P
  let Pc : ℝ ← narrow method needing_Pc a.Pc
  dispatch a.x a.rhol a.rhog D m mul mug sigma P Pc a.angle a.g method

/-- two_phase_voidage.py:2754-2757 `gas_liquid_viscosity_methods` -/
def gas_liquid_viscosity_methods (rhol rhog : Option ℝ) : List String :=
  if rhol.isSome ∧ rhog.isSome then ["Beattie Whalley", "Fourar Bories", "Duckler", "McAdams", "Cicchitti", "Lin Kwok"]
  else ["McAdams", "Cicchitti", "Lin Kwok"]

/-- two_phase_voidage.py:2784-2785 -/
def viscosity_needing : List String := ["Beattie Whalley", "Duckler", "Fourar Bories"]

/-- two_phase_voidage.py:2856-2869 -/
def viscosityDispatch (x mul mug rhol rhog : ℝ) (method : String) : Py ℝ :=
  if method = "Beattie Whalley" then Beattie_Whalley x mul mug rhol rhog
  else if method = "Fourar Bories" then Fourar_Bories x mul mug rhol rhog
  else if method = "Duckler" then Duckler x mul mug rhol rhog
  else if method = "McAdams" then McAdams x mul mug
  else if method = "Cicchitti" then .ok (Cicchitti x mul mug)
  else if method = "Lin Kwok" then Lin_Kwok x mul mug
  else .error .valueError

/-- two_phase_voidage.py:2839-2869 `gas_liquid_viscosity` -/
def gas_liquid_viscosity (x mul mug : ℝ) (rhol rhog : Option ℝ := none) (Method : Option String := none) : Py ℝ := do
  let method : String := Method.getD "McAdams"
  let rhol2 : ℝ ← narrow method viscosity_needing rhol
  let rhog2 : ℝ ← narrow method viscosity_needing rhog
  viscosityDispatch x mul mug rhol2 rhog2 method

end Verif.Voidage
