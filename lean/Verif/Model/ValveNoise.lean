import Verif.Py
import Verif.Model.NoiseTables
import Verif.Model.Fittings
import Verif.Model.Constants

/-!
# Model of the noise predictions of `fluids/control_valve.py`

Python floats are modelled by real numbers.  The decimal constants 4.3429448190325175, 8.685889638065035 and
0.23025850929940458 are the rounded numbers 10/ln 10, 20/ln 10 and ln(10)/10 and are modelled by the exact ones.
-/

open Real

noncomputable section

namespace Verif.Noise
open Verif

/-- control_valve.py:1289-1314: one band of the tables read at the same index -/
structure Band where
  f : ℝ
  inv : ℝ
  f15 : ℝ
  fn15 : ℝ
  f3 : ℝ
  A : ℝ

/-- control_valve.py:1097-1127: the 33 bands (`fis_length`) -/
def bands : List Band :=
  (freqs.zip (freqsInv.zip (freqs15.zip (freqsN15.zip (freqs3.zip aWeights))))).map fun p =>
    ⟨(dec p.1 : ℝ), (dec p.2.1 : ℝ), (dec p.2.2.1 : ℝ), (dec p.2.2.2.1 : ℝ), (dec p.2.2.2.2.1 : ℝ), (dec p.2.2.2.2.2 : ℝ)⟩

/-! ### Liquids -/

/-- control_valve.py:1224-1238: the state of the jet -/
structure LiqJet where
  C : ℝ
  xF : ℝ
  dPc : ℝ
  xFzp1 : ℝ
  Dj : ℝ
  Uvc : ℝ
  Wm : ℝ
  eta_turb : ℝ

/-- control_valve.py:1228-1229: the pressure ratio of incipient cavitation, estimated when it is not given -/
def incipient (C FL Fd : ℝ) (xFz : Option ℝ) : Py ℝ := match xFz with
  | some x => return x
  | none => do
    let q ← C /ₚ (1.17 * FL)
    let r ← psqrt q
    let s ← psqrt (1 + 3 * Fd * r)
    let t ← (0.9 * 1) /ₚ s
    return t

/-- control_valve.py:1224-1238 -/
def liqJet (m P1 P2 Psat rho c Kv FL Fd : ℝ) (xFz : Option ℝ) (An : ℝ) : Py LiqJet := do
  let C := Fittings.Kv_to_Cv Kv
  let xF ← (P1 - P2) /ₚ (P1 - Psat)
  let dPc := min (P1 - P2) (FL * FL * (P1 - Psat))
  let z ← incipient C FL Fd xFz
  let q ← 6e5 /ₚ P1
  let q1 ← psqrt q
  let q2 ← psqrt q1
  let q3 ← psqrt q2
  let xFzp1 := z * q3
  let sD ← psqrt (C * FL)
  let Dj := 0.0046 * Fd * sD
  let dr ← (2 * dPc) /ₚ rho
  let su ← psqrt dr
  let Uvc ← su /ₚ FL
  let Wm := 0.5 * m * Uvc * Uvc * FL * FL
  let eta_turb ← ((10 : ℝ) ^ An * Uvc) /ₚ c
  return ⟨C, xF, dPc, xFzp1, Dj, Uvc, Wm, eta_turb⟩

/-- control_valve.py:1240-1247: the acoustic efficiency of cavitation -/
def etaCav (P1 P2 : ℝ) (j : LiqJet) : Py ℝ := do
  let x0 := j.xF - j.xFzp1
  let x1 ← j.xF /ₚ j.xFzp1
  let x2 := x1 * x1
  let x1 := x2 * x2 * x1
  let a ← (P1 - P2) /ₚ (j.dPc * j.xFzp1)
  let a ← psqrt a
  let b ← (1 - j.xFzp1) /ₚ (1 - j.xF)
  let b ← psqrt b
  let r ← psqrt x0
  return 0.32 * j.eta_turb * a * exp (5 * j.xFzp1) * b * x1 * x0 * r

/-- control_valve.py:1253-1254: the peak frequency of the turbulent noise -/
def peakTurb (P1 Psat d FL Fd : ℝ) (j : LiqJet) : Py ℝ := do
  let f75 ← Fd ^ₚ (0.75 : ℝ)
  let sz ← psqrt j.xFzp1
  let a ← (0.036 * FL * FL * j.C * f75) /ₚ (1.17 * j.xFzp1 * sz * d * d)
  let b ← 1 /ₚ (P1 - Psat)
  let b57 ← b ^ₚ (0.57 : ℝ)
  let Stp := a * b57
  let f ← (Stp * j.Uvc) /ₚ j.Dj
  return f

/-- control_valve.py:1257-1266: the quantities of the cavitation spectrum -/
structure Cav where
  eta : ℝ
  inv15_14 : ℝ
  f15 : ℝ
  t1 : ℝ
  t2 : ℝ

/-- control_valve.py:1256-1266 -/
def cavSpectrum (j : LiqJet) (eta_cav f_p_turb : ℝ) : Py Cav := do
  let x3 ← (1 - j.xF) /ₚ (1 - j.xFzp1)
  let x4 ← j.xFzp1 /ₚ j.xF
  let s4 ← psqrt x4
  let f_p_cav := 6 * f_p_turb * x3 * x3 * x4 * x4 * s4
  let inv ← 1 /ₚ f_p_cav
  let si ← psqrt inv
  let inv15 := inv * si
  let f15 ← 1 /ₚ inv15
  let den ← 1 /ₚ (j.eta_turb + eta_cav)
  return ⟨eta_cav, 0.25 * inv15, f15, j.eta_turb * den, eta_cav * den⟩

/-- control_valve.py:1294-1307: the internal level in a band -/
def bandInternal (Lpi f_p_turb inv3 : ℝ) (cav : Option Cav) (b : Band) : Py ℝ := do
  let l ← plog (0.25 * inv3 * b.f3 + b.inv * f_p_turb)
  let F_turb := -0.8 - l * (1 / log 10)
  match cav with
  | none => return Lpi + F_turb * 10
  | some k => do
    let F ← 0.12589254117941673 /ₚ (k.inv15_14 * b.f15 + b.fn15 * k.f15)
    let l2 ← plog (k.t1 * exp (log 10 * F_turb) + k.t2 * F)
    return Lpi + 10 / log 10 * l2

/-- control_valve.py:1289-1314: one pass of the loop over the bands -/
def bandStep (Lpi f_p_turb inv3 : ℝ) (cav : Option Cav) (TL_fr fr fr_inv15 t3 : ℝ) (s : ℝ) (b : Band) : Py ℝ := do
  let L ← bandInternal Lpi f_p_turb inv3 cav b
  let l ← plog (fr * b.inv + b.f15 * fr_inv15)
  let TL := TL_fr - 20 / log 10 * l
  return s + exp (log 10 / 10 * (L + TL + t3 + b.A))

/-- control_valve.py:1236, 1245-1250, 1256: efficiency and spectrum of cavitation, present when the valve cavitates -/
def liqCav (P1 P2 : ℝ) (j : LiqJet) : Py (Option ℝ) := do
  let _ ← j.xF /ₚ j.xFzp1
  if j.xF > j.xFzp1 then
    let e ← etaCav P1 P2 j
    return some e
  else return none

/-- control_valve.py:1245-1252: the internal sound pressure level; 3.2e9 Wa rho c / Di² -/
def liqLpi (rho c Di : ℝ) (j : LiqJet) (cav : Option ℝ) : Py ℝ := do
  let Wa := match cav with
    | some e => (j.eta_turb + e) * j.Wm
    | none => j.eta_turb * j.Wm
  let q ← (3.2e9 * Wa * rho * c) /ₚ (Di * Di)
  let l ← plog10 q
  return 10 * l

/-- control_valve.py:1256-1266 -/
def liqCavSpectrum (j : LiqJet) (f_p_turb : ℝ) (cav : Option ℝ) : Py (Option Cav) := match cav with
  | none => return none
  | some e => do
    let k ← cavSpectrum j e f_p_turb
    return some k

/-- control_valve.py:1269-1285: ring frequency, its reciprocal to the power 3/2, transmission loss at it, distance term -/
def liqPipe (Di t_pipe rho_pipe c_pipe rho_air c_air : ℝ) : Py (ℝ × ℝ × ℝ × ℝ) := do
  let fr ← c_pipe /ₚ (π * Di)
  let fr_inv ← 1 /ₚ fr
  let a ← (c_pipe * rho_pipe * t_pipe) /ₚ (c_air * rho_air * Di)
  let l ← plog10 a
  let TL_fr := -10 - 10 * l
  let g ← (Di + 2 * t_pipe + 2) /ₚ (Di + 2 * t_pipe)
  let lg ← plog10 g
  let t3 := -10 * lg
  let s ← psqrt fr_inv
  return (fr, fr_inv * s, TL_fr, t3)

/-- control_valve.py:1130-1316 `control_valve_noise_l_2015` (simplification: the reciprocal of the turbulent peak
frequency, line 1282, is computed before the pipe terms instead of after them) -/
def control_valve_noise_l_2015 (m P1 P2 Psat rho c Kv d Di FL Fd t_pipe rho_pipe c_pipe rho_air c_air : ℝ)
    (xFz : Option ℝ) (An : ℝ) : Py ℝ := do
  let j ← liqJet m P1 P2 Psat rho c Kv FL Fd xFz An
  let cav ← liqCav P1 P2 j
  let Lpi ← liqLpi rho c Di j cav
  let f_p_turb ← peakTurb P1 Psat d FL Fd j
  let sp ← liqCavSpectrum j f_p_turb cav
  let inv ← 1 /ₚ f_p_turb
  let pipe ← liqPipe Di t_pipe rho_pipe c_pipe rho_air c_air
  let s ← bands.foldlM (bandStep Lpi f_p_turb (inv * inv * inv) sp pipe.2.2.1 pipe.1 pipe.2.1 pipe.2.2.2) 0
  let l ← plog s
  return 10 / log 10 * l

/-! ### Gases -/

/-- control_valve.py:1425-1431: the recovery factor, combined with the piping factor when fittings are attached -/
def flTerm (FL FLP FP : Option ℝ) : Py ℝ := match FP, FLP with
  | some fp, some flp => flp /ₚ fp
  | _, _ => match FL with
    | some fl => return fl
    | none => throw .valueError

/-- control_valve.py:1435-1439: the boundaries of the regimes -/
structure Limits where
  x_vcc : ℝ
  xc : ℝ
  alpha : ℝ
  xB : ℝ
  xCE : ℝ

/-- control_valve.py:1435-1439 -/
def limits (k FL_term : ℝ) : Py Limits := do
  let a ← 2 /ₚ (k + 1)
  let p ← k /ₚ (k - 1)
  let ap ← a ^ₚ p
  let x_vcc := 1 - ap
  let xc := FL_term ^ 2 * x_vcc
  let alpha ← (1 - x_vcc) /ₚ (1 - xc)
  let ia ← 1 /ₚ alpha
  let ik ← 1 /ₚ k
  let ikp ← ik ^ₚ p
  let xB := 1 - ia * ikp
  let b ← 1 /ₚ (22 * alpha)
  return ⟨x_vcc, xc, alpha, xB, 1 - b⟩

/-- control_valve.py:1445-1454 -/
def regime (x : ℝ) (l : Limits) : ℕ :=
  if x ≤ l.xc then 1
  else if l.xc < x ∧ x ≤ l.x_vcc then 2
  else if l.x_vcc < x ∧ x ≤ l.xB then 3
  else if l.xB < x ∧ x ≤ l.xCE then 4
  else 5

/-- control_valve.py:1460-1498: power of the stream, peak frequency and acoustic efficiency -/
structure GasJet where
  Wm : ℝ
  fp : ℝ
  eta : ℝ

/-- control_valve.py:1459 -/
def mach5 (k : ℝ) : Py ℝ := do
  let a ← 2 /ₚ (k - 1)
  let e ← (k - 1) /ₚ k
  let r ← psqrt (a * ((22 : ℝ) ^ e - 1))
  return r

/-- control_valve.py:1461: the Mach number at the vena contracta -/
def machVc (k x FL_term : ℝ) : Py ℝ := do
  let a ← 2 /ₚ (k - 1)
  let q ← x /ₚ FL_term ^ 2
  let e ← (1 - k) /ₚ k
  let p ← (1 - q) ^ₚ e
  let r ← psqrt (a * (p - 1))
  return r

/-- control_valve.py:1463-1464: the Mach number of the expanded jet, limited to the one of regime 5 -/
def machJ (k x : ℝ) (l : Limits) (Mj5 : ℝ) : Py ℝ := do
  let a ← 2 /ₚ (k - 1)
  let b ← 1 /ₚ (l.alpha * (1 - x))
  let e ← (k - 1) /ₚ k
  let p ← b ^ₚ e
  let r ← psqrt (a * (p - 1))
  return min r Mj5

/-- control_valve.py:1461, 1470-1471, 1479, 1490: regime 1 -/
def subsonicJet (m P1 rho k x FL_term Dj An Stp : ℝ) : Py GasJet := do
  let Mvc ← machVc k x FL_term
  let kr ← (k * P1) /ₚ rho
  let q ← x /ₚ FL_term ^ 2
  let e ← (k - 1) /ₚ k
  let p ← (1 - q) ^ₚ e
  let cvc ← psqrt (kr * p)
  let fp ← (Stp * Mvc * cvc) /ₚ Dj
  return ⟨0.5 * m * (Mvc * cvc) ^ 2, fp, (10 : ℝ) ^ An * FL_term ^ 2 * Mvc ^ 3⟩

/-- control_valve.py:1474: the speed of sound at the choked vena contracta -/
def soundVcc (P1 rho k : ℝ) : Py ℝ := do
  let a ← (2 * k * P1) /ₚ (k + 1)
  let b ← a /ₚ rho
  let r ← psqrt b
  return r

/-- control_valve.py:1463-1464, 1474-1475, 1480-1481, 1491-1494: regimes 2 and 3; `f` is x/x_vcc or 1 -/
def shockJet (m P1 rho k x FL_term Dj An Stp f : ℝ) (l : Limits) (Mj5 : ℝ) : Py GasJet := do
  let Mj ← machJ k x l Mj5
  let cvcc ← soundVcc P1 rho k
  let fp ← (Stp * Mj * cvcc) /ₚ Dj
  let p ← Mj ^ₚ (6.6 * FL_term * FL_term)
  return ⟨0.5 * m * cvcc * cvcc, fp, (10 : ℝ) ^ An * f * p⟩

/-- control_valve.py:1474-1475, 1482-1485, 1495-1498: regimes 4 and 5, from the Mach number of the jet -/
def screechJet (m P1 rho k FL_term Dj An Stp Mj : ℝ) : Py GasJet := do
  let cvcc ← soundVcc P1 rho k
  let a ← (1.4 * Stp * cvcc) /ₚ Dj
  let s ← psqrt (Mj * Mj - 1)
  let fp ← a /ₚ s
  return ⟨0.5 * m * cvcc * cvcc, fp, 0.5 * (10 : ℝ) ^ An * Mj * Mj * √2 ^ (6.6 * FL_term * FL_term)⟩

/-- control_valve.py:1457-1498: power, peak frequency and efficiency in the regime found -/
def gasJet (m P1 rho k Kv x FL_term Fd An Stp : ℝ) (l : Limits) : Py GasJet := do
  let sD ← psqrt (Fittings.Kv_to_Cv Kv * FL_term)
  let Dj := 4.6e-3 * Fd * sD
  let Mj5 ← mach5 k
  if regime x l = 1 then subsonicJet m P1 rho k x FL_term Dj An Stp
  else if regime x l = 2 then do
    let f ← x /ₚ l.x_vcc
    shockJet m P1 rho k x FL_term Dj An Stp f l Mj5
  else if regime x l = 3 then shockJet m P1 rho k x FL_term Dj An Stp 1 l Mj5
  else if regime x l = 4 then do
    let Mj ← machJ k x l Mj5
    screechJet m P1 rho k FL_term Dj An Stp Mj
  else screechJet m P1 rho k FL_term Dj An Stp Mj5

/-- control_valve.py:1525, 1535: an internal level from an acoustic power -/
def level (Wa rho2 c2 Di Lg : ℝ) : Py ℝ := do
  let q ← (3.2e9 * Wa * rho2 * c2) /ₚ (Di * Di)
  let l ← plog10 q
  return 10 * l + Lg

/-- control_valve.py:1515-1525: level and peak frequency of the noise made at the valve outlet -/
def outletNoise (m d Di rho2 c2 beta An Stp Lg : ℝ) : Py (ℝ × ℝ) := do
  let Up ← (4 * m) /ₚ (π * rho2 * Di * Di)
  let UR ← (Up * Di * Di) /ₚ (beta * d * d)
  let q ← (d * d) /ₚ (Di * Di)
  let WmR := 0.5 * m * UR * UR * ((1 - q) ^ 2 + 0.2)
  let fpR ← (Stp * UR) /ₚ d
  let MR ← UR /ₚ c2
  let L ← level ((10 : ℝ) ^ An * MR ^ 3 * WmR) rho2 c2 Di Lg
  return (L, fpR)

/-- control_valve.py:1558-1564, 1569-1573: the internal level in a band, from the ratio of its frequency to the peak -/
def bandLevel (L ratio : ℝ) : Py ℝ := do
  let t1 ← (0.5 * ratio) ^ₚ (2.5 : ℝ)
  let i ← 0.5 /ₚ ratio
  let t2 ← i ^ₚ (1.7 : ℝ)
  let l ← plog10 ((1 + t1) * (1 + t2))
  return L - 8 - 10 * l

/-- control_valve.py:1542-1547: the correction of the transmission loss for small valves -/
def dTL (d : ℝ) : ℝ :=
  if d > 0.15 then 0
  else if 0.05 ≤ d ∧ d ≤ 0.15 then -16660 * d ^ 3 + 6370 * d ^ 2 - 813 * d + 35.8
  else 9

/-- control_valve.py:1538-1540: ring, internal and external coincidence frequency -/
def gasFreqs (Di t_pipe c_pipe c_air c2 : ℝ) : Py (ℝ × ℝ × ℝ) := do
  let fr ← c_pipe /ₚ (π * Di)
  let q ← c2 /ₚ c_air
  let fo := 0.25 * fr * q
  let fg ← (√3 * c_air ^ 2) /ₚ (π * t_pipe * c_pipe)
  return (fr, fo, fg)

/-- control_valve.py:1578-1592: the frequency factors `Gx`, `Gy` -/
def freqFactors (fi fr fo fg : ℝ) : Py (ℝ × ℝ) :=
  if fi < fo then do
    let a ← fo /ₚ fr
    let a23 ← a ^ₚ (2 / 3 : ℝ)
    let b ← fi /ₚ fo
    let Gx := a23 * b ^ 4
    if fo < fg then do
      let g ← fo /ₚ fg
      return (Gx, g)
    else return (Gx, 1)
  else do
    let Gx ← (if fi < fr then do
        let a ← fi /ₚ fr
        let s ← psqrt a
        return s
      else return 1 : Py ℝ)
    if fi < fg then do
      let g ← fi /ₚ fg
      return (Gx, g)
    else return (Gx, 1)

/-- control_valve.py:1594-1599: the transmission loss in a band -/
def gasTL (fi fr fo fg rho2 c2 t_pipe rho_pipe ratio dTL : ℝ) : Py ℝ := do
  let G ← freqFactors fi fr fo fg
  let h ← 0.01 /ₚ fi
  let eta_s ← psqrt h
  let q ← (rho2 * c2 + 2 * π * t_pipe * fi * rho_pipe * eta_s) /ₚ (415 * G.2)
  let den := q + 1
  let a ← c2 /ₚ (t_pipe * fi)
  let b ← (8.25e-7 * a ^ 2 * G.1) /ₚ den
  let l ← plog10 (b * ratio)
  return 10 * l - dTL

/-- control_valve.py:1558-1576, 1602-1605: the internal level in a band, with the noise of the outlet when there is any -/
def gasInternal (L fp_inv : ℝ) (outlet : Option (ℝ × ℝ)) (fi : ℝ) : Py ℝ := do
  let L1 ← bandLevel L (fi * fp_inv)
  match outlet with
  | none => return L1
  | some o => do
    let r ← fi /ₚ o.2
    let L2 ← bandLevel o.1 r
    let l ← plog10 ((10 : ℝ) ^ (0.1 * L1) + (10 : ℝ) ^ (0.1 * L2))
    return 10 * l

/-- the terms of the loop that do not depend on the band (control_valve.py:1486-1550) -/
structure GasLoop where
  L_pi : ℝ
  fp_inv : ℝ
  outlet : Option (ℝ × ℝ)
  fr : ℝ
  fo : ℝ
  fg : ℝ
  rho2 : ℝ
  c2 : ℝ
  P_air_ratio : ℝ

/-- control_valve.py:1556-1611: one pass of the loop over the bands -/
def gasStep (g : GasLoop) (d Di t_pipe rho_pipe : ℝ) (s : ℝ) (b : Band) : Py ℝ := do
  let L ← gasInternal g.L_pi g.fp_inv g.outlet b.f
  let TL ← gasTL b.f g.fr g.fo g.fg g.rho2 g.c2 t_pipe rho_pipe g.P_air_ratio (dTL d)
  let q ← (Di + 2 * t_pipe + 2) /ₚ (Di + 2 * t_pipe)
  let lq ← plog10 q
  let L_pe1m := L + TL - 10 * lq
  return s + (10 : ℝ) ^ (0.1 * (L_pe1m + b.A))

/-- control_valve.py:1503-1512: downstream density, speed of sound, Mach number in the pipe and its correction -/
def downstream (m P1 P2 T2 rho k MW Di : ℝ) : Py (ℝ × ℝ × ℝ × ℝ) := do
  let r ← P2 /ₚ P1
  let rho2 := rho * r
  let a ← (k * Const.R * T2) /ₚ (MW / 1000)
  let c2 ← psqrt a
  let M2 ← (4 * m) /ₚ (π * Di * Di * rho2 * c2)
  let i ← 1 /ₚ (1 - min M2 0.3)
  let l ← plog10 i
  return (rho2, c2, M2, 16 * l)

/-- control_valve.py:1514-1533 -/
def outletIf (m d Di rho2 c2 M2 Lg beta An Stp : ℝ) : Py (Option (ℝ × ℝ)) :=
  if M2 > 0.3 then do
    let o ← outletNoise m d Di rho2 c2 beta An Stp Lg
    return some o
  else return none

/-- control_valve.py:1415-1550: everything before the loop -/
def gasSetup (m P1 P2 T1 rho gamma MW Kv d Di t_pipe Fd : ℝ) (FL FLP FP : Option ℝ)
    (c_pipe P_air c_air An Stp : ℝ) (T2 : Option ℝ) (beta : ℝ) : Py GasLoop := do
  let x ← (P1 - P2) /ₚ P1
  let F ← flTerm FL FLP FP
  let l ← limits gamma F
  let j ← gasJet m P1 rho gamma Kv x F Fd An Stp l
  let fp_inv ← 1 /ₚ j.fp
  let s ← downstream m P1 P2 (T2.getD T1) rho gamma MW Di
  let o ← outletIf m d Di s.1 s.2.1 s.2.2.1 s.2.2.2 beta An Stp
  let L ← level (j.eta * j.Wm) s.1 s.2.1 Di s.2.2.2
  let f ← gasFreqs Di t_pipe c_pipe c_air s.2.1
  return ⟨L, fp_inv, o, f.1, f.2.1, f.2.2, s.1, s.2.1, P_air / 101325⟩

/-- control_valve.py:1319-1613 `control_valve_noise_g_2011`; `rho_air` is accepted and never read -/
def control_valve_noise_g_2011 (m P1 P2 T1 rho gamma MW Kv d Di t_pipe Fd : ℝ) (FL FLP FP : Option ℝ)
    (rho_pipe c_pipe P_air _rho_air c_air An Stp : ℝ) (T2 : Option ℝ) (beta : ℝ) : Py ℝ := do
  let g ← gasSetup m P1 P2 T1 rho gamma MW Kv d Di t_pipe Fd FL FLP FP c_pipe P_air c_air An Stp T2 beta
  let s ← bands.foldlM (gasStep g d Di t_pipe rho_pipe) 0
  let l ← plog10 s
  return 10 * l

end Verif.Noise
