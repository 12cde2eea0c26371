import Verif.Model.Fittings
import Verif.Model.PipingTables
import Verif.Model.PolyEval

/-!
# Model of `fluids/fittings.py`, continued

Miller's bends, the Darby 3K and Hooper 2K tables, and the remaining Rennels correlations. The splines fitted to Miller's graphs are the fields of `Miller`,
arbitrary functions; the tables around them are literal.
-/

namespace Verif.Fittings
noncomputable section
open Real
open Verif.Friction
open Verif.Seq (interp pyGet)
open Verif.PolyEval (horner)
open Verif.Piping (T_40)

/-- fittings.py:985-1088: the splines of Miller's bend graphs: `Kb rc_D angle`, `CRe Re rc_D`, and the five outlet curves -/
structure Miller where
  Kb : ℝ → ℝ → ℝ
  CRe : ℝ → ℝ → ℝ
  Co : ℕ → ℝ → ℝ

variable (M : Miller)

/-- fittings.py:1089 -/
def millerKbs : List ℝ := [0.1, 0.15, 0.2, 0.25, 1]
/-- fittings.py:1090 -/
def millerLimits : List ℝ := [30.260656153593906, 26.28093462852014, 22.10600230228466, 16.770001745987884, 13.268280073552294]
/-- fittings.py:1091 -/
def millerShort : List ℝ := [0.6169055099514943, 0.8663244713199465, 1.2029584898712695, 2.7143438886138744, 2.7115417734646114]

/-- fittings.py:1094-1105 `Miller_bend_roughness_correction` -/
def Miller_bend_roughness_correction (W : ℝ → ℝ) (Re Di roughness : ℝ) : Py ℝ := do
  let R : ℝ := min 1e6 Re
  let smooth ← (if R < 1e6 then friction_factor W R 0 none true else .ok 0.011645040997991626 : Py ℝ)
  let eD ← roughness /ₚ Di
  let rough ← friction_factor W R eD none true
  rough /ₚ smooth

/-- fittings.py:1134-1139 and 1140-1145: one outlet curve at one ratio -/
def coCurve (i : ℕ) (r : ℝ) : Py ℝ := do
  let lim ← pyGet millerLimits (i : ℤ)
  if r ≥ lim then .ok 1
  else if r ≤ 0.01 then pyGet millerShort (i : ℤ)
  else .ok (M.Co i r)

/-- fittings.py:1131-1148: the loop over the curves, `is` the indices left -/
def coLoop (K r : ℝ) : List ℕ → Py ℝ
  | [] => .error .valueError
  | i :: is => do
    let lo ← pyGet millerKbs (i : ℤ)
    let hi ← pyGet millerKbs ((i : ℤ) + 1)
    if lo ≤ K ∧ K ≤ hi then do
      let a ← coCurve M i r
      let b ← coCurve M (i + 1) r
      let t ← (K - lo) * (b - a) /ₚ (hi - lo)
      return a + t
    else coLoop K r is

/-- fittings.py:1108-1148 `Miller_bend_unimpeded_correction` -/
def Miller_bend_unimpeded_correction (Kb Di L_unimpeded : ℝ) : Py ℝ := do
  let K : ℝ := if Kb < 0.1 then 0.1 else if Kb > 1 then 1 else Kb
  let r ← L_unimpeded /ₚ Di
  let r' : ℝ := if r > 30 then 30 else r
  coLoop M K r' (List.range 5)

/-- fittings.py:1612-1615: the Reynolds number correction of miter bends, also used for tight bends at 1252-1260 -/
def millerTight (Kb Re : ℝ) : Py ℝ := do
  let C1 : ℝ := if Re < 207956.58904584477 then M.CRe Re 1 else 1
  let C ← Kb /ₚ (Kb - 0.2 * C1 + 0.2)
  return (if C > 2.2 ∨ C < 0 then 2.2 else C)

/-- fittings.py:1045 -/
def millerLimitCoeffs : List ℝ := [2428087.757821312, -13637184.203693766, 28450331.830760233, -25496945.91463643, 8471761.477755375]

/-- fittings.py:1243-1270: the Reynolds number correction of rounded bends -/
def millerRe (rr Kb Re : ℝ) : Py ℝ :=
  if rr ≥ 2 then .ok (if Re = 1e8 then 0.4196741237602154 else if Re = 1e4 then 2.1775876405173977 else M.CRe Re 2)
  else if rr ≤ 1 then
    if rr > 0.7 ∨ Kb < 0.4 then .ok (if Re < 207956.58904584477 then M.CRe Re 1 else 1) else millerTight M Kb Re
  else .ok (if Re > 1048884.4656835075 then 1 else if Re > horner millerLimitCoeffs rr then 1 else M.CRe Re rr)

/-- fittings.py:1151-1274 `bend_rounded_Miller` -/
def bend_rounded_Miller (W : ℝ → ℝ) (Di angle Re : ℝ) (rc bend_diameters : Option ℝ) (roughness : ℝ) (L_unimpeded : Option ℝ) : Py ℝ := do
  let rc : ℝ := rc.getD (Di * bend_diameters.getD 5)
  let r0 ← rc /ₚ Di
  let L : ℝ := L_unimpeded.getD (20 * Di)
  let r1 : ℝ := if r0 < 0.5 then 0.5 else r0
  let rr : ℝ := if r1 > 10 then 10 else r1
  let a : ℝ := if angle < 10 then 10 else angle
  let Kb : ℝ := M.Kb rr a
  let Cr ← Miller_bend_roughness_correction W Re Di roughness
  let R : ℝ := min (max Re 1e4) 1e8
  let CRe ← millerRe M rr Kb R
  let Co ← Miller_bend_unimpeded_correction M Kb Di L
  return Kb * CRe * Cr * Co

/-- fittings.py:1549-1553 -/
def miterCoeffs : List ℝ := [-12.050299402650126, -4.472433689233185, 50.51478860493546, 18.246302079077196,
  -84.61426660754049, -28.9340865412371, 71.07345367553872, 21.354010992349565, -30.239604839338, -5.855129345095336, 5.465131779316523, -1.0881363712712555,
  -0.3635431075401224, 0.5120065303391261, 0.46818214491579246, 0.9789177645343993, 0.5080285124448385]

/-- fittings.py:1555-1615 `bend_miter_Miller` -/
def bend_miter_Miller (W : ℝ → ℝ) (Di angle Re roughness : ℝ) (L_unimpeded : Option ℝ) : Py ℝ := do
  let L : ℝ := L_unimpeded.getD (20 * Di)
  let a : ℝ := if angle > 120 then 120 else angle
  let Kb : ℝ := horner miterCoeffs (1 / 60 * (a - 60))
  let Co ← Miller_bend_unimpeded_correction M Kb Di L
  let Cr ← Miller_bend_roughness_correction W Re Di roughness
  let R : ℝ := min (max Re 1e4) 1e8
  let CRe ← millerTight M Kb R
  return Kb * CRe * Cr * Co

/-- fittings.py:1838-1880 `contraction_round_Miller`; `graph` is the fitted spline -/
def contraction_round_Miller (graph : ℝ → ℝ → ℝ) (Di1 Di2 rc : ℝ) : Py ℝ := do
  let A ← Di2 * Di2 /ₚ (Di1 * Di1)
  let r ← rc /ₚ Di2
  let K : ℝ := graph A (if r > 0.1 then 0.1 else r)
  return (if K < 0 then 0 else K)

/-- fittings.py:515-520 -/
def distance45Coeffs : List ℝ := [1.866792110435199, -2.8873199398381075, -4.814715029513536, 10.49562589373457, 1.40401776402922, -14.035912282651882,
  6.576826918678071, 7.854645523152614, -8.044860164646053, -1.1515885154512326, 4.145420152553604, -0.7994793202964967,
  -1.1034822877774095, 0.32764916637953573, 0.367065452438954, -0.2614447909010587, 0.29084476697430256]

/-- fittings.py:523-563 `entrance_distance_45_Miller` -/
def entrance_distance_45_Miller (Di Di0 : ℝ) : Py ℝ := do
  let t : ℝ := 0.5 * (Di0 - Di)
  let r ← t /ₚ Di
  let r' : ℝ := if r > 0.3 then 0.3 else r
  return horner distance45Coeffs (6.66666666666666696 * (r' - 0.15))

/-- fittings.py:895-943 `entrance_beveled_orifice` -/
def entrance_beveled_orifice (Di Do l angle : ℝ) : Py ℝ := do
  let r ← l /ₚ Do
  let e1 ← 1 /ₚ (1 + r)
  let t1 ← (angle / 90) ^ₚ e1
  let Cb : ℝ := (1 - angle / 90) * t1
  let s1 ← psqrt r
  let s2 ← psqrt s1
  let t2 ← r ^ₚ ((1 - s2) / 2)
  let lbd : ℝ := 1 + 0.622 * (1 - Cb * t2)
  let t3 ← Cb * l /ₚ Do
  let b ← Do /ₚ Di
  return 0.0696 * (1 - t3) * lbd ^ 2 + (lbd - b ^ 2) ^ 2

/-- fittings.py:948-982 `exit_normal` -/
def exit_normal : ℝ := 1

/-- fittings.py:1733-1775 `helix` -/
def helix (Di rs pitch N fd : ℝ) : Py ℝ := do
  let s ← psqrt ((2 * π * rs) ^ 2 + pitch ^ 2)
  let t ← fd * s /ₚ Di
  return N * (t + 0.20 + 4.8 * fd)

/-- fittings.py:1778-1819 `spiral` -/
def spiral (Di rmax rmin pitch fd : ℝ) : Py ℝ := do
  let n ← (rmax - rmin) /ₚ pitch
  let t ← fd * π * (rmax + rmin) /ₚ Di
  let r ← rmin /ₚ Di
  let u ← 13.2 * fd /ₚ r ^ 2
  return n * (t + 0.20 + 4.8 * fd) + u

/-- fittings.py:2479-2535 `contraction_beveled` -/
def contraction_beveled (Di1 Di2 l angle : ℝ) : Py ℝ := do
  let a : ℝ := angle * (π / 180)
  let beta ← Di2 /ₚ Di1
  let r ← l /ₚ Di2
  let CB ← r * 2 * beta * Real.tan (0.5 * a) /ₚ (1 - beta)
  let beta2 : ℝ := beta * beta
  let beta5 : ℝ := beta2 * beta2 * beta
  let p ← (a / π) ^ₚ 0.8
  let lbd : ℝ := 1 + 0.622 * (1 + CB * (p - 1)) * (1 - 0.215 * beta2 - 0.785 * beta5)
  return 0.0696 * (1 + CB * (Real.sin (0.5 * a) - 1)) * (1 - beta5) * lbd * lbd + (lbd - 1) ^ 2

/-- fittings.py:3026-3073 `diffuser_curved` -/
def diffuser_curved (Di1 Di2 l : ℝ) : Py ℝ := do
  let beta ← Di1 /ₚ Di2
  let x1 ← 0.624 * l /ₚ Di1
  let x ← l /ₚ Di1
  let phi : ℝ := 1.01 - x1 + 0.30 * x ^ 2 - 0.074 * x ^ 3 + 0.0070 * x ^ 4
  return phi * (1.43 - 1.3 * beta ^ 2) * (1 - beta ^ 2) ^ 2

/-- fittings.py:3076-3126 `diffuser_pipe_reducer` -/
def diffuser_pipe_reducer (Di1 Di2 l fd1 : ℝ) (fd2 : Option ℝ) : Py ℝ := do
  let fd2 : ℝ := fd2.getD fd1
  let beta ← Di1 /ₚ Di2
  let q ← (Di1 - Di2) / 1.20 /ₚ l
  let angle : ℝ := -2 * Real.arctan q
  let t1 ← fd1 * 0.20 * l /ₚ Di1
  let t2 ← fd1 * (1 - beta) / 8 /ₚ Real.sin (angle / 2)
  let t3 ← fd2 * 0.20 * l /ₚ Di2
  return t1 + t2 + t3 * beta ^ 4

/-- fittings.py:3155-3191 `Darby`: name and `(K1, Ki, Kd)` -/
def Darby : List (String × ℚ × ℚ × ℚ) := [
    ("Elbow, 90°, threaded, standard, (r/D = 1)", 800, 7 / 50, 4),
    ("Elbow, 90°, threaded, long radius, (r/D = 1.5)", 800, 71 / 1000, 21 / 5),
    ("Elbow, 90°, flanged, welded, bends, (r/D = 1)", 800, 91 / 1000, 4),
    ("Elbow, 90°, (r/D = 2)", 800, 7 / 125, 39 / 10),
    ("Elbow, 90°, (r/D = 4)", 800, 33 / 500, 39 / 10),
    ("Elbow, 90°, (r/D = 6)", 800, 3 / 40, 21 / 5),
    ("Elbow, 90°, mitered, 1 weld, (90°)", 1000, 27 / 100, 4),
    ("Elbow, 90°, 2 welds, (45°)", 800, 17 / 250, 41 / 10),
    ("Elbow, 90°, 3 welds, (30°)", 800, 7 / 200, 21 / 5),
    ("Elbow, 45°, threaded standard, (r/D = 1)", 500, 71 / 1000, 21 / 5),
    ("Elbow, 45°, long radius, (r/D = 1.5)", 500, 13 / 250, 4),
    ("Elbow, 45°, mitered, 1 weld, (45°)", 500, 43 / 500, 4),
    ("Elbow, 45°, mitered, 2 welds, (22.5°)", 500, 13 / 250, 4),
    ("Elbow, 180°, threaded, close-return bend, (r/D = 1)", 1000, 23 / 100, 4),
    ("Elbow, 180°, flanged, (r/D = 1)", 1000, 3 / 25, 4),
    ("Elbow, 180°, all, (r/D = 1.5)", 1000, 1 / 10, 4),
    ("Tee, Through-branch, (as elbow), threaded, (r/D = 1)", 500, 137 / 500, 4),
    ("Tee, Through-branch,(as elbow), (r/D = 1.5)", 800, 7 / 50, 4),
    ("Tee, Through-branch, (as elbow), flanged, (r/D = 1)", 800, 7 / 25, 4),
    ("Tee, Through-branch, (as elbow), stub-in branch", 1000, 17 / 50, 4),
    ("Tee, Run-through, threaded, (r/D = 1)", 200, 91 / 1000, 4),
    ("Tee, Run-through, flanged, (r/D = 1)", 150, 1 / 20, 4),
    ("Tee, Run-through, stub-in branch", 100, 0, 0),
    ("Valve, Angle valve, 45°, full line size, β = 1", 950, 1 / 4, 4),
    ("Valve, Angle valve, 90°, full line size, β = 1", 1000, 69 / 100, 4),
    ("Valve, Globe valve, standard, β = 1", 1500, 17 / 10, 18 / 5),
    ("Valve, Plug valve, branch flow", 500, 41 / 100, 4),
    ("Valve, Plug valve, straight through", 300, 21 / 250, 39 / 10),
    ("Valve, Plug valve, three-way (flow through)", 300, 7 / 50, 4),
    ("Valve, Gate valve, standard, β = 1", 300, 37 / 1000, 39 / 10),
    ("Valve, Ball valve, standard, β = 1", 300, 17 / 1000, 7 / 2),
    ("Valve, Diaphragm, dam type", 1000, 69 / 100, 49 / 10),
    ("Valve, Swing check", 1500, 23 / 50, 4),
    ("Valve, Lift check", 2000, 57 / 20, 19 / 5)]

/-- fittings.py:3301-3334 `Hooper`: name and `(K1, Kinfty)` -/
def Hooper : List (String × ℚ × ℚ) := [
    ("Elbow, 90°, Standard (R/D = 1), Screwed", 800, 2 / 5),
    ("Elbow, 90°, Standard (R/D = 1), Flanged/welded", 800, 1 / 4),
    ("Elbow, 90°, Long-radius (R/D = 1.5), All types", 800, 1 / 5),
    ("Elbow, 90°, Mitered (R/D = 1.5), 1 weld (90° angle)", 1000, 23 / 20),
    ("Elbow, 90°, Mitered (R/D = 1.5), 2 weld (45° angle)", 800, 7 / 20),
    ("Elbow, 90°, Mitered (R/D = 1.5), 3 weld (30° angle)", 800, 3 / 10),
    ("Elbow, 90°, Mitered (R/D = 1.5), 4 weld (22.5° angle)", 800, 27 / 100),
    ("Elbow, 90°, Mitered (R/D = 1.5), 5 weld (18° angle)", 800, 1 / 4),
    ("Elbow, 45°, Standard (R/D = 1), All types", 500, 1 / 5),
    ("Elbow, 45°, Long-radius (R/D 1.5), All types", 500, 3 / 20),
    ("Elbow, 45°, Mitered (R/D=1.5), 1 weld (45° angle)", 500, 1 / 4),
    ("Elbow, 45°, Mitered (R/D=1.5), 2 weld (22.5° angle)", 500, 3 / 20),
    ("Elbow, 45°, Standard (R/D = 1), Screwed", 1000, 7 / 10),
    ("Elbow, 180°, Standard (R/D = 1), Flanged/welded", 1000, 7 / 20),
    ("Elbow, 180°, Long-radius (R/D = 1.5), All types", 1000, 3 / 10),
    ("Elbow, Used as, Standard, Screwed", 500, 7 / 10),
    ("Elbow, Elbow, Long-radius, Screwed", 800, 2 / 5),
    ("Elbow, Elbow, Standard, Flanged/welded", 800, 4 / 5),
    ("Elbow, Elbow, Stub-in type branch", 1000, 1),
    ("Tee, Run, Screwed", 200, 1 / 10),
    ("Tee, Through, Flanged or welded", 150, 1 / 20),
    ("Tee, Tee, Stub-in type branch", 100, 0),
    ("Valve, Gate, Full line size, Beta = 1", 300, 1 / 10),
    ("Valve, Ball, Reduced trim, Beta = 0.9", 500, 3 / 20),
    ("Valve, Plug, Reduced trim, Beta = 0.8", 1000, 1 / 4),
    ("Valve, Globe, Standard", 1500, 4),
    ("Valve, Globe, Angle or Y-type", 1000, 2),
    ("Valve, Diaphragm, Dam type", 1000, 2),
    ("Valve, Butterfly,", 800, 1 / 4),
    ("Valve, Check, Lift", 2000, 10),
    ("Valve, Check, Swing", 1500, 3 / 2),
    ("Valve, Check, Tilting-disc", 1000, 1 / 2)]

/-- fittings.py:3260-3272: the constants of the 3K method -/
def darbyConstants (name : Option String) (K1 Ki Kd : Option ℝ) : Py (ℝ × ℝ × ℝ) :=
  match name with
  | some n =>
    match Darby.lookup n with
    | some c => .ok ((c.1 : ℝ), (c.2.1 : ℝ), (c.2.2 : ℝ))
    | none => .error .valueError
  | none =>
    match K1, Ki, Kd with
    | some a, some b, some c => .ok (a, b, c)
    | _, _, _ => .error .valueError

/-- fittings.py:3258-3259: the nominal size, from `Di` if given, by the schedule 40 table (piping.py:87-88) -/
def darbyNPS (NPS Di : Option ℝ) : Py (Option ℝ) :=
  match Di with
  | some D => do
    let n ← interp (D * 1000) (T_40.di.map fun q : ℚ => (q : ℝ)) (T_40.nps.map fun q : ℚ => (q : ℝ)) none none true
    return some n
  | none => .ok NPS

/-- fittings.py:3273-3275 -/
def darbyValue (NPS Re : Option ℝ) (k : ℝ × ℝ × ℝ) : Py ℝ :=
  match NPS, Re with
  | some n, some R => do
    let t ← k.1 /ₚ R
    let p ← n ^ₚ (-0.3)
    return t + k.2.1 * (1 + k.2.2 * p)
  | _, _ => .error .valueError

/-- fittings.py:3199-3275 `Darby3K` -/
def Darby3K (NPS Re : Option ℝ) (name : Option String) (K1 Ki Kd Di : Option ℝ) : Py ℝ := do
  let n ← darbyNPS NPS Di
  let k ← darbyConstants name K1 Ki Kd
  darbyValue n Re k

/-- fittings.py:3389-3403: the constants of the 2K method -/
def hooperConstants (name : Option String) (K1 Kinfty : Option ℝ) : Py (ℝ × ℝ) :=
  match name with
  | some n =>
    match Hooper.lookup n with
    | some c => .ok ((c.1 : ℝ), (c.2 : ℝ))
    | none => .error .valueError
  | none =>
    match K1, Kinfty with
    | some a, some b => .ok (a, b)
    | _, _ => .error .valueError

/-- fittings.py:3340-3404 `Hooper2K` -/
def Hooper2K (Di Re : ℝ) (name : Option String) (K1 Kinfty : Option ℝ) : Py ℝ := do
  let k ← hooperConstants name K1 Kinfty
  let t ← k.1 /ₚ Re
  let u ← 1 /ₚ Di
  return t + k.2 * (1 + u)

end

end Verif.Fittings
