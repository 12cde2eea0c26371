import Verif.Py
import Verif.Model.Constants
import Verif.Model.Sequences
import Mathlib.Analysis.SpecialFunctions.Pow.Real

/-! Model of `fluids/mixing.py`. -/

open Real

noncomputable section

namespace Verif.Mixing

/-- mixing.py:61-62 `adjust_homogeneity`. -/
def adjust_homogeneity (fraction : ℝ) : Py ℝ := do
  let t1 : ℝ ← plog (1 - fraction)
  let t2 : ℝ ← plog 0.05
  let multiplier : ℝ ← t1 /ₚ t2
  return multiplier

/-- mixing.py:194-195 `Kp_helical_ribbon_Rieger`. -/
def Kp_helical_ribbon_Rieger (D h nb pitch width T : ℝ) : Py ℝ := do
  let c : ℝ := 0.5 * (T - D)
  let t1 : ℝ ← 82.8 * h /ₚ D
  let t2 : ℝ ← c /ₚ D
  let t3 : ℝ ← t2 ^ₚ (-0.38)
  let t4 : ℝ ← pitch /ₚ D
  let t5 : ℝ ← t4 ^ₚ (-0.35)
  let t6 : ℝ ← width /ₚ D
  let t7 : ℝ ← t6 ^ₚ 0.2
  let t8 : ℝ ← nb ^ₚ 0.78
  return t1 * t3 * t5 * t7 * t8

/-- mixing.py:237-237 `time_helical_ribbon_Grenville`. -/
def time_helical_ribbon_Grenville (Kp N : ℝ) : Py ℝ := do
  let t1 : ℝ ← Kp ^ₚ (-1.69)
  896e3 * t1 /ₚ N

/-- mixing.py:375-379 `COV_motionless_mixer`. -/
def COV_motionless_mixer (Ki Q1 Q2 pipe_diameters : ℝ) : Py ℝ := do
  let Cv : ℝ ← Q2 /ₚ (Q1 + Q2)
  let t2 : ℝ ← (1 - Cv) /ₚ Cv
  let COV0 : ℝ ← psqrt t2
  let COVr : ℝ ← Ki ^ₚ pipe_diameters
  let COV : ℝ := COV0 * COVr
  return COV

/-- mixing.py:424-424 `K_motionless_mixer`. -/
def K_motionless_mixer (K L D fd : ℝ) : Py ℝ := do
  let t1 : ℝ ← L /ₚ D
  return t1 * fd * K

/-- mixing.py:45 `from fluids.constants import g` -/
def g : ℝ := ((Verif.Const.g : ℚ) : ℝ)

/-- mixing.py:57 `min_regime_constant_for_turbulent` -/
def min_regime_constant_for_turbulent : ℝ := 6370

/-- mixing.py:137-140: the Fourier number of the regime -/
def fourier (regime_constant : ℝ) : Py ℝ :=
  if regime_constant ≥ min_regime_constant_for_turbulent then 5.2 /ₚ regime_constant
  else do
    let t7 : ℝ ← 183 /ₚ regime_constant
    return t7 ^ 2

/-- mixing.py:132-133: `if not D: D = T*0.5` -/
def impeller (T : ℝ) : Option ℝ → ℝ
  | none => T * 0.5
  | some D => if D = 0 then T * 0.5 else D

/-- mixing.py:132-143 `agitator_time_homogeneous`. Defaults: D = None, homogeneity = 0.95. -/
def agitator_time_homogeneous (N P T H mu rho : ℝ) (D : Option ℝ) (homogeneity : ℝ) : Py ℝ := do
  let D : ℝ := impeller T D
  let t1 : ℝ ← P * g /ₚ rho
  let t2 : ℝ ← t1 /ₚ N ^ 3
  let Np : ℝ ← t2 /ₚ D ^ 5
  let t4 : ℝ ← rho /ₚ mu
  let Re_imp : ℝ := t4 * D ^ 2 * N
  let t5 : ℝ ← Np ^ₚ (1 / 3)
  let regime_constant : ℝ := t5 * Re_imp
  let Fo : ℝ ← fourier regime_constant
  let t8 : ℝ ← T ^ₚ 1.5
  let t9 : ℝ ← psqrt H
  let t10 : ℝ ← rho * t8 * t9 /ₚ mu
  let time : ℝ := t10 * Fo
  let multiplier : ℝ ← adjust_homogeneity homogeneity
  return time * multiplier

/-- mixing.py:297-318: the exponent of `size_tee` -/
def teeExponent (n : ℕ) (B : ℝ) : Py ℝ :=
  if n = 1 then
    if B < 0.7 then .ok 1.33
    else do
      let t7 : ℝ ← plog (B / 0.7)
      return 1 / 33 + 0.95 * t7
  else if n = 2 then
    if B < 0.8 then .ok 1.44
    else do
      let t8 : ℝ ← plog (B / 0.8)
      let t9 : ℝ ← t8 ^ₚ 1.5
      return 1.44 + 0.95 * t9
  else if n = 3 then
    if B < 0.8 then .ok 1.75
    else do
      let t10 : ℝ ← plog (B / 0.8)
      let t11 : ℝ ← t10 ^ₚ 1.8
      return 1.75 + 0.95 * t11
  else if n = 4 then
    if B < 2 then .ok 1.97
    else do
      let t12 : ℝ ← plog (B / 2)
      return 1.97 + 0.95 * t12 ^ 2
  else .error .valueError

/-- mixing.py:293-294: the diameter of the side stream -/
def teeDiameter (Q1 Q2 D : ℝ) : Option ℝ → Py ℝ
  | some D2 => .ok D2
  | none => do
    let t2 : ℝ ← Q2 /ₚ Q1
    let t3 : ℝ ← t2 ^ₚ (2 / 3)
    return t3 * D

/-- mixing.py:290-320 `size_tee`. Defaults: n = 1, pipe_diameters = 5. -/
def size_tee (Q1 Q2 D : ℝ) (D2 : Option ℝ) (n : ℕ) (pipe_diameters : ℝ) : Py ℝ := do
  let V1 : ℝ ← Q1 /ₚ (π / 4 * D ^ 2)
  let D2 : ℝ ← teeDiameter Q1 Q2 D D2
  let V2 : ℝ ← Q2 /ₚ (π / 4 * D2 ^ 2)
  let t5 : ℝ ← D2 /ₚ D
  let t6 : ℝ ← V2 /ₚ V1
  let B : ℝ := (n:ℝ) ^ 2 * t5 ^ 2 * t6 ^ 2
  let E : ℝ ← teeExponent n B
  let t13 : ℝ ← B ^ₚ 0.86
  let t14 : ℝ ← 0.32 /ₚ t13
  let t15 : ℝ ← pipe_diameters ^ₚ (-E)
  let COV : ℝ ← psqrt (t14 * t15)
  return COV

/-- mixing.py:327-331: one entry of `StatixMixers` (the vendor and description are left out) -/
structure StatixMixer where
  /-- mixing.py:328 -/
  Name : String
  /-- mixing.py:328 -/
  KL : ℚ
  /-- mixing.py:328 -/
  KiL : ℚ
  /-- mixing.py:328 -/
  KT : ℚ
  /-- mixing.py:328 -/
  KiT : ℚ

/-- mixing.py:327-331 `StatixMixers` -/
def StatixMixers : List (String × StatixMixer) :=
  [("KMS", ⟨"KMS", 6.9, 0.87, 150, 0.5⟩), ("SMX", ⟨"SMX", 37.5, 0.63, 500, 0.46⟩),
   ("SMXL", ⟨"SMXL", 7.8, 0.85, 100, 0.87⟩), ("SMF", ⟨"SMF", 5.6, 0.83, 130, 0.4⟩)]

end Verif.Mixing
