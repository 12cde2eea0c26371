import Verif.Py
import Mathlib.Analysis.SpecialFunctions.Pow.Real

/-! Model of `fluids/packed_bed.py`. -/

open Real

noncomputable section

namespace Verif.PackedBed

/-- packed_bed.py:165-168 `Ergun`. Defaults: L = 1.0. -/
def Ergun (dp voidage vs rho mu L : ℝ) : Py ℝ := do
  let Re : ℝ ← dp * rho * vs /ₚ mu
  let holdup : ℝ := 1 - voidage
  let t2 : ℝ ← Re /ₚ holdup
  let fp : ℝ ← (150 + 1.75 * t2) * holdup * holdup /ₚ (voidage * voidage * voidage * Re)
  fp * rho * vs * vs * L /ₚ dp

/-- packed_bed.py:231-234 `Kuo_Nydegger`. Defaults: L = 1.0. -/
def Kuo_Nydegger (dp voidage vs rho mu L : ℝ) : Py ℝ := do
  let Re : ℝ ← dp * rho * vs /ₚ mu
  let holdup : ℝ := 1 - voidage
  let t2 : ℝ ← Re /ₚ holdup
  let t3 : ℝ ← t2 ^ₚ 0.87
  let fp : ℝ ← (276.23 + 5.05 * t3) * holdup * holdup /ₚ (voidage * voidage * voidage * Re)
  fp * rho * vs * vs * L /ₚ dp

/-- packed_bed.py:295-298 `Tallmadge`. Defaults: L = 1.0. -/
def Tallmadge (dp voidage vs rho mu L : ℝ) : Py ℝ := do
  let Re : ℝ ← dp * rho * vs /ₚ mu
  let holdup : ℝ := 1 - voidage
  let t2 : ℝ ← Re /ₚ holdup
  let t3 : ℝ ← t2 ^ₚ (5 / 6)
  let fp : ℝ ← (150 + 4.2 * t3) * holdup * holdup /ₚ (voidage * voidage * voidage * Re)
  fp * rho * vs * vs * L /ₚ dp

/-- packed_bed.py:358-361 `Jones_Krier`. Defaults: L = 1.0. -/
def Jones_Krier (dp voidage vs rho mu L : ℝ) : Py ℝ := do
  let Re : ℝ ← dp * rho * vs /ₚ mu
  let holdup : ℝ := 1 - voidage
  let t2 : ℝ ← Re /ₚ holdup
  let t3 : ℝ ← t2 ^ₚ 0.87
  let fp : ℝ ← (150 + 3.89 * t3) * holdup * holdup /ₚ (voidage * voidage * voidage * Re)
  fp * rho * vs * vs * L /ₚ dp

/-- packed_bed.py:422-425 `Carman`. Defaults: L = 1.0. -/
def Carman (dp voidage vs rho mu L : ℝ) : Py ℝ := do
  let Re : ℝ ← dp * rho * vs /ₚ mu
  let holdup : ℝ := 1 - voidage
  let t2 : ℝ ← Re /ₚ holdup
  let t3 : ℝ ← t2 ^ₚ 0.9
  let fp : ℝ ← (180 + 2.871 * t3) * holdup * holdup /ₚ (voidage * voidage * voidage * Re)
  fp * rho * vs * vs * L /ₚ dp

/-- packed_bed.py:486-489 `Hicks`. Defaults: L = 1.0. -/
def Hicks (dp voidage vs rho mu L : ℝ) : Py ℝ := do
  let Re : ℝ ← dp * rho * vs /ₚ mu
  let holdup : ℝ := 1 - voidage
  let t2 : ℝ ← holdup ^ₚ 1.2
  let t3 : ℝ ← Re ^ₚ 0.2
  let fp : ℝ ← 6.8 * t2 /ₚ (t3 * voidage * voidage * voidage)
  fp * rho * vs * vs * L /ₚ dp

/-- packed_bed.py:551-554 `Brauer`. Defaults: L = 1.0. -/
def Brauer (dp voidage vs rho mu L : ℝ) : Py ℝ := do
  let Re : ℝ ← dp * rho * vs /ₚ mu
  let holdup : ℝ := 1 - voidage
  let t2 : ℝ ← Re /ₚ holdup
  let t3 : ℝ ← t2 ^ₚ 0.9
  let fp : ℝ ← (160 + 3.1 * t3) * holdup * holdup /ₚ (voidage * voidage * voidage * Re)
  fp * rho * vs * vs * L /ₚ dp

/-- packed_bed.py:615-618 `KTA`. Defaults: L = 1.0. -/
def KTA (dp voidage vs rho mu L : ℝ) : Py ℝ := do
  let Re : ℝ ← dp * rho * vs /ₚ mu
  let holdup : ℝ := 1 - voidage
  let t2 : ℝ ← Re /ₚ holdup
  let t3 : ℝ ← t2 ^ₚ 0.9
  let fp : ℝ ← (160 + 3 * t3) * holdup * holdup /ₚ (voidage * voidage * voidage * Re)
  fp * rho * vs * vs * L /ₚ dp

/-- packed_bed.py:675-678 `Erdim_Akgiray_Demir`. Defaults: L = 1.0. -/
def Erdim_Akgiray_Demir (dp voidage vs rho mu L : ℝ) : Py ℝ := do
  let holdup : ℝ := 1 - voidage
  let Rem : ℝ ← dp * rho * vs /ₚ (holdup * mu)
  let t2 : ℝ ← Rem ^ₚ 0.904
  let fv : ℝ := 160 + 2.81 * t2
  let t3 : ℝ ← mu * vs * L /ₚ (dp * dp)
  fv * t3 * holdup * holdup /ₚ (voidage * voidage * voidage)

/-- packed_bed.py:747-755 `Fahien_Schriver`. Defaults: L = 1.0. -/
def Fahien_Schriver (dp voidage vs rho mu L : ℝ) : Py ℝ := do
  let holdup : ℝ := 1 - voidage
  let voidage2 : ℝ := voidage * voidage
  let Rem : ℝ ← dp * rho * vs /ₚ (holdup * mu)
  let q : ℝ := Real.exp (-voidage2 * holdup * (1 / 12.6) * Rem)
  let t2 : ℝ ← holdup ^ₚ 0.38
  let f1L : ℝ ← 136 /ₚ t2
  let t4 : ℝ ← holdup ^ₚ 1.45
  let f1T : ℝ ← 29 /ₚ (t4 * voidage2)
  let t6 : ℝ ← voidage ^ₚ 0.75
  let t7 : ℝ ← holdup ^ₚ 0.26
  let f2 : ℝ ← 1.87 * t6 /ₚ t7
  let t9 : ℝ ← q * f1L /ₚ Rem
  let t10 : ℝ ← f1T /ₚ Rem
  let fp : ℝ ← (t9 + (1 - q) * (f2 + t10)) * holdup /ₚ (voidage2 * voidage)
  fp * rho * vs * vs * L /ₚ dp

/-- packed_bed.py:813-817 `Idelchik`. Defaults: L = 1.0. -/
def Idelchik (dp voidage vs rho mu L : ℝ) : Py ℝ := do
  let Re : ℝ ← rho * vs * dp /ₚ (mu * (1 - voidage))
  let t2 : ℝ ← psqrt voidage
  let t3 : ℝ ← 0.45 /ₚ t2
  let Re : ℝ := t3 * Re
  let t4 : ℝ ← voidage ^ₚ (-4.2)
  let t5 : ℝ ← 30 /ₚ Re
  let t6 : ℝ ← Re ^ₚ (-0.7)
  let right : ℝ := 0.765 * t4 * (t5 + 3 * t6 + 0.3)
  let left : ℝ ← dp /ₚ (L * rho * vs * vs)
  right /ₚ left

/-- packed_bed.py:1269-1270 `voidage_Benyahia_Oneil`. -/
def voidage_Benyahia_Oneil (Dpe Dt sphericity : ℝ) : Py ℝ := do
  let t1 : ℝ ← Dt /ₚ Dpe
  let x1 : ℝ := t1 + 0.1226
  let t2 : ℝ ← 0.2024 /ₚ sphericity
  let t3 : ℝ ← 1.0814 /ₚ (x1 * x1)
  return 0.1504 + t2 + t3

/-- packed_bed.py:1310-1311 `voidage_Benyahia_Oneil_spherical`. -/
def voidage_Benyahia_Oneil_spherical (Dp Dt : ℝ) : Py ℝ := do
  let t1 : ℝ ← Dt /ₚ Dp
  let x1 : ℝ := t1 + 1.140
  let t2 : ℝ ← 1.740 /ₚ (x1 * x1)
  return 0.390 + t2

/-- packed_bed.py:1355-1356 `voidage_Benyahia_Oneil_cylindrical`. -/
def voidage_Benyahia_Oneil_cylindrical (Dpe Dt sphericity : ℝ) : Py ℝ := do
  let t1 : ℝ ← Dt /ₚ Dpe
  let x1 : ℝ := t1 + 0.611
  let t2 : ℝ ← 1.703 /ₚ (x1 * x1)
  return 0.373 + t2

/-- packed_bed.py:891-896: wall factors of `Harrison_Brunner_Hecker` -/
def wallFactors (dp holdup : ℝ) : Option ℝ → Py (ℝ × ℝ)
  | none => .ok (1, 1)
  | some Dt => do
    let t2 : ℝ ← π * dp /ₚ (6 * holdup * Dt)
    let A : ℝ := 1 + t2
    let t3 : ℝ ← π * π * dp / 24 /ₚ Dt
    let t4 : ℝ ← dp /ₚ (2 * Dt)
    return (A * A, 1 - t3 * (1 - t4))

/-- packed_bed.py:889-898 `Harrison_Brunner_Hecker`. Defaults: L = 1, Dt = None. -/
def Harrison_Brunner_Hecker (dp voidage vs rho mu L : ℝ) (Dt : Option ℝ) : Py ℝ := do
  let Re : ℝ ← dp * rho * vs /ₚ mu
  let holdup : ℝ := 1 - voidage
  let AB ← wallFactors dp holdup Dt
  let t5 : ℝ ← Re /ₚ holdup
  let t6 : ℝ ← t5 ^ₚ (5 / 6)
  let fp : ℝ ← (119.8 * AB.1 + 4.63 * AB.2 * t6) * holdup * holdup /ₚ (voidage * voidage * voidage * Re)
  fp * rho * vs * vs * L /ₚ dp

/-- packed_bed.py:966-969: the diameter factor of `Montillet_Akkari_Comiti` -/
def diameterTerm (dp : ℝ) : Option ℝ → Py ℝ
  | none => .ok 2.2
  | some Dt => do
    let t2 : ℝ ← Dt /ₚ dp
    if t2 > 50 then return 2.2 else t2 ^ₚ 0.2

/-- packed_bed.py:961-972 `Montillet_Akkari_Comiti`. Defaults: L = 1, Dt = None. -/
def Montillet_Akkari_Comiti (dp voidage vs rho mu L : ℝ) (Dt : Option ℝ) : Py ℝ := do
  let Re : ℝ ← rho * vs * dp /ₚ mu
  let a : ℝ := if voidage < 0.4 then 0.061 else 0.05
  let Dterm : ℝ ← diameterTerm dp Dt
  let t5 : ℝ ← 1000 /ₚ Re
  let t6 : ℝ ← psqrt Re
  let t7 : ℝ ← 60 /ₚ t6
  let right : ℝ := a * Dterm * (t5 + t7 + 12)
  let t8 : ℝ ← dp /ₚ (L * rho * vs * vs * (1 - voidage))
  let left : ℝ := t8 * voidage * voidage * voidage
  right /ₚ left

/-- packed_bed.py:1039: `dp/Dt if Dt is not None else 3.5` -/
def wallRatio (dp : ℝ) : Option ℝ → Py ℝ
  | none => .ok 3.5
  | some Dt => dp /ₚ Dt

/-- packed_bed.py:1037-1041 `Guo_Sun`. Defaults: Dt = None, L = 1. -/
def Guo_Sun (dp voidage vs rho mu L : ℝ) (Dt : Option ℝ) : Py ℝ := do
  let holdup : ℝ := 1 - voidage
  let Rem : ℝ ← dp * rho * vs /ₚ (mu * holdup)
  let ratio : ℝ ← wallRatio dp Dt
  let t3 : ℝ ← Rem ^ₚ 0.97
  let fv : ℝ := 180 + (9.5374 * ratio - 2.8054) * t3
  let t4 : ℝ ← mu * vs * L /ₚ (dp * dp * voidage * voidage * voidage)
  return fv * t4 * holdup * holdup

/-- packed_bed.py:1104-1113 `dP_packed_bed_methods`; the other arguments are numbers, so their `None` tests are true; `check_ranges` is not read -/
def dP_packed_bed_methods (Dt : Option ℝ) : List String :=
  (if Dt.isSome then ["Harrison, Brunner & Hecker", "Montillet, Akkari & Comiti", "Guo, Sun, Zhang, Ding & Liu"] else []) ++
    ["Erdim, Akgiray & Demir", "Idelchik", "Fahien & Schriver", "KTA", "Brauer", "Hicks", "Carman", "Jones & Krier", "Kuo & Nydegger",
      "Tallmadge", "Ergun"]

/-- packed_bed.py:1174-1203: the choice of the correlation -/
def dispatch (dp voidage vs rho mu L : ℝ) (Dt : Option ℝ) (m : String) : Py ℝ :=
  if m = "Ergun" then Ergun dp voidage vs rho mu L
  else if m = "Tallmadge" then Tallmadge dp voidage vs rho mu L
  else if m = "Kuo & Nydegger" then Kuo_Nydegger dp voidage vs rho mu L
  else if m = "Jones & Krier" then Jones_Krier dp voidage vs rho mu L
  else if m = "Carman" then Carman dp voidage vs rho mu L
  else if m = "Hicks" then Hicks dp voidage vs rho mu L
  else if m = "Brauer" then Brauer dp voidage vs rho mu L
  else if m = "KTA" then KTA dp voidage vs rho mu L
  else if m = "Erdim, Akgiray & Demir" then Erdim_Akgiray_Demir dp voidage vs rho mu L
  else if m = "Fahien & Schriver" then Fahien_Schriver dp voidage vs rho mu L
  else if m = "Idelchik" then Idelchik dp voidage vs rho mu L
  else if m = "Harrison, Brunner & Hecker" then Harrison_Brunner_Hecker dp voidage vs rho mu L Dt
  else if m = "Montillet, Akkari & Comiti" then Montillet_Akkari_Comiti dp voidage vs rho mu L Dt
  else if m = "Guo, Sun, Zhang, Ding & Liu" then Guo_Sun dp voidage vs rho mu L Dt
  else .error .valueError

/-- packed_bed.py:1166-1203 `dP_packed_bed` -/
def dP_packed_bed (dp voidage vs rho mu L : ℝ) (Dt sphericity : Option ℝ) (Method : Option String) : Py ℝ :=
  let m := match Method with
    | none => if Dt.isSome then "Harrison, Brunner & Hecker" else "Erdim, Akgiray & Demir"
    | some m => m
  let dp : ℝ := match sphericity with
    | none => dp
    | some s => dp * s
  dispatch dp voidage vs rho mu L Dt m

end Verif.PackedBed
