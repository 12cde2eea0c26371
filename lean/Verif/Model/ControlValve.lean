import Verif.Py

/-!
# Model of `fluids/control_valve.py` (choking, sizing)

Python floats are modelled by real numbers.  Truthiness of an optional float (`if FL:`) is "given and not zero".
-/

open Real

noncomputable section

namespace Verif.CV

/-- control_valve.py:89 -/
def N1 : ℝ := 0.1
/-- control_valve.py:90 -/
def N2 : ℝ := 1.6e-3
/-- control_valve.py:91 -/
def N4 : ℝ := 7.07e-2
/-- control_valve.py:92 -/
def N5 : ℝ := 1.8e-3
/-- control_valve.py:97 -/
def N9 : ℝ := 2.46e1
/-- control_valve.py:98 -/
def N18 : ℝ := 8.65e-1
/-- control_valve.py:102 -/
def N32 : ℝ := 1.4e2
/-- control_valve.py:105 -/
def rho0 : ℝ := 999.10329075702327
/-- constants/constants.py:63-69 (imported at control_valve.py:65): the molar gas constant `N_A*k` -/
def R : ℝ := 8.31446261815324

/-- control_valve.py:158 `cavitation_index` -/
def cavitation_index (P1 P2 Psat : ℝ) : Py ℝ := (P1 - Psat) /ₚ (P1 - P2)

/-- control_valve.py:191 `FF_critical_pressure_ratio_l` -/
def FF_critical_pressure_ratio_l (Psat Pc : ℝ) : Py ℝ := do
  let r ← Psat /ₚ Pc
  let s ← psqrt r
  return 0.96 - 0.28 * s

/-- control_valve.py:242-257 `control_valve_choke_P_l` -/
def control_valve_choke_P_l (Psat Pc FL : ℝ) (P1 P2 : Option ℝ) (check_choking : Bool) : Py ℝ := do
  let r ← Psat /ₚ Pc
  let s ← psqrt r
  let FF : ℝ := 0.96 - 0.28 * s
  match P2, P1 with
  | none, none => .error .valueError
  | none, some P1 =>
    let P2 : ℝ := FF * FL * FL * Psat - FL * FL * P1 + P1
    if P2 > P1 ∧ check_choking then .error .valueError else .ok P2
  | some P2, none => do
    let P1 ← (FF * FL * FL * Psat - P2) /ₚ (FL * FL - 1)
    if P2 > P1 ∧ check_choking then .error .valueError else .ok P1
  | some _, some _ => .error .valueError

/-- control_valve.py:302-310 `control_valve_choke_P_g` -/
def control_valve_choke_P_g (xT gamma : ℝ) (P1 P2 : Option ℝ) : Py ℝ :=
  match P2, P1 with
  | none, none => .error .valueError
  | none, some P1 => .ok (P1 * (-5 * gamma * xT + 7) / 7)
  | some P2, none => -7 * P2 /ₚ (5 * gamma * xT - 7)
  | some _, some _ => .error .valueError

/-- control_valve.py:359, 361: truthiness of an optional float -/
def truthy (x : Option ℝ) : Prop := ∃ v, x = some v ∧ v ≠ 0

instance (x : Option ℝ) : Decidable (truthy x) := Classical.dec _

/-- control_valve.py:359-364 `is_choked_turbulent_l` -/
def is_choked_turbulent_l (dP P1 Psat FF : ℝ) (FL FLP FP : Option ℝ) : Py Bool :=
  if truthy FLP ∧ truthy FP then do
    let q ← FLP.getD 0 * FLP.getD 0 /ₚ (FP.getD 0 * FP.getD 0)
    return decide (dP ≥ q * (P1 - FF * Psat))
  else if truthy FL then .ok (decide (dP ≥ FL.getD 0 * FL.getD 0 * (P1 - FF * Psat)))
  else .error .valueError

/-- control_valve.py:409-414 `is_choked_turbulent_g` -/
def is_choked_turbulent_g (x Fgamma : ℝ) (xT xTP : Option ℝ) : Py Bool :=
  if truthy xT then .ok (decide (x ≥ Fgamma * xT.getD 0))
  else if truthy xTP then .ok (decide (x ≥ Fgamma * xTP.getD 0))
  else .error .valueError

/-- control_valve.py:457 `Reynolds_valve` -/
def Reynolds_valve (nu Q D1 FL Fd C : ℝ) : Py ℝ := do
  let a ← N4 * Fd * Q /ₚ nu
  let s ← psqrt (C * FL)
  let b ← a * 1 /ₚ s
  let c ← FL * FL * C * C /ₚ N2
  let p ← D1 ^ₚ (-4)
  let r ← psqrt (c * p + 1)
  let t ← psqrt r
  return b * t

/-- control_valve.py:505-516 `loss_coefficient_piping` -/
def loss_coefficient_piping (d : ℝ) (D1 D2 : Option ℝ) : ℝ :=
  let loss1 : ℝ := if truthy D1 then
    let dr : ℝ := d / D1.getD 0
    let dr2 : ℝ := dr * dr
    0 + (1 - dr2 * dr2) + 0.5 * (1 - dr2) * (1 - dr2) else 0
  if truthy D2 then
    let dr : ℝ := d / D2.getD 0
    let dr2 : ℝ := dr * dr
    loss1 + 1 * (1 - dr2) * (1 - dr2) - (1 - dr2 * dr2)
  else loss1

/-- control_valve.py:589-605 `Reynolds_factor` -/
def Reynolds_factor (FL C d Rev : ℝ) (full_trim : Bool) : Py ℝ :=
  if full_trim then do
    let q ← C /ₚ (d * d)
    let n1 ← N2 /ₚ (min q 0.04) ^ 2
    let sF ← psqrt FL
    let s1 ← psqrt n1
    let s2 ← psqrt s1
    let a ← 0.33 * sF /ₚ s2
    let l ← plog10 (Rev / 10000)
    let FR_1a : ℝ := 1 + a * l
    let b ← 0.026 /ₚ FL
    let s3 ← psqrt (n1 * Rev)
    let FR_2 : ℝ := b * s3
    if Rev < 10 then .ok FR_2 else .ok (min FR_2 FR_1a)
  else do
    let q ← C /ₚ d ^ 2
    let w ← q ^ₚ (2 / 3)
    let n2 : ℝ := 1 + N32 * w
    let sF ← psqrt FL
    let s1 ← psqrt n2
    let s2 ← psqrt s1
    let a ← 0.33 * sF /ₚ s2
    let l ← plog10 (Rev / 10000)
    let FR_3a : ℝ := 1 + a * l
    let b ← 0.026 /ₚ FL
    let s3 ← psqrt (n2 * Rev)
    let FR_4 : ℝ := min (b * s3) 1
    if Rev < 10 then .ok FR_4 else .ok (min FR_3a FR_4)

/-- control_valve.py:907: the values `size_control_valve_l/_g` put in their `full_output` dictionary; the scalar answer is `Kv` -/
structure Sized where
  Kv : ℝ
  choked : Bool
  laminar : Bool
  /-- `FLP` (liquids) or `xTP` (gases) -/
  FLP : Option ℝ
  FP : Option ℝ
  FR : Option ℝ
  Rev : Option ℝ
  warning : Bool

/-- control_valve.py:608, 785: result of one piping iteration: `C`, then the `FLP`/`xTP`, `FP`, choked flag and warning stored in the dictionary when it returns -/
structure Iter where
  C : ℝ
  FLP : ℝ
  FP : ℝ
  choked : Bool
  warning : Bool

/-- control_valve.py:728-742: the part of the local function `iterate_piping_turbulent_l` before its recursion test: `(C, FLP, FP, choked)` -/
def bodyTurbL (rho FL FF dP P1 Psat Q D1 D2 d Ci : ℝ) : Py (ℝ × ℝ × ℝ × Bool) := do
  let loss : ℝ := loss_coefficient_piping d (some D1) (some D2)
  let q ← Ci /ₚ d ^ 2
  let s ← psqrt (1 + loss / N2 * q ^ 2)
  let FP ← 1 /ₚ s
  let loss_upstream : ℝ := if d > D1 then 0 else loss_coefficient_piping d (some D1) none
  let s' ← psqrt (1 + FL ^ 2 / N2 * loss_upstream * q ^ 2)
  let FLP ← FL * 1 /ₚ s'
  let choked ← is_choked_turbulent_l dP P1 Psat FF none (some FLP) (some FP)
  let C ← (if choked then do
      let a ← Q / N1 /ₚ FLP
      let b ← rho / rho0 /ₚ (P1 - FF * Psat)
      let c ← psqrt b
      return a * c
    else do
      let a ← Q / N1 /ₚ FP
      let b ← rho / rho0 /ₚ dP
      let c ← psqrt b
      return a * c : Py ℝ)
  return (C, FLP, FP, choked)

/-- control_valve.py:727-750 the local function `iterate_piping_turbulent_l`; the fuel is `MAX_ITER - iterations` (`MAX_ITER = 20`).  The
dictionary writes of the outer call come after those of the inner one.  `full` is `full_output`; without it the name `ans` of line 746 is
unbound. -/
def iterTurbL (full : Bool) (rho FL FF dP P1 Psat Q D1 D2 d : ℝ) : ℕ → ℝ → Py Iter
  | 0, Ci => do
    let (C, FLP, FP, choked) ← bodyTurbL rho FL FF dP P1 Psat Q D1 D2 d Ci
    let _ratio ← Ci /ₚ C
    if full then .ok ⟨C, FLP, FP, choked, true⟩ else .error .nameError
  | n + 1, Ci => do
    let (C, FLP, FP, choked) ← bodyTurbL rho FL FF dP P1 Psat Q D1 D2 d Ci
    let ratio ← Ci /ₚ C
    let r ← (if ratio < 0.99 ∧ Ci < 1e40 then iterTurbL full rho FL FF dP P1 Psat Q D1 D2 d n C
      else .ok ⟨C, FLP, FP, choked, false⟩ : Py Iter)
    if Ci ≥ 1e40 then
      if full then .ok ⟨r.C, FLP, FP, choked, true⟩ else .error .nameError
    else .ok ⟨r.C, FLP, FP, choked, r.warning⟩

/-- control_valve.py:755-768 and 973-985 the local functions `iterate_piping_laminar_l/_g`: `(Ci, FR, Rev)`.  The recursion has no bound of
its own; the fuel is the interpreter's recursion limit and running out of it is its RecursionError (`.exception`).  The outermost call writes
the dictionary last. -/
def iterLaminar (nu Q D1 d FL Fd : ℝ) : ℕ → ℝ → Py (ℝ × ℝ × ℝ)
  | 0, _ => .error .exception
  | n + 1, C => do
    let Ci : ℝ := 1.3 * C
    let Rev ← Reynolds_valve nu Q D1 FL Fd Ci
    let q ← Ci /ₚ (d * d)
    let FR ← (if q > 0.016 * N18 then Reynolds_factor FL Ci d Rev false else Reynolds_factor FL Ci d Rev true : Py ℝ)
    let t ← C /ₚ FR
    if t ≥ Ci then do
      let r ← iterLaminar nu Q D1 d FL Fd n Ci
      return (r.1, FR, Rev)
    else return (Ci, FR, Rev)

/-- control_valve.py:695-782 `size_control_valve_l`; `full` is `full_output` (both results are the record, see `Sized`), `fuel` the
interpreter's recursion limit. -/
def size_control_valve_l (fuel : ℕ) (rho Psat Pc mu P1 P2 Q : ℝ) (D1 D2 d : Option ℝ) (FL Fd : ℝ) (allow_choked allow_laminar full : Bool) :
    Py Sized := do
  let P1 : ℝ := P1 / 1000
  let P2 : ℝ := P2 / 1000
  let Psat : ℝ := Psat / 1000
  let Pc : ℝ := Pc / 1000
  let Q : ℝ := Q * 3600
  let nu ← mu /ₚ rho
  let dP : ℝ := P1 - P2
  let FF ← FF_critical_pressure_ratio_l Psat Pc
  let choked ← is_choked_turbulent_l dP P1 Psat FF (some FL) none none
  let C ← (if choked ∧ allow_choked then do
      let a ← Q / N1 /ₚ FL
      let b ← rho / rho0 /ₚ (P1 - FF * Psat)
      let c ← psqrt b
      return a * c
    else do
      let b ← rho / rho0 /ₚ dP
      let c ← psqrt b
      return Q / N1 * c : Py ℝ)
  match D1, D2, d with
  | none, none, none => return ⟨C, choked, false, none, none, none, some 1e5, false⟩
  | some D1, some D2, some d => do
    let D1 : ℝ := D1 * 1000
    let D2 : ℝ := D2 * 1000
    let d : ℝ := d * 1000
    let Rev ← Reynolds_valve nu Q D1 FL Fd C
    if (Rev > 10000 ∨ allow_laminar = false) ∧ (D1 ≠ d ∨ D2 ≠ d) then do
      let r ← iterTurbL full rho FL FF dP P1 Psat Q D1 D2 d 20 C
      return ⟨r.C, choked, decide (Rev ≤ 10000), some r.FLP, some r.FP, none, some Rev, r.warning⟩
    else if Rev ≤ 10000 ∧ allow_laminar then do
      let r ← iterLaminar nu Q D1 d FL Fd fuel C
      return ⟨r.1, choked, decide (Rev ≤ 10000), none, none, some r.2.1, some r.2.2, false⟩
    else return ⟨C, choked, decide (Rev ≤ 10000), none, none, none, some Rev, false⟩
  | _, _, _ => .error .valueError

/-- control_valve.py:929-939: the part of the local function `iterate_piping_coef_g` before its recursion test: `(C, xTP, FP, choked)` -/
def bodyTurbG (T MW Z Fgamma xT x Y P1 Q D1 D2 d Ci : ℝ) : Py (ℝ × ℝ × ℝ × Bool) := do
  let loss : ℝ := loss_coefficient_piping d (some D1) (some D2)
  let q ← Ci /ₚ d ^ 2
  let s ← psqrt (1 + loss / N2 * q ^ 2)
  let FP ← 1 /ₚ s
  let loss_upstream : ℝ := loss_coefficient_piping d (some D1) none
  let a ← xT /ₚ FP ^ 2
  let xTP ← a /ₚ (1 + xT * loss_upstream / N5 * q ^ 2)
  let choked ← is_choked_turbulent_g x Fgamma none (some xTP)
  let a ← Q /ₚ (N9 * FP * P1 * Y)
  let C ← (if choked then do
      let b ← MW * T * Z /ₚ xTP
      let b' ← b /ₚ Fgamma
      let c ← psqrt b'
      return a * c
    else do
      let b ← MW * T * Z /ₚ x
      let c ← psqrt b
      return a * c : Py ℝ)
  return (C, xTP, FP, choked)

/-- control_valve.py:928-948 the local function `iterate_piping_coef_g`; the warning is only recorded, never needed for the answer -/
def iterTurbG (T MW Z Fgamma xT x Y P1 Q D1 D2 d : ℝ) : ℕ → ℝ → Py Iter
  | 0, Ci => do
    let (C, xTP, FP, choked) ← bodyTurbG T MW Z Fgamma xT x Y P1 Q D1 D2 d Ci
    let _ratio ← Ci /ₚ C
    .ok ⟨C, xTP, FP, choked, true⟩
  | n + 1, Ci => do
    let (C, xTP, FP, choked) ← bodyTurbG T MW Z Fgamma xT x Y P1 Q D1 D2 d Ci
    let ratio ← Ci /ₚ C
    let r ← (if ratio < 0.99 ∧ Ci < 1e40 then iterTurbG T MW Z Fgamma xT x Y P1 Q D1 D2 d n C
      else .ok ⟨C, xTP, FP, choked, false⟩ : Py Iter)
    .ok ⟨r.C, xTP, FP, choked, r.warning || decide (Ci ≥ 1e40)⟩

/-- control_valve.py:883-992 `size_control_valve_g` -/
def size_control_valve_g (fuel : ℕ) (T MW mu gamma Z P1 P2 Q : ℝ) (D1 D2 d : Option ℝ) (FL Fd xT : ℝ) (allow_choked allow_laminar : Bool) :
    Py Sized := do
  let P1 : ℝ := P1 * 1e-3
  let P2 : ℝ := P2 * 1e-3
  let Q : ℝ := Q * 3600
  let Vm ← Z * R * T /ₚ (P1 * 1000)
  let rho ← MW * 1e-3 /ₚ Vm
  let nu ← mu /ₚ rho
  let dP : ℝ := P1 - P2
  let Fgamma : ℝ := gamma / 1.4
  let x ← dP /ₚ P1
  let y ← x /ₚ (3 * Fgamma * xT)
  let Y : ℝ := max (1 - y) (2 / 3)
  let choked ← is_choked_turbulent_g x Fgamma (some xT) none
  let a ← Q /ₚ (N9 * P1 * Y)
  let C ← (if choked ∧ allow_choked then do
      let b ← MW * T * Z /ₚ xT
      let b' ← b /ₚ Fgamma
      let c ← psqrt b'
      return a * c
    else do
      let b ← MW * T * Z /ₚ x
      let c ← psqrt b
      return a * c : Py ℝ)
  match D1, D2, d with
  | none, none, none => return ⟨C, choked, false, none, none, none, none, false⟩
  | some D1, some D2, some d => do
    let D1 : ℝ := D1 * 1000
    let D2 : ℝ := D2 * 1000
    let d : ℝ := d * 1000
    let Rev ← Reynolds_valve nu Q D1 FL Fd C
    if (Rev > 10000 ∨ allow_laminar = false) ∧ (D1 ≠ d ∨ D2 ≠ d) then do
      let r ← iterTurbG T MW Z Fgamma xT x Y P1 Q D1 D2 d 20 C
      return ⟨r.C, choked, decide (Rev ≤ 10000), some r.FLP, some r.FP, none, some Rev, r.warning⟩
    else if Rev ≤ 10000 ∧ allow_laminar then do
      let r ← iterLaminar nu Q D1 d FL Fd fuel C
      return ⟨r.1, choked, decide (Rev ≤ 10000), none, none, some r.2.1, some r.2.2, false⟩
    else return ⟨C, choked, decide (Rev ≤ 10000), none, none, none, some Rev, false⟩
  | _, _, _ => .error .valueError

end Verif.CV
