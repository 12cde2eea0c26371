import Verif.Model.Core

/-!
# Model of `fluids/friction.py`: straight and curved pipe friction factors and the pressure-drop helpers

`W` is the principal branch of the Lambert W function (`lambertw(x).real`), a parameter; `solve err guess xtol` is `secant`.
`raise`s are values. Method names are strings. Floating point overflow does not exist in exact arithmetic, so the `except
OverflowError` fallback of `Colebrook` is reached here only through a user tolerance.
-/

namespace Verif.Friction
noncomputable section
open Real

/-- special.py:34-35 / `math.cbrt`: real cube root. -/
def pcbrt (x : ℝ) : Py ℝ := .ok (if 0 ≤ x then x ^ (1 / 3 : ℝ) else -(-x) ^ (1 / 3 : ℝ))

/-- friction.py:233 -/
def LAMINAR_TRANSITION_PIPE : ℝ := 2040

/-- friction.py:266-303 `friction_laminar`. -/
def friction_laminar (Re : ℝ) : Py ℝ := do
  64 /ₚ Re

/-- friction.py:306-342 `Blasius`. -/
def Blasius (Re : ℝ) : Py ℝ := do
  let t1 ← psqrt Re
  let t2 ← psqrt t1
  0.3164 /ₚ t2

/-- friction.py:483-554 `Clamond`. Default: fast = False. The decimals are those written in the source. -/
def Clamond (Re eD : ℝ) (fast : Bool) : Py ℝ := do
  let X1 : ℝ := eD * Re * 0.1239681863354175460160858261654858382699
  let t1 ← plog Re
  let X2 : ℝ := t1 - 0.7793974884556819406441139701653776731705
  let F : ℝ := X2 - 0.2
  let X1F : ℝ := X1 + F
  let X1F1 : ℝ := 1 + X1F
  let t2 ← plog X1F
  let E ← (t2 - 0.2) /ₚ X1F1
  let t4 ← (X1F1 + 0.5 * E) * E * X1F /ₚ (X1F1 + E * (1 + 1 / 3 * E))
  let F : ℝ := F - t4
  if fast then 1.325474527619599502640416597148504422899 /ₚ (F * F)
  else do
    let X1F : ℝ := X1 + F
    let X1F1 : ℝ := 1 + X1F
    let t5 ← plog X1F
    let E ← (t5 + F - X2) /ₚ X1F1
    let b : ℝ := X1F1 + E * (1 + 1 / 3 * E)
    let F ← b /ₚ (b * F - (X1F1 + 0.5 * E) * E * X1F)
    return 1.325474527619599502640416597148504422899 * (F * F)

/-- friction.py:557-595 `Moody`. -/
def Moody (Re eD : ℝ) : Py ℝ := do
  let t1 ← 1e6 /ₚ Re
  let t2 ← pcbrt (2e4 * eD + t1)
  return 4 * (1.375e-3 * (1 + t2))

/-- friction.py:598-633 `Alshul_1952`. -/
def Alshul_1952 (Re eD : ℝ) : Py ℝ := do
  let t1 ← 68 /ₚ Re
  let t2 ← psqrt (t1 + eD)
  let t3 ← psqrt t2
  return 0.11 * t3

/-- friction.py:636-678 `Wood_1966`. -/
def Wood_1966 (Re eD : ℝ) : Py ℝ := do
  let t1 ← eD ^ₚ 0.134
  let A1 : ℝ := 1.62 * t1
  let t2 ← eD ^ₚ 0.225
  let t3 ← eD ^ₚ 0.4
  let t4 ← Re ^ₚ (-A1)
  return 0.094 * t2 + 0.53 * eD + 88 * t3 * t4

/-- friction.py:681-721 `Churchill_1973`. -/
def Churchill_1973 (Re eD : ℝ) : Py ℝ := do
  let t1 ← 7 /ₚ Re
  let t2 ← t1 ^ₚ 0.9
  let t3 ← plog10 (eD * (1 / 3.7) + t2)
  let term : ℝ := -2 * t3
  1 /ₚ (term * term)

/-- friction.py:724-762 `Eck_1973`. -/
def Eck_1973 (Re eD : ℝ) : Py ℝ := do
  let t1 ← 15 /ₚ Re
  let t2 ← plog10 (eD * (1 / 3.715) + t1)
  let term : ℝ := -2 * t2
  1 /ₚ (term * term)

/-- friction.py:765-804 `Jain_1976`. -/
def Jain_1976 (Re eD : ℝ) : Py ℝ := do
  let t1 ← 29.843 /ₚ Re
  let t2 ← t1 ^ₚ 0.9
  let t3 ← plog10 (eD + t2)
  let term : ℝ := 2.28 - 4 * t3
  4 /ₚ (term * term)

/-- friction.py:807-847 `Swamee_Jain_1976`. -/
def Swamee_Jain_1976 (Re eD : ℝ) : Py ℝ := do
  let t1 ← 6.97 /ₚ Re
  let t2 ← t1 ^ₚ 0.9
  let t3 ← plog10 (t2 + eD * (1 / 3.7))
  let term : ℝ := -4 * t3
  4 /ₚ (term * term)

/-- friction.py:850-897 `Churchill_1977`. -/
def Churchill_1977 (Re eD : ℝ) : Py ℝ := do
  let t1 ← 37530 /ₚ Re
  let A3 : ℝ := t1 ^ 16
  let t2 ← 7 /ₚ Re
  let t3 ← t2 ^ₚ 0.9
  let t4 ← plog (t3 + 0.27 * eD)
  let A2 : ℝ := (2.457 * t4) ^ 16
  let t5 ← 8 /ₚ Re
  let t6 ← (A2 + A3) ^ₚ 1.5
  let t7 ← 1 /ₚ t6
  let t8 ← (t5 ^ 12 + t7) ^ₚ (1 / 12)
  let ff : ℝ := 2 * t8
  return 4 * ff

/-- friction.py:900-945 `Chen_1979`. -/
def Chen_1979 (Re eD : ℝ) : Py ℝ := do
  let t1 ← eD ^ₚ 1.1098
  let t2 ← 7.149 /ₚ Re
  let t3 ← t2 ^ₚ 0.8981
  let A4 : ℝ := t1 * (1 / 2.8257) + t3
  let t4 ← 5.0452 /ₚ Re
  let t5 ← plog10 A4
  let t6 ← plog10 (eD * (1 / 3.7065) - t4 * t5)
  let term : ℝ := -4 * t6
  4 /ₚ (term * term)

/-- friction.py:948-989 `Round_1980`. -/
def Round_1980 (Re eD : ℝ) : Py ℝ := do
  let t1 ← Re /ₚ (0.135 * Re * eD + 6.5)
  let t2 ← plog10 t1
  let term : ℝ := -3.6 * t2
  4 /ₚ (term * term)

/-- friction.py:992-1033 `Shacham_1980`. -/
def Shacham_1980 (Re eD : ℝ) : Py ℝ := do
  let t1 ← 5.02 /ₚ Re
  let t2 ← 14.5 /ₚ Re
  let t3 ← plog10 (eD * (1 / 3.7) + t2)
  let t4 ← plog10 (eD * (1 / 3.7) - t1 * t3)
  let term : ℝ := -4 * t4
  4 /ₚ (term * term)

/-- friction.py:1036-1078 `Barr_1981`. -/
def Barr_1981 (Re eD : ℝ) : Py ℝ := do
  let t1 ← plog10 (Re * (1 / 7))
  let t2 ← Re ^ₚ 0.52
  let t3 ← eD ^ₚ 0.7
  let t4 ← 4.518 * t1 /ₚ (Re * (1 + t2 * (1 / 29) * t3))
  let t5 ← plog10 (eD * (1 / 3.7) + t4)
  let term : ℝ := -2 * t5
  1 /ₚ (term * term)

/-- friction.py:1081-1124 `Zigrang_Sylvester_1`. -/
def Zigrang_Sylvester_1 (Re eD : ℝ) : Py ℝ := do
  let t1 ← 13 /ₚ Re
  let A5 : ℝ := eD * (1 / 3.7) + t1
  let t2 ← 5.02 /ₚ Re
  let t3 ← plog10 A5
  let t4 ← plog10 (eD * (1 / 3.7) - t2 * t3)
  let term : ℝ := -4 * t4
  4 /ₚ (term * term)

/-- friction.py:1127-1175 `Zigrang_Sylvester_2`. -/
def Zigrang_Sylvester_2 (Re eD : ℝ) : Py ℝ := do
  let t1 ← 13 /ₚ Re
  let A5 : ℝ := eD * (1 / 3.7) + t1
  let t2 ← 5.02 /ₚ Re
  let t3 ← plog10 A5
  let A6 : ℝ := eD * (1 / 3.7) - t2 * t3
  let t4 ← 5.02 /ₚ Re
  let t5 ← plog10 A6
  let t6 ← plog10 (eD * (1 / 3.7) - t4 * t5)
  let term : ℝ := -4 * t6
  4 /ₚ (term * term)

/-- friction.py:1178-1218 `Haaland`. -/
def Haaland (Re eD : ℝ) : Py ℝ := do
  let t1 ← 6.9 /ₚ Re
  let t2 ← (eD * (1 / 3.7)) ^ₚ 1.11
  let t3 ← plog10 (t1 + t2)
  let term : ℝ := -3.6 * t3
  4 /ₚ (term * term)

/-- friction.py:1221-1272 `Serghides_1`. -/
def Serghides_1 (Re eD : ℝ) : Py ℝ := do
  let t1 ← 12 /ₚ Re
  let t2 ← plog10 (eD * (1 / 3.7) + t1)
  let A : ℝ := -2 * t2
  let t3 ← 2.51 * A /ₚ Re
  let t4 ← plog10 (eD * (1 / 3.7) + t3)
  let B : ℝ := -2 * t4
  let t5 ← 2.51 * B /ₚ Re
  let t6 ← plog10 (eD * (1 / 3.7) + t5)
  let C : ℝ := -2 * t6
  let B_minus_A : ℝ := B - A
  let t7 ← B_minus_A * B_minus_A /ₚ (C - 2 * B + A)
  let term : ℝ := A - t7
  1 /ₚ (term * term)

/-- friction.py:1275-1324 `Serghides_2`. -/
def Serghides_2 (Re eD : ℝ) : Py ℝ := do
  let t1 ← 12 /ₚ Re
  let t2 ← plog10 (eD * (1 / 3.7) + t1)
  let A : ℝ := -2 * t2
  let t3 ← 2.51 * A /ₚ Re
  let t4 ← plog10 (eD * (1 / 3.7) + t3)
  let B : ℝ := -2 * t4
  let x1 : ℝ := A - 4.781
  let t5 ← x1 * x1 /ₚ (B - 2 * A + 4.781)
  let term : ℝ := 4.781 - t5
  1 /ₚ (term * term)

/-- friction.py:1327-1372 `Tsal_1989`. -/
def Tsal_1989 (Re eD : ℝ) : Py ℝ := do
  let t1 ← 68 /ₚ Re
  let t2 ← psqrt (t1 + eD)
  let t3 ← psqrt t2
  let A : ℝ := 0.11 * t3
  if A ≥ 0.018 then
    return A
  else
    return 0.0028 + 0.85 * A

/-- friction.py:1375-1414 `Manadilli_1997`. -/
def Manadilli_1997 (Re eD : ℝ) : Py ℝ := do
  let t1 ← Re ^ₚ (-0.983)
  let t2 ← 96.82 /ₚ Re
  let t3 ← plog10 (eD * (1 / 3.7) + 95 * t1 - t2)
  let term : ℝ := -2 * t3
  1 /ₚ (term * term)

/-- friction.py:1417-1460 `Romeo_2002`. -/
def Romeo_2002 (Re eD : ℝ) : Py ℝ := do
  let t1 ← 5.0272 /ₚ Re
  let t2 ← 4.567 /ₚ Re
  let t3 ← (eD * (1 / 7.7918)) ^ₚ 0.9924
  let t4 ← 5.3326 /ₚ (208.815 + Re)
  let t5 ← t4 ^ₚ 0.9345
  let t6 ← plog10 (t3 + t5)
  let t7 ← plog10 (eD * (1 / 3.827) - t2 * t6)
  let t8 ← plog10 (eD * (1 / 3.7065) - t1 * t7)
  let term : ℝ := -2 * t8
  1 /ₚ (term * term)

/-- friction.py:1463-1506 `Sonnad_Goudar_2006`. -/
def Sonnad_Goudar_2006 (Re eD : ℝ) : Py ℝ := do
  let t1 ← plog (0.4587 * Re)
  let S : ℝ := 0.124 * eD * Re + t1
  let t2 ← S /ₚ (S + 1)
  let t3 ← S ^ₚ t2
  let t4 ← 0.4587 * Re /ₚ t3
  let t5 ← plog t4
  let term : ℝ := 0.8686 * t5
  1 /ₚ (term * term)

/-- friction.py:1509-1557 `Rao_Kumar_2007`. -/
def Rao_Kumar_2007 (Re eD : ℝ) : Py ℝ := do
  let term ← plog (Re * (1 / 6.5))
  let beta : ℝ := 1 - 0.55 * Real.exp (-0.33 * term * term)
  let t2 ← 0.444 /ₚ Re
  let t3 ← 1 /ₚ (2 * eD * beta * (t2 + 0.135))
  let t4 ← plog10 t3
  let term : ℝ := 2 * t4
  1 /ₚ (term * term)

/-- friction.py:1560-1607 `Buzzelli_2008`. -/
def Buzzelli_2008 (Re eD : ℝ) : Py ℝ := do
  let t1 ← plog Re
  let t2 ← psqrt eD
  let B1 ← (0.774 * t1 - 1.41) /ₚ (1 + 1.32 * t2)
  let B2 : ℝ := eD * (1 / 3.7) * Re + 2.51 * B1
  let t4 ← B2 /ₚ Re
  let t5 ← plog10 t4
  let t6 ← 2.18 /ₚ B2
  let t7 ← (B1 + 2 * t5) /ₚ (1 + t6)
  let term : ℝ := B1 - t7
  1 /ₚ (term * term)

/-- friction.py:1610-1650 `Avci_Karagoz_2009`. -/
def Avci_Karagoz_2009 (Re eD : ℝ) : Py ℝ := do
  let t1 ← plog Re
  let t2 ← psqrt eD
  let t3 ← plog (1 + 0.01 * Re * eD * (1 + 10 * t2))
  let t4 ← (t1 - t3) ^ₚ (-2.4)
  return 6.4 * t4

/-- friction.py:1653-1696 `Papaevangelo_2010`. -/
def Papaevangelo_2010 (Re eD : ℝ) : Py ℝ := do
  let t1 ← plog Re
  let x1 : ℝ := 7 - t1
  let t2 ← Re ^ₚ (-0.9142)
  let term ← plog10 (eD * (1 / 3.615) + 7.366 * t2)
  (0.2479 - 0.0000947 * x1 * x1 * x1 * x1) /ₚ (term * term)

/-- friction.py:1699-1743 `Brkic_2011_1`. -/
def Brkic_2011_1 (Re eD : ℝ) : Py ℝ := do
  let t1 ← plog (1 + 1.1 * Re)
  let t2 ← 1.1 * Re /ₚ t1
  let t3 ← plog t2
  let t4 ← Re /ₚ (1.816 * t3)
  let beta ← plog t4
  let t6 ← 10 ^ₚ (-0.4343 * beta)
  let t7 ← plog10 (t6 + eD * (1 / 3.71))
  let term : ℝ := -2 * t7
  1 /ₚ (term * term)

/-- friction.py:1746-1790 `Brkic_2011_2`. -/
def Brkic_2011_2 (Re eD : ℝ) : Py ℝ := do
  let t1 ← plog (1 + 1.1 * Re)
  let t2 ← 1.1 * Re /ₚ t1
  let t3 ← plog t2
  let t4 ← Re /ₚ (1.816 * t3)
  let beta ← plog t4
  let t6 ← 2.18 * beta /ₚ Re
  let t7 ← plog10 (t6 + eD * (1 / 3.71))
  let term : ℝ := -2 * t7
  1 /ₚ (term * term)

/-- friction.py:1793-1837 `Fang_2011`. -/
def Fang_2011 (Re eD : ℝ) : Py ℝ := do
  let t1 ← eD ^ₚ 1.1007
  let t2 ← Re ^ₚ (-1.1105)
  let t3 ← Re ^ₚ (-1.0712)
  let term ← plog (0.234 * t1 - 60.525 * t2 + 56.291 * t3)
  1.613 /ₚ (term * term)

/-- friction.py:1839-1876 `von_Karman`. -/
def von_Karman (eD : ℝ) : Py ℝ := do
  let x ← plog10 (eD * (1 / 3.7))
  0.25 /ₚ (x * x)

/-- friction.py:443-466: the closed form. The decimals 0.1587…, 0.1076…, 1.1512…, 2.3025…, 457.28… of the source are idealised to the
constants named in its comments: 1/6.3001, 1/9.287, log(sqrt(10)), log(10), log(10)**2*3.7**2*2.51**2. -/
def Colebrook_analytical (W : ℝ → ℝ) (Re eD : ℝ) : Py ℝ := do
  let eD_Re : ℝ := eD * Re
  let t1 ← 10 ^ₚ (1 / 9.287 * eD_Re)
  let sub : ℝ := 1 / 6.3001 * t1 * Re * Re
  let t2 ← psqrt sub
  let lambert_term : ℝ := W (log 10 / 2 * t2)
  let den : ℝ := log 10 * eD_Re - 18.574 * lambert_term
  (log 10) ^ 2 * 3.7 ^ 2 * 2.51 ^ 2 /ₚ (den * den)

/-- friction.py:474-478: the residual of the numerical branch (`1/3.7` idealised). -/
def Colebrook_err (Re eD x : ℝ) : Py ℝ := do
  let t1 ← psqrt |x|
  let f_12_inv ← 1 /ₚ t1
  let t2 ← 2.51 /ₚ Re
  let t3 ← plog10 (eD * (1 / 3.7) + t2 * f_12_inv)
  return f_12_inv + 2 * t3

/-- friction.py:467-480: the numerical branch; `Clamond` gives the guess, `Blasius` when it raises `ValueError`. -/
def Colebrook_numerical (solve : (ℝ → Py ℝ) → ℝ → ℝ → Py ℝ) (Re eD tol : ℝ) : Py ℝ := do
  let guess ← (match Clamond Re eD false with
    | .error .valueError => Blasius Re
    | r => r : Py ℝ)
  let r ← solve (Colebrook_err Re eD) guess tol
  return |r|

/-- friction.py:345-480 `Colebrook(Re, eD, tol)`. `tol = 0` evaluates the closed form with mpmath: the same real number. -/
def Colebrook (W : ℝ → ℝ) (solve : (ℝ → Py ℝ) → ℝ → ℝ → Py ℝ) (Re eD : ℝ) (tol : Option ℝ) : Py ℝ :=
  match tol with
  | none => Colebrook_analytical W Re eD
  | some t =>
    if t = -1 then
      if Re > 10 then Clamond Re eD false else Colebrook_analytical W Re eD
    else if t = 0 then Colebrook_analytical W Re eD
    else Colebrook_numerical solve Re eD t

/-- friction.py:1879-1927 `Prandtl_von_Karman_Nikuradse` (`c1`, `c2` idealised to log(10)/2, log(10)**2/4 as commented). -/
def Prandtl_von_Karman_Nikuradse (W : ℝ → ℝ) (Re : ℝ) : Py ℝ := do
  let c1 : ℝ := log 10 / 2
  let c2 : ℝ := (log 10) ^ 2 / 4
  let t1 ← c1 * Re /ₚ 2.51
  c2 /ₚ (W t1 ^ 2)

/-- friction.py:1942-2017 `ft_Crane`. -/
def ft_Crane (D : ℝ) : Py ℝ := do
  let fast : Bool := !decide (D < 1e-2)
  let t1 ← D ^ₚ (-1.0112)
  Clamond (7.5e6 * D) (3.4126825352925e-5 * t1) fast

/-- friction.py:2020: one line of `fmethods`: name, Re_min, Re_max, eD_min, eD_max -/
abbrev Range := String × Option ℝ × Option ℝ × Option ℝ × Option ℝ

/-- friction.py:2020-2049 `fmethods`. -/
def fmethods : List Range := [
  ("Moody", some 4000, some 100000000, some 0, some 0.01),
  ("Alshul_1952", none, none, none, none),
  ("Wood_1966", some 4000, some 50000000, some 0.00001, some 0.04),
  ("Churchill_1973", none, none, none, none),
  ("Eck_1973", none, none, none, none),
  ("Jain_1976", some 5000, some 10000000, some 0.00004, some 0.05),
  ("Swamee_Jain_1976", some 5000, some 100000000, some 0.000001, some 0.05),
  ("Churchill_1977", none, none, none, none),
  ("Chen_1979", some 4000, some 400000000, some 0.0000001, some 0.05),
  ("Round_1980", some 4000, some 400000000, some 0, some 0.05),
  ("Shacham_1980", some 4000, some 400000000, none, none),
  ("Barr_1981", none, none, none, none),
  ("Zigrang_Sylvester_1", some 4000, some 100000000, some 0.00004, some 0.05),
  ("Zigrang_Sylvester_2", some 4000, some 100000000, some 0.00004, some 0.05),
  ("Haaland", some 4000, some 100000000, some 0.000001, some 0.05),
  ("Serghides_1", none, none, none, none),
  ("Serghides_2", none, none, none, none),
  ("Tsal_1989", some 4000, some 100000000, some 0, some 0.05),
  ("Manadilli_1997", some 5245, some 100000000, some 0, some 0.05),
  ("Romeo_2002", some 3000, some 150000000, some 0, some 0.05),
  ("Sonnad_Goudar_2006", some 4000, some 100000000, some 0.000001, some 0.05),
  ("Rao_Kumar_2007", none, none, none, none),
  ("Buzzelli_2008", none, none, none, none),
  ("Avci_Karagoz_2009", none, none, none, none),
  ("Papaevangelo_2010", some 10000, some 10000000, some 0.00001, some 0.001),
  ("Brkic_2011_1", none, none, none, none),
  ("Brkic_2011_2", none, none, none, none),
  ("Fang_2011", some 3000, some 100000000, some 0, some 0.05),
  ("Clamond", some 0, none, some 0, none),
  ("Colebrook", some 0, none, some 0, none)]

/-- friction.py:2082-2089: the range test. -/
def inRange (Re eD : ℝ) (r : Range) : Prop :=
  (∀ m ∈ r.2.1, ¬ Re < m) ∧ (∀ m ∈ r.2.2.1, ¬ Re > m) ∧ (∀ m ∈ r.2.2.2.1, ¬ eD < m) ∧ (∀ m ∈ r.2.2.2.2, ¬ eD > m)

open Classical in
/-- friction.py:2052-2093 `friction_factor_methods`. -/
def friction_factor_methods (Re eD : ℝ) (check_ranges : Bool) : List String :=
  if check_ranges then
    if Re < LAMINAR_TRANSITION_PIPE then ["laminar"]
    else (fmethods.filter fun r => inRange Re eD r).map (·.1)
  else fmethods.map (·.1) ++ ["laminar"]

/-- friction.py:2217-2278: the `elif` chain of `friction_factor`. -/
def turbulent (W : ℝ → ℝ) (Re eD : ℝ) (Method : String) : Py ℝ :=
  if Method = "Clamond" then Clamond Re eD false
  else if Method = "Colebrook" then Colebrook_analytical W Re eD
  else if Method = "Moody" then Moody Re eD
  else if Method = "Alshul_1952" then Alshul_1952 Re eD
  else if Method = "Wood_1966" then Wood_1966 Re eD
  else if Method = "Churchill_1973" then Churchill_1973 Re eD
  else if Method = "Eck_1973" then Eck_1973 Re eD
  else if Method = "Jain_1976" then Jain_1976 Re eD
  else if Method = "Swamee_Jain_1976" then Swamee_Jain_1976 Re eD
  else if Method = "Churchill_1977" then Churchill_1977 Re eD
  else if Method = "Chen_1979" then Chen_1979 Re eD
  else if Method = "Round_1980" then Round_1980 Re eD
  else if Method = "Shacham_1980" then Shacham_1980 Re eD
  else if Method = "Barr_1981" then Barr_1981 Re eD
  else if Method = "Zigrang_Sylvester_1" then Zigrang_Sylvester_1 Re eD
  else if Method = "Zigrang_Sylvester_2" then Zigrang_Sylvester_2 Re eD
  else if Method = "Haaland" then Haaland Re eD
  else if Method = "Serghides_1" then Serghides_1 Re eD
  else if Method = "Serghides_2" then Serghides_2 Re eD
  else if Method = "Tsal_1989" then Tsal_1989 Re eD
  else if Method = "Manadilli_1997" then Manadilli_1997 Re eD
  else if Method = "Romeo_2002" then Romeo_2002 Re eD
  else if Method = "Sonnad_Goudar_2006" then Sonnad_Goudar_2006 Re eD
  else if Method = "Rao_Kumar_2007" then Rao_Kumar_2007 Re eD
  else if Method = "Buzzelli_2008" then Buzzelli_2008 Re eD
  else if Method = "Avci_Karagoz_2009" then Avci_Karagoz_2009 Re eD
  else if Method = "Papaevangelo_2010" then Papaevangelo_2010 Re eD
  else if Method = "Brkic_2011_1" then Brkic_2011_1 Re eD
  else if Method = "Brkic_2011_2" then Brkic_2011_2 Re eD
  else if Method = "Fang_2011" then Fang_2011 Re eD
  else .error .valueError

/-- friction.py:2212-2216: `Method or "Clamond"`, then laminar or turbulent. -/
def frictionDarcy (W : ℝ → ℝ) (Re eD : ℝ) (Method : String) : Py ℝ :=
  if Re < LAMINAR_TRANSITION_PIPE ∨ Method = "laminar" then friction_laminar Re else turbulent W Re eD Method

/-- friction.py:2096-2281 `friction_factor`. -/
def friction_factor (W : ℝ → ℝ) (Re eD : ℝ) (Method : Option String) (Darcy : Bool) : Py ℝ := do
  let f ← frictionDarcy W Re eD (Method.getD "Clamond")
  return (if Darcy then f else f * 0.25)

/-! ### helical coils -/

section helical
variable (W : ℝ → ℝ)

/-- friction.py:2284-2341 `helical_laminar_fd_White`. -/
def helical_laminar_fd_White (Re Di Dc : ℝ) : Py ℝ := do
  let De ← Core.Dean Re Di Dc
  let fd ← friction_laminar Re
  if De < 11.6 then
    return fd
  let t3 ← 11.6 /ₚ De
  let t4 ← t3 ^ₚ 0.45
  let t5 ← (1 - t4) ^ₚ (1 / 0.45)
  fd /ₚ (1 - t5)

/-- friction.py:2344-2400 `helical_laminar_fd_Mori_Nakayama`. -/
def helical_laminar_fd_Mori_Nakayama (Re Di Dc : ℝ) : Py ℝ := do
  let De ← Core.Dean Re Di Dc
  let fd ← friction_laminar Re
  if De < 42.328036 then
    return fd * 1.405296
  let t3 ← psqrt De
  let t4 ← psqrt De
  let t5 ← 3.253 /ₚ t4
  fd * (0.108 * t3) /ₚ (1 - t5)

/-- friction.py:2403-2457 `helical_laminar_fd_Schmidt`. -/
def helical_laminar_fd_Schmidt (Re Di Dc : ℝ) : Py ℝ := do
  let fd ← friction_laminar Re
  let D_ratio ← Di /ₚ Dc
  let t3 ← D_ratio ^ₚ 0.97
  let t4 ← D_ratio ^ₚ 0.312
  let t5 ← Re ^ₚ (1 - 0.644 * t4)
  return fd * (1 + 0.14 * t3 * t5)

/-- friction.py:2460-2508 `helical_turbulent_fd_Srinivasan`. -/
def helical_turbulent_fd_Srinivasan (Re Di Dc : ℝ) : Py ℝ := do
  let De ← Core.Dean Re Di Dc
  let t2 ← De ^ₚ (-0.2)
  return 0.336 * t2

/-- friction.py:2511-2570 `helical_turbulent_fd_Schmidt`. Defaults: roughness = 0. -/
def helical_turbulent_fd_Schmidt (Re Di Dc roughness : ℝ) : Py ℝ := do
  let t1 ← roughness /ₚ Di
  let fd ← friction_factor W Re t1 (some "Clamond") true
  if Re < 2.2e4 then
    let t3 ← 2.88e4 /ₚ Re
    let t4 ← Di /ₚ Dc
    let t5 ← t4 ^ₚ 0.62
    return fd * (1 + t3 * t5)
  else
    let t6 ← Di /ₚ Dc
    let t7 ← Di /ₚ Dc
    let t8 ← t7 ^ₚ 0.53
    let t9 ← psqrt Re
    let t10 ← psqrt t9
    return fd * (1 + 0.0823 * (1 + t6) * t8 * t10)

/-- friction.py:2573-2626 `helical_turbulent_fd_Mori_Nakayama`. -/
def helical_turbulent_fd_Mori_Nakayama (Re Di Dc : ℝ) : Py ℝ := do
  let Di_Dc ← Di /ₚ Dc
  let term ← (Re * Di_Dc * Di_Dc) ^ₚ (-0.2)
  let t3 ← Dc /ₚ Di
  let t4 ← psqrt t3
  let t5 ← 0.3 /ₚ t4
  return t5 * term * (1 + 0.112 * term)

/-- friction.py:2629-2680 `helical_turbulent_fd_Prasad`. Defaults: roughness = 0. -/
def helical_turbulent_fd_Prasad (Re Di Dc roughness : ℝ) : Py ℝ := do
  let t1 ← roughness /ₚ Di
  let fd ← friction_factor W Re t1 (some "Clamond") true
  let Di_Dc ← Di /ₚ Dc
  let t4 ← psqrt (Re * Di_Dc * Di_Dc)
  let t5 ← psqrt t4
  return fd * (1 + 0.18 * t5)

/-- friction.py:2683-2729 `helical_turbulent_fd_Czop`. -/
def helical_turbulent_fd_Czop (Re Di Dc : ℝ) : Py ℝ := do
  let De ← Core.Dean Re Di Dc
  let t2 ← De ^ₚ (-0.1517)
  return 0.096 * t2

/-- friction.py:2732-2777 `helical_turbulent_fd_Guo`. -/
def helical_turbulent_fd_Guo (Re Di Dc : ℝ) : Py ℝ := do
  let t1 ← Re ^ₚ (-0.15)
  let t2 ← Di /ₚ Dc
  let t3 ← t2 ^ₚ 0.51
  return 0.638 * t1 * t3

/-- friction.py:2780-2828 `helical_turbulent_fd_Ju`. Defaults: roughness = 0.0. -/
def helical_turbulent_fd_Ju (Re Di Dc roughness : ℝ) : Py ℝ := do
  let t1 ← roughness /ₚ Di
  let fd ← friction_factor W Re t1 (some "Clamond") true
  let t3 ← Re ^ₚ 0.23
  let t4 ← Di /ₚ Dc
  let t5 ← t4 ^ₚ 0.14
  return fd * (1 + 0.11 * t3 * t5)

/-- friction.py:2831-2880 `helical_turbulent_fd_Mandal_Nigam`. Defaults: roughness = 0. -/
def helical_turbulent_fd_Mandal_Nigam (Re Di Dc roughness : ℝ) : Py ℝ := do
  let De ← Core.Dean Re Di Dc
  let t2 ← roughness /ₚ Di
  let fd ← friction_factor W Re t2 (some "Clamond") true
  let t4 ← De ^ₚ 0.27
  return fd * (1 + 0.03 * t4)

/-- friction.py:2883-2918 `helical_transition_Re_Seth_Stahel`. -/
def helical_transition_Re_Seth_Stahel (Di Dc : ℝ) : Py ℝ := do
  let t1 ← Di /ₚ Dc
  let t2 ← psqrt t1
  return 1900 * (1 + 8 * t2)

/-- friction.py:2921-2965 `helical_transition_Re_Ito`. -/
def helical_transition_Re_Ito (Di Dc : ℝ) : Py ℝ := do
  let t1 ← Di /ₚ Dc
  let t2 ← t1 ^ₚ 0.32
  return 2e4 * t2

/-- friction.py:2968-3010 `helical_transition_Re_Kubair_Kuloor`. -/
def helical_transition_Re_Kubair_Kuloor (Di Dc : ℝ) : Py ℝ := do
  let t1 ← Di /ₚ Dc
  let t2 ← t1 ^ₚ 0.2
  return 1.273e4 * t2

/-- friction.py:3013-3053 `helical_transition_Re_Kutateladze_Borishanskii`. -/
def helical_transition_Re_Kutateladze_Borishanskii (Di Dc : ℝ) : Py ℝ := do
  let t1 ← Di /ₚ Dc
  let t2 ← t1 ^ₚ 0.3
  return 2300 + 1.05e4 * t2

/-- friction.py:3056-3100 `helical_transition_Re_Schmidt`. -/
def helical_transition_Re_Schmidt (Di Dc : ℝ) : Py ℝ := do
  let t1 ← Di /ₚ Dc
  let t2 ← t1 ^ₚ 0.45
  return 2300 * (1 + 8.6 * t2)

/-- friction.py:3103-3146 `helical_transition_Re_Srinivasan`. -/
def helical_transition_Re_Srinivasan (Di Dc : ℝ) : Py ℝ := do
  let t1 ← Di /ₚ Dc
  let t2 ← psqrt t1
  return 2100 * (1 + 12 * t2)

/-- friction.py:3176-3238 `helical_Re_crit`. -/
def helical_Re_crit (Di Dc : ℝ) (Method : String) : Py ℝ :=
  if Method = "Schmidt" then helical_transition_Re_Schmidt Di Dc
  else if Method = "Seth Stahel" then helical_transition_Re_Seth_Stahel Di Dc
  else if Method = "Ito" then helical_transition_Re_Ito Di Dc
  else if Method = "Kubair Kuloor" then helical_transition_Re_Kubair_Kuloor Di Dc
  else if Method = "Kutateladze Borishanskii" then helical_transition_Re_Kutateladze_Borishanskii Di Dc
  else if Method = "Srinivasan" then helical_transition_Re_Srinivasan Di Dc
  else .error .valueError

/-- friction.py:3173 -/
def curved_friction_turbulent_methods_list : List String :=
  ["Schmidt turbulent", "Mori Nakayama turbulent", "Prasad", "Czop", "Guo", "Ju", "Mandal Nigam", "Srinivasan turbulent"]
/-- friction.py:3174 -/
def curved_friction_laminar_methods_list : List String := ["White", "Mori Nakayama laminar", "Schmidt laminar"]

/-- friction.py:3241-3281 `friction_factor_curved_methods`. -/
def friction_factor_curved_methods (Re Di Dc : ℝ) (check_ranges : Bool) : Py (List String) := do
  let Re_crit ← helical_Re_crit Di Dc "Schmidt"
  if check_ranges then
    if ¬ Re < Re_crit then return curved_friction_turbulent_methods_list
    else return curved_friction_laminar_methods_list
  else return curved_friction_turbulent_methods_list ++ curved_friction_laminar_methods_list

/-- friction.py:3378-3404: the `elif` chain. -/
def curvedDarcy (Re Di Dc roughness : ℝ) (Method : String) : Py ℝ :=
  if Method = "Schmidt laminar" then helical_laminar_fd_Schmidt Re Di Dc
  else if Method = "White" then helical_laminar_fd_White Re Di Dc
  else if Method = "Mori Nakayama laminar" then helical_laminar_fd_Mori_Nakayama Re Di Dc
  else if Method = "Schmidt turbulent" then helical_turbulent_fd_Schmidt W Re Di Dc roughness
  else if Method = "Prasad" then helical_turbulent_fd_Prasad W Re Di Dc roughness
  else if Method = "Ju" then helical_turbulent_fd_Ju W Re Di Dc roughness
  else if Method = "Mandal Nigam" then helical_turbulent_fd_Mandal_Nigam W Re Di Dc roughness
  else if Method = "Mori Nakayama turbulent" then helical_turbulent_fd_Mori_Nakayama Re Di Dc
  else if Method = "Czop" then helical_turbulent_fd_Czop Re Di Dc
  else if Method = "Guo" then helical_turbulent_fd_Guo Re Di Dc
  else if Method = "Srinivasan turbulent" then helical_turbulent_fd_Srinivasan Re Di Dc
  else .error .valueError

/-- friction.py:3284-3407 `friction_factor_curved`. Defaults: roughness = 0.0, Method = None, Rec_method = "Schmidt",
laminar_method = "Schmidt laminar", turbulent_method = "Schmidt turbulent", Darcy = True. -/
def friction_factor_curved (Re Di Dc roughness : ℝ) (Method : Option String) (Rec_method laminar_method turbulent_method : String)
    (Darcy : Bool) : Py ℝ := do
  let Re_crit ← helical_Re_crit Di Dc Rec_method
  let Method2 : String := Method.getD (if ¬ Re < Re_crit then turbulent_method else laminar_method)
  let f ← curvedDarcy W Re Di Dc roughness Method2
  return (if Darcy then f else f * 0.25)

/-- friction.py:4259-4303 `one_phase_dP`. Defaults: roughness = 0.0, L = 1.0, Method = None. -/
def one_phase_dP (m rho mu D roughness L : ℝ) (Method : Option String) : Py ℝ := do
  let D2 : ℝ := D * D
  let V ← m /ₚ (0.25 * π * D2 * rho)
  let Re ← Core.Reynolds V D (some rho) (some mu) none
  let t3 ← roughness /ₚ D
  let fd ← friction_factor W Re t3 Method true
  let t5 ← fd * L /ₚ D
  return t5 * (0.5 * rho * V * V)

end helical

/-- friction.py:4213-4256 `transmission_factor`. -/
def transmission_factor (fd : Option ℝ) (F : Option ℝ) : Py ℝ := do
  match fd, F with
  | some fd, _ =>
    let t1 ← psqrt fd
    2 /ₚ t1
  | _, some F =>
    4 /ₚ (F * F)
  | _, _ =>
    .error .valueError

/-- friction.py:4306-4358 `one_phase_dP_acceleration`. -/
def one_phase_dP_acceleration (m D rho_o rho_i : ℝ) (D_i : Option ℝ) : Py ℝ := do
  let D_i : ℝ := D_i.getD D
  let A_i : ℝ := 0.25 * π * D_i * D_i
  let A_o : ℝ := 0.25 * π * D * D
  let Q_i ← m /ₚ rho_i
  let v_i ← Q_i /ₚ A_i
  let Q_o ← m /ₚ rho_o
  let v_o ← Q_o /ₚ A_o
  let rho_avg : ℝ := 0.5 * (rho_o + rho_i)
  return 0.5 * rho_avg * (v_o * v_o - v_i * v_i)

/-- friction.py:4365-4420 `one_phase_dP_dz_acceleration`. -/
def one_phase_dP_dz_acceleration (m D rho dv_dP dP_dL dA_dL : ℝ) : Py ℝ := do
  let A : ℝ := 0.25 * π * D * D
  let G ← m /ₚ A
  let t2 ← dA_dL /ₚ (rho * A)
  return -G * G * (dP_dL * dv_dP - t2)

/-- friction.py:4423-4463 `one_phase_dP_gravitational`. Defaults: L = 1.0, g = 9.80665. -/
def one_phase_dP_gravitational (angle rho L g : ℝ) : ℝ :=
  let angle : ℝ := angle * π / 180
  L * g * Real.sin angle * rho

end
end Verif.Friction
