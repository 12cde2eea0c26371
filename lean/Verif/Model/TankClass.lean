import Verif.Model.Geometry
import Verif.Model.FiniteDiff

/-! The class `TANK` of `fluids/geometry.py`: one tank with its resolved dimensions. -/

namespace Verif.TankClass
open Verif Verif.Geometry Real
open scoped Verif

noncomputable section

/-- Python truthiness of an optional number (geometry.py:3431, 3893-3902) -/
def truthy (x : Option ℝ) : Prop := ∃ v, x = some v ∧ v ≠ 0

/-- the arguments `side`, `side_a`, `side_a_ratio`, `side_f`, `side_k` of one end (geometry.py:3366-3369) -/
@[ext] structure Head where
  head : Option String
  a : Option ℝ
  ratio : Option ℝ
  f : Option ℝ
  k : Option ℝ

/-- the arguments of `TANK` (geometry.py:3366-3369) -/
structure Spec where
  D : Option ℝ
  L : Option ℝ
  LD : Option ℝ
  V : Option ℝ
  horizontal : Bool
  A : Head
  B : Head

/-- the attributes of a `TANK` (geometry.py:3370-3516) -/
@[ext] structure Tank where
  D : ℝ
  L : ℝ
  L_over_D : ℝ
  R : ℝ
  horizontal : Bool
  A : Head
  B : Head
  h_max : ℝ
  V_total : ℝ
  V_sideA : ℝ
  V_sideB : ℝ
  V_lateral : ℝ
  A_total : ℝ
  A_sideA : ℝ
  A_sideB : ℝ
  A_lateral : ℝ
  A_sideA_extra : ℝ
  A_sideB_extra : ℝ

/-- geometry.py:3376-3383: `"same"` copies the other end -/
def sides (A B : Head) : Py (Head × Head) :=
  if A.head = some "same" ∧ B.head ≠ some "same" then .ok (B, B)
  else if B.head = some "same" ∧ A.head ≠ some "same" then .ok (A, A)
  else if A.head = some "same" ∧ B.head = some "same" then .error .valueError
  else .ok (A, B)

/-- geometry.py:3385-3401 (and 3403-3419): defaults of one end -/
def defaults (X : Head) : Head :=
  let a := if X.head = none ∧ X.a = none then some 0 else X.a
  let ratio := if a = none ∧ X.ratio = none ∧ X.head ≠ none ∧ X.head ≠ some "torispherical" then some 0.25 else X.ratio
  let tori := a = none ∧ X.head = some "torispherical"
  let f := if tori ∧ X.f = none then some 1 else X.f
  let k := if tori ∧ X.k = none then some 0.06 else X.k
  { head := X.head, a := a, ratio := ratio, f := f, k := k }

/-- geometry.py:3449-3461: two of `D`, `L`, `L_over_D` give the third.  A length which stays unknown is a TypeError: at line 3461 for `D`; for `L` the
model raises it here, the code in `h_max` or `V_tank` (after the validation of the heads). -/
def lengths (D L LD : Option ℝ) : Py (ℝ × ℝ × ℝ) :=
  match D, L, LD with
  | some D, some L, _ => do
    let r ← L /ₚ D
    return (D, L, r)
  | some D, none, some r => .ok (D, D * r, r)
  | none, some L, some r => do
    let D ← L /ₚ r
    return (D, L, r)
  | _, _, _ => .error .typeError

/-- geometry.py:3464-3467: the depth of a head given as a ratio -/
def ratioDepth (D : ℝ) (X : Head) : Py (Option ℝ) :=
  match X.a with
  | some a => .ok (some a)
  | none =>
    if X.head ∈ [some "conical", some "ellipsoidal", some "guppy", some "spherical"] then
      (match X.ratio with
      | some r => .ok (some (D * r))
      | none => .error .typeError)
    else .ok none

/-- geometry.py:3470-3473: the depth of a torispherical head -/
def toriDepth (D : ℝ) (X : Head) (a : Option ℝ) : Py (Option ℝ) :=
  if X.head = some "torispherical" then
    (match X.f, X.k with
    | some f, some k => do
      let d ← a_torispherical D f k
      return some d
    | _, _ => .ok a)
  else .ok a

/-- geometry.py:3476-3484: the ratio which belongs to the depth -/
def setRatio (D : ℝ) (a ratio : Option ℝ) : Py (Option ℝ) :=
  match a, ratio with
  | none, r => .ok r
  | some a, none => do
    let r ← a /ₚ D
    return some r
  | some a, some r =>
    if a ≠ D * r then do
      let r ← a /ₚ D
      return some r
    else .ok (some r)

/-- geometry.py:3464-3484: depth and ratio of one end -/
def depth (D : ℝ) (X : Head) : Py Head := do
  let a ← ratioDepth D X
  let a ← toriDepth D X a
  let r ← setRatio D a X.ratio
  return { X with a := a, ratio := r }

/-- the arguments of `V_tank`, `SA_tank`, `V_from_h` and `SA_from_h` for one end; a depth is missing only for an unknown head, which `V_tank` rejects
before it reads it (geometry.py:3502-3512) -/
def Head.side (X : Head) : Side := ⟨X.head, X.a.getD 0, X.f, X.k⟩

/-- geometry.py:3435-3516 `set_misc`.  (The depths of the two ends are resolved end by end here, interleaved in the code.) -/
def set_misc (D L LD : Option ℝ) (horizontal : Bool) (A B : Head) : Py Tank := do
  let (D, L, r) ← lengths D L LD
  let A ← depth D A
  let B ← depth D B
  let h_max : ℝ := if horizontal then D else L + A.a.getD 0 + B.a.getD 0
  let (V, VA, VB, Vl) ← V_tank D L horizontal A.side B.side
  let (S, SA, SB, Sl) ← SA_tank D L A.head B.head (A.a.getD 0) (B.a.getD 0) A.f A.k B.f B.k
  let plate : ℝ := 0.25 * π * D * D
  return { D := D, L := L, L_over_D := r, R := D / 2, horizontal := horizontal, A := A, B := B, h_max := h_max,
           V_total := V, V_sideA := VA, V_sideB := VB, V_lateral := Vl, A_total := S, A_sideA := SA, A_sideB := SB, A_lateral := Sl,
           A_sideA_extra := SA - plate, A_sideB_extra := SB - plate }

/-- geometry.py:3376-3433 without a volume: the constructor -/
def plain (D L LD : Option ℝ) (horizontal : Bool) (A B : Head) : Py Tank := do
  let (A, B) ← sides A B
  set_misc D L LD horizontal (defaults A) (defaults B)

/-- geometry.py:3858-3874 `_V_solver_error` -/
def V_solver_error (V D L : ℝ) (horizontal : Bool) (A B : Head) : Py ℝ := do
  let t ← plain (some D) (some L) none horizontal A B
  return V - t.V_total

open Classical in
/-- geometry.py:3893-3900: specifications which `_solve_tank_for_V` rejects -/
def rejected (D L LD : Option ℝ) (A B : Head) : Bool :=
  (truthy L ∧ (truthy A.a ∨ truthy B.a)) ∨ (truthy D ∧ truthy L) ∨ (truthy D ∧ truthy LD) ∨ (truthy L ∧ truthy LD) ∨
  (A.head ≠ none ∧ A.ratio = none ∧ A.a = none ∧ A.head ≠ some "torispherical") ∨ (B.head ≠ none ∧ B.ratio = none ∧ B.a = none ∧ B.head ≠ some "torispherical")

/-- geometry.py:3902-3906: `L` from the volume and the diameter -/
def solve_L (secant : (ℝ → Py ℝ) → ℝ → Py ℝ) (V D : ℝ) (horizontal : Bool) (A B : Head) : Py ℝ := do
  let guess ← V /ₚ (π / 4 * D ^ 2)
  secant (fun L => V_solver_error V D L horizontal A B) guess

/-- geometry.py:3907-3911: `D` from the volume and the length -/
def solve_D (secant : (ℝ → Py ℝ) → ℝ → Py ℝ) (V L : ℝ) (horizontal : Bool) (A B : Head) : Py ℝ := do
  let q ← 4 * V / π /ₚ L
  let guess ← psqrt q
  secant (fun D => V_solver_error V D L horizontal A B) guess

/-- the error function at `L`, with the diameter `L/L_over_D` (geometry.py:3915) -/
def errorLD (V r : ℝ) (horizontal : Bool) (A B : Head) (L : ℝ) : Py ℝ := do
  let D ← L /ₚ r
  V_solver_error V D L horizontal A B

/-- geometry.py:3912-3917: `L` and `D` from the volume and their ratio -/
def solve_LD (secant : (ℝ → Py ℝ) → ℝ → Py ℝ) (V r : ℝ) (horizontal : Bool) (A B : Head) : Py (ℝ × ℝ) := do
  let guess ← ppow (4 * V * r ^ 2 / π) (1 / 3)
  let L ← secant (errorLD V r horizontal A B) guess
  let D ← L /ₚ r
  return (D, L)

open Classical in
/-- geometry.py:3893-3917 `_solve_tank_for_V`: the `D` and `L` found.  `secant` is the root finder, given the error function and the first guess. -/
def solve_tank_for_V (secant : (ℝ → Py ℝ) → ℝ → Py ℝ) (V : ℝ) (D L LD : Option ℝ) (horizontal : Bool) (A B : Head) : Py (Option ℝ × Option ℝ) :=
  if rejected D L LD A B then .error .valueError
  else if truthy D then do
    let x ← solve_L secant V (D.getD 0) horizontal A B
    return (D, some x)
  else if truthy L then do
    let x ← solve_D secant V (L.getD 0) horizontal A B
    return (some x, L)
  else
    (match LD with
    | none => .error .typeError
    | some r => do
      let (D, L) ← solve_LD secant V r horizontal A B
      return (some D, some L))

open Classical in
/-- geometry.py:3366-3433 `TANK.__init__` -/
def tank (secant : (ℝ → Py ℝ) → ℝ → Py ℝ) (s : Spec) : Py Tank := do
  let (A, B) ← sides s.A s.B
  let A := defaults A
  let B := defaults B
  if truthy s.V then do
    let (D, L) ← solve_tank_for_V secant (s.V.getD 0) s.D s.L s.LD s.horizontal A B
    set_misc D L s.LD s.horizontal A B
  else set_misc s.D s.L s.LD s.horizontal A B

/-- `sideA_a + thickness`, or nothing for a torispherical head (geometry.py:3654-3662) -/
def thicker (X : Head) (t : ℝ) : Py Head :=
  if X.head ≠ some "torispherical" then
    (match X.a with
    | some a => .ok { X with a := some (a + t), ratio := none }
    | none => .error .typeError)
  else .ok { X with a := none, ratio := none }

/-- geometry.py:3637-3663 `add_thickness` -/
def Tank.add_thickness (T : Tank) (thickness : ℝ) (tA tB : Option ℝ := none) : Py Tank := do
  let tA : ℝ := tA.getD thickness
  let tB : ℝ := tB.getD thickness
  let D : ℝ := T.D + 2 * thickness
  let L : ℝ := T.L + (tA + tB)
  let A ← thicker T.A tA
  let B ← thicker T.B tB
  plain (some D) (some L) none T.horizontal A B

/-- geometry.py:3713-3717: `TANK.V_from_h` with the method "full" -/
def Tank.V_full (T : Tank) (h : ℝ) : Py ℝ := Geometry.V_from_h h T.D T.L T.horizontal T.A.side T.B.side

/-- geometry.py:3713-3723 `TANK.V_from_h`; `cheb` is the Chebyshev approximation (lines 3719-3721) -/
def Tank.V_from_h (cheb : Tank → ℝ → Py ℝ) (T : Tank) (h : ℝ) (method : String := "full") : Py ℝ :=
  if method = "full" then T.V_full h
  else if method = "chebyshev" then cheb T h
  else .error .valueError

/-- geometry.py:3684-3690 `TANK.SA_from_h` -/
def Tank.SA_from_h (S : Surfaces) (T : Tank) (h : ℝ) (method : String := "full") : Py ℝ :=
  if method = "full" then Geometry.SA_from_h S h T.D T.L T.horizontal T.A.side T.B.side
  else .error .valueError

/-- geometry.py:3757-3759: the level by bracketed root finding -/
def Tank.h_brenth (secant : (ℝ → Py ℝ) → ℝ → ℝ → ℝ → Py ℝ) (T : Tank) (V : ℝ) : Py ℝ :=
  secant (fun h => do
    let v ← T.V_full h
    return v - V) (0.5 * T.h_max) 0 T.h_max

/-- geometry.py:3745-3762 `h_from_V`; `spline` is the interpolation table (lines 3747-3749), any failure of which is caught -/
def Tank.h_from_V (secant : (ℝ → Py ℝ) → ℝ → ℝ → ℝ → Py ℝ) (spline cheb : Tank → ℝ → Py ℝ) (T : Tank) (V : ℝ) (method : String := "spline") : Py ℝ :=
  if method = "spline" then
    (match spline T V with
    | .ok h => .ok h
    | .error _ => T.h_brenth secant V)
  else if method = "chebyshev" then cheb T V
  else if method = "brenth" then T.h_brenth secant V
  else .error .valueError

/-- geometry.py:3787-3789 `A_cross_sectional` -/
def Tank.A_cross_sectional (T : Tank) (h : ℝ) : Py ℝ :=
  if h = T.h_max ∨ h = 0 then .ok 0
  else FiniteDiff.derivative (fun _ _ => .error .valueError) T.V_full h (1e-7 * h) 1 3

/-- geometry.py:3141-3150 (and 3152-3161): the quantity named by a specification; an unknown name leaves the error unbound -/
def specValue (S : Surfaces) (T : Tank) (h : ℝ) (name : String) : Py ℝ :=
  if name = "V" then .ok T.V_total
  else if name = "SA" then .ok T.A_total
  else if name = "V_partial" then T.V_full h
  else if name = "SA_partial" then T.SA_from_h S h
  else if name = "A_cross" then T.A_cross_sectional h
  else .error .unboundLocalError

/-- geometry.py:3133-3163 `tank_from_two_specs_err` -/
def tank_from_two_specs_err (S : Surfaces) (D r : ℝ) (spec0 spec1 : ℝ) (name0 name1 : String) (h : Option ℝ) (horizontal : Bool) (A B : Head) : Py (ℝ × ℝ) := do
  let T ← plain (some D) none (some r) horizontal A B
  let h ← (match h with
    | some h => .ok (min h T.h_max)
    | none => .error .typeError : Py ℝ)
  let v0 ← specValue S T h name0
  let v1 ← specValue S T h name1
  return (v0 - spec0, v1 - spec1)

/-- geometry.py:3587-3604 `from_two_specs`; `fsolve` is the two-dimensional root finder together with the change of variables which keeps both
unknowns within their bounds (lines 3592-3599): it evaluates the error function and returns a pair -/
def from_two_specs (S : Surfaces) (fsolve : (ℝ → ℝ → Py (ℝ × ℝ)) → Py (ℝ × ℝ)) (spec0 spec1 : ℝ) (name0 name1 : String) (h : Option ℝ)
    (horizontal : Bool) (A B : Head) : Py Tank := do
  let (D, r) ← fsolve fun D r => tank_from_two_specs_err S D r spec0 spec1 name0 name1 h horizontal A B
  plain (some D) none (some r) horizontal A B

end

end Verif.TankClass
