import Mathlib.Analysis.SpecialFunctions.Pow.Real
import Mathlib.Analysis.SpecialFunctions.Trigonometric.Inverse
import Mathlib.Analysis.SpecialFunctions.Trigonometric.Arctan
import Mathlib.Tactic.FieldSimp
import Mathlib.Tactic.Ring
import Mathlib.Tactic.Linarith
import Mathlib.Tactic.Positivity
import Mathlib.Tactic.NormNum
import Mathlib.Tactic.IntervalCases
import Mathlib.Tactic.LinearCombination
import Mathlib.Tactic.NormNum.RealSqrt
import Mathlib.Tactic.FinCases

/-!
# The Python value layer

Exceptions are values.  `Py α` is the result of running a Python function: either a value or the class of the exception
that escaped.  Python `float` operations that can raise are modelled as partial operations with exactly the exception
CPython raises; rounding is not modelled (numbers are exact).
-/

namespace Verif

/-- Python exception classes that the modelled code can raise. `complexResult` is not an exception: it marks the
point where CPython's `float ** float` leaves the reals and silently continues with a `complex`. -/
inductive PyErr
  | valueError | zeroDivisionError | typeError | keyError | indexError
  | unboundLocalError | nameError | notImplementedError | attributeError | overflowError
  | unconvergedError | samePointError | notBoundedError | oscillationError | noSolutionError | exception
  | complexResult
  deriving DecidableEq, Repr

/-- Result of a Python call. -/
abbrev Py (α : Type _) := Except PyErr α

namespace Py
variable {α β : Type _}
@[simp] theorem ok_bind (a : α) (f : α → Py β) : (Except.ok a >>= f) = f a := rfl
@[simp] theorem error_bind (e : PyErr) (f : α → Py β) : ((Except.error e : Py α) >>= f) = Except.error e := rfl
@[simp] theorem pure_eq (a : α) : (pure a : Py α) = Except.ok a := rfl
@[simp] theorem throw_eq (e : PyErr) : (throw e : Py α) = Except.error e := rfl
@[simp] theorem ok_map (f : α → β) (a : α) : (f <$> (Except.ok a : Py α)) = Except.ok (f a) := rfl
@[simp] theorem error_map (f : α → β) (e : PyErr) : (f <$> (Except.error e : Py α)) = Except.error e := rfl

theorem bind_eq_ok {x : Py α} {f : α → Py β} {b : β} :
    (x >>= f) = Except.ok b ↔ ∃ a, x = Except.ok a ∧ f a = Except.ok b := by
  cases x <;> simp
end Py

/-- `a / b` on Python numbers: raises `ZeroDivisionError` when `b` is zero. -/
def pdiv {K : Type _} [DivisionRing K] [DecidableEq K] (a b : K) : Py K :=
  if b = 0 then .error .zeroDivisionError else .ok (a / b)

@[inherit_doc] infixl:70 " /ₚ " => pdiv

theorem pdiv_ok {K : Type _} [DivisionRing K] [DecidableEq K] {a b : K} (h : b ≠ 0) : a /ₚ b = .ok (a / b) := by
  simp [pdiv, h]
@[simp] theorem pdiv_zero {K : Type _} [DivisionRing K] [DecidableEq K] {a : K} :
    a /ₚ (0 : K) = .error .zeroDivisionError := by
  simp [pdiv]
theorem pdiv_eq_ok {K : Type _} [DivisionRing K] [DecidableEq K] {a b c : K} :
    a /ₚ b = .ok c ↔ b ≠ 0 ∧ c = a / b := by
  unfold pdiv; split <;> simp_all [eq_comm]

noncomputable section
open Real

/-- `math.sqrt`: raises `ValueError` on negatives. -/
def psqrt (x : ℝ) : Py ℝ := if x < 0 then .error .valueError else .ok (√x)
theorem psqrt_ok {x : ℝ} (h : 0 ≤ x) : psqrt x = .ok (√x) := by simp [psqrt, not_lt.mpr h]
theorem psqrt_eq_ok {x y : ℝ} : psqrt x = .ok y ↔ 0 ≤ x ∧ y = √x := by
  unfold psqrt; split <;> simp_all [eq_comm]

/-- `math.log`: raises `ValueError` at and below zero. -/
def plog (x : ℝ) : Py ℝ := if x ≤ 0 then .error .valueError else .ok (Real.log x)
theorem plog_ok {x : ℝ} (h : 0 < x) : plog x = .ok (Real.log x) := by simp [plog, not_le.mpr h]

/-- `math.log10`. -/
def plog10 (x : ℝ) : Py ℝ := if x ≤ 0 then .error .valueError else .ok (Real.log x / Real.log 10)
theorem plog10_ok {x : ℝ} (h : 0 < x) : plog10 x = .ok (Real.log x / Real.log 10) := by simp [plog10, not_le.mpr h]

/-- `x ** y` on two floats. `0.0 ** negative` raises `ZeroDivisionError`; a negative base with a non-integral exponent
leaves the reals. -/
def ppow (x y : ℝ) : Py ℝ :=
  open Classical in
  if x = 0 ∧ y < 0 then .error .zeroDivisionError
  else if x < 0 ∧ ¬ ∃ n : ℤ, (n : ℝ) = y then .error .complexResult
  else .ok (x ^ y)

@[inherit_doc] infixr:75 " ^ₚ " => ppow

theorem ppow_ok {x y : ℝ} (h : 0 < x) : x ^ₚ y = .ok (x ^ y) := by
  simp [ppow, h.ne', not_lt.mpr h.le]
theorem ppow_ok' {x y : ℝ} (h : 0 ≤ x) (hy : 0 ≤ y) : x ^ₚ y = .ok (x ^ y) := by
  simp [ppow, not_lt.mpr h, not_lt.mpr hy]

/-- `math.acos`, `math.asin`: raise `ValueError` outside `[-1, 1]`. -/
def pacos (x : ℝ) : Py ℝ := if x < -1 ∨ 1 < x then .error .valueError else .ok (Real.arccos x)
theorem pacos_ok {x : ℝ} (h1 : -1 ≤ x) (h2 : x ≤ 1) : pacos x = .ok (Real.arccos x) := by
  simp [pacos, not_lt.mpr h1, not_lt.mpr h2]
@[inherit_doc pacos] def pasin (x : ℝ) : Py ℝ := if x < -1 ∨ 1 < x then .error .valueError else .ok (Real.arcsin x)
theorem pasin_ok {x : ℝ} (h1 : -1 ≤ x) (h2 : x ≤ 1) : pasin x = .ok (Real.arcsin x) := by
  simp [pasin, not_lt.mpr h1, not_lt.mpr h2]

end
end Verif
