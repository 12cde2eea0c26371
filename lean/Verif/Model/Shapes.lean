import Verif.Model.Core
import Mathlib.Data.Real.Basic
import Mathlib.Algebra.Order.Floor.Ring
import Mathlib.Data.Real.Archimedean

/-! # Shapes of nested lists and arrays of one value: fluids/numerics/arrays.py and fluids/numerics/__init__.py -/

namespace Verif.Shapes

/-- arrays.py:423-473: a value as `shape` sees it: something that is not a container, or a list of values -/
inductive Value (α : Type _)
  | leaf (v : α)
  | list (l : List (Value α))

/-- arrays.py:462-468: the loop over the first elements; an empty list ends it with the IndexError that 471 swallows -/
def shapeLoop {α : Type _} : ℕ → Value α → List ℕ
  | 0, _ => []
  | _ + 1, .leaf _ => []
  | _ + 1, .list [] => [0]
  | k + 1, .list (v :: l) => (l.length + 1) :: shapeLoop k v

/-- arrays.py:423-473 `shape` of lists; `len` of a number is a TypeError. numpy arrays answer with their own shape and are outside the model. -/
def shape {α : Type _} : Value α → Py (List ℕ)
  | .leaf _ => .error .typeError
  | .list [] => .ok [0]
  | .list (v :: l) => .ok ((l.length + 1) :: shapeLoop 10 v)

/-- numerics/__init__.py:1987-1992: the types of number -/
inductive DType
  | float
  | int
  | other

/-- numerics/__init__.py:1993-1998: a length, or a tuple of lengths, or anything else -/
inductive ShapeArg
  | int (n : ℤ)
  | tuple (l : List ℤ)
  | other

noncomputable section

/-- numerics/__init__.py:1987-1992: the value repeated; `int` truncates towards zero -/
def fillOf (dtype : DType) (fill : ℝ) : Py ℝ :=
  match dtype with
  | .float => .ok fill
  | .int => .ok (if 0 ≤ fill then (⌊fill⌋ : ℝ) else (⌈fill⌉ : ℝ))
  | .other => .error .valueError

/-- numerics/__init__.py:1995, 1999, 2002: `[v]*n`, and `[v for _ in range(n)]`: empty for a negative `n` -/
def rep (n : ℤ) (v : Value ℝ) : Value ℝ := .list (List.replicate n.toNat v)

/-- numerics/__init__.py:1986-2012 `zeros`; that the rows are separate objects is outside the model -/
def zeros (shape : ShapeArg) (dtype : DType) (fill_value : ℝ) : Py (Value ℝ) := do
  let zero ← fillOf dtype fill_value
  match shape with
  | .int n => .ok (rep n (.leaf zero))
  | .tuple [s0] => .ok (rep s0 (.leaf zero))
  | .tuple [s0, s1] => .ok (rep s0 (rep s1 (.leaf zero)))
  | .tuple [s0, s1, s2] => .ok (rep s0 (rep s1 (rep s2 (.leaf zero))))
  | .tuple [s0, s1, s2, s3] => .ok (rep s0 (rep s1 (rep s2 (rep s3 (.leaf zero)))))
  | _ => .error .valueError

/-- numerics/__init__.py:2014-2015 `full` -/
def full (shape : ShapeArg) (fill_value : ℝ) (dtype : DType) : Py (Value ℝ) := zeros shape dtype fill_value

end

end Verif.Shapes
