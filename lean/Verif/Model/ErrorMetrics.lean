import Verif.Py
import Mathlib.Algebra.Order.Field.Basic

/-!
# Model of the error metrics of `fluids/numerics/__init__.py`

`data[i]` is always inside the list (`N = len(data)`); `calc[i]` raises `IndexError` when `calc` (here `calcs`) is shorter.
-/

namespace Verif.ErrorMetrics
open Verif

variable {K : Type _} [Field K] [LinearOrder K]

/-- numerics/__init__.py:5204-5211: the loop `for i in range(N)` shared by the `max_*` functions; `diff` computes the error of one pair. -/
def maxLoop (diff : K → K → Py K) : K → List K → List K → Py K
  | m, [], _ => .ok m
  | _, _ :: _, [] => .error .indexError
  | m, d :: ds, c :: cs => do
    let e ← diff d c
    let m := if e > m then e else m
    maxLoop diff m ds cs

/-- numerics/__init__.py:5244-5249: the loop `for i in range(N)` shared by the `mean_*` functions; `err` computes the summand of one pair. -/
def sumLoop (err : K → K → Py K) : K → List K → List K → Py K
  | s, [], _ => .ok s
  | _, _ :: _, [] => .error .indexError
  | s, d :: ds, c :: cs => do
    let e ← err d c
    sumLoop err (s + e) ds cs

/-- numerics/__init__.py:5203-5210 `max_abs_error`. -/
def max_abs_error (data calcs : List K) : Py K := maxLoop (fun d c => .ok |d - c|) 0 data calcs

/-- numerics/__init__.py:5216-5224: the error of one pair in `max_abs_rel_error`. -/
def cappedRel (max_val d c : K) : Py K :=
  if d = 0 then
    if c = 0 then .ok 0 else .ok max_val
  else do
    let q ← (d - c) /ₚ d
    let diff := |q|
    return if diff > max_val then max_val else diff

/-- numerics/__init__.py:5212-5227 `max_abs_rel_error`. -/
def max_abs_rel_error (data calcs : List K) (max_val : K := 1000) : Py K := maxLoop (cappedRel max_val) 0 data calcs

/-- numerics/__init__.py:5229-5237 `max_squared_error`. -/
def max_squared_error (data calcs : List K) : Py K := maxLoop (fun d c => .ok (|d - c| * |d - c|)) 0 data calcs

/-- numerics/__init__.py:5243-5244 and 5280-5281: the squared relative error of one pair. -/
def squaredRel (d c : K) : Py K := do
  let q ← (d - c) /ₚ d
  let diff := |q|
  return diff * diff

/-- numerics/__init__.py:5239-5247 `max_squared_rel_error`. -/
def max_squared_rel_error (data calcs : List K) : Py K := maxLoop squaredRel 0 data calcs

/-- numerics/__init__.py:5249-5254 `mean_abs_error`. -/
def mean_abs_error (data calcs : List K) : Py K := do
  let s ← sumLoop (fun d c => .ok |d - c|) 0 data calcs
  s /ₚ (data.length : K)

/-- numerics/__init__.py:5260-5266: the summand of one pair in `mean_abs_rel_error`. -/
def meanRel (d c : K) : Py K :=
  if d = 0 then
    if c = 0 then .ok 0 else .ok 1
  else do
    let q ← (d - c) /ₚ d
    return |q|

/-- numerics/__init__.py:5256-5267 `mean_abs_rel_error`. -/
def mean_abs_rel_error (data calcs : List K) : Py K := do
  let s ← sumLoop meanRel 0 data calcs
  s /ₚ (data.length : K)

/-- numerics/__init__.py:5269-5275 `mean_squared_error`. -/
def mean_squared_error (data calcs : List K) : Py K := do
  let s ← sumLoop (fun d c => .ok (|d - c| * |d - c|)) 0 data calcs
  s /ₚ (data.length : K)

/-- numerics/__init__.py:5277-5283 `mean_squared_rel_error`. -/
def mean_squared_rel_error (data calcs : List K) : Py K := do
  let s ← sumLoop squaredRel 0 data calcs
  s /ₚ (data.length : K)

end Verif.ErrorMetrics
