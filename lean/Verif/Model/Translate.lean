import Verif.Py

/-!
# Model of `translate_bound_*` (`fluids/numerics/__init__.py`) and `trunc_exp`, `trunc_log` (`special.py`)

The list is copied and overwritten component by component; each new component depends only on the old one, so the loop is a
`mapM` over the indices. `low[i]`, `high[i]` raise `IndexError` when a bound list is short.
-/

namespace Verif.Translate

/-- numerics/__init__.py:2178: `l[i]`, `i ≥ 0` -/
def idx {α : Type _} (l : List α) (i : ℕ) : Py α :=
  match l[i]? with
  | some v => .ok v
  | none => .error .indexError

noncomputable section

/-- numerics/special.py:130-136 `trunc_exp`. Exact real arithmetic does not overflow, so the `except` branch is never taken. -/
def trunc_exp (x : ℝ) : ℝ := Real.exp x

/-- numerics/special.py:140-146 `trunc_log`. -/
def trunc_log (x : ℝ) : Py ℝ :=
  if x = 0 then .ok (-7444400719213812 / 10000000000000) else plog x

/-- numerics/__init__.py:2178, 2191, 2205, 2244: one component of `translate_outof` -/
def outof1 (low high : List ℝ) (i : ℕ) (x : ℝ) : Py ℝ := do
  let lo ← idx low i
  let hi ← idx high i
  let q ← (hi - lo) /ₚ (1 + trunc_exp (-x))
  return lo + q

/-- numerics/__init__.py:2185, 2220, 2280: one component of `translate_into` -/
def into1 (low high : List ℝ) (i : ℕ) (x : ℝ) : Py ℝ := do
  let hi ← idx high i
  let lo ← idx low i
  let q ← (hi - x) /ₚ (x - lo)
  let l ← trunc_log q
  return -l

/-- numerics/__init__.py:2188-2192 `translate_outof` (also 2223-2227, 2283-2291). -/
def translate_outof (low high x : List ℝ) : Py (List ℝ) :=
  (List.range x.length).mapM fun i => outof1 low high i (x.getD i 0)

/-- numerics/__init__.py:2182-2186 `translate_into` (also 2217-2221, 2273-2281). -/
def translate_into (low high x : List ℝ) : Py (List ℝ) :=
  (List.range x.length).mapM fun i => into1 low high i (x.getD i 0)

/-- numerics/__init__.py:2174-2180: the wrapped function returned by `translate_bound_func`. -/
def bound_func {α : Type _} (func : List ℝ → Py α) (low high x : List ℝ) : Py α := do
  let x ← translate_outof low high x
  func x

/-- numerics/__init__.py:2201-2215: the wrapped gradient returned by `translate_bound_jac`; every exception of the second part becomes
`NotImplementedError`. -/
def bound_jac (jac : List ℝ → Py (List ℝ)) (low high x : List ℝ) : Py (List ℝ) := do
  let x_base ← translate_outof low high x
  let jac_base ← jac x_base
  match (List.range x.length).mapM (fun i => (do
      let lo ← idx low i
      let hi ← idx high i
      let j ← idx jac_base i
      let v := (hi - lo) * trunc_exp (-(x.getD i 0)) * j
      let s ← (1 + trunc_exp (-(x.getD i 0))) ^ₚ (-2 : ℝ)
      return v * s : Py ℝ)) with
  | .ok head => .ok (head ++ jac_base.drop x.length)
  | .error _ => .error .notImplementedError

/-- numerics/__init__.py:2239-2271, the vector branch: `translate_bound_f_jac` divides by `t*t` instead of multiplying by `t**-2`. -/
def bound_f_jac (f_jac : List ℝ → Py (ℝ × List ℝ)) (low high x : List ℝ) : Py (ℝ × List ℝ) := do
  let x_base ← translate_outof low high x
  let fj ← f_jac x_base
  match (List.range x.length).mapM (fun i => (do
      let lo ← idx low i
      let hi ← idx high i
      let j ← idx fj.2 i
      let t := 1 + trunc_exp (-(x.getD i 0))
      (hi - lo) * trunc_exp (-(x.getD i 0)) * j /ₚ (t * t) : Py ℝ)) with
  | .ok head => .ok (fj.1, head ++ fj.2.drop x.length)
  | .error _ => .error .notImplementedError

end
end Verif.Translate
