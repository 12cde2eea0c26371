import Verif.Py

/-! Proof automation for running the model: `py_eval` discharges the side conditions of partial operations. -/

namespace Verif

/-- Run a `Py` program, discharging `≠ 0`, `0 <` and `0 ≤` side conditions by `assumption` and `positivity`. -/
macro "py_eval" "[" ls:Lean.Parser.Tactic.simpLemma,* "]" : tactic => `(tactic|
  simp (disch := first | assumption | positivity) only
    [pdiv_ok, ppow_ok, psqrt_ok, plog_ok, plog10_ok, Py.ok_bind, Py.pure_eq, $ls,*])

theorem exists_exp {x : ℝ} (h : 0 < x) : ∃ l, x = Real.exp l := ⟨Real.log x, (Real.exp_log h).symm⟩

theorem ok_congr {α : Type _} {a b : α} (h : a = b) : (Except.ok a : Py α) = .ok b := by rw [h]

end Verif
