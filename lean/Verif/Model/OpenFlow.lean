import Verif.Py
import Verif.Model.Sequences
import Verif.Model.Constants
import Mathlib.Analysis.SpecialFunctions.Pow.Real
import Mathlib.Analysis.SpecialFunctions.Trigonometric.Basic

/-! Model of `fluids/open_flow.py`.  `radians` is exact. -/

open Real

noncomputable section

namespace Verif.OpenFlow

/-- open_flow.py:61 imports standard gravity (constants.py:59) -/
def g : ℝ := ((Verif.Const.g : ℚ) : ℝ)

/-- the Shen tables (open_flow.py:89-91) -/
def angles_Shen : List ℝ := [20, 40, 60, 80, 100]
/-- open_flow.py:90 -/
def Cs_Shen : List ℝ := [0.59, 0.58, 0.575, 0.575, 0.58]
/-- open_flow.py:91 -/
def k_Shen : List ℝ := [0.0028, 0.0017, 0.0012, 0.001, 0.001]

/-- `Q_weir_V_Shen` (open_flow.py:152-154) -/
def Q_weir_V_Shen (h1 : ℝ) (angle : ℝ := 90) : Py ℝ := do
  let C : ℝ ← Seq.interp angle angles_Shen Cs_Shen none none false
  let k : ℝ ← Seq.interp angle angles_Shen k_Shen none none false
  let w : ℝ ← (h1 + k) ^ₚ (2.5 : ℝ)
  pure (C * tan (angle * (π / 180) / 2) * √g * w)

/-- `Q_weir_rectangular_Kindsvater_Carter` (open_flow.py:209) -/
def Q_weir_rectangular_Kindsvater_Carter (h1 h2 b : ℝ) : Py ℝ := do
  let q : ℝ ← 0.0035 * h1 /ₚ h2
  let w : ℝ ← (h1 + 0.0001) ^ₚ (1.5 : ℝ)
  pure (0.554 * (1 - q) * (b + 0.0025) * √g * w)

/-- `Q_weir_rectangular_SIA` (open_flow.py:264-267) -/
def Q_weir_rectangular_SIA (h1 h2 b b1 : ℝ) : Py ℝ := do
  let h : ℝ := h1 + h2
  let r : ℝ ← b /ₚ b1
  let c : ℝ ← (0.00626 - 0.00519 * r ^ 2) /ₚ (h1 + 0.0016)
  let d : ℝ ← h1 /ₚ (h1 + h2)
  let w : ℝ ← h ^ₚ (1.5 : ℝ)
  pure (0.544 * (1 + 0.064 * r ^ 2 + c) * (1 + 0.5 * r ^ 4 * d ^ 2) * b * √g * w)

/-- `Q_weir_rectangular_full_Ackers` (open_flow.py:322) -/
def Q_weir_rectangular_full_Ackers (h1 h2 b : ℝ) : Py ℝ := do
  let q : ℝ ← 0.150 * h1 /ₚ h2
  let w : ℝ ← (h1 + 0.001) ^ₚ (1.5 : ℝ)
  pure (0.564 * (1 + q) * b * √g * w)

/-- `Q_weir_rectangular_full_SIA` (open_flow.py:375-377) -/
def Q_weir_rectangular_full_SIA (h1 h2 b : ℝ) : Py ℝ := do
  let c : ℝ ← 0.000615 /ₚ (h1 + 0.0016)
  let d : ℝ ← h1 /ₚ (h1 + h2)
  let w : ℝ ← h1 ^ₚ (1.5 : ℝ)
  pure (2 / 3 * √2 * (0.615 + c) * b * √g * h1 + 0.5 * d ^ 2 * b * √g * w)

/-- `Q_weir_rectangular_full_Rehbock` (open_flow.py:430) -/
def Q_weir_rectangular_full_Rehbock (h1 h2 b : ℝ) : Py ℝ := do
  let q : ℝ ← 0.0832 * h1 /ₚ h2
  let w : ℝ ← (h1 + 0.00125) ^ₚ (1.5 : ℝ)
  pure (2 / 3 * √2 * (0.602 + q) * b * √g * w)

/-- `Q_weir_rectangular_full_Kindsvater_Carter` (open_flow.py:483-484) -/
def Q_weir_rectangular_full_Kindsvater_Carter (h1 h2 b : ℝ) : Py ℝ := do
  let q : ℝ ← 0.075 * h1 /ₚ h2
  let w : ℝ ← (h1 + 0.001) ^ₚ (1.5 : ℝ)
  pure (2 / 3 * √2 * (0.602 + q) * (b - 0.001) * √g * w)

/-- `V_Manning` (open_flow.py:536) -/
def V_Manning (Rh S n : ℝ) : Py ℝ := do
  let w : ℝ ← Rh ^ₚ (2.0 / 3)
  let s : ℝ ← psqrt S
  w * s /ₚ n

/-- `n_Manning_to_C_Chezy` (open_flow.py:572) -/
def n_Manning_to_C_Chezy (n Rh : ℝ) : Py ℝ := do
  let i : ℝ ← 1 /ₚ n
  let w : ℝ ← Rh ^ₚ (1 / 6)
  pure (i * w)

/-- `C_Chezy_to_n_Manning` (open_flow.py:608) -/
def C_Chezy_to_n_Manning (C Rh : ℝ) : Py ℝ := do
  let w : ℝ ← Rh ^ₚ (1 / 6)
  w /ₚ C

/-- `V_Chezy` (open_flow.py:652) -/
def V_Chezy (Rh S C : ℝ) : Py ℝ := do
  let s : ℝ ← psqrt (S * Rh)
  pure (C * s)

end Verif.OpenFlow
