import Mathlib.Analysis.SpecialFunctions.Pow.Real
import Verif.Py
import Verif.Model.Sequences
import Verif.Model.Constants

/-!
# Model of the motor helpers of `fluids/pump.py`

`hp` is the exact constant of `fluids/constants`; the fitted efficiency surface `bisplev(load, P, VFD_efficiency_tck)` is a parameter.
-/

namespace Verif.Pump
open Real
open Verif.Seq (interp)

noncomputable section

/-- constants/constants.py:174: constants.py `hp` as a real number -/
def hp : ℝ := (Const.hp : ℝ)

/-- pump.py:258: Python's `round` to an integer: nearest, ties to even -/
def pyRound (y : ℝ) : ℤ :=
  if y - ⌊y⌋ < 1 / 2 then ⌊y⌋ else if y - ⌊y⌋ > 1 / 2 then ⌊y⌋ + 1 else if ⌊y⌋ % 2 = 0 then ⌊y⌋ else ⌊y⌋ + 1

/-- pump.py:258, 428: Python's `round(x, 4)` on exact numbers -/
def round4 (x : ℝ) : ℝ := pyRound (x * 10000) / 10000

/-- pump.py:251-258 `VFD_efficiency`; `surface` stands for the fitted spline. -/
def VFD_efficiency (surface : ℝ → ℝ → ℝ) (P load : ℝ) : ℝ :=
  let P := P / hp
  let P := if P < 3 then 3 else if P > 400 then 400 else P
  let load := if load < 0.016 then 0.016 else load
  round4 (surface load P)

/-- pump.py:308 -/
def nema_high_P : List ℝ := [1, 1.5, 2, 3, 4, 5, 5.5, 7.5, 10, 15, 20, 25, 30, 40, 50, 60, 75, 100, 125, 150, 175, 200]
/-- pump.py:309 -/
def nema_high_full_open_2p : List ℝ := [
  0.77, 0.84, 0.855, 0.855, 0.865, 0.865, 0.865, 0.885, 0.895, 0.902, 0.91, 0.917, 0.917, 0.924, 0.93, 0.936, 0.936, 0.936, 
  0.941, 0.941, 0.95, 0.95]
/-- pump.py:310 -/
def nema_high_full_open_4p : List ℝ := [
  0.855, 0.865, 0.865, 0.895, 0.895, 0.895, 0.895, 0.91, 0.917, 0.93, 0.93, 0.936, 0.941, 0.941, 0.945, 0.95, 0.95, 0.954, 
  0.954, 0.958, 0.958, 0.958]
/-- pump.py:311 -/
def nema_high_full_open_6p : List ℝ := [
  0.825, 0.865, 0.875, 0.885, 0.895, 0.895, 0.895, 0.902, 0.917, 0.917, 0.924, 0.93, 0.936, 0.941, 0.941, 0.945, 0.945, 
  0.95, 0.95, 0.954, 0.954, 0.954]
/-- pump.py:312 -/
def nema_high_full_closed_2p : List ℝ := [
  0.77, 0.84, 0.855, 0.865, 0.885, 0.885, 0.885, 0.895, 0.902, 0.91, 0.91, 0.917, 0.917, 0.924, 0.93, 0.936, 0.936, 0.941, 
  0.95, 0.95, 0.954, 0.954]
/-- pump.py:313 -/
def nema_high_full_closed_4p : List ℝ := [
  0.855, 0.865, 0.865, 0.895, 0.895, 0.895, 0.895, 0.917, 0.917, 0.924, 0.93, 0.936, 0.936, 0.941, 0.945, 0.95, 0.954, 
  0.954, 0.954, 0.958, 0.962, 0.962]
/-- pump.py:314 -/
def nema_high_full_closed_6p : List ℝ := [
  0.825, 0.875, 0.885, 0.895, 0.895, 0.895, 0.895, 0.91, 0.91, 0.917, 0.917, 0.93, 0.93, 0.941, 0.941, 0.945, 0.945, 0.95, 
  0.95, 0.958, 0.958, 0.958]
/-- pump.py:317 -/
def nema_min_P : List ℝ := [
  1, 1.5, 2, 3, 4, 5, 5.5, 7.5, 10, 15, 20, 25, 30, 40, 50, 60, 75, 100, 125, 150, 175, 200, 250, 300, 350, 400, 450, 500]
/-- pump.py:318 -/
def nema_min_full_open_2p : List ℝ := [
  0.755, 0.825, 0.84, 0.84, 0.84, 0.855, 0.855, 0.875, 0.885, 0.895, 0.902, 0.91, 0.91, 0.917, 0.924, 0.93, 0.93, 0.93, 
  0.936, 0.936, 0.945, 0.945, 0.945, 0.95, 0.95, 0.954, 0.958, 0.958]
/-- pump.py:319 -/
def nema_min_full_open_4p : List ℝ := [
  0.825, 0.84, 0.84, 0.865, 0.865, 0.875, 0.875, 0.885, 0.895, 0.91, 0.91, 0.917, 0.924, 0.93, 0.93, 0.936, 0.941, 0.941, 
  0.945, 0.95, 0.95, 0.95, 0.954, 0.954, 0.954, 0.954, 0.958, 0.958]
/-- pump.py:320 -/
def nema_min_full_open_6p : List ℝ := [
  0.8, 0.84, 0.855, 0.865, 0.865, 0.875, 0.875, 0.885, 0.902, 0.902, 0.91, 0.917, 0.924, 0.93, 0.93, 0.936, 0.936, 0.941, 
  0.941, 0.945, 0.945, 0.945, 0.954, 0.954, 0.954, 0.954, 0.954, 0.954]
/-- pump.py:321 -/
def nema_min_full_open_8p : List ℝ := [
  0.74, 0.755, 0.855, 0.865, 0.865, 0.875, 0.875, 0.885, 0.895, 0.895, 0.902, 0.902, 0.91, 0.91, 0.917, 0.924, 0.936, 
  0.936, 0.936, 0.936, 0.936, 0.936, 0.945, 0.945, 0.945, 0.945, 0.945, 0.945]
/-- pump.py:322 -/
def nema_min_full_closed_2p : List ℝ := [
  0.755, 0.825, 0.84, 0.855, 0.855, 0.875, 0.875, 0.885, 0.895, 0.902, 0.902, 0.91, 0.91, 0.917, 0.924, 0.93, 0.93, 0.936, 
  0.945, 0.945, 0.95, 0.95, 0.954, 0.954, 0.954, 0.954, 0.954, 0.954]
/-- pump.py:323 -/
def nema_min_full_closed_4p : List ℝ := [
  0.825, 0.84, 0.84, 0.875, 0.875, 0.875, 0.875, 0.895, 0.895, 0.91, 0.91, 0.924, 0.924, 0.93, 0.93, 0.936, 0.941, 0.945, 
  0.945, 0.95, 0.95, 0.95, 0.95, 0.954, 0.954, 0.954, 0.954, 0.958]
/-- pump.py:324 -/
def nema_min_full_closed_6p : List ℝ := [
  0.8, 0.855, 0.865, 0.875, 0.875, 0.875, 0.875, 0.895, 0.895, 0.902, 0.902, 0.917, 0.917, 0.93, 0.93, 0.936, 0.936, 0.941, 
  0.941, 0.95, 0.95, 0.95, 0.95, 0.95, 0.95, 0.95, 0.95, 0.95]
/-- pump.py:325 -/
def nema_min_full_closed_8p : List ℝ := [
  0.74, 0.77, 0.825, 0.84, 0.84, 0.855, 0.855, 0.855, 0.885, 0.885, 0.895, 0.895, 0.91, 0.91, 0.917, 0.917, 0.93, 0.93, 
  0.936, 0.936, 0.941, 0.941, 0.945, 0.945, 0.945, 0.945, 0.945, 0.945]

/-- pump.py:391-428 `CSA_motor_efficiency`: a pole count without a table leaves `efficiency` unassigned. -/
def CSA_motor_efficiency (P : ℝ) (closed : Bool) (poles : ℤ) (high_efficiency : Bool) : Py ℝ := do
  let P : ℝ := P / hp
  let efficiency ← (if high_efficiency then
      if closed then
        if poles = 2 then interp P nema_high_P nema_high_full_closed_2p none none false
        else if poles = 4 then interp P nema_high_P nema_high_full_closed_4p none none false
        else if poles = 6 then interp P nema_high_P nema_high_full_closed_6p none none false
        else .error .unboundLocalError
      else
        if poles = 2 then interp P nema_high_P nema_high_full_open_2p none none false
        else if poles = 4 then interp P nema_high_P nema_high_full_open_4p none none false
        else if poles = 6 then interp P nema_high_P nema_high_full_open_6p none none false
        else .error .unboundLocalError
    else
      if closed then
        if poles = 2 then interp P nema_min_P nema_min_full_closed_2p none none false
        else if poles = 4 then interp P nema_min_P nema_min_full_closed_4p none none false
        else if poles = 6 then interp P nema_min_P nema_min_full_closed_6p none none false
        else if poles = 8 then interp P nema_min_P nema_min_full_closed_8p none none false
        else .error .unboundLocalError
      else
        if poles = 2 then interp P nema_min_P nema_min_full_open_2p none none false
        else if poles = 4 then interp P nema_min_P nema_min_full_open_4p none none false
        else if poles = 6 then interp P nema_min_P nema_min_full_open_6p none none false
        else if poles = 8 then interp P nema_min_P nema_min_full_open_8p none none false
        else .error .unboundLocalError : Py ℝ)
  return round4 efficiency

/-- pump.py:431-437 `_efficiency_lists` -/
def efficiency_lists : List (List ℝ) := [
  [0.015807118828266818, 4.3158627514876216, -8.5612097969025438, 8.2040355039147386, -3.0147603718043068],
  [0.015560190519232379, 4.5699731811493152, -7.6800154569463883, 5.4701698738380813, -1.3630071852989643],
  [0.059917274403963446, 6.356781885851186, -17.099192527703369, 20.707077651470666, -9.2215133149377841],
  [0.29536141765389839, 4.9918188632064329, -13.785081664656504, 16.908273659093812, -7.5816775136809609],
  [0.46934299949154384, 4.0298663805446004, -11.632822556859477, 14.616967043793032, -6.6284514347522245],
  [0.68235730304242914, 2.4402956771025748, -6.8306770996860182, 8.2108432911172713, -3.5629309804411577]]

/-- pump.py:438 `_efficiency_ones` -/
def efficiency_ones : List ℝ := [0.9218102, 0.64307597, 0.61724113, 0.61569791, 0.6172238, 0.40648294]

/-- pump.py:479-490: the index of the size class -/
def sizeClass (P : ℝ) : ℕ :=
  if P ≤ 1 then 0 else if P ≤ 5 then 1 else if P ≤ 10 then 2 else if P ≤ 25 then 3 else if P ≤ 60 then 4 else 5

/-- pump.py:478-495 `motor_efficiency_underloaded` -/
def motor_efficiency_underloaded (P load : ℝ) : ℝ :=
  let P := P / hp
  let i := sizeClass P
  if load > efficiency_ones.getD i 0 then 1
  else
    let cs := efficiency_lists.getD i []
    cs.getD 0 0 + cs.getD 1 0 * load + cs.getD 2 0 * load ^ 2 + cs.getD 3 0 * load ^ 3 + cs.getD 4 0 * load ^ 4

/-- pump.py:535 `specific_speed` -/
def specific_speed (Q H n : ℝ) : Py ℝ := do
  let s ← psqrt Q
  let p ← H ^ₚ 0.75
  n * s /ₚ p

/-- pump.py:573 `specific_diameter` -/
def specific_diameter (Q H D : ℝ) : Py ℝ := do
  let s ← psqrt H
  let r ← s /ₚ Q
  let q ← psqrt r
  return D * q

/-- pump.py:611 `speed_synchronous` -/
def speed_synchronous (f poles : ℝ) : Py ℝ := 120 * f /ₚ poles

/-- pump.py:661-666 `current_ideal` -/
def current_ideal (P V : ℝ) (phase : ℤ) (PF : ℝ) : Py ℝ :=
  if ¬ (phase = 1 ∨ phase = 3) then .error .valueError
  else if phase = 3 then P /ₚ (V * √3 * PF)
  else P /ₚ (V * PF)

end
end Verif.Pump
