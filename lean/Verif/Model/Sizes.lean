import Mathlib.Algebra.Order.Field.Rat
import Verif.Py
import Verif.Model.Constants

/-!
# Model of the standard-size tables of `fluids/pump.py` and `fluids/safety_valve.py`

Requests and sizes are rationals (every finite double is one).
-/

namespace Verif.Sizes

/-- pump.py:261-264 `nema_sizes_hp` -/
def nema_sizes_hp : List ℚ := [1/4, 3333333333333333/10^16, 1/2, 3/4, 1, 3/2, 2, 3, 4, 5, 11/2, 15/2, 10, 15, 20, 25, 30, 40, 50, 60,
  75, 100, 125, 150, 175, 200, 250, 300, 350, 400, 450, 500]

/-- pump.py:267 `nema_sizes` -/
def nema_sizes : List ℚ := nema_sizes_hp.map (· * Const.hp)

/-- pump.py:302-305 and safety_valve.py:136-139: the loop `for s in sizes: if s >= x: return s`, then `raise ValueError` -/
def firstAdequate (x : ℚ) : List ℚ → Py ℚ
  | [] => .error .valueError
  | s :: rest => if s ≥ x then .ok s else firstAdequate x rest

/-- pump.py:302-305 `motor_round_size` -/
def motor_round_size (P : ℚ) : Py ℚ := firstAdequate P nema_sizes

/-- safety_valve.py:86-87 `API526_A_sq_inch` -/
def API526_A_sq_inch : List ℚ := [110/1000, 196/1000, 307/1000, 503/1000, 785/1000, 1287/1000, 1838/1000, 2853/1000, 360/100, 434/100,
  638/100, 1105/100, 16, 26]

/-- safety_valve.py:89 `API526_letters` -/
def API526_letters : List String := ["D", "E", "F", "G", "H", "J", "K", "L", "M", "N", "P", "Q", "R", "T"]

/-- safety_valve.py:91-92 `API526_A` -/
def API526_A : List ℚ := API526_A_sq_inch.map (· * (Const.inch * Const.inch))

/-- safety_valve.py:136-139 `API520_round_size` -/
def API520_round_size (A : ℚ) : Py ℚ := firstAdequate A API526_A

end Verif.Sizes
