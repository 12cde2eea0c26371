import Mathlib.Data.Rat.Defs
import Mathlib.Data.Nat.Notation
import Mathlib.Data.Int.Notation

/-! Tables of `fluids/control_valve.py` for the noise of control valves, written as mantissa and number of decimals. -/

namespace Verif.Noise

/-- control_valve.py:1097-1127: a decimal number of the tables, as mantissa and number of digits after the point -/
def dec (p : ℤ × ℕ) : ℚ := p.1 / 10 ^ p.2

/-- control_valve.py:1097-1100 `fis_l_2015`: frequencies of the bands -/
def freqs : List (ℤ × ℕ) := [
  (125, 1), (16, 0), (20, 0), (25, 0), (315, 1), (40, 0),
  (50, 0), (63, 0), (80, 0), (100, 0), (125, 0), (160, 0),
  (200, 0), (250, 0), (315, 0), (400, 0), (500, 0), (630, 0),
  (800, 0), (1000, 0), (1250, 0), (1600, 0), (2000, 0), (2500, 0),
  (3150, 0), (4000, 0), (5000, 0), (6300, 0), (8000, 0), (10000, 0),
  (12500, 0), (16000, 0), (20000, 0)]

/-- control_valve.py:1105 `fis_l_2015_inv`: reciprocals -/
def freqsInv : List (ℤ × ℕ) := [
  (8, 2), (625, 4), (49999999999999996, 18), (4000000000000001, 17), (31746031746031744, 18), (25, 3),
  (2, 2), (1587301587301587, 17), (12499999999999999, 18), (10000000000000002, 18), (8, 3), (625, 5),
  (5, 3), (3999999999999999, 18), (3174603174603174, 18), (25000000000000005, 19), (2, 3), (15873015873015873, 19),
  (125, 5), (9999999999999998, 19), (8, 4), (6250000000000001, 19), (5, 4), (4, 4),
  (3174603174603174, 19), (24999999999999995, 20), (2, 4), (15873015873015873, 20), (125, 6), (1, 4),
  (8, 5), (6249999999999999, 20), (5, 5)]

/-- control_valve.py:1106 `fis_l_2015_1_5`: powers 3/2 -/
def freqs15 : List (ℤ × ℕ) := [
  (4419417382415922, 14), (64, 0), (8944271909999159, 14), (125, 0), (17679331152506873, 14), (25298221281347034, 14),
  (3535533905932738, 13), (50004699779120756, 14), (7155417527999327, 13), (1000, 0), (13975424859373686, 13), (20238577025077627, 13),
  (282842712474619, 11), (3952847075210474, 12), (5590695395029137, 12), (8000, 0), (11180339887498949, 12), (15812874501494027, 12),
  (2262741699796952, 11), (31622776601683792, 12), (4419417382415922, 11), (64000, 0), (8944271909999159, 11), (125000, 0),
  (1767933115250687, 10), (25298221281347034, 11), (35355339059327374, 11), (5000469977912076, 10), (7155417527999327, 10), (1000000, 0),
  (13975424859373686, 10), (20238577025077627, 10), (282842712474619, 8)]

/-- control_valve.py:1107 `fis_l_2015_n1_5`: powers −3/2 -/
def freqsN15 : List (ℤ × ℕ) := [
  (2262741699796952, 17), (15625, 6), (11180339887498947, 18), (8000000000000002, 18), (565632258015713, 17), (3952847075210475, 18),
  (282842712474619, 17), (1999812026503847, 18), (13975424859373684, 19), (10000000000000002, 19), (7155417527999327, 19), (4941058844013093, 19),
  (35355339059327376, 20), (2529822128134703, 19), (17886862533936855, 20), (12500000000000003, 20), (8944271909999159, 20), (6323960895949173, 20),
  (4419417382415922, 20), (3162277660168379, 20), (22627416997969522, 21), (15625000000000004, 21), (11180339887498949, 21), (8000000000000001, 21),
  (56563225801571285, 22), (39528470752104736, 22), (28284271247461903, 22), (19998120265038475, 22), (13975424859373686, 22), (10000000000000002, 22),
  (7155417527999328, 22), (4941058844013092, 22), (3535533905932738, 22)]

/-- control_valve.py:1108 `fis_l_2015_3`: cubes -/
def freqs3 : List (ℤ × ℕ) := [
  (1953125, 3), (4096, 0), (8000, 0), (15625, 0), (31255875, 3), (64000, 0),
  (125000, 0), (250047, 0), (512000, 0), (1000000, 0), (1953125, 0), (4096000, 0),
  (8000000, 0), (15625000, 0), (31255875, 0), (64000000, 0), (125000000, 0), (250047000, 0),
  (512000000, 0), (1000000000, 0), (1953125000, 0), (4096000000, 0), (8000000000, 0), (15625000000, 0),
  (31255875000, 0), (64000000000, 0), (125000000000, 0), (250047000000, 0), (512000000000, 0), (1000000000000, 0),
  (1953125000000, 0), (4096000000000, 0), (8000000000000, 0)]

/-- control_valve.py:1124-1127 `A_weights_l_2015`: A-weights -/
def aWeights : List (ℤ × ℕ) := [
  (-634, 1), (-567, 1), (-505, 1), (-447, 1), (-394, 1), (-346, 1),
  (-302, 1), (-262, 1), (-225, 1), (-191, 1), (-161, 1), (-134, 1),
  (-109, 1), (-86, 1), (-66, 1), (-48, 1), (-32, 1), (-19, 1),
  (-8, 1), (0, 0), (6, 1), (1, 0), (12, 1), (13, 1),
  (12, 1), (1, 0), (5, 1), (-1, 1), (-11, 1), (-25, 1),
  (-43, 1), (-66, 1), (-93, 1)]

end Verif.Noise
