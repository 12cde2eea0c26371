import Mathlib.Data.Nat.Notation
import Mathlib.Data.Int.Notation

/-! Tables of `fluids/optional/spa.py`. -/

namespace Verif.Spa

/-- optional/spa.py:108-147 `HELIO_RADIUS_TABLE_LIST_0`: amplitude, phase (in units of 10⁻⁷) and frequency (in units of 10⁻⁵) -/
def R0 : List (ℕ × ℕ × ℕ) := [
  (100013989, 0, 0), (1670700, 30984635, 628307585), (13956, 30552500, 1256615170), (3084, 51985000, 7771377150), (1628, 11739000, 575338490), (1576, 28469000, 786041940), (925, 54530000, 1150677000), (542, 45640000, 393021000),
  (472, 36610000, 588492700), (346, 9640000, 550755300), (329, 59000000, 522369400), (307, 2990000, 557314300), (243, 42730000, 1179062900), (212, 58470000, 157734400), (186, 50220000, 1097707900), (175, 30120000, 1884922800),
  (110, 50550000, 548677800), (98, 8900000, 606978000), (86, 56900000, 1572084000), (86, 12700000, 16100069000), (65, 2700000, 1726015000), (63, 9200000, 52969000), (57, 20100000, 8399685000), (56, 52400000, 7143070000),
  (49, 32500000, 254431000), (47, 25800000, 77552000), (45, 55400000, 943776000), (43, 60100000, 627596000), (39, 53600000, 469400000), (38, 23900000, 882739000), (37, 8300000, 1965105000), (37, 49000000, 1213955000),
  (36, 16700000, 1203646000), (35, 18400000, 294246000), (33, 2400000, 708490000), (32, 1800000, 508863000), (32, 17800000, 39815000), (28, 12100000, 628660000), (28, 19000000, 627955000), (26, 45900000, 1044739000)]

/-- optional/spa.py:149-159 `HELIO_RADIUS_TABLE_LIST_1`: amplitude, phase (in units of 10⁻⁷) and frequency (in units of 10⁻⁵) -/
def R1 : List (ℕ × ℕ × ℕ) := [
  (103019, 11074900, 628307585), (1721, 10644000, 1256615170), (702, 31420000, 0), (32, 10200000, 1884923000), (31, 28400000, 550755000), (25, 13200000, 522369000), (18, 14200000, 157734000), (10, 59100000, 1097708000),
  (9, 14200000, 627596000), (9, 2700000, 548678000)]

/-- optional/spa.py:160-165 `HELIO_RADIUS_TABLE_LIST_2`: amplitude, phase (in units of 10⁻⁷) and frequency (in units of 10⁻⁵) -/
def R2 : List (ℕ × ℕ × ℕ) := [
  (4359, 57846000, 628307580), (124, 55790000, 1256615200), (12, 31400000, 0), (9, 36300000, 7771377000), (6, 18700000, 557314000), (3, 54700000, 1884923000)]

/-- optional/spa.py:166-167 `HELIO_RADIUS_TABLE_LIST_3`: amplitude, phase (in units of 10⁻⁷) and frequency (in units of 10⁻⁵) -/
def R3 : List (ℕ × ℕ × ℕ) := [
  (145, 42730000, 628307600), (7, 39200000, 1256615000)]

/-- optional/spa.py:240-244 `HELIO_LAT_TABLE_LIST_0`: amplitude, phase (in units of 10⁻⁷) and frequency (in units of 10⁻⁵) -/
def B0 : List (ℕ × ℕ × ℕ) := [
  (280, 31990000, 8433466200), (102, 54220000, 550755300), (80, 38800000, 522369000), (44, 37000000, 235287000), (32, 40000000, 157734000)]

/-- optional/spa.py:246-247 `HELIO_LAT_TABLE_LIST_1`: amplitude, phase (in units of 10⁻⁷) and frequency (in units of 10⁻⁵) -/
def B1 : List (ℕ × ℕ × ℕ) := [
  (9, 39000000, 550755000), (6, 17300000, 522369000)]

/-- optional/spa.py:250-313 `HELIO_LONG_TABLE_LIST_0`: amplitude, phase (in units of 10⁻⁷) and frequency (in units of 10⁻⁵) -/
def L0 : List (ℕ × ℕ × ℕ) := [
  (175347046, 0, 0), (3341656, 46692568, 628307585), (34894, 46261000, 1256615170), (3497, 27441000, 575338490), (3418, 28289000, 352310), (3136, 36277000, 7771377150), (2676, 44181000, 786041940), (2343, 61352000, 393020970),
  (1324, 7425000, 1150676980), (1273, 20371000, 52969100), (1199, 11096000, 157734350), (990, 52330000, 588492700), (902, 20450000, 2629800), (857, 35080000, 39814900), (780, 11790000, 522369400), (753, 25330000, 550755300),
  (505, 45830000, 1884922800), (492, 42050000, 77552300), (357, 29200000, 6700), (317, 58490000, 1179062900), (284, 18990000, 79629800), (271, 3150000, 1097707900), (243, 3450000, 548677800), (206, 48060000, 254431400),
  (205, 18690000, 557314300), (202, 24580000, 606977700), (156, 8330000, 21329900), (132, 34110000, 294246300), (126, 10830000, 2077500), (115, 6450000, 98000), (103, 6360000, 469400300), (102, 9760000, 1572083900),
  (102, 42670000, 711400), (99, 62100000, 214617000), (98, 6800000, 15542000), (86, 59800000, 16100069000), (85, 13000000, 627596000), (85, 36700000, 7143070000), (80, 18100000, 1726015000), (79, 30400000, 1203646000),
  (75, 17600000, 508863000), (74, 35000000, 315469000), (74, 46800000, 80182000), (70, 8300000, 943776000), (62, 39800000, 882739000), (61, 18200000, 708490000), (57, 27800000, 628660000), (56, 43900000, 1414350000),
  (56, 34700000, 627955000), (52, 1900000, 1213955000), (52, 13300000, 174802000), (51, 2800000, 585648000), (49, 4900000, 119445000), (41, 53700000, 842924000), (41, 24000000, 1965105000), (39, 61700000, 1044739000),
  (37, 60400000, 1021329000), (37, 25700000, 105938000), (36, 17100000, 235287000), (36, 17800000, 681277000), (33, 5900000, 1778985000), (30, 4400000, 8399685000), (30, 27400000, 134987000), (25, 31600000, 469048000)]

/-- optional/spa.py:314-348 `HELIO_LONG_TABLE_LIST_1`: amplitude, phase (in units of 10⁻⁷) and frequency (in units of 10⁻⁵) -/
def L1 : List (ℕ × ℕ × ℕ) := [
  (628331966747, 0, 0), (206059, 26782350, 628307585), (4303, 26351000, 1256615170), (425, 15900000, 352300), (119, 57960000, 2629800), (109, 29660000, 157734400), (93, 25900000, 1884923000), (72, 11400000, 52969000),
  (68, 18700000, 39815000), (67, 44100000, 550755000), (59, 28900000, 522369000), (56, 21700000, 15542000), (45, 4000000, 79630000), (36, 4700000, 77552000), (29, 26500000, 711000), (21, 53400000, 98000),
  (19, 18500000, 548678000), (19, 49700000, 21330000), (17, 29900000, 627596000), (16, 300000, 254431000), (16, 14300000, 214617000), (15, 12100000, 1097708000), (12, 28300000, 174802000), (12, 32600000, 508863000),
  (12, 52700000, 119445000), (12, 20800000, 469400000), (11, 7700000, 55357000), (10, 13000000, 628660000), (10, 42400000, 134987000), (9, 27000000, 24273000), (9, 56400000, 95172000), (8, 53000000, 235287000),
  (6, 26500000, 943776000), (6, 46700000, 469048000)]

/-- optional/spa.py:349-368 `HELIO_LONG_TABLE_LIST_2`: amplitude, phase (in units of 10⁻⁷) and frequency (in units of 10⁻⁵) -/
def L2 : List (ℕ × ℕ × ℕ) := [
  (52919, 0, 0), (8720, 10721000, 628307580), (309, 8670000, 1256615200), (27, 500000, 352000), (16, 51900000, 2630000), (16, 36800000, 15542000), (10, 7600000, 1884923000), (9, 20600000, 7771377000),
  (7, 8300000, 77552000), (5, 46600000, 157734000), (4, 10300000, 711000), (4, 34400000, 557314000), (3, 51400000, 79630000), (3, 60500000, 550755000), (3, 11900000, 24273000), (3, 61200000, 52969000),
  (3, 3100000, 39815000), (3, 22800000, 55357000), (2, 43800000, 522369000), (2, 37500000, 98000)]

/-- optional/spa.py:370-377 `HELIO_LONG_TABLE_LIST_3`: amplitude, phase (in units of 10⁻⁷) and frequency (in units of 10⁻⁵) -/
def L3 : List (ℕ × ℕ × ℕ) := [
  (289, 58440000, 628307600), (35, 0, 0), (17, 54900000, 1256615000), (3, 52000000, 15542000), (1, 47200000, 352000), (1, 53000000, 1884923000), (1, 59700000, 24273000)]

/-- optional/spa.py:378-380 `HELIO_LONG_TABLE_LIST_4`: amplitude, phase (in units of 10⁻⁷) and frequency (in units of 10⁻⁵) -/
def L4 : List (ℕ × ℕ × ℕ) := [
  (114, 31420000, 0), (8, 41300000, 628308000), (1, 38400000, 1256615000)]

/-- optional/spa.py:170-174 `NUTATION_YTERM_LIST_0` … `_4`, by rows -/
def Y : List (ℤ × ℤ × ℤ × ℤ × ℤ) := [
  (0, 0, 0, 0, 1), (-2, 0, 0, 2, 2), (0, 0, 0, 2, 2), (0, 0, 0, 0, 2), (0, 1, 0, 0, 0), (0, 0, 1, 0, 0), (-2, 1, 0, 2, 2), (0, 0, 0, 2, 1),
  (0, 0, 1, 2, 2), (-2, -1, 0, 2, 2), (-2, 0, 1, 0, 0), (-2, 0, 0, 2, 1), (0, 0, -1, 2, 2), (2, 0, 0, 0, 0), (0, 0, 1, 0, 1), (2, 0, -1, 2, 2),
  (0, 0, -1, 0, 1), (0, 0, 1, 2, 1), (-2, 0, 2, 0, 0), (0, 0, -2, 2, 1), (2, 0, 0, 2, 2), (0, 0, 2, 2, 2), (0, 0, 2, 0, 0), (-2, 0, 1, 2, 2),
  (0, 0, 0, 2, 0), (-2, 0, 0, 2, 0), (0, 0, -1, 2, 1), (0, 2, 0, 0, 0), (2, 0, -1, 0, 1), (-2, 2, 0, 2, 2), (0, 1, 0, 0, 1), (-2, 0, 1, 0, 1),
  (0, -1, 0, 0, 1), (0, 0, 2, -2, 0), (2, 0, -1, 2, 1), (2, 0, 1, 2, 2), (0, 1, 0, 2, 2), (-2, 1, 1, 0, 0), (0, -1, 0, 2, 2), (2, 0, 0, 2, 1),
  (2, 0, 1, 0, 0), (-2, 0, 2, 2, 2), (-2, 0, 1, 2, 1), (2, 0, -2, 0, 1), (2, 0, 0, 0, 1), (0, -1, 1, 0, 0), (-2, -1, 0, 2, 1), (-2, 0, 0, 0, 1),
  (0, 0, 2, 2, 1), (-2, 0, 2, 0, 1), (-2, 1, 0, 2, 1), (0, 0, 1, -2, 0), (-1, 0, 1, 0, 0), (-2, 1, 0, 0, 0), (1, 0, 0, 0, 0), (0, 0, 1, 2, 0),
  (0, 0, -2, 2, 2), (-1, -1, 1, 0, 0), (0, 1, 1, 0, 0), (0, -1, 1, 2, 2), (2, -1, -1, 2, 2), (0, 0, 3, 2, 2), (2, -1, 0, 2, 2)]

/-- optional/spa.py:176-238 `NUTATION_ABCD_LIST` (in units of 1/10) -/
def ABCD : List (ℤ × ℤ × ℤ × ℤ) := [
  (-1719960, -1742, 920250, 89), (-131870, -16, 57360, -31), (-22740, -2, 9770, -5), (20620, 2, -8950, 5), (14260, -34, 540, -1), (7120, 1, -70, 0), (-5170, 12, 2240, -6), (-3860, -4, 2000, 0),
  (-3010, 0, 1290, -1), (2170, -5, -950, 3), (-1580, 0, 0, 0), (1290, 1, -700, 0), (1230, 0, -530, 0), (630, 0, 0, 0), (630, 1, -330, 0), (-590, 0, 260, 0),
  (-580, -1, 320, 0), (-510, 0, 270, 0), (480, 0, 0, 0), (460, 0, -240, 0), (-380, 0, 160, 0), (-310, 0, 130, 0), (290, 0, 0, 0), (290, 0, -120, 0),
  (260, 0, 0, 0), (-220, 0, 0, 0), (210, 0, -100, 0), (170, -1, 0, 0), (160, 0, -80, 0), (-160, 1, 70, 0), (-150, 0, 90, 0), (-130, 0, 70, 0),
  (-120, 0, 60, 0), (110, 0, 0, 0), (-100, 0, 50, 0), (-80, 0, 30, 0), (70, 0, -30, 0), (-70, 0, 0, 0), (-70, 0, 30, 0), (-70, 0, 30, 0),
  (60, 0, 0, 0), (60, 0, -30, 0), (60, 0, -30, 0), (-60, 0, 30, 0), (-60, 0, 30, 0), (50, 0, 0, 0), (-50, 0, 30, 0), (-50, 0, 30, 0),
  (-50, 0, 30, 0), (40, 0, 0, 0), (40, 0, 0, 0), (40, 0, 0, 0), (-40, 0, 0, 0), (-40, 0, 0, 0), (-40, 0, 0, 0), (30, 0, 0, 0),
  (-30, 0, 0, 0), (-30, 0, 0, 0), (-30, 0, 0, 0), (-30, 0, 0, 0), (-30, 0, 0, 0), (-30, 0, 0, 0), (-30, 0, 0, 0)]

end Verif.Spa
