import Mathlib.Data.Rat.Defs

/-! Sieve tables of `fluids/particle_size_distribution.py`, generated by `tools/sieve_tables.py`: dictionary key, `designation`,
`opening`, `d_wire_min`, `d_wire`, `d_wire_max`; decimals are exact rationals. -/

namespace Verif.Psd

/-- the fields of `Sieve` (particle_size_distribution.py:130-240) that are data in metres, with the dictionary key -/
structure SieveRow where
  key : String
  designation : String
  opening : ℚ
  d_wire_min : ℚ
  d_wire : ℚ
  d_wire_max : ℚ

/-- particle_size_distribution.py:245-301 `ASTM_E11_sieves` -/
def ASTM_E11_sieves : List SieveRow := [
  ⟨"0.02", "0.02", 1 / 50000, 1 / 50000000, 1 / 50000000, 1 / 50000000⟩,
  ⟨"0.025", "0.025", 1 / 40000, 1 / 50000000, 3 / 100000000, 3 / 100000000⟩,
  ⟨"0.032", "0.032", 1 / 31250, 1 / 50000000, 3 / 100000000, 3 / 100000000⟩,
  ⟨"0.038", "0.038", 19 / 500000, 1 / 50000000, 3 / 100000000, 3 / 100000000⟩,
  ⟨"0.045", "0.045", 9 / 200000, 3 / 100000000, 3 / 100000000, 1 / 25000000⟩,
  ⟨"0.053", "0.053", 53 / 1000000, 3 / 100000000, 1 / 25000000, 1 / 25000000⟩,
  ⟨"0.063", "0.063", 63 / 1000000, 1 / 25000000, 1 / 20000000, 1 / 20000000⟩,
  ⟨"0.075", "0.075", 3 / 40000, 1 / 25000000, 1 / 20000000, 3 / 50000000⟩,
  ⟨"0.09", "0.09", 9 / 100000, 1 / 20000000, 3 / 50000000, 7 / 100000000⟩,
  ⟨"0.106", "0.106", 53 / 500000, 3 / 50000000, 7 / 100000000, 1 / 12500000⟩,
  ⟨"0.125", "0.125", 1 / 8000, 1 / 12500000, 9 / 100000000, 1 / 10000000⟩,
  ⟨"0.15", "0.15", 3 / 20000, 9 / 100000000, 1 / 10000000, 3 / 25000000⟩,
  ⟨"0.18", "0.18", 9 / 50000, 11 / 100000000, 3 / 25000000, 3 / 20000000⟩,
  ⟨"0.212", "0.212", 53 / 250000, 3 / 25000000, 7 / 50000000, 17 / 100000000⟩,
  ⟨"0.25", "0.25", 1 / 4000, 13 / 100000000, 1 / 6250000, 19 / 100000000⟩,
  ⟨"0.3", "0.3", 3 / 10000, 17 / 100000000, 1 / 5000000, 23 / 100000000⟩,
  ⟨"0.355", "0.355", 71 / 200000, 19 / 100000000, 11 / 50000000, 13 / 50000000⟩,
  ⟨"0.425", "0.425", 17 / 40000, 3 / 12500000, 7 / 25000000, 1 / 3125000⟩,
  ⟨"0.5", "0.5", 1 / 2000, 27 / 100000000, 1 / 3125000, 9 / 25000000⟩,
  ⟨"0.6", "0.6", 3 / 5000, 17 / 50000000, 1 / 2500000, 23 / 50000000⟩,
  ⟨"0.71", "0.71", 71 / 100000, 19 / 50000000, 9 / 20000000, 13 / 25000000⟩,
  ⟨"0.85", "0.85", 17 / 20000, 43 / 100000000, 1 / 2000000, 29 / 50000000⟩,
  ⟨"1", "1", 1 / 1000, 3 / 6250, 7 / 12500, 2 / 3125⟩,
  ⟨"1.18", "1.18", 59 / 50000, 27 / 50000, 63 / 100000, 9 / 12500⟩,
  ⟨"1.4", "1.4", 7 / 5000, 3 / 5000, 71 / 100000, 41 / 50000⟩,
  ⟨"1.7", "1.7", 17 / 10000, 17 / 25000, 1 / 1250, 23 / 25000⟩,
  ⟨"100", "100", 1 / 10, 27 / 5000, 63 / 10000, 9 / 1250⟩,
  ⟨"106", "106", 53 / 500, 27 / 5000, 63 / 10000, 9 / 1250⟩,
  ⟨"11.2", "11.2", 7 / 625, 21 / 10000, 1 / 400, 29 / 10000⟩,
  ⟨"12.5", "12.5", 1 / 80, 21 / 10000, 1 / 400, 29 / 10000⟩,
  ⟨"125", "125", 1 / 8, 17 / 2500, 1 / 125, 23 / 2500⟩,
  ⟨"13.2", "13.2", 33 / 2500, 3 / 1250, 7 / 2500, 2 / 625⟩,
  ⟨"16", "16", 2 / 125, 27 / 10000, 63 / 20000, 9 / 2500⟩,
  ⟨"19", "19", 19 / 1000, 27 / 10000, 63 / 20000, 7 / 2000⟩,
  ⟨"2", "2", 1 / 500, 77 / 100000, 9 / 10000, 13 / 12500⟩,
  ⟨"2.36", "2.36", 59 / 25000, 17 / 20000, 1 / 1000, 23 / 20000⟩,
  ⟨"2.8", "2.8", 7 / 2500, 19 / 20000, 7 / 6250, 13 / 10000⟩,
  ⟨"22.4", "22.4", 14 / 625, 3 / 1000, 71 / 20000, 41 / 10000⟩,
  ⟨"25", "25", 1 / 40, 3 / 1000, 71 / 20000, 41 / 10000⟩,
  ⟨"26.5", "26.5", 53 / 2000, 3 / 1000, 71 / 20000, 41 / 10000⟩,
  ⟨"3.35", "3.35", 67 / 20000, 53 / 50000, 1 / 800, 3 / 2000⟩,
  ⟨"31.5", "31.5", 63 / 2000, 17 / 5000, 1 / 250, 23 / 5000⟩,
  ⟨"37.5", "37.5", 3 / 80, 19 / 5000, 9 / 2000, 13 / 2500⟩,
  ⟨"4", "4", 1 / 250, 3 / 2500, 7 / 5000, 17 / 10000⟩,
  ⟨"4.75", "4.75", 19 / 4000, 13 / 10000, 1 / 625, 19 / 10000⟩,
  ⟨"45", "45", 9 / 200, 19 / 5000, 9 / 2000, 13 / 2500⟩,
  ⟨"5.6", "5.6", 7 / 1250, 13 / 10000, 1 / 625, 19 / 10000⟩,
  ⟨"50", "50", 1 / 20, 43 / 10000, 1 / 200, 29 / 5000⟩,
  ⟨"53", "53", 53 / 1000, 43 / 10000, 1 / 200, 29 / 5000⟩,
  ⟨"6.3", "6.3", 63 / 10000, 3 / 2000, 9 / 5000, 21 / 10000⟩,
  ⟨"6.7", "6.7", 67 / 10000, 3 / 2000, 9 / 5000, 21 / 10000⟩,
  ⟨"63", "63", 63 / 1000, 3 / 625, 7 / 1250, 4 / 625⟩,
  ⟨"75", "75", 3 / 40, 27 / 5000, 63 / 10000, 9 / 1250⟩,
  ⟨"8", "8", 1 / 125, 17 / 10000, 1 / 500, 23 / 10000⟩,
  ⟨"9.5", "9.5", 19 / 2000, 19 / 10000, 7 / 3125, 13 / 5000⟩,
  ⟨"90", "90", 9 / 100, 27 / 5000, 63 / 10000, 9 / 1250⟩]

/-- particle_size_distribution.py:327-427 `ISO_3310_1_sieves` -/
def ISO_3310_1_sieves : List SieveRow := [
  ⟨"0.02", "0.02", 1 / 50000, 23 / 1000000, 1 / 50000, 23 / 1000000⟩,
  ⟨"0.025", "0.025", 1 / 40000, 29 / 1000000, 1 / 40000, 29 / 1000000⟩,
  ⟨"0.032", "0.032", 1 / 31250, 33 / 1000000, 7 / 250000, 33 / 1000000⟩,
  ⟨"0.036", "0.036", 9 / 250000, 7 / 200000, 3 / 100000, 7 / 200000⟩,
  ⟨"0.038", "0.038", 19 / 500000, 7 / 200000, 3 / 100000, 7 / 200000⟩,
  ⟨"0.04", "0.04", 1 / 25000, 37 / 1000000, 1 / 31250, 37 / 1000000⟩,
  ⟨"0.045", "0.045", 9 / 200000, 37 / 1000000, 1 / 31250, 37 / 1000000⟩,
  ⟨"0.05", "0.05", 1 / 20000, 41 / 1000000, 9 / 250000, 41 / 1000000⟩,
  ⟨"0.053", "0.053", 53 / 1000000, 41 / 1000000, 9 / 250000, 41 / 1000000⟩,
  ⟨"0.056", "0.056", 7 / 125000, 23 / 500000, 1 / 25000, 23 / 500000⟩,
  ⟨"0.063", "0.063", 63 / 1000000, 13 / 250000, 9 / 200000, 13 / 250000⟩,
  ⟨"0.071", "0.071", 71 / 1000000, 43 / 1000000, 1 / 20000, 29 / 500000⟩,
  ⟨"0.075", "0.075", 3 / 40000, 43 / 1000000, 1 / 20000, 29 / 500000⟩,
  ⟨"0.08", "0.08", 1 / 12500, 3 / 62500, 7 / 125000, 1 / 15625⟩,
  ⟨"0.09", "0.09", 9 / 100000, 27 / 500000, 63 / 1000000, 9 / 125000⟩,
  ⟨"0.1", "0.1", 1 / 10000, 3 / 50000, 71 / 1000000, 41 / 500000⟩,
  ⟨"0.106", "0.106", 53 / 500000, 3 / 50000, 71 / 1000000, 41 / 500000⟩,
  ⟨"0.112", "0.112", 7 / 62500, 17 / 250000, 1 / 12500, 23 / 250000⟩,
  ⟨"0.125", "0.125", 1 / 8000, 77 / 1000000, 9 / 100000, 13 / 125000⟩,
  ⟨"0.14", "0.14", 7 / 50000, 17 / 200000, 1 / 10000, 23 / 200000⟩,
  ⟨"0.15", "0.15", 3 / 20000, 17 / 200000, 1 / 10000, 23 / 200000⟩,
  ⟨"0.16", "0.16", 1 / 6250, 19 / 200000, 7 / 62500, 13 / 100000⟩,
  ⟨"0.18", "0.18", 9 / 50000, 53 / 500000, 1 / 8000, 3 / 20000⟩,
  ⟨"0.2", "0.2", 1 / 5000, 3 / 25000, 7 / 50000, 17 / 100000⟩,
  ⟨"0.212", "0.212", 53 / 250000, 3 / 25000, 7 / 50000, 17 / 100000⟩,
  ⟨"0.224", "0.224", 7 / 31250, 13 / 100000, 1 / 6250, 19 / 100000⟩,
  ⟨"0.25", "0.25", 1 / 4000, 13 / 100000, 1 / 6250, 19 / 100000⟩,
  ⟨"0.28", "0.28", 7 / 25000, 3 / 20000, 9 / 50000, 21 / 100000⟩,
  ⟨"0.3", "0.3", 3 / 10000, 17 / 100000, 1 / 5000, 23 / 100000⟩,
  ⟨"0.315", "0.315", 63 / 200000, 17 / 100000, 1 / 5000, 23 / 100000⟩,
  ⟨"0.355", "0.355", 71 / 200000, 19 / 100000, 7 / 31250, 13 / 50000⟩,
  ⟨"0.4", "0.4", 1 / 2500, 21 / 100000, 1 / 4000, 29 / 100000⟩,
  ⟨"0.425", "0.425", 17 / 40000, 3 / 12500, 7 / 25000, 1 / 3125⟩,
  ⟨"0.45", "0.45", 9 / 20000, 3 / 12500, 7 / 25000, 1 / 3125⟩,
  ⟨"0.5", "0.5", 1 / 2000, 27 / 100000, 63 / 200000, 9 / 25000⟩,
  ⟨"0.56", "0.56", 7 / 12500, 3 / 10000, 71 / 200000, 41 / 100000⟩,
  ⟨"0.6", "0.6", 3 / 5000, 17 / 50000, 1 / 2500, 23 / 50000⟩,
  ⟨"0.63", "0.63", 63 / 100000, 17 / 50000, 1 / 2500, 23 / 50000⟩,
  ⟨"0.71", "0.71", 71 / 100000, 19 / 50000, 9 / 20000, 13 / 25000⟩,
  ⟨"0.8", "0.8", 1 / 1250, 19 / 50000, 9 / 20000, 13 / 25000⟩,
  ⟨"0.85", "0.85", 17 / 20000, 43 / 100000, 1 / 2000, 29 / 50000⟩,
  ⟨"0.9", "0.9", 9 / 10000, 43 / 100000, 1 / 2000, 29 / 50000⟩,
  ⟨"1", "1", 1 / 1000, 3 / 6250, 7 / 12500, 2 / 3125⟩,
  ⟨"1.12", "1.12", 7 / 6250, 3 / 6250, 7 / 12500, 2 / 3125⟩,
  ⟨"1.18", "1.18", 59 / 50000, 27 / 50000, 63 / 100000, 9 / 12500⟩,
  ⟨"1.25", "1.25", 1 / 800, 27 / 50000, 63 / 100000, 9 / 12500⟩,
  ⟨"1.4", "1.4", 7 / 5000, 3 / 5000, 71 / 100000, 41 / 50000⟩,
  ⟨"1.6", "1.6", 1 / 625, 17 / 25000, 1 / 1250, 23 / 25000⟩,
  ⟨"1.7", "1.7", 17 / 10000, 17 / 25000, 1 / 1250, 23 / 25000⟩,
  ⟨"1.8", "1.8", 9 / 5000, 17 / 25000, 1 / 1250, 23 / 25000⟩,
  ⟨"10", "10", 1 / 100, 21 / 10000, 1 / 400, 29 / 10000⟩,
  ⟨"100", "100", 1 / 10, 27 / 5000, 63 / 10000, 9 / 1250⟩,
  ⟨"106", "106", 53 / 500, 27 / 5000, 63 / 10000, 9 / 1250⟩,
  ⟨"11.2", "11.2", 7 / 625, 21 / 10000, 1 / 400, 29 / 10000⟩,
  ⟨"112", "112", 14 / 125, 17 / 2500, 1 / 125, 23 / 2500⟩,
  ⟨"12.5", "12.5", 1 / 80, 21 / 10000, 1 / 400, 29 / 10000⟩,
  ⟨"125", "125", 1 / 8, 17 / 2500, 1 / 125, 23 / 2500⟩,
  ⟨"13.2", "13.2", 33 / 2500, 3 / 1250, 7 / 2500, 2 / 625⟩,
  ⟨"14", "14", 7 / 500, 3 / 1250, 7 / 2500, 2 / 625⟩,
  ⟨"16", "16", 2 / 125, 27 / 10000, 63 / 20000, 9 / 2500⟩,
  ⟨"18", "18", 9 / 500, 27 / 10000, 63 / 20000, 9 / 2500⟩,
  ⟨"19", "19", 19 / 1000, 27 / 10000, 63 / 20000, 9 / 2500⟩,
  ⟨"2", "2", 1 / 500, 77 / 100000, 9 / 10000, 13 / 12500⟩,
  ⟨"2.24", "2.24", 7 / 3125, 77 / 100000, 9 / 10000, 13 / 12500⟩,
  ⟨"2.36", "2.36", 59 / 25000, 17 / 20000, 1 / 1000, 23 / 20000⟩,
  ⟨"2.5", "2.5", 1 / 400, 17 / 20000, 1 / 1000, 23 / 20000⟩,
  ⟨"2.8", "2.8", 7 / 2500, 19 / 20000, 7 / 6250, 13 / 10000⟩,
  ⟨"20", "20", 1 / 50, 27 / 10000, 63 / 20000, 9 / 2500⟩,
  ⟨"22.4", "22.4", 14 / 625, 3 / 1000, 71 / 20000, 41 / 10000⟩,
  ⟨"25", "25", 1 / 40, 3 / 1000, 71 / 20000, 41 / 10000⟩,
  ⟨"26.5", "26.5", 53 / 2000, 3 / 1000, 71 / 20000, 41 / 10000⟩,
  ⟨"28", "28", 7 / 250, 3 / 1000, 71 / 20000, 41 / 10000⟩,
  ⟨"3.15", "3.15", 63 / 20000, 53 / 50000, 1 / 800, 3 / 2000⟩,
  ⟨"3.35", "3.35", 67 / 20000, 53 / 50000, 1 / 800, 3 / 2000⟩,
  ⟨"3.55", "3.55", 71 / 20000, 53 / 50000, 1 / 800, 3 / 2000⟩,
  ⟨"31.5", "31.5", 63 / 2000, 17 / 5000, 1 / 250, 23 / 5000⟩,
  ⟨"35.5", "35.5", 71 / 2000, 17 / 5000, 1 / 250, 23 / 5000⟩,
  ⟨"37.5", "37.5", 3 / 80, 19 / 5000, 9 / 2000, 13 / 2500⟩,
  ⟨"4", "4", 1 / 250, 3 / 2500, 7 / 5000, 17 / 10000⟩,
  ⟨"4.5", "4.5", 9 / 2000, 3 / 2500, 7 / 5000, 17 / 10000⟩,
  ⟨"4.75", "4.75", 19 / 4000, 13 / 10000, 1 / 625, 19 / 10000⟩,
  ⟨"40", "40", 1 / 25, 19 / 5000, 9 / 2000, 13 / 2500⟩,
  ⟨"45", "45", 9 / 200, 19 / 5000, 9 / 2000, 13 / 2500⟩,
  ⟨"5", "5", 1 / 200, 13 / 10000, 1 / 625, 19 / 10000⟩,
  ⟨"5.6", "5.6", 7 / 1250, 13 / 10000, 1 / 625, 19 / 10000⟩,
  ⟨"50", "50", 1 / 20, 43 / 10000, 1 / 200, 29 / 5000⟩,
  ⟨"53", "53", 53 / 1000, 43 / 10000, 1 / 200, 29 / 5000⟩,
  ⟨"56", "56", 7 / 125, 43 / 10000, 1 / 200, 29 / 5000⟩,
  ⟨"6.3", "6.3", 63 / 10000, 3 / 2000, 9 / 5000, 21 / 10000⟩,
  ⟨"6.7", "6.7", 67 / 10000, 3 / 2000, 9 / 5000, 21 / 10000⟩,
  ⟨"63", "63", 63 / 1000, 3 / 625, 7 / 1250, 4 / 625⟩,
  ⟨"7.1", "7.1", 71 / 10000, 3 / 2000, 9 / 5000, 21 / 10000⟩,
  ⟨"71", "71", 71 / 1000, 3 / 625, 7 / 1250, 4 / 625⟩,
  ⟨"75", "75", 3 / 40, 27 / 5000, 63 / 10000, 9 / 1250⟩,
  ⟨"8", "8", 1 / 125, 17 / 10000, 1 / 500, 23 / 10000⟩,
  ⟨"80", "80", 2 / 25, 27 / 5000, 63 / 10000, 9 / 1250⟩,
  ⟨"9", "9", 9 / 1000, 19 / 10000, 7 / 3125, 13 / 5000⟩,
  ⟨"9.5", "9.5", 19 / 2000, 19 / 10000, 7 / 3125, 13 / 5000⟩,
  ⟨"90", "90", 9 / 100, 27 / 5000, 63 / 10000, 9 / 1250⟩]

/-- particle_size_distribution.py:311-320 `ASTM_E11_sieve_designations` -/
def ASTM_E11_sieve_designations : List String := ["125", "106", "100", "90", "75", "63", "53", "50", "45", "37.5", "31.5", "26.5", "25", "22.4", "19", "16", "13.2", "12.5", "11.2", "9.5", "8", "6.7", "6.3", "5.6", "4.75", "4", "3.35", "2.8", "2.36", "2", "1.7", "1.4", "1.18", "1", "0.85", "0.71", "0.6", "0.5", "0.425", "0.355", "0.3", "0.25", "0.212", "0.18", "0.15", "0.125", "0.106", "0.09", "0.075", "0.063", "0.053", "0.045", "0.038", "0.032", "0.025", "0.02"]

/-- particle_size_distribution.py:437-453 `ISO_3310_1_sieve_designations` -/
def ISO_3310_1_sieve_designations : List String := ["125", "112", "106", "100", "90", "80", "75", "71", "63", "56", "53", "50", "45", "40", "37.5", "35.5", "31.5", "28", "26.5", "25", "22.4", "20", "19", "18", "16", "14", "13.2", "12.5", "11.2", "10", "9.5", "9", "8", "7.1", "6.7", "6.3", "5.6", "5", "4.75", "4.5", "4", "3.55", "3.35", "3.15", "2.8", "2.5", "2.36", "2.24", "2", "1.8", "1.7", "1.6", "1.4", "1.25", "1.18", "1.12", "1", "0.9", "0.85", "0.8", "0.71", "0.63", "0.6", "0.56", "0.5", "0.45", "0.425", "0.4", "0.355", "0.315", "0.3", "0.28", "0.25", "0.224", "0.212", "0.2", "0.18", "0.16", "0.15", "0.14", "0.125", "0.112", "0.106", "0.1", "0.09", "0.08", "0.075", "0.071", "0.063", "0.056", "0.053", "0.05", "0.045", "0.04", "0.038", "0.036", "0.032", "0.025", "0.02"]

/-- particle_size_distribution.py:468-468 `ISO_3310_1_R20_keys` -/
def ISO_3310_1_R20_keys : List String := ["125", "112", "100", "90", "80", "71", "63", "56", "50", "45", "40", "35.5", "31.5", "28", "25", "22.4", "20", "18", "16", "14", "12.5", "11.2", "10", "9", "8", "7.1", "6.3", "5.6", "5", "4.5", "4", "3.55", "3.15", "2.8", "2.5", "2.24", "2", "1.8", "1.6", "1.4", "1.25", "1.12", "1", "0.9", "0.8", "0.71", "0.63", "0.56", "0.5", "0.45", "0.4", "0.355", "0.315", "0.28", "0.25", "0.224", "0.2", "0.18", "0.16", "0.14", "0.125", "0.112", "0.1", "0.09", "0.08", "0.071", "0.063", "0.056", "0.05", "0.045", "0.04", "0.036"]

/-- particle_size_distribution.py:479-479 `ISO_3310_1_R40_3_keys` -/
def ISO_3310_1_R40_3_keys : List String := ["125", "106", "90", "75", "63", "53", "45", "37.5", "31.5", "26.5", "22.4", "19", "16", "13.2", "11.2", "9.5", "8", "6.7", "5.6", "4.75", "4", "3.35", "2.8", "2.36", "2", "1.7", "1.4", "1.18", "1", "0.85", "0.71", "0.6", "0.5", "0.425", "0.355", "0.3", "0.25", "0.212", "0.18", "0.15", "0.125", "0.106", "0.09", "0.075", "0.063", "0.053", "0.045", "0.038"]

/-- particle_size_distribution.py:490-490 `ISO_3310_1_R10_keys` -/
def ISO_3310_1_R10_keys : List String := ["0.036", "0.032", "0.025", "0.02"]

/-- particle_size_distribution.py:458, the keys of `ISO_3310_1_R20_3` -/
def ISO_3310_1_R20_3_keys : List String := ["125", "90", "63", "45", "31.5", "22.4", "16", "11.2", "8", "5.6", "4", "2.8", "2", "1.4", "1", "0.71", "0.5", "0.355", "0.25", "0.18", "0.125", "0.09", "0.063", "0.045"]

end Verif.Psd
