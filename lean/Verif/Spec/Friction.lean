import Mathlib.Analysis.SpecialFunctions.Pow.Real

/-!
# The friction correlations as printed in the documentation of `fluids/friction.py`

Each definition transcribes the `.. math::` block of the docstring, with `e` for the relative roughness `ε/D`.  When the docstring gives
`1/√f = y` the definition is `fromInvSqrt y`, the only positive `f` with that property when `y > 0`; when the docstring speaks of the
Fanning factor `f_f`, the Darcy factor is four times it.
-/

namespace Verif.Spec.Friction
noncomputable section
open Real

/-- decimal logarithm -/
def lg (x : ℝ) : ℝ := log x / log 10

/-- the Darcy factor with `1/√f_d = y` -/
def fromInvSqrt (y : ℝ) : ℝ := 1 / y ^ 2
/-- the Darcy factor of the Fanning factor with `1/√f_f = y` -/
def fanning (y : ℝ) : ℝ := 4 * (1 / y ^ 2)

/-- friction.py:562 -/
def Moody (Re e : ℝ) : ℝ := 4 * (1.375e-3 * (1 + (2e4 * e + 1e6 / Re) ^ (1 / 3 : ℝ)))
/-- friction.py:603 -/
def Alshul_1952 (Re e : ℝ) : ℝ := 0.11 * (68 / Re + e) ^ (0.25 : ℝ)
/-- friction.py:641-645 -/
def Wood_1966 (Re e : ℝ) : ℝ := 0.094 * e ^ (0.225 : ℝ) + 0.53 * e + 88 * e ^ (0.4 : ℝ) * Re ^ (-(1.62 * e ^ (0.134 : ℝ)))
/-- friction.py:686 -/
def Churchill_1973 (Re e : ℝ) : ℝ := fromInvSqrt (-2 * lg (e / 3.7 + (7 / Re) ^ (0.9 : ℝ)))
/-- friction.py:729 -/
def Eck_1973 (Re e : ℝ) : ℝ := fromInvSqrt (-2 * lg (e / 3.715 + 15 / Re))
/-- friction.py:770 -/
def Jain_1976 (Re e : ℝ) : ℝ := fanning (2.28 - 4 * lg (e + (29.843 / Re) ^ (0.9 : ℝ)))
/-- friction.py:812 -/
def Swamee_Jain_1976 (Re e : ℝ) : ℝ := fanning (-4 * lg ((6.97 / Re) ^ (0.9 : ℝ) + e / 3.7))
/-- friction.py:855-862 (a Fanning factor) -/
def Churchill_1977 (Re e : ℝ) : ℝ :=
  4 * (2 * ((8 / Re) ^ 12 + ((2.457 * log ((7 / Re) ^ (0.9 : ℝ) + 0.27 * e)) ^ 16 + (37530 / Re) ^ 16) ^ (-1.5 : ℝ)) ^ (1 / 12 : ℝ))
/-- friction.py:905-910 -/
def Chen_1979 (Re e : ℝ) : ℝ :=
  fanning (-4 * lg (e / 3.7065 - 5.0452 / Re * lg (e ^ (1.1098 : ℝ) / 2.8257 + (7.149 / Re) ^ (0.8981 : ℝ))))
/-- friction.py:953. The printed right-hand side is negative in the turbulent range; `f` has `(1/√f_f)²` equal to its square. -/
def Round_1980 (Re e : ℝ) : ℝ := fanning (-3.6 * lg (Re / (0.135 * Re * e + 6.5)))
/-- friction.py:997 -/
def Shacham_1980 (Re e : ℝ) : ℝ := fanning (-4 * lg (e / 3.7 - 5.02 / Re * lg (e / 3.7 + 14.5 / Re)))
/-- friction.py:1041 -/
def Barr_1981 (Re e : ℝ) : ℝ :=
  fromInvSqrt (-2 * lg (e / 3.7 + 4.518 * lg (Re / 7) / (Re * (1 + Re ^ (0.52 : ℝ) / 29 * e ^ (0.7 : ℝ)))))
/-- friction.py:1086-1089 -/
def Zigrang_Sylvester_1 (Re e : ℝ) : ℝ := fanning (-4 * lg (e / 3.7 - 5.02 / Re * lg (e / 3.7 + 13 / Re)))
/-- friction.py:1132-1139 -/
def Zigrang_Sylvester_2 (Re e : ℝ) : ℝ :=
  fanning (-4 * lg (e / 3.7 - 5.02 / Re * lg (e / 3.7 - 5.02 / Re * lg (e / 3.7 + 13 / Re))))
/-- friction.py:1183 (printed as `f_f`, but with the Darcy coefficient 1.8: it is the Darcy factor) -/
def Haaland (Re e : ℝ) : ℝ := fromInvSqrt (-1.8 * lg ((e / 3.7) ^ (1.11 : ℝ) + 6.9 / Re))
/-- friction.py:1229 -/
def serA (Re e : ℝ) : ℝ := -2 * lg (e / 3.7 + 12 / Re)
/-- friction.py:1232 -/
def serB (Re e : ℝ) : ℝ := -2 * lg (e / 3.7 + 2.51 * serA Re e / Re)
/-- friction.py:1235 -/
def serC (Re e : ℝ) : ℝ := -2 * lg (e / 3.7 + 2.51 * serB Re e / Re)
/-- friction.py:1226 -/
def Serghides_1 (Re e : ℝ) : ℝ :=
  fromInvSqrt (serA Re e - (serB Re e - serA Re e) ^ 2 / (serC Re e - 2 * serB Re e + serA Re e))
/-- friction.py:1280 -/
def Serghides_2 (Re e : ℝ) : ℝ := fromInvSqrt (4.781 - (serA Re e - 4.781) ^ 2 / (serB Re e - 2 * serA Re e + 4.781))
/-- friction.py:1332-1336 -/
def Tsal_1989 (Re e : ℝ) : ℝ :=
  if 0.018 ≤ 0.11 * (68 / Re + e) ^ (0.25 : ℝ) then 0.11 * (68 / Re + e) ^ (0.25 : ℝ)
  else 0.0028 + 0.85 * (0.11 * (68 / Re + e) ^ (0.25 : ℝ))
/-- friction.py:1380 -/
def Manadilli_1997 (Re e : ℝ) : ℝ := fromInvSqrt (-2 * lg (e / 3.7 + 95 / Re ^ (0.983 : ℝ) - 96.82 / Re))
/-- friction.py:1422-1425 -/
def Romeo_2002 (Re e : ℝ) : ℝ :=
  fromInvSqrt (-2 * lg (e / 3.7065 - 5.0272 / Re * lg (e / 3.827 - 4.567 / Re * lg ((e / 7.7918) ^ (0.9924 : ℝ)
    + (5.3326 / (208.815 + Re)) ^ (0.9345 : ℝ)))))
/-- friction.py:1471 -/
def sgS (Re e : ℝ) : ℝ := 0.1240 * e * Re + log (0.4587 * Re)
/-- friction.py:1468 -/
def Sonnad_Goudar_2006 (Re e : ℝ) : ℝ := fromInvSqrt (0.8686 * log (0.4587 * Re / sgS Re e ^ (sgS Re e / (sgS Re e + 1))))
/-- friction.py:1514-1518 -/
def Rao_Kumar_2007 (Re e : ℝ) : ℝ :=
  fromInvSqrt (2 * lg ((2 * e)⁻¹ / ((0.444 + 0.135 * Re) / Re * (1 - 0.55 * exp (-0.33 * log (Re / 6.5) ^ 2)))))
/-- friction.py:1569 -/
def buB1 (Re e : ℝ) : ℝ := (0.774 * log Re - 1.41) / (1 + 1.32 * √e)
/-- friction.py:1572 -/
def buB2 (Re e : ℝ) : ℝ := e / 3.7 * Re + 2.51 * buB1 Re e
/-- friction.py:1565 -/
def Buzzelli_2008 (Re e : ℝ) : ℝ :=
  fromInvSqrt (buB1 Re e - (buB1 Re e + 2 * lg (buB2 Re e / Re)) / (1 + 2.18 / buB2 Re e))
/-- friction.py:1615 -/
def Avci_Karagoz_2009 (Re e : ℝ) : ℝ := 6.4 / (log Re - log (1 + 0.01 * Re * e * (1 + 10 * e ^ (0.5 : ℝ)))) ^ (2.4 : ℝ)
/-- friction.py:1658 -/
def Papaevangelo_2010 (Re e : ℝ) : ℝ :=
  (0.2479 - 0.0000947 * (7 - log Re) ^ 4) / lg (e / 3.615 + 7.366 / Re ^ (0.9142 : ℝ)) ^ 2
/-- friction.py:1707 -/
def brBeta (Re : ℝ) : ℝ := log (Re / (1.816 * log (1.1 * Re / log (1 + 1.1 * Re))))
/-- friction.py:1704 -/
def Brkic_2011_1 (Re e : ℝ) : ℝ := fromInvSqrt (-2 * lg ((10 : ℝ) ^ (-0.4343 * brBeta Re) + e / 3.71))
/-- friction.py:1751 -/
def Brkic_2011_2 (Re e : ℝ) : ℝ := fromInvSqrt (-2 * lg (2.18 * brBeta Re / Re + e / 3.71))
/-- friction.py:1798 -/
def Fang_2011 (Re e : ℝ) : ℝ :=
  1.613 * (1 / log (0.234 * e ^ (1.1007 : ℝ) - 60.525 / Re ^ (1.1105 : ℝ) + 56.291 / Re ^ (1.0712 : ℝ)) ^ 2)

/-- every correlation with a printed formula, by the method name that selects it -/
def documented : List (String × (ℝ → ℝ → ℝ)) := [
  ("Moody", Moody), ("Alshul_1952", Alshul_1952), ("Wood_1966", Wood_1966), ("Churchill_1973", Churchill_1973),
  ("Eck_1973", Eck_1973), ("Jain_1976", Jain_1976), ("Swamee_Jain_1976", Swamee_Jain_1976),
  ("Churchill_1977", Churchill_1977), ("Chen_1979", Chen_1979), ("Round_1980", Round_1980),
  ("Shacham_1980", Shacham_1980), ("Barr_1981", Barr_1981), ("Zigrang_Sylvester_1", Zigrang_Sylvester_1),
  ("Zigrang_Sylvester_2", Zigrang_Sylvester_2), ("Haaland", Haaland), ("Serghides_1", Serghides_1),
  ("Serghides_2", Serghides_2), ("Tsal_1989", Tsal_1989), ("Manadilli_1997", Manadilli_1997), ("Romeo_2002", Romeo_2002),
  ("Sonnad_Goudar_2006", Sonnad_Goudar_2006), ("Rao_Kumar_2007", Rao_Kumar_2007), ("Buzzelli_2008", Buzzelli_2008),
  ("Avci_Karagoz_2009", Avci_Karagoz_2009), ("Papaevangelo_2010", Papaevangelo_2010), ("Brkic_2011_1", Brkic_2011_1),
  ("Brkic_2011_2", Brkic_2011_2), ("Fang_2011", Fang_2011)]

/-- the Colebrook equation (friction.py:352) for a positive Darcy factor `f` -/
def Colebrook (Re e f : ℝ) : Prop := 0 < f ∧ 1 / √f = -2 * lg (e / 3.7 + 2.51 / (Re * √f))

end
end Verif.Spec.Friction
