import Mathlib.Analysis.SpecialFunctions.Trigonometric.Basic

/-!
# Loss coefficients: the definitions a user knows

A loss coefficient `K` based on a pipe of diameter `D` is the pressure drop divided by the velocity head in that pipe.
-/

namespace Verif.Spec.Fittings
noncomputable section
open Real

/-- mean velocity of the volumetric flow `Q` in a pipe of diameter `D` -/
def velocity (Q D : ℝ) : ℝ := Q / (π * D ^ 2 / 4)
/-- pressure drop of a fitting with coefficient `K` based on the pipe of diameter `D` -/
def pressureDrop (K rho Q D : ℝ) : ℝ := K * (rho * velocity Q D ^ 2 / 2)

/-- the reducer terms of Crane TP-410 formulas 5, 6 and 7 for a valve of full-bore coefficient `K1` and diameter ratio `β` -/
def crane5 (K1 a b : ℝ) : ℝ := (K1 + sin (a / 2) * (0.8 * (1 - b ^ 2) + 2.6 * (1 - b ^ 2) ^ 2)) / b ^ 4
def crane6 (K1 a b : ℝ) : ℝ := (K1 + 0.5 * √(sin (a / 2)) * (1 - b ^ 2) + (1 - b ^ 2) ^ 2) / b ^ 4
def crane7 (K1 b : ℝ) : ℝ := (K1 + b * (0.5 * (1 - b ^ 2) + (1 - b ^ 2) ^ 2)) / b ^ 4
/-- the same with `(1 - β)²` in the first term, as documented for globe and angle valves -/
def crane7' (K1 b : ℝ) : ℝ := (K1 + b * (0.5 * (1 - b) ^ 2 + (1 - b ^ 2) ^ 2)) / b ^ 4

/-- consecutive pipe diameters and lengths of a staged diffuser -/
def stages (Di1 Di2 : ℝ) (DEs ls : List ℝ) : List ((ℝ × ℝ) × ℝ) := ((Di1 :: DEs).zip (DEs ++ [Di2])).zip ls

end
end Verif.Spec.Fittings
