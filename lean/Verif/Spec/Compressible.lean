import Verif.Py

/-! Independent vocabulary for the `compressible.py` properties. -/

namespace Verif.Spec
noncomputable section
open Real

/-- A pipeline equation as the user calls it: the arguments are `L, D, P1, P2, Q`, each of which may be left out. -/
abbrev PipelineFn := Option ℝ → Option ℝ → Option ℝ → Option ℝ → Option ℝ → Py ℝ

/-- Leaving out `Q` computes the documented flow, and feeding that flow back while leaving out `L`, `P1` or `P2` returns
exactly the value that was left out. -/
def SolvesLP (f : PipelineFn) (flow L D P1 P2 : ℝ) : Prop :=
  0 < flow ∧
  f (some L) (some D) (some P1) (some P2) none = .ok flow ∧
  f none (some D) (some P1) (some P2) (some flow) = .ok L ∧
  f (some L) (some D) none (some P2) (some flow) = .ok P1 ∧
  f (some L) (some D) (some P1) none (some flow) = .ok P2

/-- ... and leaving out `D` returns the diameter. -/
def SolvesAll (f : PipelineFn) (flow L D P1 P2 : ℝ) : Prop :=
  SolvesLP f flow L D P1 P2 ∧ f (some L) none (some P1) (some P2) (some flow) = .ok D

/-- A one-dimensional root finder is *exact* when whatever it returns is a zero of the function it was given. -/
def ExactSolver (secant : (ℝ → Py ℝ) → ℝ → Py ℝ) : Prop := ∀ g x0 x, secant g x0 = .ok x → g x = .ok 0

/-- the number of arguments left out -/
def missing (l : List (Option ℝ)) : Nat := l.countP (·.isNone)

/-- Every call that does not leave out exactly one of the five arguments raises `ValueError`. -/
def RejectsOtherPatterns (f : PipelineFn) : Prop :=
  ∀ L D P1 P2 Q : Option ℝ, missing [L, D, P1, P2, Q] ≠ 1 → f L D P1 P2 Q = .error .valueError

/-- documented Panhandle A flow -/
def panhandleA (SG Tavg Ts Ps Zavg E L D P1 P2 : ℝ) : ℝ :=
  158.0205328706957220332831680508433862787 * E * (Ts / Ps) ^ (1.0788 : ℝ)
    * ((P1 ^ 2 - P2 ^ 2) / (L * SG ^ (0.8539 : ℝ) * Tavg * Zavg)) ^ (0.5394 : ℝ) * D ^ (2.6182 : ℝ)
/-- documented Panhandle B flow -/
def panhandleB (SG Tavg Ts Ps Zavg E L D P1 P2 : ℝ) : ℝ :=
  152.8811634298055458624385985866624419060 * E * (Ts / Ps) ^ (1.02 : ℝ)
    * ((P1 ^ 2 - P2 ^ 2) / (L * SG ^ (0.961 : ℝ) * Tavg * Zavg)) ^ (0.51 : ℝ) * D ^ (2.53 : ℝ)
/-- documented Weymouth flow -/
def weymouth (SG Tavg Ts Ps Zavg E L D P1 P2 : ℝ) : ℝ :=
  137.3295809942512546732179684618143090992 * E * (Ts / Ps)
    * ((P1 ^ 2 - P2 ^ 2) / (L * SG * Tavg * Zavg)) ^ (0.5 : ℝ) * D ^ (2.667 : ℝ)
/-- documented Spitzglass high-pressure flow -/
def spitzglassHigh (SG Tavg Ts Ps Zavg E L D P1 P2 : ℝ) : ℝ :=
  125.1060 * E * (Ts / Ps)
    * ((P1 ^ 2 - P2 ^ 2)
        / (L * SG * Tavg * Zavg * (1 + 0.09144 / D + 1.181102362204724409448818897637795275591 * D))) ^ (0.5 : ℝ)
    * D ^ (2.5 : ℝ)
/-- documented Spitzglass low-pressure flow -/
def spitzglassLow (SG Tavg Ts Ps Zavg E L D P1 P2 : ℝ) : ℝ :=
  125.1060 * E * (Ts / Ps)
    * (2 * (P1 - P2) * (Ps + 1210)
        / (L * SG * Tavg * Zavg * (1 + 0.09144 / D + 1.181102362204724409448818897637795275591 * D))) ^ (0.5 : ℝ)
    * D ^ (2.5 : ℝ)
/-- documented Oliphant flow -/
def oliphant (SG Tavg Ts Ps L D P1 P2 : ℝ) : ℝ :=
  84.587176139918568651410168968141078948974609375000
    * (D ^ (2.5 : ℝ) + 0.2091519350460528670065940559652517549694 * D ^ 3) * (Ts / Ps)
    * ((P1 ^ 2 - P2 ^ 2) / (L * SG * Tavg)) ^ (0.5 : ℝ)
/-- documented Fritzsche flow (with the efficiency and compressibility the code accepts) -/
def fritzsche (SG Tavg Ts Ps Zavg E L D P1 P2 : ℝ) : ℝ :=
  93.50009798751128188757518688244137811221 * E * (Ts / Ps)
    * ((P1 ^ 2 - P2 ^ 2) / (L * SG ^ (0.8587 : ℝ) * Tavg * Zavg)) ^ (0.538 : ℝ) * D ^ (2.69 : ℝ)
/-- documented Muller flow -/
def muller (SG Tavg mu Ts Ps Zavg E L D P1 P2 : ℝ) : ℝ :=
  15.77439908642077352939746374951659525108 * (Ts / Ps) * E
    * ((P1 ^ 2 - P2 ^ 2) / (L * Zavg * Tavg)) ^ (0.575 : ℝ)
    * (D ^ (2.725 : ℝ) / (mu ^ (0.15 : ℝ) * SG ^ (0.425 : ℝ)))
/-- documented IGT flow -/
def igt (SG Tavg mu Ts Ps Zavg E L D P1 P2 : ℝ) : ℝ :=
  24.62412451461407054875301709443930350550 * (Ts / Ps) * E
    * ((P1 ^ 2 - P2 ^ 2) / (L * Zavg * Tavg)) ^ (5 / 9 : ℝ)
    * (D ^ (8 / 3 : ℝ) / (mu ^ (1 / 9 : ℝ) * SG ^ (4 / 9 : ℝ)))

/-- documented isentropic work of compression -/
def isentropicWork (R T1 k Z P1 P2 eta : ℝ) : ℝ :=
  k / (k - 1) * Z * R * T1 * ((P2 / P1) ^ ((k - 1) / k) - 1) / eta

/-- documented isothermal gas flow equation -/
def IsothermalFlow (rho fd P1 P2 L D m : ℝ) : Prop :=
  m ^ 2 = (π * D ^ 2 / 4) ^ 2 * rho * (P1 ^ 2 - P2 ^ 2) / (P1 * (fd * L / D + 2 * log (P1 / P2)))

/-- `lambertw y` returns the branch -1 solution of `w * exp w = y` for every admissible `y`. -/
def IsLambertM1 (lambertw : ℝ → Py ℝ) : Prop :=
  ∀ y, -exp (-1) ≤ y → y < 0 → ∃ w, lambertw y = .ok w ∧ w ≤ -1 ∧ w * exp w = y

end
end Verif.Spec
