import Verif.Py

/-! Independent vocabulary for the `core.py` properties. -/

namespace Verif.Spec

/-- One physical fluid state; the derived properties are definitions, so supplied arguments are mutually consistent. -/
structure Fluid (K : Type _) where
  rho : K
  mu : K
  Cp : K
  k : K

variable {K : Type _} [Field K]

/-- kinematic viscosity -/
def Fluid.nu (f : Fluid K) : K := f.mu / f.rho
/-- thermal diffusivity -/
def Fluid.alpha (f : Fluid K) : K := f.k / (f.rho * f.Cp)
/-- no property vanishes -/
def Fluid.Ok (f : Fluid K) : Prop := f.rho ≠ 0 ∧ f.mu ≠ 0 ∧ f.Cp ≠ 0 ∧ f.k ≠ 0

/-- an optional argument which the caller supplied or left out -/
def given (b : Bool) (x : K) : Option K := if b then some x else none

/-- temperature scales -/
inductive Scale | C | K | F | R
  deriving DecidableEq

/-- the absolute temperature in kelvin named by a reading on a scale -/
noncomputable def Scale.toKelvin : Scale → ℝ → ℝ
  | .C, x => x + 273.15
  | .K, x => x
  | .F, x => (x + 459.67) * 5 / 9
  | .R, x => x * 5 / 9

end Verif.Spec

namespace Verif.Spec

/-- A change of the base units: the factors by which numerical values of length, mass, time and temperature change. -/
structure Units where
  l : ℝ
  m : ℝ
  t : ℝ
  θ : ℝ
  hl : 0 < l
  hm : 0 < m
  ht : 0 < t
  hθ : 0 < θ

namespace Units
noncomputable section
variable (u : Units)
/-- m/s -/
def vel := u.l / u.t
/-- m^2 -/
def area := u.l ^ 2
/-- kg/m^3 -/
def density := u.m / u.l ^ 3
/-- Pa s = kg/(m s) -/
def visc := u.m / (u.l * u.t)
/-- m^2/s (kinematic viscosity, diffusivities) -/
def diff := u.l ^ 2 / u.t
/-- J/(kg K) -/
def heatCap := u.l ^ 2 / (u.t ^ 2 * u.θ)
/-- W/(m K) -/
def thermCond := u.m * u.l / (u.t ^ 3 * u.θ)
/-- W/(m^2 K) -/
def htc := u.m / (u.t ^ 3 * u.θ)
/-- N/m -/
def tension := u.m / u.t ^ 2
/-- m/s^2 -/
def accel := u.l / u.t ^ 2
/-- Pa -/
def press := u.m / (u.l * u.t ^ 2)
/-- N -/
def force := u.m * u.l / u.t ^ 2
/-- W -/
def power := u.m * u.l ^ 2 / u.t ^ 3
/-- J/kg -/
def energyMass := u.l ^ 2 / u.t ^ 2
/-- W/m^2 -/
def flux := u.m / u.t ^ 3
/-- kg/(m^2 s) -/
def massFlux := u.m / (u.l ^ 2 * u.t)
end
end Units
end Verif.Spec
