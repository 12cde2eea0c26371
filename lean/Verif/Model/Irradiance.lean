import Verif.Py
import Verif.Model.Spa
import Mathlib.MeasureTheory.Integral.IntervalIntegral.Basic

/-!
# Model of `fluids/optional/irradiance.py` and of the irradiation functions of `fluids/atmosphere.py`

`math.radians` is the factor π/180.  NaN is `none`.  The models served by the library pvlib are parameters.
-/

namespace Verif.Irradiance
open Verif Verif.Spa
noncomputable section
open Real

/-- optional/irradiance.py:53-58 `aoi_projection` -/
def aoi_projection (surface_tilt surface_azimuth solar_zenith solar_azimuth : ℝ) : ℝ :=
  cos (d2r surface_tilt) * cos (d2r solar_zenith) + sin (d2r surface_tilt) * sin (d2r solar_zenith) * cos (d2r (solar_azimuth - surface_azimuth))

/-- optional/irradiance.py:60-64 `aoi` -/
def aoi (surface_tilt surface_azimuth solar_zenith solar_azimuth : ℝ) : Py ℝ := do
  let a ← pacos (aoi_projection surface_tilt surface_azimuth solar_zenith solar_azimuth)
  return r2d a

/-- optional/irradiance.py:75-80: the irradiances in the plane of the surface -/
structure Poa where
  global : ℝ
  direct : ℝ
  diffuse : ℝ
  sky_diffuse : Option ℝ
  ground_diffuse : ℝ

/-- optional/irradiance.py:66-82 `poa_components` -/
def poa_components (aoi dni : ℝ) (poa_sky_diffuse : Option ℝ) (poa_ground_diffuse : ℝ) : Poa :=
  let poa_direct := max (dni * cos (d2r aoi)) 0
  let poa_diffuse := match poa_sky_diffuse with
    | some s => s + poa_ground_diffuse
    | none => poa_ground_diffuse
  ⟨poa_direct + poa_diffuse, poa_direct, poa_diffuse, poa_sky_diffuse, poa_ground_diffuse⟩

/-- optional/irradiance.py:84-86 `get_ground_diffuse` -/
def get_ground_diffuse (surface_tilt ghi albedo : ℝ) : ℝ := ghi * albedo * (1 - cos (d2r surface_tilt)) * 0.5

/-- optional/irradiance.py:144-147 `isotropic` -/
def isotropic (surface_tilt dhi : ℝ) : ℝ := dhi * (1 + cos (d2r surface_tilt)) * 0.5

/-- optional/irradiance.py:105-107 `get_absolute_airmass`, NaN staying NaN -/
def get_absolute_airmass (airmass_relative : Option ℝ) (pressure : ℝ) : Option ℝ := airmass_relative.map fun a => a * pressure / 101325

/-- optional/irradiance.py:113-121: the formula of Kasten and Young; a zero base (division by zero), a negative one (complex result) and a zero denominator give NaN -/
def kastenyoung (z : ℝ) : Option ℝ :=
  if 6.07995 + (90 - z) ≤ 0 then none
  else
    let den := cos (d2r z) + 0.50572 * (6.07995 + (90 - z)) ^ (-1.6364 : ℝ)
    if den = 0 then none else some (1 / den)

/-- optional/irradiance.py:109-123 `get_relative_airmass` -/
def get_relative_airmass (zenith : ℝ) (model : String) : Py (Option ℝ) :=
  if model = "kastenyoung1989" then return kastenyoung zenith else throw .valueError

/-- optional/irradiance.py:89-102, 126-141 `get_total_irradiance` with the isotropic model, through `get_sky_diffuse` -/
def get_total_irradiance (surface_tilt surface_azimuth solar_zenith solar_azimuth dni ghi dhi albedo : ℝ) : Py Poa := do
  let a ← aoi surface_tilt surface_azimuth solar_zenith solar_azimuth
  return poa_components a dni (some (isotropic surface_tilt dhi)) (get_ground_diffuse surface_tilt ghi albedo)

/-- optional/irradiance.py:202: the three clear-sky irradiances -/
structure ClearSky where
  ghi : ℝ
  dni : ℝ
  dhi : ℝ

/-- optional/irradiance.py:166-170: the attenuation of the global irradiance -/
def attenuation (am fh1 fh2 cg2 tl : ℝ) (perez : Bool) : Py ℝ := do
  let g := exp (-cg2 * am * (fh1 + fh2 * (tl - 1)))
  if perez then
    let q ← ppow am 1.8
    return g * exp (0.01 * q)
  else return g

open Classical in
/-- optional/irradiance.py:187-194: the factor between global and beam irradiance; a vanishing cosine gives 10²⁰ -/
def beamFactor (tl fh1 cz : ℝ) : ℝ :=
  min (if cz = 0 then 10 ^ 20 else (1 - (0.1 - 0.2 * exp (-tl)) / (0.1 + 0.882 / fh1)) / cz) (10 ^ 20)

/-- optional/irradiance.py:157-202 `ineichen` for numbers -/
def ineichenNum (apparent_zenith am tl altitude dni_extra : ℝ) (perez : Bool) : Py ClearSky := do
  let cz := if cos (d2r apparent_zenith) < 0 then 0 else cos (d2r apparent_zenith)
  let fh1 := exp (-altitude / 8000)
  let fh2 := exp (-altitude / 1250)
  let cg1 := 5.09e-5 * altitude + 0.868
  let cg2 := 3.92e-5 * altitude + 0.0387
  let g ← attenuation am fh1 fh2 cg2 tl perez
  let q ← pdiv (cg1 * dni_extra * cz * tl) tl
  let ghi := if g > 0 then q * g else 0
  let b := (0.664 + 0.163 / fh1) * exp (-0.09 * am * (tl - 1))
  let bnci := if b > 0 then dni_extra * b else 0
  let dni := min (ghi * beamFactor tl fh1 cz) bnci
  return ⟨ghi, dni, ghi - dni * cz⟩

/-- optional/irradiance.py:150-202 `ineichen`; the division by `tl` happens only for a positive attenuation, which an exponential always is -/
def ineichen (apparent_zenith : ℝ) (airmass_absolute : Option ℝ) (linke_turbidity altitude dni_extra : ℝ) (perez : Bool) : Py ClearSky :=
  match airmass_absolute with
  | none => return ⟨0, 0, 0⟩
  | some am => ineichenNum apparent_zenith am linke_turbidity altitude dni_extra perez

/-- atmosphere.py:890-900 `_get_extra_radiation_shim`, method "spencer" -/
def spencer (dayofyear solar_constant : ℝ) : ℝ :=
  let B := 2 * π / 365 * (dayofyear - 1)
  solar_constant * (1.00011 + 0.034221 * cos B + 0.00128 * sin B + 0.000719 * cos (2 * B) + 7.7e-05 * sin (2 * B))

/-- atmosphere.py:888-906 `_get_extra_radiation_shim`; `pvlib` stands for the functions of that library -/
def extra_radiation (pvlib : String → ℝ → Py ℝ) (dayofyear solar_constant : ℝ) (method : String) : Py ℝ :=
  if method = "spencer" then return spencer dayofyear solar_constant else pvlib method solar_constant

/-- atmosphere.py:883-885, 1083-1088: the zenith angle used for the air mass -/
def usedZenith (airmass_model : String) (apparent_zenith zenith : ℝ) : Py ℝ :=
  if airmass_model ∈ ["simple", "kasten1966", "kastenyoung1989", "gueymard1993", "pickering2002"] then return apparent_zenith
  else if airmass_model ∈ ["youngirvine1967", "young1994"] then return zenith
  else throw .valueError

/-- atmosphere.py:909-1115 `solar_irradiation` with given turbidity, of the sun's apparent and true zenith angles and azimuth and the pressure (computed or cached, lines 1049-1070) -/
def solar_irradiation (pvlib : String → ℝ → Py ℝ) (apparent_zenith zenith azimuth P dayofyear Z surface_tilt surface_azimuth solar_constant albedo linke_turbidity : ℝ)
    (extraradiation_method airmass_model : String) : Py Poa := do
  let _dni_extra ← extra_radiation pvlib dayofyear solar_constant extraradiation_method
  let z ← usedZenith airmass_model apparent_zenith zenith
  let rel ← get_relative_airmass z airmass_model
  let am := get_absolute_airmass rel P
  let s ← ineichen apparent_zenith am linke_turbidity Z solar_constant true
  get_total_irradiance surface_tilt surface_azimuth apparent_zenith azimuth s.dni s.ghi s.dhi albedo

/-- atmosphere.py:514-520 `to_int_airmass`, for a positive radicand -/
def to_int_airmass (Z c1 c2 angle_term R_planet_inv : ℝ) (func : ℝ → ℝ) : ℝ :=
  let rho := func Z
  let t1 := c2 - rho * c1
  let x0 := angle_term / (1 + Z * R_planet_inv)
  rho * (1 / √(1 - t1 * (x0 * x0)))

/-- atmosphere.py:522-579 `airmass`; `quad` is the integral -/
def airmass (func : ℝ → ℝ) (angle H_max R_planet RI : ℝ) : ℝ :=
  let delta0 := RI - 1
  let rho0_inv := 1 / func 0
  let angle_term := cos (d2r angle)
  let R_planet_inv := 1 / R_planet
  let c0 := delta0 + delta0
  let c1 := c0 * rho0_inv
  let c2 := 1 + c0
  ∫ Z in (0)..H_max, to_int_airmass Z c1 c2 angle_term R_planet_inv func

end
end Verif.Irradiance
