import Verif.Py
import Verif.Model.SpaTables
import Mathlib.Analysis.SpecialFunctions.Complex.Arg

/-!
# Model of `fluids/optional/spa.py` (solar positions) and of the functions of `fluids/atmosphere.py` that call it

`deg2rad` and `math.radians` are the factor π/180, `math.degrees` and `rad2deg` the factor 180/π.  `math.tan` is `Real.tan`, whose value where the cosine vanishes differs from the float one;
a division by it is written as the product with cosine over sine, so that only a vanishing tangent is a division by zero.
`math.atan2(y, x)` is the argument of x + iy.  Line numbers are those of the file cited.
-/

namespace Verif.Spa
open Verif

section Generic
variable {K : Type _} [Field K] [LinearOrder K] [FloorRing K]

/-- Python's `x % m` on numbers for positive `m` (optional/spa.py:534) -/
def pmod (x m : K) : K := x - m * ⌊x / m⌋

/-- Python's `int(x)`: truncation towards zero (optional/spa.py:394) -/
def pint (x : K) : ℤ := if 0 ≤ x then ⌊x⌋ else ⌈x⌉

/-- optional/spa.py:384-401 `julian_day_dt` (the decimals 0.25, 365.25, 30.6001 are taken exactly) -/
def julian_day_dt (year month day hour minute second microsecond : ℤ) : K :=
  let y := if month ≤ 2 then year - 1 else year
  let m := if month ≤ 2 then month + 12 else month
  let a := pint ((y : K) / 100)
  let b := 2 - a + pint ((a : K) * (1 / 4))
  let frac_of_day : K := ((microsecond + (second + minute * 60 + hour * 3600) : ℤ) : K) * 1 / (3600 * 24)
  let d : K := day + frac_of_day
  (pint ((1461 / 4 : K) * ((y + 4716 : ℤ) : K)) : K) + (pint ((306001 / 10000 : K) * ((m + 1 : ℤ) : K)) : K) + d + (b : K) - 3049 / 2

/-- optional/spa.py:404-407 `julian_day` -/
def julian_day (unixtime : K) : K := unixtime * (11574074074074073 / 10 ^ 21) + 4881175 / 2

/-- optional/spa.py:410-413 `julian_ephemeris_day` -/
def julian_ephemeris_day (julian_day delta_t : K) : K := julian_day + delta_t * (11574074074074073 / 10 ^ 21)

/-- optional/spa.py:416-418 `julian_century`, 421-424 `julian_ephemeris_century` -/
def julian_century (julian_day : K) : K := (julian_day - 2451545) * (27378507871321012 / 10 ^ 21)

/-- optional/spa.py:427-429 `julian_ephemeris_millennium` -/
def julian_ephemeris_millennium (jce : K) : K := jce * (1 / 10)

/-- optional/spa.py:1276-1360: the polynomials of `calculate_deltat` in the decimal year, by the year that selects them -/
def deltatAt (year y : K) : K :=
  if 2005 ≤ year ∧ year < 2050 then
    let t := y - 2000
    6292 / 100 + 32217 / 100000 * t + 5589 / 1000000 * t * t
  else if 1986 ≤ year ∧ year < 2005 then
    let t := y - 2000
    6386 / 100 + 3345 / 10000 * t - 60374 / 1000000 * t ^ 2 + 17275 / 10000000 * t ^ 3 + 651814 / 10 ^ 9 * t ^ 4 + 2373599 / 10 ^ 11 * t ^ 5
  else if 2050 ≤ year ∧ year < 2150 then
    -20 + 32 * ((y - 1820) / 100) ^ 2 - 5628 / 10000 * (2150 - y)
  else if year < -500 then
    -20 + 32 * ((1 / 100) * (y - 1820)) ^ 2
  else if (-500) ≤ year ∧ year < 500 then
    105836 / 10 - 101441 / 100 * (y / 100) + 3378311 / 100000 * (y / 100) ^ 2 - 5952053 / 1000000 * (y / 100) ^ 3 - 1798452 / 10 ^ 7 * (y / 100) ^ 4 + 22174192 / 10 ^ 9 * (y / 100) ^ 5
      + 90316521 / 10 ^ 10 * (y / 100) ^ 6
  else if 500 ≤ year ∧ year < 1600 then
    let t := (y - 1000) / 100
    15742 / 10 - 55601 / 100 * t + 7123472 / 100000 * t ^ 2 + 319781 / 1000000 * t ^ 3 - 8503463 / 10 ^ 7 * t ^ 4 - 5050998 / 10 ^ 9 * t ^ 5 + 83572073 / 10 ^ 10 * t ^ 6
  else if 1600 ≤ year ∧ year < 1700 then
    let t := y - 1600
    120 - 9808 / 10000 * t - 1532 / 100000 * t ^ 2 + t ^ 3 / 7129
  else if 1700 ≤ year ∧ year < 1800 then
    let t := y - 1700
    883 / 100 + 1603 / 10000 * t - 59285 / 10 ^ 7 * t ^ 2 + 13336 / 10 ^ 8 * t ^ 3 - t ^ 4 / 1174000
  else if 1800 ≤ year ∧ year < 1860 then
    let t := y - 1800
    1372 / 100 - 332447 / 10 ^ 6 * t + 68612 / 10 ^ 7 * t ^ 2 + 41116 / 10 ^ 7 * t ^ 3 - 37436 / 10 ^ 8 * t ^ 4 + 121272 / 10 ^ 10 * t ^ 5 - 1699 / 10 ^ 10 * t ^ 6 + 875 / 10 ^ 12 * t ^ 7
  else if 1860 ≤ year ∧ year < 1900 then
    let t := y - 1860
    762 / 100 + 5737 / 10000 * t - 251754 / 10 ^ 6 * t ^ 2 + 1680668 / 10 ^ 8 * t ^ 3 - 4473624 / 10 ^ 10 * t ^ 4 + t ^ 5 / 233174
  else if 1900 ≤ year ∧ year < 1920 then
    let t := y - 1900;
    -279 / 100 + 1494119 / 10 ^ 6 * t - 598939 / 10 ^ 7 * t ^ 2 + 61966 / 10 ^ 7 * t ^ 3 - 197 / 10 ^ 6 * t ^ 4
  else if 1920 ≤ year ∧ year < 1941 then
    let t := y - 1920
    2120 / 100 + 84493 / 100000 * t - 76100 / 10 ^ 6 * t ^ 2 + 20936 / 10 ^ 7 * t ^ 3
  else if 1941 ≤ year ∧ year < 1961 then
    let t := y - 1950
    2907 / 100 + 407 / 1000 * t - t ^ 2 / 233 + t ^ 3 / 2547
  else if 1961 ≤ year ∧ year < 1986 then
    let t := y - 1975
    4545 / 100 + 1067 / 1000 * t - t ^ 2 / 260 - t ^ 3 / 718
  else -20 + 32 * ((y - 1820) / 100) ^ 2

/-- optional/spa.py:1274-1360 `calculate_deltat`. The last condition `year >= 2150` holds whenever the others fail. -/
def calculate_deltat (year month : K) : K := deltatAt year (year + (month - 1 / 2) / 12)

/-- atmosphere.py:858-869: the day (in days since 1970-01-01) for which `sunrise_sunset` computes; `t` is the time shown by the clock of an aware or naive moment, in seconds since 1970-01-01 00:00 of
that clock, `offset` its offset from UTC in seconds (`none` for naive moments) -/
def sunriseDay (t : K) (offset : Option K) : ℤ :=
  match offset with
  | some o => ⌊(t + o) / 86400⌋
  | none => ⌊t / 86400⌋

end Generic

noncomputable section
open Real

/-- constants.py: `deg2rad`; `math.radians` (optional/spa.py:52) -/
def d2r (x : ℝ) : ℝ := π / 180 * x
/-- constants.py: `rad2deg`; `math.degrees` (optional/spa.py:52) -/
def r2d (x : ℝ) : ℝ := 180 / π * x

/-- `math.atan2` (optional/spa.py:52) -/
def atan2 (y x : ℝ) : ℝ := Complex.arg ⟨x, y⟩

/-- optional/spa.py:442-447, 510-512: the sum of the terms of a table -/
def series (T : List (ℕ × ℕ × ℕ)) (jme : ℝ) : ℝ :=
  (T.map fun r => (r.1 : ℝ) * cos ((r.2.1 : ℝ) / 10 ^ 7 + (r.2.2 : ℝ) / 10 ^ 5 * jme)).sum

/-- optional/spa.py:503-527 `heliocentric_radius_vector` -/
def heliocentric_radius_vector (jme : ℝ) : ℝ :=
  let r0 := series R0 jme
  let r1 := series R1 jme
  let r2 := series R2 jme
  let r3 := series R3 jme
  let r4 := 4 * cos (2.56 + 6283.08 * jme)
  (jme * (jme * (jme * (jme * r4 + r3) + r2) + r1) + r0) * (1 / 10 ^ 8)

/-- optional/spa.py:432-477 `heliocentric_longitude` -/
def heliocentric_longitude (jme : ℝ) : ℝ :=
  let l0 := series L0 jme
  let l1 := series L1 jme
  let l2 := series L2 jme
  let l3 := series L3 jme
  let l4 := series L4 jme
  let l5 := -(9999987317275395 / 10 ^ 16)
  let l_rad := (jme * (jme * (jme * (jme * (jme * l5 + l4) + l3) + l2) + l1) + l0) * (1 / 10 ^ 8)
  pmod (r2d l_rad) 360

/-- optional/spa.py:480-500 `heliocentric_latitude` -/
def heliocentric_latitude (jme : ℝ) : ℝ := r2d ((series B0 jme + series B1 jme * jme) * (1 / 10 ^ 8))

/-- optional/spa.py:532-534 `geocentric_longitude` -/
def geocentric_longitude (heliocentric_longitude : ℝ) : ℝ := pmod (heliocentric_longitude + 180) 360

/-- optional/spa.py:537-539 `geocentric_latitude` -/
def geocentric_latitude (heliocentric_latitude : ℝ) : ℝ := -heliocentric_latitude

/-- optional/spa.py:542-545 `mean_elongation` -/
def mean_elongation (jce : ℝ) : ℝ := jce * (jce * (5.27776898149614e-6 * jce - 0.0019142) + 445267.11148) + 297.85036
/-- optional/spa.py:553-556 `mean_anomaly_sun` -/
def mean_anomaly_sun (jce : ℝ) : ℝ := jce * (jce * (-3.33333333333333e-6 * jce - 0.0001603) + 35999.05034) + 357.52772
/-- optional/spa.py:564-567 `mean_anomaly_moon` -/
def mean_anomaly_moon (jce : ℝ) : ℝ := jce * (jce * (1.77777777777778e-5 * jce + 0.0086972) + 477198.867398) + 134.96298
/-- optional/spa.py:575-578 `moon_argument_latitude` -/
def moon_argument_latitude (jce : ℝ) : ℝ := jce * (jce * (3.05558101873071e-6 * jce - 0.0036825) + 483202.017538) + 93.27191
/-- optional/spa.py:586-589 `moon_ascending_longitude` -/
def moon_ascending_longitude (jce : ℝ) : ℝ := jce * (jce * (2.22222222222222e-6 * jce + 0.0020708) - 1934.136261) + 125.04452

/-- optional/spa.py:603-607: the argument of one nutation term -/
def nutArg (y : ℤ × ℤ × ℤ × ℤ × ℤ) (x0 x1 x2 x3 x4 : ℝ) : ℝ :=
  y.1 * d2r x0 + y.2.1 * d2r x1 + y.2.2.1 * d2r x2 + y.2.2.2.1 * d2r x3 + y.2.2.2.2 * d2r x4

/-- optional/spa.py:597-623 `longitude_obliquity_nutation`, 625-639 `longitude_nutation`, 642-655 `obliquity_nutation`: both sums -/
def longitude_obliquity_nutation (jce x0 x1 x2 x3 x4 : ℝ) : ℝ × ℝ :=
  ((List.zipWith (fun (y : ℤ × ℤ × ℤ × ℤ × ℤ) (a : ℤ × ℤ × ℤ × ℤ) => ((a.1 : ℝ) / 10 + jce * ((a.2.1 : ℝ) / 10)) * sin (nutArg y x0 x1 x2 x3 x4)) Y ABCD).sum / 36000000,
   (List.zipWith (fun (y : ℤ × ℤ × ℤ × ℤ × ℤ) (a : ℤ × ℤ × ℤ × ℤ) => ((a.2.2.1 : ℝ) / 10 + jce * ((a.2.2.2 : ℝ) / 10)) * cos (nutArg y x0 x1 x2 x3 x4)) Y ABCD).sum / 36000000)

/-- optional/spa.py:658-662 `mean_ecliptic_obliquity` -/
def mean_ecliptic_obliquity (jme : ℝ) : ℝ :=
  let U := 0.1 * jme
  U * (U * (U * (U * (U * (U * (U * (U * (U * (2.45 * U + 5.79) + 27.87) + 7.12) - 39.05) - 249.67) - 51.38) + 1999.25) - 1.55) - 4680.93) + 84381.448

/-- optional/spa.py:665-668 `true_ecliptic_obliquity` -/
def true_ecliptic_obliquity (e0 deleps : ℝ) : ℝ := e0 * 0.0002777777777777778 + deleps

/-- optional/spa.py:673-676 `aberration_correction` -/
def aberration_correction (r : ℝ) : Py ℝ := pdiv (-0.005691611111111111) r

/-- optional/spa.py:679-682 `apparent_sun_longitude` -/
def apparent_sun_longitude (theta psi tau : ℝ) : ℝ := theta + psi + tau

/-- optional/spa.py:685-690 `mean_sidereal_time` -/
def mean_sidereal_time (jd jc : ℝ) : ℝ :=
  pmod (280.46061837 + 360.98564736629 * (jd - 2451545) + 0.000387933 * (jc * jc) - jc * jc * jc / 38710000) 360

/-- optional/spa.py:693-696 `apparent_sidereal_time` -/
def apparent_sidereal_time (v0 psi eps : ℝ) : ℝ := v0 + psi * cos (d2r eps)

/-- optional/spa.py:699-708 `geocentric_sun_right_ascension` -/
def geocentric_sun_right_ascension (lam eps beta : ℝ) : ℝ :=
  pmod (r2d (atan2 (sin (d2r lam) * cos (d2r eps) - tan (d2r beta) * sin (d2r eps)) (cos (d2r lam)))) 360

/-- optional/spa.py:711-718 `geocentric_sun_declination` -/
def geocentric_sun_declination (lam eps beta : ℝ) : Py ℝ := do
  let a ← pasin (sin (d2r beta) * cos (d2r eps) + cos (d2r beta) * sin (d2r eps) * sin (d2r lam))
  return r2d a

/-- optional/spa.py:721-725 `local_hour_angle` -/
def local_hour_angle (v lon alpha : ℝ) : ℝ := pmod (v + lon - alpha) 360

/-- optional/spa.py:728-729 `equatorial_horizontal_parallax` -/
def equatorial_horizontal_parallax (r : ℝ) : Py ℝ := pdiv 8.794 (3600 * r)

/-- optional/spa.py:732-734 `uterm` -/
def uterm (lat : ℝ) : ℝ := arctan (0.99664719 * tan (d2r lat))
/-- optional/spa.py:737-740 `xterm` -/
def xterm (u lat elev : ℝ) : ℝ := cos u + elev * 1.5678552054360676e-07 * cos (d2r lat)
/-- optional/spa.py:743-747 `yterm` -/
def yterm (u lat elev : ℝ) : ℝ := 0.99664719 * sin u + elev * 1.5678552054360676e-07 * sin (d2r lat)

/-- optional/spa.py:750-757 `parallax_sun_right_ascension` -/
def parallax_sun_right_ascension (x xi H delta : ℝ) : ℝ :=
  r2d (atan2 (-x * sin (d2r xi) * sin (d2r H)) (cos (d2r delta) - x * sin (d2r xi) * cos (d2r H)))

/-- optional/spa.py:760-763 `topocentric_sun_right_ascension` -/
def topocentric_sun_right_ascension (alpha delta_alpha : ℝ) : ℝ := alpha + delta_alpha

/-- optional/spa.py:766-778 `topocentric_sun_declination` -/
def topocentric_sun_declination (delta x y xi delta_alpha H : ℝ) : ℝ :=
  r2d (atan2 ((sin (d2r delta) - y * sin (d2r xi)) * cos (d2r delta_alpha)) (cos (d2r delta) - x * sin (d2r xi) * cos (d2r H)))

/-- optional/spa.py:781-784 `topocentric_local_hour_angle` -/
def topocentric_local_hour_angle (H delta_alpha : ℝ) : ℝ := H - delta_alpha

/-- optional/spa.py:787-801 `topocentric_elevation_angle_without_atmosphere` -/
def topocentric_elevation_angle_without_atmosphere (lat delta H : ℝ) : Py ℝ := do
  let a ← pasin (sin (d2r lat) * sin (d2r delta) + cos (d2r lat) * cos (d2r delta) * cos (d2r H))
  return r2d a

open Classical in
/-- optional/spa.py:804-815 `atmospheric_refraction_correction` (pressure in millibar, temperature in °C); the divisions happen whatever the switch -/
def atmospheric_refraction_correction (p t e0 refract : ℝ) : Py ℝ := do
  let switch : ℝ := if e0 ≥ -1 * (0.26667 + refract) then 1 else 0
  let q ← pdiv 283 (273 + t)
  let s ← pdiv 10.3 (e0 + 5.11)
  let r ← pdiv (p / 1010 * q * 1.02 * cos (d2r (e0 + s))) (60 * sin (d2r (e0 + s)))
  return r * switch

/-- optional/spa.py:818-822 `topocentric_elevation_angle` -/
def topocentric_elevation_angle (e0 delta_e : ℝ) : ℝ := e0 + delta_e
/-- optional/spa.py:825-827 `topocentric_zenith_angle` -/
def topocentric_zenith_angle (e : ℝ) : ℝ := 90 - e

/-- optional/spa.py:830-840 `topocentric_astronomers_azimuth` -/
def topocentric_astronomers_azimuth (H delta lat : ℝ) : ℝ :=
  pmod (r2d (atan2 (sin (d2r H)) (cos (d2r H) * sin (d2r lat) - tan (d2r delta) * cos (d2r lat)))) 360

/-- optional/spa.py:843-845 `topocentric_azimuth_angle` -/
def topocentric_azimuth_angle (gamma : ℝ) : ℝ := pmod (gamma + 180) 360

/-- optional/spa.py:848-853 `sun_mean_longitude` -/
def sun_mean_longitude (jme : ℝ) : ℝ :=
  jme * (jme * (jme * (jme * (-5.0e-7 * jme - 6.5359477124183e-5) + 2.00276381406341e-5) + 0.03032028) + 360007.6982779) + 280.4664567

open Classical in
/-- optional/spa.py:857-870 `equation_of_time` -/
def equation_of_time (m alpha psi eps : ℝ) : ℝ :=
  let E := pmod (m - 0.0057183 - alpha + psi * cos (d2r eps)) 360 * 4
  (if E > 20 then 1 else 0) * (E - 1440) + (if E < -20 then 1 else 0) * (E + 1440) + (if E ≤ 20 ∧ E ≥ -20 then 1 else 0) * E

/-- optional/spa.py:895-899: the ephemeris millennium of a Unix time -/
def jmeOf (unixtime delta_t : ℝ) : ℝ := julian_ephemeris_millennium (julian_century (julian_ephemeris_day (julian_day unixtime) delta_t))

/-- optional/spa.py:873-902 `earthsun_distance` -/
def earthsun_distance (unixtime delta_t : ℝ) : ℝ := heliocentric_radius_vector (jmeOf unixtime delta_t)

/-- atmosphere.py:586-655 `earthsun_distance`, of the Unix time and ΔT of the moment; `au` is the astronomical unit -/
def earthsun_distance_m (au unixtime delta_t : ℝ) : ℝ := earthsun_distance unixtime delta_t * au

/-- optional/spa.py:953-980: the quantities shared by `solar_position` with and without `sst` -/
structure Geo where
  R : ℝ
  psi : ℝ
  eps : ℝ
  jme : ℝ
  v : ℝ
  alpha : ℝ
  delta : ℝ

/-- optional/spa.py:953-984: the first part of `solar_position`; with `sst` it returns `v`, `alpha`, `delta` -/
def geo (unixtime delta_t : ℝ) : Py Geo := do
  let jd := julian_day unixtime
  let jc := julian_century jd
  let jce := julian_century (julian_ephemeris_day jd delta_t)
  let jme := julian_ephemeris_millennium jce
  let R := heliocentric_radius_vector jme
  let theta := geocentric_longitude (heliocentric_longitude jme)
  let beta := geocentric_latitude (heliocentric_latitude jme)
  let nut := longitude_obliquity_nutation jce (mean_elongation jce) (mean_anomaly_sun jce) (mean_anomaly_moon jce) (moon_argument_latitude jce) (moon_ascending_longitude jce)
  let eps := true_ecliptic_obliquity (mean_ecliptic_obliquity jme) nut.2
  let tau ← aberration_correction R
  let lam := apparent_sun_longitude theta nut.1 tau
  let v := apparent_sidereal_time (mean_sidereal_time jd jc) nut.1 eps
  let delta ← geocentric_sun_declination lam eps beta
  return ⟨R, nut.1, eps, jme, v, geocentric_sun_right_ascension lam eps beta, delta⟩

/-- optional/spa.py:1014: the six results of `solar_position` -/
structure Position where
  apparent_zenith : ℝ
  zenith : ℝ
  apparent_elevation : ℝ
  elevation : ℝ
  azimuth : ℝ
  eot : ℝ

/-- optional/spa.py:905-1014 `solar_position` with `sst=False` -/
def solar_position (unixtime lat lon elev pressure temp delta_t atmos_refract : ℝ) : Py Position := do
  let g ← geo unixtime delta_t
  let eot := equation_of_time (sun_mean_longitude g.jme) g.alpha g.psi g.eps
  let H := local_hour_angle g.v lon g.alpha
  let xi ← equatorial_horizontal_parallax g.R
  let u := uterm lat
  let x := xterm u lat elev
  let y := yterm u lat elev
  let delta_alpha := parallax_sun_right_ascension x xi H g.delta
  let delta_prime := topocentric_sun_declination g.delta x y xi delta_alpha H
  let H_prime := topocentric_local_hour_angle H delta_alpha
  let e0 ← topocentric_elevation_angle_without_atmosphere lat delta_prime H_prime
  let delta_e ← atmospheric_refraction_correction pressure temp e0 atmos_refract
  let e := topocentric_elevation_angle e0 delta_e
  let gamma := topocentric_astronomers_azimuth H_prime delta_prime lat
  return ⟨topocentric_zenith_angle e, topocentric_zenith_angle e0, e, e0, topocentric_azimuth_angle gamma, eot⟩

/-- atmosphere.py:658-789 `solar_position`, of the Unix time and ΔT of the moment (pressure in Pa, temperature in K; the equation of time in seconds) -/
def solar_position_SI (unixtime delta_t lat lon Z T P atmos_refract : ℝ) : Py Position := do
  let r ← solar_position unixtime lat lon Z (P * (1 / 100)) (T - 273.15) delta_t atmos_refract
  return { r with eot := r.eot * 60 }


/-- optional/spa.py:1214-1226: the difference of a quantity over one day, reduced modulo 1 when its size exceeds 2 -/
def dayDiff (x : ℝ) : ℝ := if |x| > 2 then pmod x 1 else x

/-- optional/spa.py:1236-1237: quadratic interpolation in the three days -/
def dayInterp (x a b n : ℝ) : ℝ := x + n * (a + b + (b - a) * n) * 0.5

/-- optional/spa.py:1238-1240: the hour angle in [-180, 180) -/
def hourAngle (v m lon alpha : ℝ) : ℝ :=
  let H := pmod (v + 360.985647 * m + lon - alpha) 360
  if H ≥ 180 then H - 360 else H

/-- optional/spa.py:1250-1260: the instant at which the sun crosses the altitude -0.8333°, from an approximate one -/
def crossing (lat m delta_prime Hp : ℝ) : Py ℝ := do
  let a ← pasin (sin (d2r lat) * sin (d2r delta_prime) + cos (d2r lat) * cos (d2r delta_prime) * cos (d2r Hp))
  let q ← pdiv (r2d a + 0.8333) (360 * cos (d2r delta_prime) * cos (d2r lat) * sin (d2r Hp))
  return (m + q) * 86400

/-- optional/spa.py:1188-1190: the cosine of the hour angle of sunrise -/
def cosArg (lat delta : ℝ) : Py ℝ :=
  pdiv (-0.014543315936696236 - sin (d2r lat) * sin (d2r delta)) (cos (d2r lat) * cos (d2r delta))

/-- optional/spa.py:1194-1206, 1250-1265: sunrise and sunset in seconds of the day; `m0` is the transit in [0, 1), `al d` interpolates the right ascension and declination at a fraction of a day -/
def riseSet (lat lon v delta_t m0 H0 : ℝ) (al de : ℝ → ℝ) : Py (ℝ × ℝ) := do
  let m1 := pmod (m0 - H0 / 360) 1
  let m2 := pmod (m0 + H0 / 360) 1
  let n1 := m1 + delta_t / 86400
  let n2 := m2 + delta_t / 86400
  let R ← crossing lat m1 (de n1) (hourAngle v m1 lon (al n1))
  let S ← crossing lat m2 (de n2) (hourAngle v m2 lon (al n2))
  return (if m0 - H0 / 360 < 0 then R - 86400 else R, if m0 + H0 / 360 ≥ 1 then S + 86400 else S)

/-- optional/spa.py:1194-1206, 1254: the results when the sun rises and sets (`H0 = degrees(acos(cos_arg)) % 180`), and NaN (`none`) when it does not -/
def riseSet? (lat lon v delta_t m0 c : ℝ) (al de : ℝ → ℝ) : Py (Option (ℝ × ℝ)) :=
  if |c| > 1 then return none
  else do
    let a ← pacos c
    let r ← riseSet lat lon v delta_t m0 (pmod (r2d a) 180) al de
    return some r

/-- optional/spa.py:1143-1271 `transit_sunrise_sunset`; the times `none` are NaN.  The altitude computed for the transit (`h[0]`, an arcsine of a number in [-1, 1]) is not used. -/
def transit_sunrise_sunset (dates lat lon delta_t : ℝ) : Py (ℝ × Option (ℝ × ℝ)) := do
  if pmod dates 86400 ≠ 0 then throw .valueError
  let utday : ℝ := ⌊dates / 86400⌋ * 86400
  let ttday0 := utday - delta_t
  let g ← geo utday delta_t
  let g0 ← geo ttday0 delta_t
  let gn ← geo (ttday0 - 86400) delta_t
  let gp ← geo (ttday0 + 86400) delta_t
  let c ← cosArg lat g0.delta
  let m0 := pmod ((g0.alpha - lon - g.v) / 360) 1
  let al := dayInterp g0.alpha (dayDiff (g0.alpha - gn.alpha)) (dayDiff (gp.alpha - g0.alpha))
  let de := dayInterp g0.delta (dayDiff (g0.delta - gn.delta)) (dayDiff (gp.delta - g0.delta))
  let H := hourAngle g.v m0 lon (al (m0 + delta_t / 86400))
  let rs ← riseSet? lat lon g.v delta_t m0 c al de
  return ((m0 - H / 360) * 86400 + utday, rs.map fun p => (p.1 + utday, p.2 + utday))

end
end Verif.Spa
