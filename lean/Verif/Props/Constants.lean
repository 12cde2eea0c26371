import Mathlib.Tactic.NormNum
import Mathlib.Tactic.Linarith
import Mathlib.Tactic.Positivity
import Mathlib.Tactic.FieldSimp
import Mathlib.Tactic.IntervalCases
import Verif.Model.Constants

/-!
# C76: the unit constants are exact compositions

The specification is the published definition of each unit, written here as a literal or as a relation between units.
-/

namespace Verif.Const

/-- C76: metric and binary prefixes are the powers they name. -/
theorem C76_prefixes :
    [quetta, ronna, yotta, zetta, exa, peta, tera, giga, mega, kilo] = (List.range 10).map (fun i => (1000 : ℚ) ^ (10 - i)) ∧
    [hecto, deka, deci, centi] = [100, 10, 1/10, 1/100] ∧
    [milli, micro, nano, pico, femto, atto, zepto, yocto, ronto, quecto] = (List.range 10).map (fun i => (1 / 1000 : ℚ) ^ (i + 1)) ∧
    [kibi, mebi, gibi, tebi, pebi, exbi, zebi, yobi] = (List.range 8).map (fun i => (1024 : ℚ) ^ (i + 1)) := by
  refine ⟨?_, ?_, ?_, ?_⟩ <;> decide +kernel

/-- C76: lengths and areas: the international inch, foot, yard and mile, the survey units, acre and hectare. -/
theorem C76_lengths :
    inch = 254 / 10000 ∧ foot = 3048 / 10000 ∧ yard = 9144 / 10000 ∧ mile = 1609344 / 1000 ∧ mile = 5280 * foot ∧ inch = 1000 * mil ∧
    72 * point = inch ∧ 3937 * survey_foot = 1200 ∧ survey_mile = 5280 * survey_foot ∧ foot_cubed = foot ^ 3 ∧
    acre = 4840 * yard ^ 2 ∧ 640 * acre = mile ^ 2 ∧ hectare = 100 ^ 2 ∧ light_year = 9460730472580800 ∧ nautical_mile = 1852 := by
  refine ⟨?_, ?_, ?_, ?_, ?_, ?_, ?_, ?_, ?_, ?_, ?_, ?_, ?_, ?_, ?_⟩ <;> decide +kernel

/-- C76: masses: the avoirdupois pound and its multiples, the troy units, slug and slinch. -/
theorem C76_masses :
    pound = 45359237 / 10 ^ 8 ∧ 16 * ounce = pound ∧ stone = 14 * pound ∧ long_ton = 160 * stone ∧ short_ton = 2000 * pound ∧
    troy_pound = 5760 * grain ∧ 12 * troy_ounce = troy_pound ∧ 7000 * grain = pound ∧ 12 * slug = blob ∧
    slug * foot = pound_force ∧ blob * inch = pound_force ∧ metric_ton = 1000 ∧ 1000 * gram = 1 ∧ 5 * carat = gram := by
  refine ⟨?_, ?_, ?_, ?_, ?_, ?_, ?_, ?_, ?_, ?_, ?_, ?_, ?_, ?_⟩ <;> decide +kernel

/-- C76: times and speeds. -/
theorem C76_times :
    hour = 3600 ∧ day = 86400 ∧ week = 604800 ∧ year = 365 * day ∧ 4 * Julian_year = 1461 * day ∧ kmh * hour = 1000 ∧ mph * hour = mile ∧
    knot * hour = nautical_mile ∧ 1 = hour * hour_inv := by
  refine ⟨?_, ?_, ?_, ?_, ?_, ?_, ?_, ?_, ?_⟩ <;> decide +kernel

/-- C76: pressures, forces, powers and energies. -/
theorem C76_mechanics :
    atm = 101325 ∧ 760 * torr = atm ∧ mmHg = torr ∧ inchHg = 254 / 10 * mmHg ∧ psi * inch ^ 2 = pound_force ∧ lbf = pound * g ∧
    horsepower = 550 * foot * pound_force ∧ kilogram_force = g ∧ bar = 10 ^ 5 ∧ 10 ^ 5 * dyn = 1 ∧ 10 ^ 7 * erg = 1 ∧
    g = 980665 / 100000 := by
  refine ⟨?_, ?_, ?_, ?_, ?_, ?_, ?_, ?_, ?_, ?_, ?_, ?_⟩ <;> decide +kernel

/-- C76: volumes. -/
theorem C76_volumes :
    gallon = 3785411784 / 10 ^ 12 ∧ gallon = 231 * inch ^ 3 ∧ bbl = 42 * gallon ∧ 128 * fluid_ounce = gallon ∧ 1000 * liter = 1 ∧
    gallon_imp = 454609 / 10 ^ 8 ∧ 160 * fluid_ounce_imp = gallon_imp := by
  refine ⟨?_, ?_, ?_, ?_, ?_, ?_, ?_⟩ <;> decide +kernel

/-- C76: heat and the gas constant (the exact CODATA product). -/
theorem C76_thermal :
    R = 831446261815324 / 10 ^ 14 ∧ R2 = R ^ 2 ∧ zero_Celsius = 27315 / 100 ∧ 9 * degree_Fahrenheit = 5 ∧
    Btu * gram = pound * degree_Fahrenheit * calorie_IT ∧ Btu_th * gram = pound * degree_Fahrenheit * calorie_th ∧
    calorie = 4184 / 1000 ∧ calorie_IT = 41868 / 10000 ∧ ton_TNT = 10 ^ 9 * calorie ∧ electron_volt = elementary_charge := by
  refine ⟨?_, ?_, ?_, ?_, ?_, ?_, ?_, ?_, ?_, ?_⟩ <;> decide +kernel

/-- C76: each `x_inv` is the reciprocal of `x`. -/
theorem C76_inverses :
    R * R_inv = 1 ∧ inch * inch_inv = 1 ∧ foot_cubed * foot_cubed_inv = 1 ∧ atm * atm_inv = 1 ∧ atmosphere * atmosphere_inv = 1 ∧
    torr * torr_inv = 1 ∧ mmHg * mmHg_inv = 1 ∧ psi * psi_inv = 1 ∧ hour * hour_inv = 1 ∧ pi * pi_inv = 1 ∧ ln_10 * ln_10_inv = 1 := by
  refine ⟨?_, ?_, ?_, ?_, ?_, ?_, ?_, ?_, ?_, ?_, ?_⟩
  iterate 9 decide +kernel
  · simp only [pi_inv, pi]; field_simp
  · simp only [ln_10_inv, ln_10]
    exact mul_one_div_cancel (Real.log_pos (by norm_num)).ne'

/-- C76: the angular and electromagnetic constants, which involve `π`. -/
theorem C76_angles :
    180 * degree = Real.pi ∧ 60 * arcmin = degree ∧ 60 * arcsec = arcmin ∧ arcminute = arcmin ∧ arcsecond = arcsec ∧
    mu_0 * epsilon_0 * (c : ℝ) ^ 2 = 1 ∧ 2 * Real.pi * hbar = (h : ℝ) ∧ parsec * arcsec = (au : ℝ) := by
  have hp := Real.pi_ne_zero
  have hc : (c : ℝ) ≠ 0 := by simp [c]
  have hm : mu_0 ≠ 0 := by simp [mu_0, pi]
  have ha : arcsec ≠ 0 := by simp [arcsec, arcmin, degree, pi]
  refine ⟨?_, ?_, ?_, rfl, rfl, ?_, ?_, ?_⟩
  · simp only [degree, pi]; ring
  · simp only [arcmin]; ring
  · simp only [arcsec]; ring
  · simp only [epsilon_0]; field_simp
  · simp only [hbar, pi]; field_simp
  · simp only [parsec]; field_simp

/-- C76: the constants written as rounded literals are what they claim to be, to the digits written: `g_sqrt`, `root_two`, `golden`,
`deg2rad` and `rad2deg`. -/
theorem C76_rounded :
    0 < g_sqrt ∧ |g_sqrt ^ 2 - g| < 2 / 10 ^ 15 ∧ 0 < root_two ∧ |root_two ^ 2 - 2| < 1 / 10 ^ 15 ∧ 1 < golden ∧
    |golden ^ 2 - golden - 1| < 1 / 10 ^ 15 ∧ |(deg2rad : ℝ) - Real.pi / 180| < 1 / 10 ^ 20 ∧ |(rad2deg : ℝ) - 180 / Real.pi| < 1 / 10 ^ 16 := by
  have p1 := Real.pi_gt_d20
  have p2 := Real.pi_lt_d20
  refine ⟨by decide +kernel, by decide +kernel, by decide +kernel, by decide +kernel, by decide +kernel, by decide +kernel, ?_, ?_⟩
  · rw [abs_lt]
    simp only [deg2rad]
    push_cast
    constructor <;> linarith
  · rw [abs_lt]
    simp only [rad2deg]
    push_cast
    have hp : 0 < Real.pi := Real.pi_pos
    constructor
    · rw [neg_lt_sub_iff_lt_add, div_lt_iff₀ hp]; linarith
    · rw [sub_lt_iff_lt_add, ← sub_lt_iff_lt_add', lt_div_iff₀ hp]; linarith

/-- C76: alternative spellings name the same number. -/
theorem C76_aliases :
    c = speed_of_light ∧ h = Planck ∧ G = gravitational_constant ∧ e = elementary_charge ∧ alpha = fine_structure ∧ N_A = Avogadro ∧
    k = Boltzmann ∧ sigma = Stefan_Boltzmann ∧ R = gas_constant ∧ lb = pound ∧ blob = slinch ∧ oz = ounce ∧ m_e = electron_mass ∧
    m_p = proton_mass ∧ m_n = neutron_mass ∧ m_u = atomic_mass ∧ u = atomic_mass ∧ pt = point ∧ au = astronomical_unit ∧ atm = atmosphere ∧
    litre = liter ∧ gallon = gallon_US ∧ fluid_ounce = fluid_ounce_US ∧ bbl = barrel ∧ mach = speed_of_sound ∧ eV = electron_volt ∧
    calorie = calorie_th ∧ Btu = Btu_IT ∧ hp = horsepower ∧ dyn = dyne ∧ lbf = pound_force ∧ kgf = kilogram_force ∧ golden = golden_ratio := by
  refine ⟨rfl, rfl, rfl, rfl, rfl, rfl, rfl, rfl, rfl, rfl, rfl, rfl, rfl, rfl, rfl, rfl, rfl, rfl, rfl, rfl, rfl, rfl, rfl, rfl, rfl, rfl,
    rfl, rfl, rfl, rfl, rfl, rfl, rfl⟩

end Verif.Const
