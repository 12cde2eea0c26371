import Mathlib.Analysis.SpecialFunctions.Log.Basic
import Mathlib.Analysis.Real.Pi.Bounds

/-!
# Model of `fluids/constants/constants.py`

Every constant of the module, line by line. Decimal literals are exact rationals (the code holds the nearest double); the constants that
involve `math.pi` or `math.log` are real numbers.
-/

namespace Verif.Const

noncomputable section

/-- constants.py:12: `pi = _math.pi` -/
def pi : ℝ := Real.pi

/-- constants.py:13: `pi_inv = 1.0/pi` -/
def pi_inv : ℝ := (1 / pi)

/-- constants.py:14: `golden = golden_ratio = 1.618033988749895` -/
def golden : ℚ := (1618033988749895 / 10 ^ 15)

/-- constants.py:14: `golden = golden_ratio = 1.618033988749895` -/
def golden_ratio : ℚ := (1618033988749895 / 10 ^ 15)

/-- constants.py:17: `quetta = 1e30` -/
def quetta : ℚ := 1000000000000000000000000000000

/-- constants.py:18: `ronna = 1e27` -/
def ronna : ℚ := 1000000000000000000000000000

/-- constants.py:19: `yotta = 1e24` -/
def yotta : ℚ := 1000000000000000000000000

/-- constants.py:20: `zetta = 1e21` -/
def zetta : ℚ := 1000000000000000000000

/-- constants.py:21: `exa = 1e18` -/
def exa : ℚ := 1000000000000000000

/-- constants.py:22: `peta = 1e15` -/
def peta : ℚ := 1000000000000000

/-- constants.py:23: `tera = 1e12` -/
def tera : ℚ := 1000000000000

/-- constants.py:24: `giga = 1e9` -/
def giga : ℚ := 1000000000

/-- constants.py:25: `mega = 1e6` -/
def mega : ℚ := 1000000

/-- constants.py:26: `kilo = 1e3` -/
def kilo : ℚ := 1000

/-- constants.py:27: `hecto = 1e2` -/
def hecto : ℚ := 100

/-- constants.py:28: `deka = 1e1` -/
def deka : ℚ := 10

/-- constants.py:29: `deci = 1e-1` -/
def deci : ℚ := (1 / 10 ^ 1)

/-- constants.py:30: `centi = 1e-2` -/
def centi : ℚ := (1 / 10 ^ 2)

/-- constants.py:31: `milli = 1e-3` -/
def milli : ℚ := (1 / 10 ^ 3)

/-- constants.py:32: `micro = 1e-6` -/
def micro : ℚ := (1 / 10 ^ 6)

/-- constants.py:33: `nano = 1e-9` -/
def nano : ℚ := (1 / 10 ^ 9)

/-- constants.py:34: `pico = 1e-12` -/
def pico : ℚ := (1 / 10 ^ 12)

/-- constants.py:35: `femto = 1e-15` -/
def femto : ℚ := (1 / 10 ^ 15)

/-- constants.py:36: `atto = 1e-18` -/
def atto : ℚ := (1 / 10 ^ 18)

/-- constants.py:37: `zepto = 1e-21` -/
def zepto : ℚ := (1 / 10 ^ 21)

/-- constants.py:38: `yocto = 1e-24` -/
def yocto : ℚ := (1 / 10 ^ 24)

/-- constants.py:39: `ronto = 1e-27` -/
def ronto : ℚ := (1 / 10 ^ 27)

/-- constants.py:40: `quecto = 1e-30` -/
def quecto : ℚ := (1 / 10 ^ 30)

/-- constants.py:43: `kibi = 2**10` -/
def kibi : ℚ := (2 ^ 10)

/-- constants.py:44: `mebi = 2**20` -/
def mebi : ℚ := (2 ^ 20)

/-- constants.py:45: `gibi = 2**30` -/
def gibi : ℚ := (2 ^ 30)

/-- constants.py:46: `tebi = 2**40` -/
def tebi : ℚ := (2 ^ 40)

/-- constants.py:47: `pebi = 2**50` -/
def pebi : ℚ := (2 ^ 50)

/-- constants.py:48: `exbi = 2**60` -/
def exbi : ℚ := (2 ^ 60)

/-- constants.py:49: `zebi = 2**70` -/
def zebi : ℚ := (2 ^ 70)

/-- constants.py:50: `yobi = 2**80` -/
def yobi : ℚ := (2 ^ 80)

/-- constants.py:53: `c = speed_of_light = 299792458.0` -/
def c : ℚ := 299792458

/-- constants.py:53: `c = speed_of_light = 299792458.0` -/
def speed_of_light : ℚ := 299792458

/-- constants.py:54: `mu_0 = 4e-7*pi` -/
def mu_0 : ℝ := ((4 / 10 ^ 7) * pi)

/-- constants.py:55: `epsilon_0 = 1.0 / (mu_0*c*c)` -/
def epsilon_0 : ℝ := (1 / ((mu_0 * (c : ℝ)) * (c : ℝ)))

/-- constants.py:56: `h = Planck = 6.62607004e-34` -/
def h : ℚ := (662607004 / 10 ^ 42)

/-- constants.py:56: `h = Planck = 6.62607004e-34` -/
def Planck : ℚ := (662607004 / 10 ^ 42)

/-- constants.py:57: `hbar = h / (2.0 * pi)` -/
def hbar : ℝ := ((h : ℝ) / (2 * pi))

/-- constants.py:58: `G = gravitational_constant = 6.67408e-11` -/
def G : ℚ := (667408 / 10 ^ 16)

/-- constants.py:58: `G = gravitational_constant = 6.67408e-11` -/
def gravitational_constant : ℚ := (667408 / 10 ^ 16)

/-- constants.py:59: `g = 9.80665` -/
def g : ℚ := (980665 / 10 ^ 5)

/-- constants.py:60: `g_sqrt = 3.1315571206669692` -/
def g_sqrt : ℚ := (31315571206669692 / 10 ^ 16)

/-- constants.py:61: `e = elementary_charge = 1.6021766208e-19` -/
def e : ℚ := (16021766208 / 10 ^ 29)

/-- constants.py:61: `e = elementary_charge = 1.6021766208e-19` -/
def elementary_charge : ℚ := (16021766208 / 10 ^ 29)

/-- constants.py:62: `alpha = fine_structure = 0.0072973525664` -/
def alpha : ℚ := (72973525664 / 10 ^ 13)

/-- constants.py:62: `alpha = fine_structure = 0.0072973525664` -/
def fine_structure : ℚ := (72973525664 / 10 ^ 13)

/-- constants.py:63: `N_A = Avogadro = 6.02214076e23` -/
def N_A : ℚ := 602214076000000000000000

/-- constants.py:63: `N_A = Avogadro = 6.02214076e23` -/
def Avogadro : ℚ := 602214076000000000000000

/-- constants.py:64: `k = Boltzmann = 1.380649e-23` -/
def k : ℚ := (1380649 / 10 ^ 29)

/-- constants.py:64: `k = Boltzmann = 1.380649e-23` -/
def Boltzmann : ℚ := (1380649 / 10 ^ 29)

/-- constants.py:65: `sigma = Stefan_Boltzmann = 5.670367e-08` -/
def sigma : ℚ := (5670367 / 10 ^ 14)

/-- constants.py:65: `sigma = Stefan_Boltzmann = 5.670367e-08` -/
def Stefan_Boltzmann : ℚ := (5670367 / 10 ^ 14)

/-- constants.py:66: `Wien = 0.0028977729` -/
def Wien : ℚ := (28977729 / 10 ^ 10)

/-- constants.py:67: `Rydberg = 10973731.568508` -/
def Rydberg : ℚ := (10973731568508 / 10 ^ 6)

/-- constants.py:69: `R = gas_constant = N_A*k` -/
def R : ℚ := (N_A * k)

/-- constants.py:69: `R = gas_constant = N_A*k` -/
def gas_constant : ℚ := (N_A * k)

/-- constants.py:70: `R_inv = 1.0/R` -/
def R_inv : ℚ := (1 / R)

/-- constants.py:71: `R2 = R*R` -/
def R2 : ℚ := (R * R)

/-- constants.py:74: `gram = 1e-3` -/
def gram : ℚ := (1 / 10 ^ 3)

/-- constants.py:75: `metric_ton = 1e3` -/
def metric_ton : ℚ := 1000

/-- constants.py:76: `grain = 64.79891e-6` -/
def grain : ℚ := (6479891 / 10 ^ 11)

/-- constants.py:77: `lb = pound = 7000 * grain` -/
def lb : ℚ := (7000 * grain)

/-- constants.py:77: `lb = pound = 7000 * grain` -/
def pound : ℚ := (7000 * grain)

/-- constants.py:78: `blob = slinch = pound * g / 0.0254` -/
def blob : ℚ := ((pound * g) / (254 / 10 ^ 4))

/-- constants.py:78: `blob = slinch = pound * g / 0.0254` -/
def slinch : ℚ := ((pound * g) / (254 / 10 ^ 4))

/-- constants.py:79: `slug = blob / 12` -/
def slug : ℚ := (blob / 12)

/-- constants.py:80: `oz = ounce = pound / 16.0` -/
def oz : ℚ := (pound / 16)

/-- constants.py:80: `oz = ounce = pound / 16.0` -/
def ounce : ℚ := (pound / 16)

/-- constants.py:81: `stone = 14.0 * pound` -/
def stone : ℚ := (14 * pound)

/-- constants.py:82: `long_ton = 2240.0 * pound` -/
def long_ton : ℚ := (2240 * pound)

/-- constants.py:83: `short_ton = 2000.0 * pound` -/
def short_ton : ℚ := (2000 * pound)

/-- constants.py:85: `troy_ounce = 480.0 * grain` -/
def troy_ounce : ℚ := (480 * grain)

/-- constants.py:86: `troy_pound = 12.0 * troy_ounce` -/
def troy_pound : ℚ := (12 * troy_ounce)

/-- constants.py:87: `carat = 200e-6` -/
def carat : ℚ := (2 / 10 ^ 4)

/-- constants.py:89: `m_e = electron_mass = 9.10938356e-31` -/
def m_e : ℚ := (910938356 / 10 ^ 39)

/-- constants.py:89: `m_e = electron_mass = 9.10938356e-31` -/
def electron_mass : ℚ := (910938356 / 10 ^ 39)

/-- constants.py:90: `m_p = proton_mass = 1.672621898e-27` -/
def m_p : ℚ := (1672621898 / 10 ^ 36)

/-- constants.py:90: `m_p = proton_mass = 1.672621898e-27` -/
def proton_mass : ℚ := (1672621898 / 10 ^ 36)

/-- constants.py:91: `m_n = neutron_mass = 1.674927471e-27` -/
def m_n : ℚ := (1674927471 / 10 ^ 36)

/-- constants.py:91: `m_n = neutron_mass = 1.674927471e-27` -/
def neutron_mass : ℚ := (1674927471 / 10 ^ 36)

/-- constants.py:92: `m_u = u = atomic_mass = 1.66053904e-27` -/
def m_u : ℚ := (166053904 / 10 ^ 35)

/-- constants.py:92: `m_u = u = atomic_mass = 1.66053904e-27` -/
def u : ℚ := (166053904 / 10 ^ 35)

/-- constants.py:92: `m_u = u = atomic_mass = 1.66053904e-27` -/
def atomic_mass : ℚ := (166053904 / 10 ^ 35)

/-- constants.py:95: `degree = pi / 180.0` -/
def degree : ℝ := (pi / 180)

/-- constants.py:96: `arcmin = arcminute = degree / 60.0` -/
def arcmin : ℝ := (degree / 60)

/-- constants.py:96: `arcmin = arcminute = degree / 60.0` -/
def arcminute : ℝ := (degree / 60)

/-- constants.py:97: `arcsec = arcsecond = arcmin / 60.0` -/
def arcsec : ℝ := (arcmin / 60)

/-- constants.py:97: `arcsec = arcsecond = arcmin / 60.0` -/
def arcsecond : ℝ := (arcmin / 60)

/-- constants.py:100: `minute = 60.0` -/
def minute : ℚ := 60

/-- constants.py:101: `hour = 60.0 * minute` -/
def hour : ℚ := (60 * minute)

/-- constants.py:102: `hour_inv = 1.0/hour` -/
def hour_inv : ℚ := (1 / hour)

/-- constants.py:103: `day = 24.0 * hour` -/
def day : ℚ := (24 * hour)

/-- constants.py:104: `week = 7.0 * day` -/
def week : ℚ := (7 * day)

/-- constants.py:105: `year = 365.0 * day` -/
def year : ℚ := (365 * day)

/-- constants.py:106: `Julian_year = 365.25 * day` -/
def Julian_year : ℚ := ((36525 / 10 ^ 2) * day)

/-- constants.py:109: `inch = 0.0254` -/
def inch : ℚ := (254 / 10 ^ 4)

/-- constants.py:110: `inch_inv = 1.0/inch` -/
def inch_inv : ℚ := (1 / inch)

/-- constants.py:111: `foot = 12 * inch` -/
def foot : ℚ := (12 * inch)

/-- constants.py:112: `foot_cubed = foot*foot*foot` -/
def foot_cubed : ℚ := ((foot * foot) * foot)

/-- constants.py:113: `foot_cubed_inv = 1.0/foot_cubed` -/
def foot_cubed_inv : ℚ := (1 / foot_cubed)

/-- constants.py:114: `yard = 3 * foot` -/
def yard : ℚ := (3 * foot)

/-- constants.py:115: `mile = 1760 * yard` -/
def mile : ℚ := (1760 * yard)

/-- constants.py:116: `mil = 0.001*inch` -/
def mil : ℚ := ((1 / 10 ^ 3) * inch)

/-- constants.py:117: `pt = point = inch / 72` -/
def pt : ℚ := (inch / 72)

/-- constants.py:117: `pt = point = inch / 72` -/
def point : ℚ := (inch / 72)

/-- constants.py:118: `survey_foot = 1200.0 / 3937` -/
def survey_foot : ℚ := (1200 / 3937)

/-- constants.py:119: `survey_mile = 5280.0 * survey_foot` -/
def survey_mile : ℚ := (5280 * survey_foot)

/-- constants.py:120: `nautical_mile = 1852.0` -/
def nautical_mile : ℚ := 1852

/-- constants.py:121: `fermi = 1e-15` -/
def fermi : ℚ := (1 / 10 ^ 15)

/-- constants.py:122: `angstrom = 1e-10` -/
def angstrom : ℚ := (1 / 10 ^ 10)

/-- constants.py:123: `micron = 1e-6` -/
def micron : ℚ := (1 / 10 ^ 6)

/-- constants.py:124: `au = astronomical_unit = 149597870691.0` -/
def au : ℚ := 149597870691

/-- constants.py:124: `au = astronomical_unit = 149597870691.0` -/
def astronomical_unit : ℚ := 149597870691

/-- constants.py:125: `light_year = Julian_year * c` -/
def light_year : ℚ := (Julian_year * c)

/-- constants.py:126: `parsec = au / arcsec` -/
def parsec : ℝ := ((au : ℝ) / arcsec)

/-- constants.py:129: `atm = atmosphere = 101325.0` -/
def atm : ℚ := 101325

/-- constants.py:129: `atm = atmosphere = 101325.0` -/
def atmosphere : ℚ := 101325

/-- constants.py:130: `bar = 1e5` -/
def bar : ℚ := 100000

/-- constants.py:131: `torr = mmHg = atm / 760` -/
def torr : ℚ := (atm / 760)

/-- constants.py:131: `torr = mmHg = atm / 760` -/
def mmHg : ℚ := (atm / 760)

/-- constants.py:132: `inchHg = mmHg*inch*1000` -/
def inchHg : ℚ := ((mmHg * inch) * 1000)

/-- constants.py:133: `psi = pound * g / (inch * inch)` -/
def psi : ℚ := ((pound * g) / (inch * inch))

/-- constants.py:135: `atm_inv = atmosphere_inv = 1.0/atm` -/
def atm_inv : ℚ := (1 / atm)

/-- constants.py:135: `atm_inv = atmosphere_inv = 1.0/atm` -/
def atmosphere_inv : ℚ := (1 / atm)

/-- constants.py:136: `torr_inv = mmHg_inv = 1.0/torr` -/
def torr_inv : ℚ := (1 / torr)

/-- constants.py:136: `torr_inv = mmHg_inv = 1.0/torr` -/
def mmHg_inv : ℚ := (1 / torr)

/-- constants.py:137: `psi_inv = 1.0/psi` -/
def psi_inv : ℚ := (1 / psi)

/-- constants.py:140: `hectare = 1e4` -/
def hectare : ℚ := 10000

/-- constants.py:141: `acre = 43560 * foot*foot` -/
def acre : ℚ := ((43560 * foot) * foot)

/-- constants.py:144: `litre = liter = 1e-3` -/
def litre : ℚ := (1 / 10 ^ 3)

/-- constants.py:144: `litre = liter = 1e-3` -/
def liter : ℚ := (1 / 10 ^ 3)

/-- constants.py:145: `gallon = gallon_US = 231.0 * inch*inch*inch` -/
def gallon : ℚ := (((231 * inch) * inch) * inch)

/-- constants.py:145: `gallon = gallon_US = 231.0 * inch*inch*inch` -/
def gallon_US : ℚ := (((231 * inch) * inch) * inch)

/-- constants.py:147: `fluid_ounce = fluid_ounce_US = gallon_US / 128` -/
def fluid_ounce : ℚ := (gallon_US / 128)

/-- constants.py:147: `fluid_ounce = fluid_ounce_US = gallon_US / 128` -/
def fluid_ounce_US : ℚ := (gallon_US / 128)

/-- constants.py:148: `bbl = barrel = 42.0 * gallon_US` -/
def bbl : ℚ := (42 * gallon_US)

/-- constants.py:148: `bbl = barrel = 42.0 * gallon_US` -/
def barrel : ℚ := (42 * gallon_US)

/-- constants.py:150: `gallon_imp = 4.54609e-3` -/
def gallon_imp : ℚ := (454609 / 10 ^ 8)

/-- constants.py:151: `fluid_ounce_imp = gallon_imp / 160.0` -/
def fluid_ounce_imp : ℚ := (gallon_imp / 160)

/-- constants.py:154: `kmh = 1e3 / hour` -/
def kmh : ℚ := (1000 / hour)

/-- constants.py:155: `mph = mile / hour` -/
def mph : ℚ := (mile / hour)

/-- constants.py:156: `mach = speed_of_sound = 340.5` -/
def mach : ℚ := (3405 / 10 ^ 1)

/-- constants.py:156: `mach = speed_of_sound = 340.5` -/
def speed_of_sound : ℚ := (3405 / 10 ^ 1)

/-- constants.py:157: `knot = nautical_mile / hour` -/
def knot : ℚ := (nautical_mile / hour)

/-- constants.py:160: `zero_Celsius = 273.15` -/
def zero_Celsius : ℚ := (27315 / 10 ^ 2)

/-- constants.py:161: `degree_Fahrenheit = 1.0/1.8` -/
def degree_Fahrenheit : ℚ := (1 / (18 / 10 ^ 1))

/-- constants.py:164: `eV = electron_volt = elementary_charge` -/
def eV : ℚ := elementary_charge

/-- constants.py:164: `eV = electron_volt = elementary_charge` -/
def electron_volt : ℚ := elementary_charge

/-- constants.py:165: `calorie = calorie_th = 4.184` -/
def calorie : ℚ := (4184 / 10 ^ 3)

/-- constants.py:165: `calorie = calorie_th = 4.184` -/
def calorie_th : ℚ := (4184 / 10 ^ 3)

/-- constants.py:166: `calorie_IT = 4.1868` -/
def calorie_IT : ℚ := (41868 / 10 ^ 4)

/-- constants.py:167: `erg = 1e-7` -/
def erg : ℚ := (1 / 10 ^ 7)

/-- constants.py:168: `Btu_th = pound * degree_Fahrenheit * calorie_th / gram` -/
def Btu_th : ℚ := (((pound * degree_Fahrenheit) * calorie_th) / gram)

/-- constants.py:169: `Btu = Btu_IT = pound * degree_Fahrenheit * calorie_IT / gram` -/
def Btu : ℚ := (((pound * degree_Fahrenheit) * calorie_IT) / gram)

/-- constants.py:169: `Btu = Btu_IT = pound * degree_Fahrenheit * calorie_IT / gram` -/
def Btu_IT : ℚ := (((pound * degree_Fahrenheit) * calorie_IT) / gram)

/-- constants.py:170: `ton_TNT = 1e9 * calorie_th` -/
def ton_TNT : ℚ := (1000000000 * calorie_th)

/-- constants.py:174: `hp = horsepower = 550.0 * foot * pound * g` -/
def hp : ℚ := (((550 * foot) * pound) * g)

/-- constants.py:174: `hp = horsepower = 550.0 * foot * pound * g` -/
def horsepower : ℚ := (((550 * foot) * pound) * g)

/-- constants.py:177: `dyn = dyne = 1e-5` -/
def dyn : ℚ := (1 / 10 ^ 5)

/-- constants.py:177: `dyn = dyne = 1e-5` -/
def dyne : ℚ := (1 / 10 ^ 5)

/-- constants.py:178: `lbf = pound_force = pound * g` -/
def lbf : ℚ := (pound * g)

/-- constants.py:178: `lbf = pound_force = pound * g` -/
def pound_force : ℚ := (pound * g)

/-- constants.py:179: `kgf = kilogram_force = g` -/
def kgf : ℚ := g

/-- constants.py:179: `kgf = kilogram_force = g` -/
def kilogram_force : ℚ := g

/-- constants.py:182: `deg2rad = 0.017453292519943295769` -/
def deg2rad : ℚ := (17453292519943295769 / 10 ^ 21)

/-- constants.py:183: `rad2deg = 57.295779513082320877` -/
def rad2deg : ℚ := (57295779513082320877 / 10 ^ 18)

/-- constants.py:186: `root_two = 1.4142135623730951` -/
def root_two : ℚ := (14142135623730951 / 10 ^ 16)

/-- constants.py:188: `ln_10 = _math.log(10)` -/
def ln_10 : ℝ := Real.log 10

/-- constants.py:189: `ln_10_inv = 1.0/ln_10` -/
def ln_10_inv : ℝ := (1 / ln_10)

/-- constants.py:192: `debye = 3.33564095198e-30` -/
def debye : ℚ := (333564095198 / 10 ^ 41)

end

end Verif.Const
