import Verif.Model.Sequences
import Verif.Model.SieveTables
import Mathlib.MeasureTheory.Integral.IntervalIntegral.Basic
import Mathlib.Analysis.SpecialFunctions.Gamma.Basic

/-! Model of `fluids/particle_size_distribution.py`. `erf`, `gamma` and `gammaincc` are the exact functions; `brenth`, the spline
interpolators and `float(str)` are parameters. -/

open Real

noncomputable section

namespace Verif.Psd

/-! ### Spacing -/

/-- particle_size_distribution.py:322: `table[key]` for the sieve dictionaries (KeyError if absent), the `opening` field -/
def lookupOpening (rows : List SieveRow) (key : String) : Py ℚ :=
  match rows.find? (fun r => r.key = key) with
  | some r => .ok r.opening
  | none => .error .keyError

/-- particle_size_distribution.py:322, 455-491, 501-506: openings of `sieve_spacing_options[method]`, `none` if the key is absent -/
def sieveOption (method : String) : Option (Py (List ℚ)) :=
  if method = "ISO 3310-1" then some (ISO_3310_1_sieve_designations.mapM (lookupOpening ISO_3310_1_sieves))
  else if method = "ISO 3310-1 R20" then some (ISO_3310_1_R20_keys.mapM (lookupOpening ISO_3310_1_sieves))
  else if method = "ISO 3310-1 R20/3" then some (ISO_3310_1_R20_3_keys.mapM (lookupOpening ISO_3310_1_sieves))
  else if method = "ISO 3310-1 R40/3" then some (ISO_3310_1_R40_3_keys.mapM (lookupOpening ISO_3310_1_sieves))
  else if method = "ISO 3310-1 R10" then some (ISO_3310_1_R10_keys.mapM (lookupOpening ISO_3310_1_sieves))
  else if method = "ASTM E11" then some (ASTM_E11_sieve_designations.mapM (lookupOpening ASTM_E11_sieves))
  else none

/-- particle_size_distribution.py:568-570 / 573-575: `ds.append(step(ds[-1]))` run `n` times -/
def appendGeo (step : ℝ → Py ℝ) : ℕ → List ℝ → Py (List ℝ)
  | 0, ds => .ok ds
  | n + 1, ds => do
    let d : ℝ ← step (ds.getLastD 0)
    appendGeo step n (ds ++ [d])

/-- particle_size_distribution.py:565-578: the Renard series branch; `r` is `float(method[1:])` -/
def renard (r : ℝ) (d_min d_max : Option ℝ) (pts : ℤ) : Py (List ℝ) := do
  let e : ℝ ← 1 /ₚ r
  let ratio : ℝ ← (10 : ℝ) ^ₚ e
  match d_min, d_max with
  | some d_min, none => appendGeo (fun d => .ok (d * ratio)) (pts - 1).toNat [d_min]
  | none, some d_max => do
    let ds ← appendGeo (fun d => d /ₚ ratio) (pts - 1).toNat [d_max]
    return ds.reverse
  | _, _ => .error .valueError

/-- particle_size_distribution.py:580-587: the sieve branch -/
def sieves (table : Py (List ℚ)) (d_min d_max : Option ℝ) : Py (List ℝ) :=
  match d_min, d_max with
  | some d_min, some d_max => do
    let l ← table
    let ds : List ℝ := l.foldl (fun (ds : List ℝ) (o : ℚ) => if d_min ≤ (o : ℝ) ∧ (o : ℝ) ≤ d_max then ds ++ [(o : ℝ)] else ds) []
    return ds.reverse
  | _, _ => .error .valueError

/-- particle_size_distribution.py:555-589 `psd_spacing`; `parse` is `float(str)`.  `None*1.` in `linspace` is a TypeError and `''[0]` an
IndexError. -/
def psd_spacing (parse : String → Py ℝ) (d_min d_max : Option ℝ) (pts : ℤ) (method : String) : Py (List ℝ) :=
  if method = "logarithmic" then
    match d_min, d_max with
    | some d_min, some d_max => do
      let a ← plog10 d_min
      let b ← plog10 d_max
      Seq.logspace a b pts true 10
    | _, _ => .error .valueError
  else if method = "linear" then
    match d_min, d_max with
    | some d_min, some d_max => .ok (Seq.linspace d_min d_max pts true)
    | _, _ => .error .typeError
  else match method.toList with
    | [] => .error .indexError
    | c :: rest =>
      if c = 'R' ∨ c = 'r' then do
        let r ← parse (String.ofList rest)
        renard r d_min d_max pts
      else match sieveOption method with
        | some t => sieves t d_min d_max
        | none => .error .valueError

/-! ### Densities and cumulative distributions -/

/-- particle_size_distribution.py:705: `math.erf`, exact -/
def erf (x : ℝ) : ℝ := 2 / √π * ∫ t in (0 : ℝ)..x, exp (-(t ^ 2))

/-- particle_size_distribution.py:645-649 `pdf_lognormal` (`ROOT_TWO_PI` line 124) -/
def pdf_lognormal (d d_characteristic s : ℝ) : Py ℝ :=
  match (do
    let r : ℝ ← d /ₚ d_characteristic
    let l : ℝ ← plog r
    l /ₚ s : Py ℝ) with
  | .ok t => do
    let q : ℝ ← 1 /ₚ (d * s * √(2 * π))
    return q * exp (-0.5 * t * t)
  | .error .valueError => .ok 0
  | .error e => .error e

/-- particle_size_distribution.py:704-708 `cdf_lognormal`; the bare `except` catches everything -/
def cdf_lognormal (d d_characteristic s : ℝ) : Py ℝ :=
  match (do
    let r : ℝ ← d /ₚ d_characteristic
    let l : ℝ ← plog r
    l /ₚ (s * √2) : Py ℝ) with
  | .ok t => .ok (0.5 * (1 + erf t))
  | .error _ => .ok 0

/-- particle_size_distribution.py:761-766 -/
def lognormal_integral_body (d d_characteristic s n : ℝ) : Py ℝ := do
  let s2 : ℝ := s * s
  let t0 : ℝ := exp (s2 * n * n * 0.5)
  let d_ratio : ℝ ← d /ₚ d_characteristic
  let q : ℝ ← d /ₚ d_ratio
  let t1 : ℝ ← q ^ₚ n
  let l : ℝ ← plog d_ratio
  let a : ℝ ← (s2 * n - l) /ₚ (√2 * s)
  let t2 : ℝ := erf a
  return -0.5 * t0 * t1 * t2

/-- particle_size_distribution.py:760-768 `pdf_lognormal_basis_integral`.  The retry at 1E-80 has arguments that no longer depend on `d`, so
a second failure would repeat for ever: RecursionError (`.exception`).  Overflow does not exist in the model's numbers. -/
def pdf_lognormal_basis_integral (d d_characteristic s n : ℝ) : Py ℝ :=
  match lognormal_integral_body d d_characteristic s n with
  | .ok v => .ok v
  | .error e =>
    if e = .zeroDivisionError ∨ e = .valueError then
      match lognormal_integral_body 1e-80 d_characteristic s n with
      | .ok v => .ok v
      | .error e => if e = .zeroDivisionError ∨ e = .valueError then .error .exception else .error e
    else .error e

/-- particle_size_distribution.py:819-822 `pdf_Gates_Gaudin_Schuhman` -/
def pdf_Gates_Gaudin_Schuhman (d d_characteristic m : ℝ) : Py ℝ :=
  if d ≤ d_characteristic then do
    let a : ℝ ← m /ₚ d
    let r : ℝ ← d /ₚ d_characteristic
    let p : ℝ ← r ^ₚ m
    return a * p
  else .ok 0

/-- particle_size_distribution.py:873-876 `cdf_Gates_Gaudin_Schuhman` -/
def cdf_Gates_Gaudin_Schuhman (d d_characteristic m : ℝ) : Py ℝ :=
  if d ≤ d_characteristic then do
    let r : ℝ ← d /ₚ d_characteristic
    r ^ₚ m
  else .ok 1

/-- particle_size_distribution.py:915 `pdf_Gates_Gaudin_Schuhman_basis_integral` -/
def pdf_Gates_Gaudin_Schuhman_basis_integral (d d_characteristic m n : ℝ) : Py ℝ := do
  let a : ℝ ← m /ₚ (m + n)
  let b : ℝ ← d ^ₚ n
  let r : ℝ ← d /ₚ d_characteristic
  let c : ℝ ← r ^ₚ m
  return a * b * c

/-- particle_size_distribution.py:956 `pdf_Rosin_Rammler` -/
def pdf_Rosin_Rammler (d k m : ℝ) : Py ℝ := do
  let a : ℝ ← d ^ₚ (m - 1)
  let b : ℝ ← d ^ₚ m
  return a * k * m * exp (-b * k)

/-- particle_size_distribution.py:1002 `cdf_Rosin_Rammler` -/
def cdf_Rosin_Rammler (d k m : ℝ) : Py ℝ := do
  let b : ℝ ← d ^ₚ m
  return 1 - exp (-k * b)

/-- particle_size_distribution.py:1049: `gammaincc(a, x)`, the regularised upper incomplete gamma function, exact -/
def gammaincc (a x : ℝ) : ℝ := (∫ t in Set.Ioi x, exp (-t) * t ^ (a - 1)) / Gamma a

/-- particle_size_distribution.py:1047-1050 -/
def rosin_integral_body (d k m n : ℝ) : Py ℝ := do
  let a : ℝ ← (m + n) /ₚ m
  let b : ℝ ← d ^ₚ m
  let x : ℝ := b * k
  let t1 : ℝ := Gamma a * gammaincc a x
  let c : ℝ ← d ^ₚ (m + n)
  let e : ℝ ← x ^ₚ (-a)
  return (-c * k * e) * t1

/-- particle_size_distribution.py:1046-1054 `pdf_Rosin_Rammler_basis_integral` (no overflow in the model's numbers) -/
def pdf_Rosin_Rammler_basis_integral (d k m n : ℝ) : Py ℝ :=
  match rosin_integral_body d k m n with
  | .error .zeroDivisionError => if d = 1e-40 then .error .zeroDivisionError else rosin_integral_body 1e-40 k m n
  | r => r

/-! ### Continuous distributions -/

/-- particle_size_distribution.py:1208-1253: the attributes of a continuous distribution that its methods read.  `d_min`, `d_max` and the two
stored values of the cumulative distribution are only read when `truncated`. -/
structure Dist where
  order : ℝ
  d_excessive : ℝ
  d_minimum : ℝ
  truncated : Bool
  d_min : ℝ
  d_max : ℝ
  cdf_d_max : ℝ
  cdf_d_min : ℝ
  rawPdf : ℝ → Py ℝ
  rawCdf : ℝ → Py ℝ
  rawIntegral : ℝ → ℝ → Py ℝ

/-- particle_size_distribution.py:1250-1253 `_pdf_basis_integral_definite` -/
def Dist.definite (s : Dist) (d_min d_max n : ℝ) : Py ℝ := do
  let a : ℝ ← s.rawIntegral d_max n
  let b : ℝ ← s.rawIntegral d_min n
  return a - b

/-- particle_size_distribution.py:1308-1311 -/
def Dist.rebasePdf (s : Dist) (d power ans : ℝ) : Py ℝ := do
  let p : ℝ ← d ^ₚ power
  let denominator : ℝ ← s.definite 0 s.d_excessive power
  p * ans /ₚ denominator

/-- particle_size_distribution.py:1306-1311: the density before clipping and truncation -/
def Dist.basisPdf (s : Dist) (d : ℝ) (n : Option ℝ) : Py ℝ := do
  let ans : ℝ ← s.rawPdf d
  match n with
  | none => .ok ans
  | some n => if n = s.order then .ok ans else s.rebasePdf d (n - s.order) ans

/-- particle_size_distribution.py:1306-1318 `pdf` -/
def Dist.pdf (s : Dist) (d : ℝ) (n : Option ℝ := none) : Py ℝ := do
  let ans : ℝ ← s.basisPdf d n
  if s.truncated then
    if d < s.d_min ∨ d > s.d_max then .ok 0
    else max ans 0 /ₚ (s.cdf_d_max - s.cdf_d_min)
  else .ok (max ans 0)

/-- particle_size_distribution.py:1356-1361 -/
def Dist.rebaseCdf (s : Dist) (d power : ℝ) : Py ℝ := do
  let numerator : ℝ ← s.definite 0 d power
  let denominator : ℝ ← s.definite 0 s.d_excessive power
  numerator /ₚ denominator

/-- particle_size_distribution.py:1355-1364: the cumulative value before clipping and truncation -/
def Dist.basisCdf (s : Dist) (d : ℝ) (n : Option ℝ) : Py ℝ :=
  match n with
  | none => s.rawCdf d
  | some n => if n = s.order then s.rawCdf d else s.rebaseCdf d (n - s.order)

/-- particle_size_distribution.py:1355-1371 `cdf` -/
def Dist.cdf (s : Dist) (d : ℝ) (n : Option ℝ := none) : Py ℝ := do
  let ans : ℝ ← s.basisCdf d n
  if s.truncated then
    if d ≤ s.d_min then .ok 0
    else if d ≥ s.d_max then .ok 1
    else (max ans 0 - s.cdf_d_min) /ₚ (s.cdf_d_max - s.cdf_d_min)
  else .ok (max ans 0)

/-- particle_size_distribution.py:1403 `delta_cdf` -/
def Dist.delta_cdf (s : Dist) (d_min d_max : ℝ) (n : Option ℝ := none) : Py ℝ := do
  let a : ℝ ← s.cdf d_max n
  let b : ℝ ← s.cdf d_min n
  return a - b

/-- particle_size_distribution.py:1435-1463 `dn`; `eps` is the machine epsilon and `brenth` the root finder -/
def Dist.dn (brenth : (ℝ → Py ℝ) → ℝ → ℝ → Py ℝ) (eps : ℝ) (s : Dist) (fraction : ℝ) (n : Option ℝ := none) : Py ℝ :=
  let fraction := if fraction = 1 then 1 - eps else fraction
  if fraction < 0 then .error .valueError
  else if fraction = 0 then .ok (if s.truncated then s.d_min else 0)
  else if fraction > 1 then .error .valueError
  else brenth (fun d => do
    let c : ℝ ← s.cdf d n
    return c - fraction) s.d_minimum s.d_excessive

/-- particle_size_distribution.py:1573 `cdf_discrete` -/
def Dist.cdf_discrete (s : Dist) (ds : List ℝ) (n : Option ℝ := none) : Py (List ℝ) := ds.mapM fun d => s.cdf d n

/-- particle_size_distribution.py:1545-1546 `fractions_discrete` -/
def Dist.fractions_discrete (s : Dist) (ds : List ℝ) (n : Option ℝ := none) : Py (List ℝ) := do
  let cdfs ← ds.mapM fun d => s.cdf d n
  let c0 : ℝ ← Seq.pyGet cdfs 0
  let rest ← Seq.diff cdfs 1
  return c0 :: rest

/-- particle_size_distribution.py:1591-1600 `mean_size` -/
def Dist.mean_size (s : Dist) (p q : ℝ) : Py ℝ := do
  let p' : ℝ := if p = q then p - 1e-9 else p
  let q' : ℝ := if p = q then q + 1e-9 else q
  let denominator : ℝ ← s.definite s.d_minimum s.d_excessive (q' - s.order)
  let numerator : ℝ ← s.definite s.d_minimum s.d_excessive (p' - s.order)
  let r : ℝ ← numerator /ₚ denominator
  let e : ℝ ← 1 /ₚ (p' - q')
  r ^ₚ e

/-- particle_size_distribution.py:1608-1610 `mean_size_ISO` -/
def Dist.mean_size_ISO (s : Dist) (k r : ℝ) : Py ℝ := s.mean_size (k + r) r

/-- particle_size_distribution.py:1635 `vssa` -/
def Dist.vssa (s : Dist) : Py ℝ := do
  let D : ℝ ← s.mean_size 3 2
  6 /ₚ D

/-- particle_size_distribution.py:2093-2110 and the same lines of the other constructors: bounds and truncation, given the search limit
`d_excessive` already chosen -/
def construct (order d_excessive : ℝ) (d_min d_max : Option ℝ) (rawPdf rawCdf : ℝ → Py ℝ) (rawIntegral : ℝ → ℝ → Py ℝ) : Py Dist :=
  if d_min.isSome ∨ d_max.isSome then do
    let hi : ℝ := d_max.getD d_excessive
    let lo : ℝ := d_min.getD 0
    let a : ℝ ← rawCdf hi
    let b : ℝ ← rawCdf lo
    return ⟨order, d_excessive, d_min.getD 0, true, lo, hi, a, b, rawPdf, rawCdf, rawIntegral⟩
  else .ok ⟨order, d_excessive, d_min.getD 0, false, 0, 0, 0, 0, rawPdf, rawCdf, rawIntegral⟩

/-- particle_size_distribution.py:2076-2119 `PSDLognormal` -/
def PSDLognormal (d_characteristic s : ℝ) (order : ℝ := 3) (d_min d_max : Option ℝ := none) : Py Dist :=
  construct order (d_max.getD (1e15 * d_characteristic)) d_min d_max (fun d => pdf_lognormal d d_characteristic s)
    (fun d => cdf_lognormal d d_characteristic s) (fun d n => pdf_lognormal_basis_integral d d_characteristic s n)

/-- particle_size_distribution.py:2126-2166 `PSDGatesGaudinSchuhman`.  With a `d_max`, line 2135 reads `self.d_max` before anything has set it:
AttributeError. -/
def PSDGatesGaudinSchuhman (d_characteristic m : ℝ) (order : ℝ := 3) (d_min d_max : Option ℝ := none) : Py Dist :=
  match d_max with
  | some _ => .error .attributeError
  | none => construct order d_characteristic d_min none (fun d => pdf_Gates_Gaudin_Schuhman d d_characteristic m)
    (fun d => cdf_Gates_Gaudin_Schuhman d d_characteristic m) (fun d n => pdf_Gates_Gaudin_Schuhman_basis_integral d d_characteristic m n)

/-- particle_size_distribution.py:2173-2209 `PSDRosinRammler` -/
def PSDRosinRammler (k m : ℝ) (order : ℝ := 3) (d_min d_max : Option ℝ := none) : Py Dist :=
  construct order (d_max.getD 1e15) d_min d_max (fun d => pdf_Rosin_Rammler d k m)
    (fun d => cdf_Rosin_Rammler d k m) (fun d n => pdf_Rosin_Rammler_basis_integral d k m n)

/-! ### Discrete distributions -/

/-- particle_size_distribution.py:1841-1900: the attributes of `ParticleSizeDistribution` -/
structure Discrete where
  ds : List ℝ
  size_classes : Bool
  N : ℕ
  fractions : List ℝ
  number_fractions : List ℝ
  length_fractions : List ℝ
  area_fractions : List ℝ
  volume_cdf : List ℝ
  area_cdf : List ℝ
  length_cdf : List ℝ
  number_cdf : List ℝ

/-- particle_size_distribution.py:1998-2002 `di_power` -/
def di_power (ds : List ℝ) (size_classes : Bool) (i : ℕ) (power : ℝ) : Py ℝ :=
  if size_classes then do
    let rt : ℝ := power + 1
    let b : ℝ ← Seq.pyGet ds ((i : ℤ) + 1)
    let bp : ℝ ← b ^ₚ rt
    let a : ℝ ← Seq.pyGet ds (i : ℤ)
    let ap : ℝ ← a ^ₚ rt
    (bp - ap) /ₚ ((b - a) * rt)
  else do
    let a : ℝ ← Seq.pyGet ds (i : ℤ)
    a ^ₚ power

/-- particle_size_distribution.py:1851-1861: cumulative input to fractions, or normalisation; `ds` is a list -/
def inputFractions (ds fractions : List ℝ) (cdf : Bool) : Py (List ℝ) :=
  if cdf then
    if fractions.length + 1 = ds.length then do
      let f0 : ℝ ← Seq.pyGet fractions 0
      let rest ← Seq.diff fractions 1
      return f0 :: rest
    else do
      let rest ← Seq.diff fractions 1
      return 0 :: rest
  else if fractions.sum ≠ 1 then do
    let tot_inv : ℝ ← 1 /ₚ fractions.sum
    return fractions.map fun i => if i ≠ 0 then i * tot_inv else 0
  else .ok fractions

/-- particle_size_distribution.py:1866-1872: to the volume basis -/
def toVolume (ds : List ℝ) (size_classes : Bool) (order : ℝ) (fractions : List ℝ) : Py (List ℝ) :=
  if order ≠ 3 then do
    let d3s ← fractions.zipIdx.mapM fun fi => do
      let p : ℝ ← di_power ds size_classes fi.2 (3 - order)
      return p * fi.1
    d3s.mapM fun i => i /ₚ d3s.sum
  else .ok fractions

/-- particle_size_distribution.py:1874-1877, 1880-1883, 1886-1889: from the volume basis, dividing by the `power`-th power of the size -/
def fromVolume (ds : List ℝ) (size_classes : Bool) (fractions : List ℝ) (power : ℝ) : Py (List ℝ) := do
  let numbers ← fractions.zipIdx.mapM fun fi => do
    let Vp : ℝ ← di_power ds size_classes fi.2 power
    fi.1 /ₚ Vp
  numbers.mapM fun i => i /ₚ numbers.sum

/-- particle_size_distribution.py:1841-1900 `ParticleSizeDistribution.__init__` -/
def ParticleSizeDistribution (ds fractions : List ℝ) (cdf : Bool := false) (order : ℝ := 3) : Py Discrete := do
  let size_classes : Bool := decide (ds.length = fractions.length + 1)
  let f ← inputFractions ds fractions cdf
  let v ← toVolume ds size_classes order f
  let number ← fromVolume ds size_classes v 3
  let length ← fromVolume ds size_classes v 2
  let area ← fromVolume ds size_classes v 1
  let _ ← Seq.pyGet ds (-1)
  let cv ← Seq.cumsum v
  let ca ← Seq.cumsum area
  let cl ← Seq.cumsum length
  let cn ← Seq.cumsum number
  return ⟨ds, size_classes, f.length, v, number, length, area, cv, ca, cl, cn⟩

/-- particle_size_distribution.py:2015-2016: the moment `sum(di_power(i, p)*number_fractions[i])` -/
def Discrete.moment (s : Discrete) (p : ℝ) : Py ℝ :=
  (List.range s.N).foldlM (fun (acc : ℝ) (i : ℕ) => do
    let d : ℝ ← di_power s.ds s.size_classes i p
    let f : ℝ ← Seq.pyGet s.number_fractions (i : ℤ)
    return acc + d * f) 0

/-- particle_size_distribution.py:2019: the moment with a logarithm -/
def Discrete.logMoment (s : Discrete) (p : ℝ) : Py ℝ :=
  (List.range s.N).foldlM (fun (acc : ℝ) (i : ℕ) => do
    let a : ℝ ← di_power s.ds s.size_classes i 1
    let l : ℝ ← plog a
    let d : ℝ ← di_power s.ds s.size_classes i p
    let f : ℝ ← Seq.pyGet s.number_fractions (i : ℤ)
    return acc + l * d * f) 0

/-- particle_size_distribution.py:2013-2021 `mean_size` of a discrete distribution -/
def Discrete.mean_size (s : Discrete) (p q : ℝ) : Py ℝ :=
  if p ≠ q then do
    let numerator : ℝ ← s.moment p
    let denominator : ℝ ← s.moment q
    let r : ℝ ← numerator /ₚ denominator
    let e : ℝ ← 1 /ₚ (p - q)
    r ^ₚ e
  else do
    let numerator : ℝ ← s.logMoment p
    let denominator : ℝ ← s.moment q
    let r : ℝ ← numerator /ₚ denominator
    return exp r

/-- particle_size_distribution.py:2032-2034 `mean_size_ISO` -/
def Discrete.mean_size_ISO (s : Discrete) (k r : ℝ) : Py ℝ := s.mean_size (k + r) r

/-- particle_size_distribution.py:2055-2060 `vssa` of a discrete distribution -/
def Discrete.vssa (s : Discrete) : Py ℝ := do
  let ds ← (List.range s.N).mapM fun i => di_power s.ds s.size_classes i 1
  let sas ← ds.mapM fun di => do
    let V : ℝ := π / 6 * di ^ 3
    let SA : ℝ := π * di ^ 2
    SA /ₚ V
  return ((s.fractions.zip sas).map fun fs => fs.1 * fs.2).sum

end Verif.Psd
