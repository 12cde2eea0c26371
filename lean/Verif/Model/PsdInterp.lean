import Verif.Model.Psd

/-! Model of the interpolated and custom size distributions, of the mesh of a distribution and of fitting in `fluids/particle_size_distribution.py`. `PchipInterpolator`, `minimize`, the custom distribution and `brenth` are parameters; `quad` is the exact integral. -/

open Real

noncomputable section

namespace Verif.Psd

/-! ### Interpolated distributions -/

/-- particle_size_distribution.py:2326-2328, 2354-2355: scipy's `PchipInterpolator` (a parameter): `check` is the construction, which may raise; then the curve, its derivative and its antiderivative. -/
structure Pchip where
  check : List ℝ → List ℝ → Py Unit
  curve : List ℝ → List ℝ → ℝ → ℝ
  slope : List ℝ → List ℝ → ℝ → ℝ
  area : List ℝ → List ℝ → ℝ → ℝ

/-- particle_size_distribution.py:2300-2330: the attributes of `PSDInterpolated` other than the dictionary of basis integrals; `d_minimum` is `none` when it was never set. -/
structure Interp where
  order : ℝ
  monotonic : Bool
  ds : List ℝ
  fractions : List ℝ
  d_minimum : Option ℝ
  d_excessive : ℝ
  fraction_cdf : List ℝ

/-- particle_size_distribution.py:2308-2316: the sizes and fractions with their first entries put in, and `d_minimum` -/
def prepare (ds fractions : List ℝ) : Py (List ℝ × List ℝ × Option ℝ) :=
  if ds.length = fractions.length + 1 then
    match ds.min? with
    | none => .error .valueError
    | some m => .ok (ds, 0 :: fractions, some m)
  else match ds with
    | [] => .error .indexError
    | d0 :: _ =>
      if d0 ≠ 0 then
        .ok (0 :: ds, if ds.length + 1 ≠ fractions.length then 0 :: fractions else fractions, some 0)
      else .ok (ds, fractions, none)

/-- particle_size_distribution.py:2300-2330 `PSDInterpolated.__init__` -/
def PSDInterpolated (P : Pchip) (ds fractions : List ℝ) (order : ℝ := 3) (monotonic : Bool := true) : Py Interp := do
  let p ← prepare ds fractions
  match p.1.max? with
  | none => .error .valueError
  | some m => do
    let c ← Seq.cumsum p.2.1
    if monotonic then
      let _ ← P.check p.1 c
    return ⟨order, monotonic, p.1, p.2.1, p.2.2, m, c⟩

/-- particle_size_distribution.py:2333-2334 `PSDInterpolated._pdf` -/
def Interp.rawPdf (P : Pchip) (s : Interp) (d : ℝ) : Py ℝ :=
  if s.monotonic then .ok (max 0 (P.slope s.ds s.fraction_cdf d)) else .error .attributeError

/-- particle_size_distribution.py:2336-2340 `PSDInterpolated._cdf` -/
def Interp.rawCdf (P : Pchip) (s : Interp) (d : ℝ) : Py ℝ :=
  if d > s.d_excessive then .ok 1
  else if s.monotonic then .ok (max 0 (P.curve s.ds s.fraction_cdf d)) else .error .attributeError

/-- particle_size_distribution.py:2330: the dictionary of the basis integrals, by integer key -/
abbrev Cache := ℤ → Option (ℝ → ℝ)

/-- particle_size_distribution.py:2355-2356: `int(n)` of a float, which drops the fraction -/
def truncZ (n : ℝ) : ℤ := if 0 ≤ n then ⌊n⌋ else ⌈n⌉

/-- particle_size_distribution.py:2347: `n in self.basis_integrals`: the keys are integers, so only a whole `n` can be in it -/
def present (c : Cache) (n : ℝ) : Bool :=
  (truncZ n : ℝ) = n ∧ (c (truncZ n)).isSome

/-- particle_size_distribution.py:2348-2351: the values of `d ** n * pdf` at the sizes after the first. For positive sizes. -/
def weighted (P : Pchip) (s : Interp) (n : ℝ) : List ℝ := s.ds.tail.map fun d => d ^ n * P.slope s.ds s.fraction_cdf d

/-- particle_size_distribution.py:2347-2355: the dictionary after the look up of `n` -/
def fillCache (P : Pchip) (s : Interp) (c : Cache) (n : ℝ) : Py Cache :=
  if present c n then .ok c
  else if s.monotonic then do
    let _ ← P.check s.ds.tail (weighted P s n)
    return Function.update c (truncZ n) (some (P.area s.ds.tail (weighted P s n)))
  else .error .attributeError

/-- particle_size_distribution.py:2342-2356 `PSDInterpolated._pdf_basis_integral`; the dictionary is threaded -/
def Interp.basisIntegral (P : Pchip) (s : Interp) (c : Cache) (d n : ℝ) : Py (ℝ × Cache) := do
  let c' ← fillCache P s c n
  match c' (truncZ n) with
  | none => .error .keyError
  | some f => return (max (f d) 0, c')

/-- particle_size_distribution.py:1250-1253 `_pdf_basis_integral_definite` of an interpolated distribution -/
def Interp.definite (P : Pchip) (s : Interp) (c : Cache) (d_min d_max n : ℝ) : Py (ℝ × Cache) := do
  let a ← s.basisIntegral P c d_max n
  let b ← s.basisIntegral P a.2 d_min n
  return (a.1 - b.1, b.2)

/-- particle_size_distribution.py:1596, 1599: reading `self.d_minimum` -/
def Interp.minimum (s : Interp) : Py ℝ :=
  match s.d_minimum with
  | none => .error .attributeError
  | some m => .ok m

/-- particle_size_distribution.py:1591-1600 `mean_size` of an interpolated distribution -/
def Interp.mean_size (P : Pchip) (s : Interp) (c : Cache) (p q : ℝ) : Py (ℝ × Cache) := do
  let p' : ℝ := if p = q then p - 1e-9 else p
  let q' : ℝ := if p = q then q + 1e-9 else q
  let lo : ℝ ← s.minimum
  let denominator ← s.definite P c lo s.d_excessive (q' - s.order)
  let numerator ← s.definite P denominator.2 lo s.d_excessive (p' - s.order)
  let r : ℝ ← numerator.1 /ₚ denominator.1
  let e : ℝ ← 1 /ₚ (p' - q')
  let v : ℝ ← r ^ₚ e
  return (v, numerator.2)

/-- particle_size_distribution.py:1355-1371 `cdf` in the own basis of an interpolated distribution, which is never truncated -/
def Interp.cdf (P : Pchip) (s : Interp) (d : ℝ) : Py ℝ := do
  let ans : ℝ ← s.rawCdf P d
  return max ans 0

/-- particle_size_distribution.py:1306-1318 `pdf` in the own basis of an interpolated distribution -/
def Interp.pdf (P : Pchip) (s : Interp) (d : ℝ) : Py ℝ := do
  let ans : ℝ ← s.rawPdf P d
  return max ans 0

/-- particle_size_distribution.py:1435-1463 `dn` in the own basis of an interpolated distribution -/
def Interp.dn (brenth : (ℝ → Py ℝ) → ℝ → ℝ → Py ℝ) (eps : ℝ) (P : Pchip) (s : Interp) (fraction : ℝ) : Py ℝ :=
  let fraction := if fraction = 1 then 1 - eps else fraction
  if fraction < 0 then .error .valueError
  else if fraction = 0 then .ok 0
  else if fraction > 1 then .error .valueError
  else do
    let lo : ℝ ← s.minimum
    brenth (fun d => do
      let c : ℝ ← s.cdf P d
      return c - fraction) lo s.d_excessive

/-- particle_size_distribution.py:1902-1909 `interpolated`: the interpolated distribution of measured data -/
def Discrete.interpolated (P : Pchip) (s : Discrete) (monotonic : Bool := true) : Py Interp :=
  PSDInterpolated P s.ds s.fractions 3 monotonic

/-! ### Custom distributions -/

/-- particle_size_distribution.py:2225-2263 `PSDCustom.__init__`; `pdf` and `cdf` are the methods of the distribution given. The indefinite integral is not implemented. -/
def PSDCustom (pdf cdf : ℝ → ℝ) (order : ℝ := 3) (d_excessive : ℝ := 1) (d_min d_max : Option ℝ := none) : Py Dist :=
  construct order (d_max.getD d_excessive) d_min d_max (fun d => .ok (pdf d)) (fun d => .ok (cdf d)) fun _ _ => .error .notImplementedError

/-- particle_size_distribution.py:2280-2289: the integrand -/
def moment (pdf : ℝ → ℝ) (n d : ℝ) : ℝ :=
  if n = 0 then pdf d
  else if n = 1 then d * pdf d
  else if n = 2 then d * d * pdf d
  else if n = 3 then d * d * d * pdf d
  else d ^ n * pdf d

/-- particle_size_distribution.py:2274-2293 `PSDCustom._pdf_basis_integral_definite` -/
def customDefinite (pdf : ℝ → ℝ) (d_min d_max n : ℝ) : ℝ :=
  let d_min : ℝ := if d_min = 0 then d_max * 1e-12 else d_min
  ∫ d in d_min..d_max, moment pdf n d

/-- particle_size_distribution.py:1355-1371 `cdf` of a custom distribution in another basis, without truncation -/
def customCdf (pdf : ℝ → ℝ) (s : Dist) (d n : ℝ) : Py ℝ := do
  let ans : ℝ ← customDefinite pdf 0 d (n - s.order) /ₚ customDefinite pdf 0 s.d_excessive (n - s.order)
  return max ans 0

/-- particle_size_distribution.py:1591-1600 `mean_size` of a custom distribution -/
def customMean (pdf : ℝ → ℝ) (s : Dist) (p q : ℝ) : Py ℝ := do
  let p' : ℝ := if p = q then p - 1e-9 else p
  let q' : ℝ := if p = q then q + 1e-9 else q
  let denominator : ℝ := customDefinite pdf s.d_minimum s.d_excessive (q' - s.order)
  let numerator : ℝ := customDefinite pdf s.d_minimum s.d_excessive (p' - s.order)
  let r : ℝ ← numerator /ₚ denominator
  let e : ℝ ← 1 /ₚ (p' - q')
  r ^ₚ e

/-! ### Meshes and fitting -/

/-- particle_size_distribution.py:1511-1513: a bound of the mesh that was not given is found from the limit -/
def boundOr (b : Option ℝ) (f : Py ℝ) : Py ℝ :=
  match b with
  | some x => .ok x
  | none => f

/-- particle_size_distribution.py:1510-1517 `ds_discrete` -/
def Dist.ds_discrete (parse : String → Py ℝ) (brenth : (ℝ → Py ℝ) → ℝ → ℝ → Py ℝ) (eps : ℝ) (s : Dist) (d_min d_max : Option ℝ := none) (pts : ℤ := 20) (limit : ℝ := 1e-9)
    (method : String := "logarithmic") : Py (List ℝ) :=
  match method.toList with
  | [] => .error .indexError
  | c :: _ =>
    if c = 'R' ∨ c = 'r' then psd_spacing parse d_min d_max pts method
    else do
      let lo : ℝ ← boundOr d_min (s.dn brenth eps limit)
      let hi : ℝ ← boundOr d_max (s.dn brenth eps (1 - limit))
      psd_spacing parse (some lo) (some hi) pts method

/-- particle_size_distribution.py:1924-1926: one class of the objective -/
def fitStep (s : Discrete) (dist : Dist) (err : ℝ) (i : ℕ) : Py ℝ := do
  let a : ℝ ← Seq.pyGet s.ds (i : ℤ)
  let b : ℝ ← Seq.pyGet s.ds ((i : ℤ) + 1)
  let delta : ℝ ← dist.delta_cdf a b
  let f : ℝ ← Seq.pyGet s.fractions (i : ℤ)
  return err + |delta - f|

/-- particle_size_distribution.py:1920-1927 `_fit_obj_function`, given the distribution made of the values -/
def fitObjective (s : Discrete) (dist : Dist) : Py ℝ :=
  (List.range (if s.size_classes then s.fractions.length else s.fractions.length - 1)).foldlM (fitStep s dist) 0

/-- particle_size_distribution.py:1936-1938: the classes that can be fitted, with their two parameters -/
def fitClass (distribution : String) : Py (ℝ → ℝ → Py Dist) :=
  if distribution = "lognormal" then .ok fun a b => PSDLognormal a b
  else if distribution = "GGS" then .ok fun a b => PSDGatesGaudinSchuhman a b
  else if distribution = "RR" then .ok fun a b => PSDRosinRammler a b
  else .error .keyError

/-- particle_size_distribution.py:1957-1959 `Dis` -/
def Discrete.Dis (s : Discrete) : Py (List ℝ) := (List.range s.N).mapM fun i => di_power s.ds s.size_classes i 1

/-- particle_size_distribution.py:1940-1951: the initial values -/
def fitStart (s : Discrete) (x0 : Option (ℝ × ℝ)) (distribution : String) : Py (ℝ × ℝ) :=
  match x0 with
  | some x => .ok x
  | none =>
    if distribution = "RR" then .ok (5e-6, 1e-2)
    else do
      let Dis ← s.Dis
      let d : ℝ := (List.zipWith (fun fi di => fi * di) s.fractions Dis).sum
      return (d, if distribution = "lognormal" then 0.4 else 1.5)

/-- particle_size_distribution.py:1929-1956 `fit`; `minimize` is scipy's (a parameter) and the initial values are two numbers. The order `n` is passed on but never read. -/
def Discrete.fit {R : Type} (minimize : (ℝ × ℝ → Py ℝ) → ℝ × ℝ → Py R) (s : Discrete) (x0 : Option (ℝ × ℝ) := none) (distribution : String := "lognormal") (_n : Option ℝ := none) : Py R := do
  let cls ← fitClass distribution
  let start ← fitStart s x0 distribution
  minimize (fun vals => do
    let dist ← cls vals.1 vals.2
    fitObjective s dist) start

end Verif.Psd
