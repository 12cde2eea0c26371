import Verif.Py
import Mathlib.Algebra.Field.Basic

/-!
# The unit-aware interface, fluids/units.py

`pint` is a parameter of the model: a unit is a dimension (the exponents of the base dimensions) with an affine map to base units, a quantity a magnitude with a unit. The documentation of a function
reaches the wrapper as the parsed lists of variables and units; the string searches that find a unit in the text are modelled in the last section. Magnitudes are numbers of a field: the path through
`fluids.vectorized` for magnitudes that are arrays is not modelled.
-/

namespace Verif.Units

variable {K : Type*} [Field K]

/-- a unit of `pint` (units.py:43), dimension and affine map: `base = scale * x + offset` -/
structure PUnit (K : Type*) where
  dim : List ℤ
  scale : K
  offset : K

/-- a quantity of `pint` (units.py:286, 295) -/
structure Quantity (K : Type*) where
  mag : K
  unit : PUnit K

/-- `Quantity.to_base_units().magnitude` (units.py:296) -/
def Quantity.base (q : Quantity K) : K := q.mag * q.unit.scale + q.unit.offset

/-- the unit "dimensionless" (units.py:112-117) -/
def unitless : PUnit K := ⟨[], 1, 0⟩

/-- what a caller can pass for one parameter (units.py:281-298) -/
inductive Val (K : Type*)
  | none
  | num (x : K)
  | text (s : String)
  | qty (q : Quantity K)

/-- what the wrapped function receives for one parameter (units.py:281-298) -/
inductive Plain (K : Type*)
  | none
  | num (x : K)
  | text (s : String)

/-- units.py:281-298 `convert_input`; the documented unit is `none` for "dimensionless" -/
def convert_input (strict : Bool) (val : Val K) (unit : Option (PUnit K)) : Py (Plain K) :=
  match val with
  | .none => .ok .none
  | .num x =>
    match unit with
    | some _ => if strict then .error .typeError else .ok (.num x)
    | none => .ok (.num x)
  | .text s =>
    match unit with
    | some _ => if strict then .error .typeError else .ok (.text s)
    | none => .ok (.text s)
  | .qty q =>
    match unit with
    | some v => if q.unit.dim = v.dim then .ok (.num ((q.base - v.offset) / v.scale)) else .error .valueError
    | none => .ok (.num q.base)

/-- what a wrapped function returns (units.py:310-330) -/
inductive Res (K : Type*)
  | text (s : String)
  | bool (b : Bool)
  | none
  | num (x : K)
  | dict (d : List (String × K))
  | list (l : List K)
  | tuple (l : List K)

/-- what the unit-aware function returns (units.py:310-330) -/
inductive Out (K : Type*)
  | text (s : String)
  | bool (b : Bool)
  | none
  | qty (q : Quantity K)
  | dict (d : List (String × Quantity K))
  | array (l : List K) (v : PUnit K)
  | list (l : List (Quantity K))

/-- units.py:302-307 `parse_expression_cached` of a documented unit, times a number (units.py:320, 323, 327, 330); units with an offset are not documented for results -/
def attach (x : K) (unit : Option (PUnit K)) : Quantity K := ⟨x, unit.getD unitless⟩

/-- units.py:319: `out_units[out_vars.index(key)]` -/
def unitOf (vars : List String) (units : List (Option (PUnit K))) (key : String) : Py (Option (PUnit K)) :=
  if key ∈ vars then
    match units[vars.idxOf key]? with
    | some v => .ok v
    | none => .error .indexError
  else .error .valueError

/-- units.py:318-320: one entry of a dictionary -/
def attachKey (vars : List String) (units : List (Option (PUnit K))) (e : String × K) : Py (String × Quantity K) := do
  let v ← unitOf vars units e.1
  return (e.1, attach e.2 v)

/-- units.py:330, 323: the first documented unit -/
def firstUnit (units : List (Option (PUnit K))) : Py (Option (PUnit K)) :=
  match units with
  | v :: _ => .ok v
  | [] => .error .indexError

/-- units.py:310-330 `convert_output` -/
def convert_output (result : Res K) (vars : List String) (units : List (Option (PUnit K))) : Py (Out K) :=
  match result with
  | .text s => .ok (.text s)
  | .bool b => .ok (.bool b)
  | .none => .ok .none
  | .dict d => do
    let l ← d.mapM (attachKey vars units)
    return .dict l
  | .list l =>
    if units.length = 1 then do
      let v ← firstUnit units
      return .array l (v.getD unitless)
    else .ok (.list (List.zipWith attach l units))
  | .tuple l => .ok (.list (List.zipWith attach l units))
  | .num x => do
    let v ← firstUnit units
    return .qty (attach x v)

/-- the parsed documentation of a function: parameters with their units (units.py:345-352), results with theirs (354-355) -/
structure Doc (K : Type*) where
  params : List (String × Option (PUnit K))
  outVars : List String
  outUnits : List (Option (PUnit K))

/-- units.py:358-360: the entry `results` of a dictionary result is dropped -/
def Doc.dropResults (d : Doc K) : Doc K :=
  match d.outVars with
  | v :: vs => if v = "results" then ⟨d.params, vs, d.outUnits.drop 1⟩ else d
  | [] => d

/-- units.py:379: `in_vars_to_dict[name]`; a repeated name keeps its last unit (350-352) -/
def paramUnit (params : List (String × Option (PUnit K))) (name : String) : Py (Option (PUnit K)) :=
  match params.reverse.lookup name with
  | some v => .ok v
  | none => .error .keyError

/-- units.py:378-380: one keyword argument -/
def convertKw (strict : Bool) (params : List (String × Option (PUnit K))) (e : String × Val K) : Py (String × Plain K) := do
  let v ← paramUnit params e.1
  let x ← convert_input strict e.2 v
  return (e.1, x)

/-- units.py:372-373: one positional argument -/
def convertPos (strict : Bool) (e : Val K × Option (PUnit K)) : Py (Plain K) := convert_input strict e.1 e.2

/-- units.py:339-392 `wraps_numpydoc(u, strict)(func)`, called -/
def wrapper (strict : Bool) (doc : Doc K) (func : List (Plain K) → List (String × Plain K) → Py (Res K)) (values : List (Val K)) (kw : List (String × Val K)) : Py (Out K) := do
  let d := doc.dropResults
  let conv ← (values.zip (d.params.map Prod.snd)).mapM (convertPos strict)
  let kwargs ← kw.mapM (convertKw strict d.params)
  let result ← func conv kwargs
  convert_output result d.outVars d.outUnits

/-! ### Functions with a variable result -/

/-- units.py:626-642 `kwargs_to_args` -/
def kwargs_to_args {α : Type*} (args : List (Option α)) (kwargs : List (String × Option α)) (signature : List String) : List (Option α) :=
  args ++ (List.range (signature.length - args.length)).map fun i => ((kwargs.lookup (signature.getD (args.length + i) "")).getD none)

/-- the units that occur as results (units.py:697-729) -/
inductive SI
  | m | Pa | kg_s | m3_s | Pa_s | m2_s
deriving DecidableEq

/-- units.py:699-701 -/
def nu_mu_table : List (List Bool × SI) := [([true, false, true], .Pa_s), ([true, true, false], .m2_s)]

/-- units.py:702-706 -/
def meter_table : List (List Bool × SI) := [([true, true, true, true, false, true, true, true], .m), ([true, true, true, true, true, false, true, true], .Pa),
  ([true, true, true, true, true, true, false, true], .Pa), ([true, true, true, true, true, true, true, false], .kg_s)]

/-- units.py:707-712 -/
def isothermal_table : List (List Bool × SI) := [([true, true, false, true, true, true, true], .Pa), ([true, true, true, false, true, true, true], .Pa),
  ([true, true, true, true, false, true, true], .m), ([true, true, true, true, true, false, true], .m), ([true, true, true, true, true, true, false], .kg_s)]

/-- units.py:715-720 `simple_compressible_variable_output` -/
def simple_table : List (List Bool × SI) := [([true, true, false, true, true, true, true], .m), ([true, true, true, false, true, true, true], .m),
  ([true, true, true, true, false, true, true], .Pa), ([true, true, true, true, true, false, true], .Pa), ([true, true, true, true, true, true, false], .m3_s)]

/-- units.py:724-729 `IGT_Muller_variable_output` -/
def muller_table : List (List Bool × SI) := [([true, true, true, false, true, true, true, true], .m), ([true, true, true, true, false, true, true, true], .m),
  ([true, true, true, true, true, false, true, true], .Pa), ([true, true, true, true, true, true, false, true], .Pa), ([true, true, true, true, true, true, true, false], .m3_s)]

/-- units.py:738-749 `thing` of `variable_output_wrapper`, for a scalar answer `x`: the answer with its unit.  `None` is `none`; the call of the wrapped function comes first. -/
def variable_output {α : Type*} (table : List (List Bool × SI)) (input_length : ℕ) (signature : List String) (call : List (Option α) → List (String × Option α) → Py K)
    (args : List (Option α)) (kwargs : List (String × Option α)) : Py (K × SI) := do
  let ans ← call args kwargs
  let given := (kwargs_to_args args kwargs signature).map Option.isSome
  match table.lookup (if given.length > input_length then given.take input_length else given) with
  | some v => .ok (ans, v)
  | none => .error .keyError

/-! ### Finding the unit in the documentation -/

/-- units.py:109: the characters between the brackets in the pattern `match_units` -/
def unitChar (c : Char) : Bool := c.isAlphanum || c = '(' || c = ')' || c = '.' || c = '/' || c = '*' || c = '^' || c = '-' || c = ' '

/-- units.py:109: all matches of `match_units`, the brackets removed; `cur` is the text since the last opening bracket, newest first, while only allowed characters have followed it -/
def findUnits : Option (List Char) → List Char → List (List Char)
  | _, [] => []
  | cur, c :: cs =>
    if c = '[' then findUnits (some []) cs
    else if c = ']' then
      match cur with
      | some u => u.reverse :: findUnits none cs
      | none => findUnits none cs
    else
      match cur with
      | some u => if unitChar c then findUnits (some (c :: u)) cs else findUnits none cs
      | none => findUnits none cs

/-- units.py:111-118 `make_dimensionless_units` and 168-169 -/
def normalise (m : String) : String := if m = "-" ∨ m = "various" ∨ m = "base SI" ∨ m = "" then "dimensionless" else m

/-- units.py:158-172: the unit of one documented variable, from the text that follows its name -/
def documentedUnit (text : List Char) : String := normalise (String.ofList ((findUnits none text).getLast?.getD []))

/-! ### Unit-aware objects -/

/-- what an attribute of a wrapped object can be (units.py:440-454) -/
inductive Attr (K : Type*)
  | none
  | num (x : K)
  | dict (d : List (String × K))
  | other (s : String)

/-- units.py:432-493 `UnitAwareClass.__getattr__` for an attribute that is not a method; `value` is what the wrapped object gives, `units` its documented attributes -/
def getattr (units : List (String × PUnit K)) (name : String) (value : Py (Attr K)) : Py (Out K) :=
  match value with
  | .error _ => .error .attributeError
  | .ok .none => .ok .none
  | .ok a =>
    match units.lookup name with
    | none => .error .attributeError
    | some v =>
      match a with
      | .num x => .ok (.qty ⟨x, v⟩)
      | .dict d => .ok (.dict (d.map fun e => (e.1, ⟨e.2, v⟩)))
      | .other s => .ok (.text s)
      | .none => .ok .none

end Verif.Units
