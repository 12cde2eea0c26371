import Verif.Py
import Verif.Model.Constants
import Mathlib.Data.List.DropRight
import Mathlib.Data.List.FinRange

/-! Model of fluids/design_climate.py: degree days, records of weather stations and their averages, the search for a station and the cache of addresses. -/

namespace Verif.Climate

noncomputable section

/-- design_climate.py:188-241 `heating_degree_days` -/
def heating_degree_days (T : ℝ) (T_base : ℝ := 291.4833333333333) (truncate : Bool := true) : ℝ :=
  let dd := T - T_base
  if truncate ∧ dd < 0 then 0 else dd

/-- design_climate.py:244-295 `cooling_degree_days` -/
def cooling_degree_days (T : ℝ) (T_base : ℝ := 283.15) (truncate : Bool := true) : ℝ :=
  let dd := T_base - T
  if truncate ∧ dd < 0 then 0 else dd

/-! ### Averages of months -/

/-- design_climate.py:823-880: what the averages read of a day's record: the date's year and month (0 for January; `datetime` allows no others) and the value of TEMP or WDSP -/
structure Day where
  year : ℤ
  month : Fin 12
  value : Option ℝ

/-- design_climate.py:485-497: one day's record added to the sum and the count of its month -/
def addDay (older newer : ℤ) (acc : Fin 12 → ℝ × ℕ) (day : Option Day) : Fin 12 → ℝ × ℕ :=
  match day with
  | none => acc
  | some d =>
    if d.year < older ∨ d.year > newer then acc
    else match d.value with
      | none => acc
      | some T => Function.update acc d.month ((acc d.month).1 + T, (acc d.month).2 + 1)

/-- design_climate.py:499-505: the mean of one month of one year, `None` for too few days -/
def monthMean (minimum_days : ℤ) (p : ℝ × ℕ) : Py (Option ℝ) :=
  if (p.2 : ℤ) < minimum_days then .ok none
  else do
    let q ← p.1 /ₚ (p.2 : ℝ)
    return some q

/-- design_climate.py:482-505: the months of one year. The dictionaries' entries are lists of twelve, here functions of the month. -/
def yearAverages (older newer minimum_days : ℤ) (data : List (Option Day)) : Py (List (Option ℝ)) :=
  let acc := data.foldl (addDay older newer) (fun _ => (0, 0))
  (List.finRange 12).mapM fun m => monthMean minimum_days (acc m)

/-- design_climate.py:480-481: the comparison of a year with the limits; comparing with None is a TypeError -/
def yearIn (older newer : Option ℤ) (year : ℤ) : Py Bool :=
  match older, newer with
  | none, _ => .error .typeError
  | some o, none => if o ≤ year then .error .typeError else .ok false
  | some o, some n => .ok (decide (o ≤ year ∧ year ≤ n))

/-- design_climate.py:479-505: the loop over the years; returns the years in range with their means -/
def yearLoop (older newer : Option ℤ) (minimum_days : ℤ) : List (ℤ × List (Option Day)) → Py (List (ℤ × List (Option ℝ)))
  | [] => .ok []
  | (year, data) :: rest => do
    let c ← yearIn older newer year
    let here ← (if c then do
        let a ← yearAverages (older.getD 0) (newer.getD 0) minimum_days data
        return [(year, a)]
      else .ok [] : Py (List (ℤ × List (Option ℝ))))
    let more ← yearLoop older newer minimum_days rest
    return here ++ more

/-- design_climate.py:512-524: one year's mean added to the sum and the count of a month -/
def addMean (s : ℝ × ℕ) (a : Option ℝ) : ℝ × ℕ :=
  match a with
  | none => s
  | some a => (s.1 + a, s.2 + 1)

/-- design_climate.py:508-527: the sum and the count of a month over the years that have a mean for it, and their quotient (`count` and the sum are never None) -/
def overYears (averages : List (ℤ × List (Option ℝ))) (m : Fin 12) : Py ℝ :=
  let acc := averages.foldl (fun s y => addMean s (y.2.getD m none)) (0, 0)
  acc.1 /ₚ (acc.2 : ℝ)

/-- design_climate.py:467-534 `month_average_temperature` and 537-597 `month_average_windspeed`, which is the same code for WDSP: the averages and the means of the years (returned if `include_yearly`). `parsed` are the items of the
dictionary of years. -/
def month_average (parsed : List (ℤ × List (Option Day))) (older newer : Option ℤ) (minimum_days : ℤ := 23) : Py (List ℝ × List (ℤ × List (Option ℝ))) := do
  let yearly ← yearLoop older newer minimum_days parsed
  let actual ← (List.finRange 12).mapM (overYears yearly)
  return (actual, yearly)

/-- design_climate.py:458, 465: `l.index(min(l))`: the first position at which `better` prefers no later entry; a fold that keeps the first of equals -/
def firstBest (better : ℝ → ℝ → Prop) [DecidableRel better] : List ℝ → Option (ℕ × ℝ)
  | [] => none
  | x :: xs => some (match firstBest better xs with
    | none => (0, x)
    | some (i, y) => if better y x then (i + 1, y) else (0, x))

/-- design_climate.py:453-458 `coldest_month` -/
def coldest_month (parsed : List (ℤ × List (Option Day))) (older newer : Option ℤ) (minimum_days : ℤ := 23) : Py ℕ := do
  let r ← month_average parsed older newer minimum_days
  match firstBest (fun a b => a < b) r.1 with
  | none => .error .valueError
  | some (i, _) => return i

/-- design_climate.py:460-465 `warmest_month` -/
def warmest_month (parsed : List (ℤ × List (Option Day))) (older newer : Option ℤ) (minimum_days : ℤ := 23) : Py ℕ := do
  let r ← month_average parsed older newer minimum_days
  match firstBest (fun a b => a > b) r.1 with
  | none => .error .valueError
  | some (i, _) => return i

/-! ### Records of days -/

/-- design_climate.py:823-860 `gsod_fields` -/
def gsod_fields : List String := ["DATE", "TEMP", "TEMP_COUNT", "DEWP", "DEWP_COUNT", "SLP", "SLP_COUNT", "STP", "STP_COUNT", "VISIB", "VISIB_COUNT", "WDSP", "WDSP_COUNT", "MXSPD", "GUST", "MAX", "MIN", "PRCP", "SNDP", "FRSHTT"]

/-- design_climate.py:864-865 `gsod_float_fields` -/
def gsod_float_fields : List String := ["TEMP", "DEWP", "SLP", "STP", "VISIB", "WDSP", "MXSPD", "GUST", "MAX", "MIN", "PRCP", "SNDP"]

/-- design_climate.py:867-868 `gsod_int_fields` -/
def gsod_int_fields : List String := ["TEMP_COUNT", "DEWP_COUNT", "SLP_COUNT", "STP_COUNT", "VISIB_COUNT", "WDSP_COUNT"]

/-- design_climate.py:871 `gsod_flag_chars` -/
def flagChars : List Char := ['*', 'A', 'B', 'C', 'D', 'E', 'F', 'G', 'H', 'I']

/-- design_climate.py:873 `gsod_bad_values` -/
def badValues : List (List Char) := ["99.99".toList, "999.9".toList, "9999.9".toList]

/-- design_climate.py:934: `rstrip(gsod_flag_chars)` -/
def stripFlags (t : List Char) : List Char := t.rdropWhile fun c => flagChars.contains c

/-- design_climate.py:925: `obj[field]` of the dictionary of names and words -/
def word (fields : List (List Char)) (name : String) : Py (List Char) :=
  match (gsod_fields.zip fields).lookup name with
  | none => .error .keyError
  | some t => .ok t

/-- design_climate.py:933-939: one number, or `None` for a code of missing data; `toFloat` is Python's `float` -/
def floatField (toFloat : List Char → Py ℝ) (fields : List (List Char)) (name : String) : Py (Option ℝ) := do
  let t ← word fields name
  if stripFlags t ∈ badValues then .ok none
  else do
    let v ← toFloat (stripFlags t)
    return some v

/-- design_climate.py:941-966: the conversion of a field to SI units -/
def toSI (name : String) (v : ℝ) : ℝ :=
  if name = "TEMP" ∨ name = "DEWP" ∨ name = "MAX" ∨ name = "MIN" then (v + 459.67) * (5 / 9)
  else if name = "VISIB" then v * (Const.mile : ℝ)
  else if name = "PRCP" ∨ name = "SNDP" then v * (Const.inch : ℝ)
  else if name = "WDSP" ∨ name = "MXSPD" ∨ name = "GUST" then v * (Const.knot : ℝ)
  else if name = "SLP" ∨ name = "STP" then v * 100
  else v

/-- design_climate.py:879-880 `gsod_day`: the parsed record; numbers, counts and indicators in the order of their names -/
structure GsodDay (δ : Type) where
  date : δ
  numbers : List (Option ℝ)
  counts : List ℤ
  indicators : List Bool

/-- design_climate.py:968-972: one count; `toInt` is Python's `int` -/
def intField (toInt : List Char → Py ℤ) (fields : List (List Char)) (name : String) : Py ℤ := do
  let t ← word fields name
  toInt t

/-- design_climate.py:883-976 `gsod_day_parser` of a line split into words (917), without the first two. No word is blank, so that 918-923 change nothing. `toDate` makes the date (to_datetime or not). Fewer than six indicators leave
fields of the named tuple open, which is a TypeError. -/
def gsod_day_parser {δ : Type} (toFloat : List Char → Py ℝ) (toInt : List Char → Py ℤ) (toDate : List Char → Py δ) (fields : List (List Char)) (SI : Bool := true) : Py (GsodDay δ) := do
  let d ← word fields "DATE"
  let date ← toDate d
  let numbers ← gsod_float_fields.mapM (floatField toFloat fields)
  let numbers := if SI then List.zipWith (fun name v => Option.map (toSI name) v) gsod_float_fields numbers else numbers
  let counts ← gsod_int_fields.mapM (intField toInt fields)
  let f ← word fields "FRSHTT"
  let indicators := (f.map fun c => decide (c = '1')).take 6
  if indicators.length < 6 then .error .typeError
  else return ⟨date, numbers, counts, indicators⟩

/-! ### The closest station -/

/-- design_climate.py:389-403: what the search reads of a station: its coordinates and the date of its last record -/
structure Station where
  lat : ℝ
  lon : ℝ
  END : ℤ

/-- design_climate.py:685-741 `get_closest_station`. `query k` are the first `k` stations of the k-d tree's answer; a search for none is a ValueError of the tree. -/
def get_closest_station (query : ℕ → List Station) (station_count : ℕ) (minumum_recent_data : ℤ) (match_max : ℕ) : Py Station :=
  match (query (min match_max station_count)).find? (fun s => decide (s.END > minumum_recent_data)) with
  | some s => .ok s
  | none =>
    if _h : match_max < station_count ∧ 0 < match_max then get_closest_station query station_count minumum_recent_data (match_max * 10)
    else .error .valueError
termination_by station_count - match_max
decreasing_by omega

/-! ### The cache of addresses -/

/-- design_climate.py:120-126 `cached_address`: the row of an address. The column of type STRING has SQLite's numeric affinity: `key` is the value an address is stored as. -/
def cached_address {κ : Type} [DecidableEq κ] (key : String → κ) (rows : List (κ × ℝ × ℝ)) (address : String) : Option (ℝ × ℝ) :=
  rows.lookup (key address)

/-- design_climate.py:128-133 `cache_address`: a second row for a key is an IntegrityError, which 177-180 ignore -/
def cache_address {κ : Type} [DecidableEq κ] (key : String → κ) (rows : List (κ × ℝ × ℝ)) (address : String) (location : ℝ × ℝ) : List (κ × ℝ × ℝ) :=
  if (rows.lookup (key address)).isSome then rows else rows ++ [(key address, location)]

/-- design_climate.py:135-181 `geocode`: the state is the table, `none` if the database cannot be opened or written; `online` is the geocoder's answer. Returns the new table, the answer and whether the geocoder was asked. -/
def geocode {κ : Type} [DecidableEq κ] (key : String → κ) (online : String → Option (ℝ × ℝ)) (rows : Option (List (κ × ℝ × ℝ))) (address : String) :
    Option (List (κ × ℝ × ℝ)) × Py (ℝ × ℝ) × Bool :=
  match rows.bind fun r => cached_address key r address with
  | some l => (rows, .ok l, false)
  | none =>
    match online address with
    | none => (rows, .error .attributeError, true)
    | some l => (rows.map fun r => cache_address key r address l, .ok l, true)

end

end Verif.Climate
