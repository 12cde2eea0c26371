import Verif.Model.Geometry2

/-! Heat exchanger geometry classes and shape factors of `fluids/geometry.py`. -/

namespace Verif.Exchangers
open Verif Verif.Geometry Real
open scoped Verif

noncomputable section

/-- Python truthiness of an optional number (geometry.py:4441-4453) -/
def truthy (x : Option ℝ) : Prop := ∃ v, x = some v ∧ v ≠ 0

/-- geometry.py:5259 `sphericity` -/
def sphericity (A V : ℝ) : Py ℝ := do
  let x ← ppow π (1 / 3)
  let y ← ppow (6 * V) (2 / 3)
  x * y /ₚ A

/-- geometry.py:5286 `aspect_ratio` -/
def aspect_ratio (Dmin Dmax : ℝ) : Py ℝ := Dmin /ₚ Dmax

/-- geometry.py:5326 `circularity` -/
def circularity (A P : ℝ) : Py ℝ := 4 * π * A /ₚ P ^ 2

/-- geometry.py:4154-4155 `plate_enlargement_factor`; `ellipe` is the complete elliptic integral of the second kind, a parameter -/
def plate_enlargement_factor (ellipe : ℝ → ℝ) (amplitude wavelength : ℝ) : Py ℝ := do
  let b : ℝ := 2 * amplitude
  let q ← -b * b * π * π /ₚ (wavelength * wavelength)
  return 2 * ellipe q / π

/-- the numeric attributes of a `PlateExchanger` (geometry.py:4276-4316); `none` where the attribute is not set -/
structure Plate where
  amplitude : ℝ
  b : ℝ
  wavelength : ℝ
  chevron_angles : ℝ × ℝ
  chevron_angle : ℝ
  inclination_angle : ℝ
  gamma : ℝ
  phi : ℝ
  D_eq : ℝ
  D_hydraulic : ℝ
  length_port : Option ℝ
  A_plate_surface : Option ℝ
  A_heat_transfer : Option ℝ
  A_channel_flow : Option ℝ
  channels : Option ℝ
  channels_per_fluid : Option ℝ

/-- geometry.py:4276-4316 `PlateExchanger.__init__` -/
def plateExchanger (ellipe : ℝ → ℝ) (amplitude wavelength chevron_angle : ℝ) (chevron_angles : Option (ℝ × ℝ)) (width length d_port plates : Option ℝ) : Py Plate := do
  let angles : ℝ × ℝ := chevron_angles.getD (chevron_angle, chevron_angle)
  let angle : ℝ := match chevron_angles with
    | some p => 0.5 * (p.1 + p.2)
    | none => chevron_angle
  let gamma ← 4 * amplitude /ₚ wavelength
  let phi ← plate_enlargement_factor ellipe amplitude wavelength
  let Dh ← 4 * amplitude /ₚ phi
  let surface : Option ℝ := match width, length with
    | some w, some l => some (l * w * phi)
    | _, _ => none
  let heat : Option ℝ := match surface, plates with
    | some s, some n => some ((n - 2) * s)
    | _, _ => none
  return { amplitude := amplitude, b := 2 * amplitude, wavelength := wavelength, chevron_angles := angles, chevron_angle := angle, inclination_angle := 90 - angle,
           gamma := gamma, phi := phi, D_eq := 4 * amplitude, D_hydraulic := Dh,
           length_port := match d_port, length with
             | some d, some l => some (l + d)
             | _, _ => none,
           A_plate_surface := surface, A_heat_transfer := heat, A_channel_flow := width.map fun w => w * (2 * amplitude),
           channels := plates.map fun n => n - 1, channels_per_fluid := plates.map fun n => 0.5 * (n - 1) }

/-- Python's `round(x, 0)`: nearest integer, ties to even (geometry.py:4445) -/
def roundEven (x : ℝ) : ℝ :=
  if x - ⌊x⌋ < 1 / 2 then ⌊x⌋
  else if 1 / 2 < x - ⌊x⌋ then ⌊x⌋ + 1
  else if ⌊x⌋ % 2 = 0 then ⌊x⌋ else ⌊x⌋ + 1

/-- the attributes set by `set_overall_geometry` (geometry.py:4440-4456); `none` where the attribute is not set -/
structure Overall where
  layer_thickness : Option ℝ
  layer_fin_count : Option ℝ
  A_HX_layer : Option ℝ
  A_HX : Option ℝ
  height : Option ℝ
  volume : Option ℝ
  A_specific_HX : Option ℝ

/-- geometry.py:4452-4456: totals of all layers -/
def layerTotals (fin_height A_layer length width : ℝ) (layers plate_thickness : Option ℝ) : Py (Option ℝ × Option ℝ × Option ℝ × Option ℝ) := do
  match layers with
  | none => return (none, none, none, none)
  | some n =>
    if n = 0 then return (none, none, none, none)
    else
      match plate_thickness with
      | none => return (some (n * A_layer), none, none, none)
      | some p =>
        if p = 0 then return (some (n * A_layer), none, none, none)
        else do
          let height : ℝ := (p + fin_height) * n + p
          let volume : ℝ := length * width * height
          let spec ← n * A_layer /ₚ volume
          return (some (n * A_layer), some height, some volume, some spec)

open Classical in
/-- geometry.py:4440-4456 `set_overall_geometry`; neither class sets `SA_fin` -/
def overall (fin_height fin_count P_channel : ℝ) (length width layers plate_thickness : Option ℝ) : Py Overall :=
  let thickness : Option ℝ := if truthy plate_thickness then plate_thickness.map (· + fin_height) else none
  if truthy length ∧ truthy width then do
    let count : ℝ := roundEven (fin_count * width.getD 0)
    let A_layer : ℝ := P_channel * length.getD 0 * count
    let t ← layerTotals fin_height A_layer (length.getD 0) (width.getD 0) layers plate_thickness
    return { layer_thickness := thickness, layer_fin_count := some count, A_HX_layer := some A_layer, A_HX := t.1, height := t.2.1, volume := t.2.2.1, A_specific_HX := t.2.2.2 }
  else .ok { layer_thickness := thickness, layer_fin_count := none, A_HX_layer := none, A_HX := none, height := none, volume := none, A_specific_HX := none }

/-- the attributes of a `RectangularFinExchanger` (geometry.py:4417-4437) -/
structure Fin where
  channel_height : ℝ
  channel_width : ℝ
  fin_count : ℝ
  blockage_ratio : ℝ
  A_channel : ℝ
  P_channel : ℝ
  Dh : ℝ
  rest : Overall

/-- geometry.py:4417-4437 `RectangularFinExchanger.__init__` -/
def rectangularFin (h t s : ℝ) (length width layers plate_thickness : Option ℝ) : Py Fin := do
  let count ← 1 /ₚ s
  let block ← (s * h - s * t - (h - t) * t) /ₚ (s * h)
  let A : ℝ := (s - t) * (h - t)
  let P : ℝ := 2 * (s - t) + 2 * (h - t)
  let Dh ← 4 * A /ₚ P
  let rest ← overall h count P length width layers plate_thickness
  return { channel_height := h - t, channel_width := s - t, fin_count := count, blockage_ratio := block, A_channel := A, P_channel := P, Dh := Dh, rest := rest }

/-- the attributes of a `RectangularOffsetStripFinExchanger` (geometry.py:4461-4493) -/
structure Strip where
  blockage_ratio : ℝ
  blockage_ratio_Kim : ℝ
  alpha : ℝ
  delta : ℝ
  gamma : ℝ
  A_channel : ℝ
  A : ℝ
  Dh : ℝ
  P_channel : ℝ
  Dh_Kays_London : ℝ
  Dh_Joshi_Webb : ℝ
  fin_count : ℝ
  rest : Overall

/-- geometry.py:4461-4493 `RectangularOffsetStripFinExchanger.__init__` -/
def offsetStrip (l h t s : ℝ) (length width layers plate_thickness : Option ℝ) : Py Strip := do
  let ts2 ← 2 * t /ₚ s
  let th ← t /ₚ h
  let ts ← t /ₚ s
  let tt ← t ^ 2 /ₚ (h * s)
  let alpha ← s /ₚ h
  let delta ← t /ₚ l
  let Ac : ℝ := (h - t) * (s - t)
  let A : ℝ := 2 * (l * (h - t) + l * (s - t) + t * (h - t)) + t * (s - 2 * t)
  let Dh ← 4 * l * Ac /ₚ A
  let P : ℝ := 2 * (s - t) + 2 * (h - t)
  let Dk ← 4 * Ac /ₚ (2 * (h - t) + 2 * (s - t))
  let Dj ← 2 * l * (h - t) * (s - 2 * t) /ₚ (l * (h - t) + l * (s - t) + t * (h - t))
  let count ← 1 /ₚ s
  let rest ← overall h count P length width layers plate_thickness
  return { blockage_ratio := ts2 * (1 - th) + th * (1 - ts2), blockage_ratio_Kim := th + ts - tt, alpha := alpha, delta := delta, gamma := ts, A_channel := Ac, A := A, Dh := Dh,
           P_channel := P, Dh_Kays_London := Dk, Dh_Joshi_Webb := Dj, fin_count := count, rest := rest }

/-- an amount per tube, row, bundle, bay and in total (geometry.py:5019-5088) -/
structure Levels where
  tube : ℝ
  row : ℝ
  bundle : ℝ
  bay : ℝ
  total : ℝ

/-- `x*tubes_per_row`, `x*tubes_per_bundle`, `x*tubes_per_bay`, `x*tubes` (geometry.py:5019-5023 and the blocks below) -/
def levels (x row bundle bay total : ℝ) : Levels := ⟨x, x * row, x * bundle, x * bay, x * total⟩

/-- the numeric attributes of an `AirCooledExchanger` (geometry.py:4945-5107) -/
structure AirCooled where
  angle : ℝ
  pitch : ℝ
  pitch_ratio : ℝ
  pitch_parallel : ℝ
  pitch_normal : ℝ
  pitch_diagonal : ℝ
  fin_height : ℝ
  fin_diameter : ℝ
  fin_interval : ℝ
  fin_density : ℝ
  bare_length : Option ℝ
  tubes_per_bundle : ℝ
  tubes_per_bay : ℝ
  tubes : ℝ
  bare : Levels
  showing : Levels
  A_per_fin : ℝ
  fin : Levels
  area : Levels
  A_increase : ℝ
  A_diagonal_per_bundle : ℝ
  A_normal_per_bundle : ℝ
  A_min_per_bundle : ℝ
  A_min_per_bay : ℝ
  A_min : ℝ
  A_face_per_bundle : ℝ
  A_face_per_bay : ℝ
  A_face : ℝ
  flow_area_contraction_ratio : ℝ
  Di : Option ℝ
  flow : Option Levels
  volume : Option Levels
  channels : ℝ

/-- geometry.py:4953-4957: the pitch from `pitch_ratio` -/
def pitchFromRatio (tube_diameter : ℝ) (pitch pitch_ratio : Option ℝ) : Py (Option ℝ) :=
  match pitch_ratio with
  | none => .ok pitch
  | some r =>
    match pitch with
    | some _ => .ok (some (tube_diameter * r))
    | none => .error .valueError

/-- geometry.py:4972-4984: `(fin_height, fin_diameter)` -/
def finSize (tube_diameter : ℝ) (fin_diameter fin_height : Option ℝ) : Py (ℝ × ℝ) :=
  match fin_diameter, fin_height with
  | none, none => .error .valueError
  | some d, _ => .ok (0.5 * (d - tube_diameter), d)
  | none, some h => .ok (h, tube_diameter + 2 * h)

/-- geometry.py:4986-4998: `(fin_interval, fin_density)` -/
def finPitch (fin_density fin_interval : Option ℝ) : Py (ℝ × ℝ) :=
  match fin_density, fin_interval with
  | none, none => .error .valueError
  | some d, _ => do
    let i ← 1 /ₚ d
    return (i, d)
  | none, some i => do
    let d ← 1 /ₚ i
    return (i, d)

/-- geometry.py:5014-5107 once pitches and fins are known -/
def airBuild (rows passes : ℕ) (per_row L D t : ℝ) (bays bundles : ℝ) (corbels : Bool) (tube_thickness : Option ℝ) (p : ℝ × ℝ × ℝ × ℝ) (fin : ℝ × ℝ) (fi : ℝ × ℝ) : Py AirCooled := do
  let pitch_ratio ← p.2.1 /ₚ D
  let diag ← psqrt (p.2.2.1 ^ 2 + (0.5 * p.2.2.2) ^ 2)
  let per_bundle : ℝ := per_row * rows
  let per_bay : ℝ := per_bundle * bundles
  let tubes : ℝ := per_bay * bays
  let bare := levels (π * D * L) per_row per_bundle per_bay tubes
  let frac ← t /ₚ fi.1
  let showing := levels (π * D * L * (1 - frac)) per_row per_bundle per_bay tubes
  let A_per_fin : ℝ := 2 * π / 4 * (fin.2 ^ 2 - D ^ 2) + π * fin.2 * t
  let fins := levels (fi.2 * L * A_per_fin) per_row per_bundle per_bay tubes
  let area : Levels := ⟨showing.tube + fins.tube, showing.row + fins.row, showing.bundle + fins.bundle, showing.bay + fins.bay, showing.total + fins.total⟩
  let increase ← area.total /ₚ bare.total
  let A_diag : ℝ := 2 * per_row * L * (diag - D - 2 * fi.2 * fin.1 * t)
  let A_norm : ℝ := per_row * L * (p.2.2.2 - D - 2 * fi.2 * fin.1 * t)
  let A_min : ℝ := min A_diag A_norm
  let A_face : ℝ := p.2.2.2 * L * (per_row + if corbels then 0.5 else 1)
  let ratio ← A_min * bundles * bays /ₚ (A_face * bundles * bays)
  let channels ← (if passes = 0 then .error .zeroDivisionError else if rows % passes = 0 then .ok (per_bundle / passes) else .ok per_row : Py ℝ)
  return { angle := p.1, pitch := p.2.1, pitch_ratio := pitch_ratio, pitch_parallel := p.2.2.1, pitch_normal := p.2.2.2, pitch_diagonal := diag,
           fin_height := fin.1, fin_diameter := fin.2, fin_interval := fi.1, fin_density := fi.2,
           bare_length := if fi.1 ≠ 0 then some (fi.1 - t) else none,
           tubes_per_bundle := per_bundle, tubes_per_bay := per_bay, tubes := tubes,
           bare := bare, showing := showing, A_per_fin := A_per_fin, fin := fins, area := area, A_increase := increase,
           A_diagonal_per_bundle := A_diag, A_normal_per_bundle := A_norm, A_min_per_bundle := A_min, A_min_per_bay := A_min * bundles, A_min := A_min * bundles * bays,
           A_face_per_bundle := A_face, A_face_per_bay := A_face * bundles, A_face := A_face * bundles * bays, flow_area_contraction_ratio := ratio,
           Di := tube_thickness.map fun w => D - w * 2,
           flow := tube_thickness.map fun w => levels (π / 4 * (D - w * 2) * (D - w * 2)) per_row per_bundle per_bay tubes,
           volume := tube_thickness.map fun w => levels (π / 4 * (D - w * 2) * (D - w * 2) * L) per_row per_bundle per_bay tubes,
           channels := channels }

/-- geometry.py:4945-5107 `AirCooledExchanger.__init__`: the numeric attributes; the names of the layout (5109-5123) are not modelled -/
def airCooled (rows passes : ℕ) (per_row L D t : ℝ) (angle pitch pitch_parallel pitch_normal pitch_ratio fin_diameter fin_height fin_density fin_interval : Option ℝ)
    (bays bundles : ℝ) (corbels : Bool) (tube_thickness : Option ℝ) : Py AirCooled := do
  let pitch ← pitchFromRatio D pitch pitch_ratio
  let p ← pitch_angle_solver angle pitch pitch_parallel pitch_normal
  let fin ← finSize D fin_diameter fin_height
  let fi ← finPitch fin_density fin_interval
  airBuild rows passes per_row L D t bays bundles corbels tube_thickness p fin fi

end

end Verif.Exchangers
