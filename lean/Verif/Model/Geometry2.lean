import Verif.Py
import Mathlib.Analysis.SpecialFunctions.Trigonometric.Inverse
import Mathlib.Analysis.SpecialFunctions.Trigonometric.Arctan

/-! Model of the rest of `fluids/geometry.py`: helical coils, tube pitches, cooling towers and drilled cylinders. -/

open Real

noncomputable section

namespace Verif.Geometry

/-- attributes of a `HelicalCoil` that need the tube's inner diameter (geometry.py:4089-4095) -/
structure CoilInner where
  Di : ℝ
  inner_surface_area : ℝ
  inlet_area : ℝ
  inner_volume : ℝ
  annulus_area : ℝ
  annulus_volume : ℝ

/-- attributes of a `HelicalCoil` (geometry.py:4048-4095) -/
structure HelicalCoil where
  Do : ℝ
  Dt : ℝ
  Do_total : ℝ
  N : ℝ
  pitch : ℝ
  H : ℝ
  H_total : ℝ
  tube_circumference : ℝ
  tube_length : ℝ
  surface_area : ℝ
  helix_angle : ℝ
  curvature : ℝ
  total_inlet_area : ℝ
  total_volume : ℝ
  inner : Option CoilInner

/-- geometry.py:4052-4069: `(N, pitch, H)` from two of them -/
def coilShape (Dt : ℝ) (pitch H N : Option ℝ) : Py (ℝ × ℝ × ℝ) :=
  match N, pitch, H with
  | some N, some pitch, _ => .ok (N, pitch, N * pitch)
  | some N, none, some H => do
    let p ← H /ₚ N
    if p < Dt then .error .valueError else return (N, p, H)
  | none, some pitch, some H => do
    let n ← H /ₚ pitch
    if pitch < Dt then .error .valueError else return (n, pitch, H)
  | _, _, _ => .error .valueError

/-- geometry.py:4089-4095 -/
def coilInner (tube_length total_inlet_area total_volume : ℝ) (Di : Option ℝ) : Option CoilInner :=
  Di.map fun Di => ⟨Di, tube_length * π * Di, π / 4 * Di ^ 2, π / 4 * Di ^ 2 * tube_length, total_inlet_area - π / 4 * Di ^ 2,
    total_volume - π / 4 * Di ^ 2 * tube_length⟩

/-- geometry.py:4071-4095: the derived attributes -/
def coilBuild (Dt Do N pitch H : ℝ) (Di : Option ℝ) : Py HelicalCoil :=
  if Dt > Do then .error .valueError
  else do
    let circ : ℝ := π * Do
    let length ← psqrt ((circ * N) ^ 2 + H ^ 2)
    let q ← pitch /ₚ (π * Do)
    let angle : ℝ := arctan q
    let c0 ← Dt /ₚ Do
    let c1 ← c0 /ₚ (1 + 4 * π ^ 2 * tan angle ^ 2)
    let area : ℝ := π / 4 * Dt ^ 2
    return ⟨Do, Dt, Do + Dt, N, pitch, H, Dt + H, circ, length, length * π * Dt, angle, c1, area, area * length, coilInner length area (area * length) Di⟩

/-- geometry.py:4033-4095 `HelicalCoil.__init__` -/
def helicalCoil (Dt : ℝ) (Do pitch H N H_total Do_total Di : Option ℝ) : Py HelicalCoil := do
  let H : Option ℝ := match H_total with
    | some t => some (t - Dt)
    | none => H
  let Do : Option ℝ := match Do_total with
    | some t => some (t - Dt)
    | none => Do
  match Do with
  | none => .error .valueError
  | some Do => do
    let s ← coilShape Dt pitch H N
    coilBuild Dt Do s.1 s.2.1 s.2.2 Di

/-- geometry.py:5191-5211 `pitch_angle_solver`: `(angle, pitch, pitch_parallel, pitch_normal)`, the angle in degrees -/
def pitch_angle_solver (angle pitch pitch_parallel pitch_normal : Option ℝ) : Py (ℝ × ℝ × ℝ × ℝ) :=
  match angle, pitch, pitch_parallel, pitch_normal with
  | some angle, some pitch, _, _ => .ok (angle, pitch, pitch * cos (angle * (π / 180)), pitch * sin (angle * (π / 180)))
  | some angle, none, _, some pn => do
    let pitch ← pn /ₚ sin (angle * (π / 180))
    return (angle, pitch, pitch * cos (angle * (π / 180)), pn)
  | some angle, none, some pp, none => do
    let pitch ← pp /ₚ cos (angle * (π / 180))
    return (angle, pitch, pp, pitch * sin (angle * (π / 180)))
  | none, some pitch, _, some pn => do
    let q ← pn /ₚ pitch
    let t ← pasin q
    let angle : ℝ := t * (180 / π)
    return (angle, pitch, pitch * cos (angle * (π / 180)), pn)
  | none, some pitch, some pp, none => do
    let q ← pp /ₚ pitch
    let t ← pacos q
    let angle : ℝ := t * (180 / π)
    return (angle, pitch, pp, pitch * sin (angle * (π / 180)))
  | none, none, some pp, some pn => do
    let s ← psqrt (pn ^ 2 + pp ^ 2)
    let q ← pn /ₚ s
    let t ← pasin q
    return (t * (180 / π), s, pp, pn)
  | _, _, _, _ => .error .valueError

/-- the geometric attributes of a `HyperbolicCoolingTower` (geometry.py:4598-4627); the support attributes are only stored -/
structure CoolingTower where
  D_outlet : ℝ
  H_inlet : ℝ
  H_outlet : ℝ
  H_throat : ℝ
  D_throat : ℝ
  D_inlet : ℝ
  D_base : ℝ
  b_lower : ℝ
  b_upper : ℝ

/-- geometry.py:4606-4610 -/
def towerThroat (D_throat D_inlet : Option ℝ) : Py ℝ :=
  match D_throat, D_inlet with
  | some d, _ => .ok d
  | none, some i => .ok (0.63 * i)
  | none, none => .error .valueError

/-- geometry.py:4613-4620: `(D_inlet, D_base, b)` -/
def towerLower (H_inlet H_throat D_throat : ℝ) (D_inlet D_base : Option ℝ) : Py (ℝ × ℝ × ℝ) :=
  match D_inlet, D_base with
  | none, none => .error .valueError
  | _, some D_base => do
    let s ← psqrt (D_base ^ 2 - D_throat ^ 2)
    let b ← D_throat * H_throat /ₚ s
    let s2 ← psqrt ((H_throat - H_inlet) ^ 2 + b ^ 2)
    let D_inlet ← 2 * D_throat * s2 /ₚ (2 * b)
    return (D_inlet, D_base, b)
  | some D_inlet, none => do
    let s ← psqrt (D_inlet ^ 2 - D_throat ^ 2)
    let b ← D_throat * (H_throat - H_inlet) /ₚ s
    let s2 ← psqrt (H_throat ^ 2 + b ^ 2)
    let D_base ← 2 * D_throat * s2 /ₚ (2 * b)
    return (D_inlet, D_base, b)

/-- geometry.py:4593-4627 `HyperbolicCoolingTower.__init__` -/
def coolingTower (H_inlet D_outlet H_outlet : ℝ) (D_inlet D_base D_throat H_throat : Option ℝ) : Py CoolingTower := do
  let Ht : ℝ := H_throat.getD (2 / 3 * H_outlet)
  let Dt ← towerThroat D_throat D_inlet
  let l ← towerLower H_inlet Ht Dt D_inlet D_base
  let s ← psqrt (D_outlet ^ 2 - Dt ^ 2)
  let bu ← Dt * (H_outlet - Ht) /ₚ s
  return ⟨D_outlet, H_inlet, H_outlet, Ht, Dt, l.1, l.2.1, l.2.2, bu⟩

/-- geometry.py:4644-4675 `HyperbolicCoolingTower.diameter` -/
def CoolingTower.diameter (T : CoolingTower) (H : ℝ) : Py ℝ := do
  let p : ℝ × ℝ := if H ≤ T.H_throat then (T.H_throat - H, T.b_lower) else (H - T.H_throat, T.b_upper)
  let s ← psqrt (p.1 * p.1 + p.2 * p.2)
  let R ← T.D_throat * s /ₚ (2 * p.2)
  return R * 2

/-- geometry.py:5352-5354 `A_cylinder` -/
def A_cylinder (D L : ℝ) : ℝ := π * D ^ 2 / 4 * 2 + π * D * L

/-- geometry.py:5380 `V_cylinder` -/
def V_cylinder (D L : ℝ) : ℝ := π * D ^ 2 / 4 * L

/-- geometry.py:5409-5413 `A_hollow_cylinder` -/
def A_hollow_cylinder (Di Do L : ℝ) : ℝ := π * Do * L + π * Di * L + π * Do ^ 2 / 4 * 2 - π * Di ^ 2 / 4 * 2

/-- geometry.py:5441 `V_hollow_cylinder` -/
def V_hollow_cylinder (Di Do L : ℝ) : ℝ := π * Do ^ 2 / 4 * L - π * Di ^ 2 / 4 * L

/-- geometry.py:5475-5482 `A_multiple_hole_cylinder` -/
def A_multiple_hole_cylinder (Do L : ℝ) (holes : List (ℝ × ℕ)) : ℝ :=
  holes.foldl (fun A x => A + π * x.1 * L * x.2 - π * x.1 ^ 2 / 4 * 2 * x.2) (π * Do ^ 2 / 4 * 2 + π * Do * L)

/-- geometry.py:5513-5516 `V_multiple_hole_cylinder` -/
def V_multiple_hole_cylinder (Do L : ℝ) (holes : List (ℝ × ℕ)) : ℝ :=
  holes.foldl (fun V x => V - π * x.1 * x.1 / 4 * L * x.2) (π * Do ^ 2 / 4 * L)

end Verif.Geometry
