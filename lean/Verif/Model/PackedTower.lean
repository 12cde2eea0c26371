import Verif.Py
import Verif.Model.Constants
import Verif.Model.Sequences
import Mathlib.Analysis.SpecialFunctions.Pow.Real

/-! Model of `fluids/packed_tower.py`. -/

open Real

noncomputable section

namespace Verif.PackedTower

/-- packed_tower.py:57 `from fluids.constants import g` -/
scoped notation "g" => ((Verif.Const.g : ℚ) : ℝ)

/-- packed_tower.py:127-129 `dP_demister_dry_Setekleiv_Svendsen`. Defaults: L = 1.0. -/
def dP_demister_dry_Setekleiv_Svendsen (S voidage vs rho mu L : ℝ) : Py ℝ := do
  let t1 : ℝ ← 565 /ₚ (69.6 * S * L - (S * L) ^ 2 - 779)
  let t2 : ℝ ← 74.9 /ₚ (160.9 - 4.85 * S * L)
  let term : ℝ := 10.29 - t1 - t2
  let t3 : ℝ ← mu * voidage * S ^ 2 * L /ₚ rho
  let t4 : ℝ ← t3 /ₚ vs
  let t5 : ℝ ← t4 ^ₚ 0.75
  let right : ℝ := term + 45.33 * t5
  right * rho * vs ^ 2 /ₚ voidage ^ 2

/-- packed_tower.py:181-183 `dP_demister_dry_Setekleiv_Svendsen_lit`. Defaults: L = 1.0. -/
def dP_demister_dry_Setekleiv_Svendsen_lit (S voidage vs rho mu L : ℝ) : Py ℝ := do
  let t1 : ℝ ← 320 /ₚ (69.6 * S * L - (S * L) ^ 2 - 779)
  let t2 : ℝ ← 52.4 /ₚ (161 - 4.85 * S * L)
  let term : ℝ := 7.3 - t1 - t2
  let t3 : ℝ ← mu * voidage * S ^ 2 * L /ₚ rho
  let t4 : ℝ ← t3 /ₚ vs
  let t5 : ℝ ← t4 ^ₚ 0.75
  let right : ℝ := term + 27.2 * t5
  right * rho * vs ^ 2 /ₚ voidage ^ 2

/-- packed_tower.py:246-246 `dP_demister_wet_ElDessouky`. Defaults: L = 1.0. -/
def dP_demister_wet_ElDessouky (vs voidage d_wire L : ℝ) : Py ℝ := do
  let t1 : ℝ ← (1 - voidage) ^ₚ 0.375798
  let t2 : ℝ ← vs ^ₚ 0.81317
  let t3 : ℝ ← d_wire ^ₚ (-1.56114147)
  return L * 0.002356999643727531 * t1 * t2 * t3

/-- packed_tower.py:309-310 `separation_demister_ElDessouky`. -/
def separation_demister_ElDessouky (vs voidage d_wire d_drop : ℝ) : Py ℝ := do
  let t1 : ℝ ← d_wire ^ₚ (-0.28264)
  let t2 : ℝ ← (1 - voidage) ^ₚ 0.099625
  let t3 : ℝ ← vs ^ₚ 0.106878
  let t4 : ℝ ← d_drop ^ₚ 0.383197
  let eta : ℝ := 0.858352355761947 * t1 * t2 * t3 * t4
  return min eta 1

/-- packed_tower.py:354-354 `voidage_experimental`. -/
def voidage_experimental (m rho D H : ℝ) : Py ℝ := do
  let t1 : ℝ ← m /ₚ (π / 4 * D ^ 2 * H)
  let t2 : ℝ ← t1 /ₚ rho
  return 1 - t2

/-- packed_tower.py:395-395 `specific_area_mesh`. -/
def specific_area_mesh (voidage d : ℝ) : Py ℝ := do
  4 * (1 - voidage) /ₚ d

/-- packed_tower.py:461-464 `Stichlmair_dry`. Defaults: H = 1.0. -/
def Stichlmair_dry (Vg rhog mug voidage specific_area C1 C2 C3 H : ℝ) : Py ℝ := do
  let dp : ℝ ← 6 * (1 - voidage) /ₚ specific_area
  let Re : ℝ ← Vg * rhog * dp /ₚ mug
  let t3 : ℝ ← C1 /ₚ Re
  let t4 : ℝ ← psqrt Re
  let t5 : ℝ ← C2 /ₚ t4
  let f0 : ℝ := t3 + t5 + C3
  let t6 : ℝ ← voidage ^ₚ 4.65
  let t7 : ℝ ← 3 / 4 * f0 * (1 - voidage) /ₚ t6
  let t8 : ℝ ← t7 * rhog * H /ₚ dp
  return t8 * Vg ^ 2

/-- packed_tower.py:468-470 `Stichlmair_wet_err`. -/
def Stichlmair_wet_err (dP_irr h0 c1 dP_dry H voidage c : ℝ) : Py ℝ := do
  let hT : ℝ := h0 * (1 + 20 * dP_irr * dP_irr * c1)
  let t1 : ℝ ← dP_dry /ₚ H
  let t2 : ℝ ← (1 - voidage + hT) /ₚ (1 - voidage)
  let t3 : ℝ ← t2 ^ₚ ((2 + c) / 3)
  let t4 : ℝ ← voidage /ₚ (voidage - hT)
  let t5 : ℝ ← t4 ^ₚ 4.65
  let t6 : ℝ ← dP_irr /ₚ H
  let err : ℝ := t1 * t3 * t5 - t6
  return err

/-- packed_tower.py:814-829 `Robbins`. Defaults: H = 1.0, Fpd = 24.0. -/
def Robbins (L G rhol rhog mul H Fpd : ℝ) : Py ℝ := do
  let L : ℝ := L * 737.33812
  let G : ℝ := G * 737.33812
  let rhol : ℝ := rhol * 0.062427961
  let rhog : ℝ := rhog * 0.062427961
  let mul : ℝ := mul * 1000
  let C3 : ℝ := 7.4e-8
  let C4 : ℝ := 2.7e-5
  let Fpd_root_term : ℝ ← psqrt (0.05 * Fpd)
  let t2 : ℝ ← 62.4 /ₚ rhol
  let t3 : ℝ ← mul ^ₚ 0.1
  let Lf : ℝ := L * t2 * Fpd_root_term * t3
  let t4 : ℝ ← 0.075 /ₚ rhog
  let t5 : ℝ ← psqrt t4
  let Gf : ℝ := G * t5 * Fpd_root_term
  let Gf2 : ℝ := Gf * Gf
  let t6 : ℝ ← 10 ^ₚ (C4 * Lf)
  let C4LF_10_GF2_C3 : ℝ := C3 * Gf2 * t6
  let C4LF_10_GF2_C3_2 : ℝ := C4LF_10_GF2_C3 * C4LF_10_GF2_C3
  let t7 : ℝ ← (5e-5 * Lf) ^ₚ 0.1
  let dP : ℝ := C4LF_10_GF2_C3 + 0.4 * t7 * (C4LF_10_GF2_C3_2 * C4LF_10_GF2_C3_2)
  return dP * 817.22083 * H

/-- packed_tower.py:565-575 `Stichlmair_wet`. Defaults: H = 1.0. `secant` (575) is a parameter: function and starting point. -/
def Stichlmair_wet (secant : (ℝ → Py ℝ) → ℝ → Py ℝ) (Vg Vl rhog rhol mug voidage specific_area C1 C2 C3 H : ℝ) : Py ℝ := do
  let dp : ℝ ← 6 * (1 - voidage) /ₚ specific_area
  let Re : ℝ ← Vg * rhog * dp /ₚ mug
  let t3 : ℝ ← C1 /ₚ Re
  let t4 : ℝ ← psqrt Re
  let t5 : ℝ ← C2 /ₚ t4
  let f0 : ℝ := t3 + t5 + C3
  let t6 : ℝ ← voidage ^ₚ 4.65
  let t7 : ℝ ← 3 / 4 * f0 * (1 - voidage) /ₚ t6
  let t8 : ℝ ← t7 * rhog * H /ₚ dp
  let dP_dry : ℝ := t8 * Vg * Vg
  let t9 : ℝ ← -C1 /ₚ Re
  let t10 : ℝ ← psqrt Re
  let t11 : ℝ ← C2 /ₚ (2 * t10)
  let c : ℝ ← (t9 - t11) /ₚ f0
  let t13 : ℝ ← voidage ^ₚ 4.65
  let Frl : ℝ ← Vl ^ 2 * specific_area /ₚ (g * t13)
  let t15 : ℝ ← Frl ^ₚ (1 / 3)
  let h0 : ℝ := 0.555 * t15
  let c1 : ℝ ← 1 /ₚ (H * rhol * g)
  secant (fun x => Stichlmair_wet_err x h0 (c1 * c1) dP_dry H voidage c) dP_dry

/-- packed_tower.py:605-664 `_Stichlmair_flood_f_and_jac`: errors and Jacobian. The truncated decimals 0.333333333333333, 0.666666666666667,
0.166666666666667, 2.44948974278318, 0.0208333333333333, 0.00173611111111111 and 15.4166666666667 of the source are idealised to the numbers they round.
The numba branch on the result container (660-663) is not modelled. -/
def Stichlmair_flood_f_and_jac (Vg dP_irr Vl rhog rhol mug voidage specific_area C1 C2 C3 H : ℝ) : Py ((ℝ × ℝ) × ((ℝ × ℝ) × (ℝ × ℝ))) := do
  let x0 : ℝ ← 1 /ₚ H
  let x1 : ℝ := Vg * Vg
  let x2 : ℝ ← voidage ^ₚ (-4.65)
  let x3 : ℝ := specific_area * x2
  let x4 : ℝ ← Vl * Vl * x3 /ₚ g
  let x5 : ℝ ← x4 ^ₚ (1 / 3)
  let x6 : ℝ := dP_irr * dP_irr
  let x7 : ℝ := H * H
  let x8 : ℝ ← 1 /ₚ x7
  let x9 : ℝ := g * g
  let x10 : ℝ ← 1 /ₚ x9
  let x11 : ℝ := rhol * rhol
  let x12 : ℝ ← 1 /ₚ x11
  let x13 : ℝ := x5 * (20 * x10 * x12 * x6 * x8 + 1)
  let x14 : ℝ := 0.555 * x13
  let t8 : ℝ ← voidage /ₚ (voidage - x14)
  let x15 : ℝ ← t8 ^ₚ 4.65
  let x16 : ℝ ← 1 /ₚ Vg
  let x17 : ℝ ← 1 /ₚ rhog
  let x18 : ℝ := voidage - 1
  let x19 : ℝ ← 1 /ₚ x18
  let x20 : ℝ := C1 * mug * specific_area * x16 * x17 * x19
  let x21 : ℝ := √6 * C2
  let x22 : ℝ ← Vg * rhog /ₚ (mug * specific_area)
  let t14 : ℝ ← psqrt (-x18 * x22)
  let x23 : ℝ ← x21 /ₚ t14
  let x24 : ℝ := 6 * C3 - x20 + x23
  let x25 : ℝ := 1 - voidage
  let x26 : ℝ := x14 + x25
  let x27 : ℝ := -x19 * x26
  let t16 : ℝ ← 2 * C1 * mug * specific_area * x16 * x17 /ₚ x25
  let t17 : ℝ ← psqrt (x22 * x25)
  let t18 : ℝ ← x21 /ₚ t17
  let x28 : ℝ := t16 + t18
  let x29 : ℝ ← 1 /ₚ x24
  let x30 : ℝ := x28 * x29
  let x31 : ℝ ← x27 ^ₚ (-(1 / 6) * x30 + (2 / 3))
  let x32 : ℝ := x11 * x7 * x9
  let x33 : ℝ := 200 * voidage
  let x34 : ℝ := 111 * x13
  let x35 : ℝ := x33 - x34
  let x36 : ℝ ← 1 /ₚ x35
  let x37 : ℝ := -x33 + x34 + 200
  let x38 : ℝ ← 1 /ₚ x37
  let x39 : ℝ := 2 * x20
  let x40 : ℝ := -4 * x20 + x23 + x29 * (-x23 + x39) * (x23 - x39)
  let x41 : ℝ := dP_irr * rhog * specific_area * x0 * x1 * x10 * x12 * x15 * x2 * x24 * x31
  let t23 : ℝ ← x4 ^ₚ (2 / 3)
  let x42 : ℝ := dP_irr * x10 * x12 * t23 * x8
  let t24 : ℝ ← x32 /ₚ x6
  let t25 : ℝ ← plog x27
  let t26 : ℝ ← -1.85 * x16 * x29 * x40 * x5 /ₚ x26
  let t27 : ℝ ← 2 * x32 /ₚ (dP_irr * x6)
  let F1 : ℝ := -dP_irr * x0 + 1 / 48 * rhog * specific_area * x1 * x15 * x2 * x24 * x31
  let F2 : ℝ := t24 - 20646 * x36 * x5 - x38 * x5 * (2960 - 740 * x28 * x29)
  let dF1_dVg : ℝ := 1 / 576 * Vg * rhog * x15 * x3 * x31 * (144 * C3 - 12 * x20 + 18 * x23 + x40 * t25)
  let dF2_dVg : ℝ := x0 * (430.125 * x36 * x41 * x5 - 185 / 12 * x38 * x41 * x5 * (x30 - 4) - 1)
  let dF1_dP_irr : ℝ := t26
  let dF2_dP_irr : ℝ := 3285600 * x42 * (-x30 + 4) * x38 * x38 - 91668240 * x42 * x36 * x36 - t27
  return ((F1, F2), ((dF1_dVg, dF2_dVg), (dF1_dP_irr, dF2_dP_irr)))


/-- packed_tower.py:750-755 `Stichlmair_flood`. Defaults: H = 1.0. `newton_system` is a parameter: the function (errors and Jacobian) and the starting point. -/
def Stichlmair_flood (newton_system : (ℝ × ℝ → Py ((ℝ × ℝ) × ((ℝ × ℝ) × (ℝ × ℝ)))) → ℝ × ℝ → Py (ℝ × ℝ))
    (Vl rhog rhol mug voidage specific_area C1 C2 C3 H : ℝ) : Py ℝ := do
  let x : ℝ × ℝ ← newton_system (fun x => Stichlmair_flood_f_and_jac x.1 x.2 Vl rhog rhol mug voidage specific_area C1 C2 C3 H) (Vl * 100, 1000)
  return x.1

end Verif.PackedTower
