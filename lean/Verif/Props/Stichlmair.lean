import Verif.Model.PackedTower
import Verif.Lemmas.Tactic
import Mathlib.Analysis.SpecialFunctions.Pow.Deriv
import Mathlib.Analysis.SpecialFunctions.Sqrt

/-! C97: the Stichlmair model of packed columns: dry and irrigated pressure drop, flooding. -/

open Real

noncomputable section

namespace Verif.PackedTower

/-! ### Specification: the published model -/

/-- the particle Reynolds number -/
def ReG (Vg rhog mug ε a : ℝ) : ℝ := Vg * rhog * (6 * (1 - ε) / a) / mug

/-- the friction factor -/
def f0 (C1 C2 C3 Re : ℝ) : ℝ := C1 / Re + C2 / √Re + C3

/-- the exponent of the friction factor -/
def cExp (C1 C2 C3 Re : ℝ) : ℝ := (-C1 / Re - C2 / (2 * √Re)) / f0 C1 C2 C3 Re

/-- dry pressure drop -/
def dryDrop (Vg rhog mug ε a C1 C2 C3 H : ℝ) : ℝ :=
  3 / 4 * f0 C1 C2 C3 (ReG Vg rhog mug ε a) * ((1 - ε) / ε ^ (4.65:ℝ)) * rhog * (H / (6 * (1 - ε) / a)) * Vg ^ 2

/-- liquid holdup below loading -/
def holdup0 (Vl ε a : ℝ) : ℝ := 0.555 * (Vl ^ 2 * a / (g * ε ^ (4.65:ℝ))) ^ (1 / 3:ℝ)

/-- liquid holdup at the irrigated pressure drop `P` -/
def holdup (Vl rhol ε a H P : ℝ) : ℝ := holdup0 Vl ε a * (1 + 20 * (P / (H * rhol * g)) ^ 2)

/-- first equation: the irrigated pressure drop -/
def err1 (Vl rhog rhol mug ε a C1 C2 C3 H Vg P : ℝ) : ℝ :=
  dryDrop Vg rhog mug ε a C1 C2 C3 H / H *
    ((1 - ε + holdup Vl rhol ε a H P) / (1 - ε)) ^ ((2 + cExp C1 C2 C3 (ReG Vg rhog mug ε a)) / 3) *
    (ε / (ε - holdup Vl rhol ε a H P)) ^ (4.65:ℝ) - P / H

/-- second equation: the flooding condition -/
def err2 (Vl rhog rhol mug ε a C1 C2 C3 H Vg P : ℝ) : ℝ :=
  1 / (P / (rhol * g * H)) ^ 2 - 40 * ((2 + cExp C1 C2 C3 (ReG Vg rhog mug ε a)) / 3) * holdup0 Vl ε a / (1 - ε + holdup Vl rhol ε a H P) -
    186 * holdup0 Vl ε a / (ε - holdup Vl rhol ε a H P)

/-- a physical column: positive data, non-negative packing constants with positive `C3` -/
structure Column (Vl rhog rhol mug ε a C1 C2 C3 H : ℝ) : Prop where
  Vl : 0 ≤ Vl
  rhog : 0 < rhog
  rhol : 0 < rhol
  mug : 0 < mug
  lo : 0 < ε
  hi : ε < 1
  a : 0 < a
  C1 : 0 ≤ C1
  C2 : 0 ≤ C2
  C3 : 0 < C3
  H : 0 < H

theorem g_pos : (0:ℝ) < g := by unfold Const.g; norm_num

section
variable {Vl rhog rhol mug ε a C1 C2 C3 H Vg P : ℝ}

theorem Column.h (k : Column Vl rhog rhol mug ε a C1 C2 C3 H) : 0 < 1 - ε := by linarith [k.hi]

theorem Column.re (k : Column Vl rhog rhol mug ε a C1 C2 C3 H) (hV : 0 < Vg) : 0 < ReG Vg rhog mug ε a := by
  have := k.h; have := k.rhog; have := k.mug; have := k.a; unfold ReG; positivity

theorem Column.f0 (k : Column Vl rhog rhol mug ε a C1 C2 C3 H) (hV : 0 < Vg) : 0 < f0 C1 C2 C3 (ReG Vg rhog mug ε a) := by
  have := k.re hV; have := k.C1; have := k.C2; have := k.C3; unfold PackedTower.f0; positivity

theorem Column.h0 (k : Column Vl rhog rhol mug ε a C1 C2 C3 H) : 0 ≤ holdup0 Vl ε a := by
  have := k.lo; have := k.a; have := g_pos; unfold holdup0; positivity

theorem Column.hT (k : Column Vl rhog rhol mug ε a C1 C2 C3 H) : 0 ≤ holdup Vl rhol ε a H P := by
  have := k.h0; unfold holdup; positivity

/-! ### dry bed -/

theorem dry_eq (k : Column Vl rhog rhol mug ε a C1 C2 C3 H) (hV : 0 < Vg) :
    Stichlmair_dry Vg rhog mug ε a C1 C2 C3 H = .ok (dryDrop Vg rhog mug ε a C1 C2 C3 H) := by
  have := k.h; have := k.rhog; have := k.mug; have := k.a; have := k.lo; have := k.H
  have hr := k.re hV; unfold ReG at hr
  have : 0 < √(Vg * rhog * (6 * (1 - ε) / a) / mug) := sqrt_pos.mpr hr
  unfold Stichlmair_dry; py_eval []
  unfold dryDrop f0 ReG
  congr 1
  have := rpow_pos_of_pos k.lo 4.65
  field_simp

/-- C97: the dry pressure drop is the published equation, is positive, and is proportional to the height -/
theorem C97_dry (k : Column Vl rhog rhol mug ε a C1 C2 C3 H) (hV : 0 < Vg) :
    Stichlmair_dry Vg rhog mug ε a C1 C2 C3 H = .ok (dryDrop Vg rhog mug ε a C1 C2 C3 H) ∧ 0 < dryDrop Vg rhog mug ε a C1 C2 C3 H ∧
    ∀ m > 0, Stichlmair_dry Vg rhog mug ε a C1 C2 C3 (m * H) = .ok (m * dryDrop Vg rhog mug ε a C1 C2 C3 H) := by
  refine ⟨dry_eq k hV, ?_, fun m hm => ?_⟩
  · have := k.h; have := k.rhog; have := k.mug; have := k.a; have := k.lo; have := k.H; have := k.f0 hV
    unfold dryDrop; positivity
  · rw [dry_eq (Vl := Vl) (rhol := rhol) ⟨k.Vl, k.rhog, k.rhol, k.mug, k.lo, k.hi, k.a, k.C1, k.C2, k.C3, mul_pos hm k.H⟩ hV]
    congr 1; unfold dryDrop; ring

/-- C97: a faster gas has a strictly larger dry pressure drop -/
theorem C97_dry_velocity {Vg' : ℝ} (k : Column Vl rhog rhol mug ε a C1 C2 C3 H) (hV : 0 < Vg) (hlt : Vg < Vg') :
    dryDrop Vg rhog mug ε a C1 C2 C3 H < dryDrop Vg' rhog mug ε a C1 C2 C3 H := by
  have h := k.h; have h1 := k.rhog; have h2 := k.mug; have h3 := k.a; have h4 := k.lo; have h5 := k.H
  have hV' := hV.trans hlt
  set q : ℝ := rhog * (6 * (1 - ε) / a) / mug with hq
  have hqp : 0 < q := by rw [hq]; positivity
  have form : ∀ v : ℝ, 0 < v → f0 C1 C2 C3 (ReG v rhog mug ε a) * v ^ 2 = C1 / q * v + C2 / √q * (v * √v) + C3 * v ^ 2 := by
    intro v hv
    have e : ReG v rhog mug ε a = q * v := by unfold ReG; rw [hq]; ring
    have : 0 < √q := sqrt_pos.mpr hqp
    have s : 0 < √v := sqrt_pos.mpr hv
    unfold f0; rw [e, sqrt_mul hqp.le]
    have e2 : v = √v * √v := (mul_self_sqrt hv.le).symm
    generalize √v = w at *
    subst e2
    field_simp
  have hs : √Vg < √Vg' := sqrt_lt_sqrt hV.le hlt
  have key : f0 C1 C2 C3 (ReG Vg rhog mug ε a) * Vg ^ 2 < f0 C1 C2 C3 (ReG Vg' rhog mug ε a) * Vg' ^ 2 := by
    rw [form Vg hV, form Vg' hV']
    have c1 : 0 ≤ C1 / q := div_nonneg k.C1 hqp.le
    have c2 : 0 ≤ C2 / √q := div_nonneg k.C2 (sqrt_nonneg _)
    have m1 := mul_le_mul_of_nonneg_left hlt.le c1
    have m2 := mul_le_mul_of_nonneg_left (mul_le_mul hlt.le hs.le (sqrt_nonneg _) hV'.le) c2
    have m3 : C3 * Vg ^ 2 < C3 * Vg' ^ 2 := mul_lt_mul_of_pos_left (by gcongr) k.C3
    linarith
  unfold dryDrop
  have hp := rpow_pos_of_pos h4 4.65
  have w : 0 < 3 / 4 * ((1 - ε) / ε ^ (4.65:ℝ)) * rhog * (H / (6 * (1 - ε) / a)) := by positivity
  have := mul_lt_mul_of_pos_left key w
  nlinarith [this]

/-! ### normal form of the equations -/

/-- six times the friction factor -/
def F6 (C3 A B v : ℝ) : ℝ := 6 * C3 + A / v + B / √v

/-- numerator of the friction exponent -/
def N6 (A B v : ℝ) : ℝ := 2 * A / v + B / √v

/-- the combination in the derivative of the exponent -/
def Z6 (C3 A B v : ℝ) : ℝ := 4 * A / v + B / √v - N6 A B v ^ 2 / F6 C3 A B v

theorem hasDeriv_invSqrt {v : ℝ} (hv : 0 < v) (B : ℝ) : HasDerivAt (fun v => B / √v) (-(B / √v) / (2 * v)) v := by
  have hs : 0 < √v := sqrt_pos.mpr hv
  have h := ((hasDerivAt_sqrt hv.ne').inv hs.ne').const_mul B
  have e : B * (-(1 / (2 * √v)) / √v ^ 2) = -(B / √v) / (2 * v) := by
    rw [sq_sqrt hv.le]; field_simp
  rw [e] at h
  simp only [div_eq_mul_inv] at h ⊢
  exact h

theorem hasDeriv_inv {v : ℝ} (hv : 0 < v) (A : ℝ) : HasDerivAt (fun v => A / v) (-(A / v) / v) v := by
  have h := (hasDerivAt_inv hv.ne').const_mul A
  have e : A * (-(v ^ 2)⁻¹) = -(A / v) / v := by field_simp
  rw [e] at h
  simpa only [div_eq_mul_inv] using h

theorem hasDeriv_F6 {v : ℝ} (hv : 0 < v) (C3 A B : ℝ) : HasDerivAt (F6 C3 A B) (-N6 A B v / (2 * v)) v := by
  have h := ((hasDeriv_inv hv A).const_add (6 * C3)).add (hasDeriv_invSqrt hv B)
  have e : -(A / v) / v + -(B / √v) / (2 * v) = -N6 A B v / (2 * v) := by
    unfold N6; generalize B / √v = b; field_simp; ring
  rw [e] at h; exact h

theorem hasDeriv_N6 {v : ℝ} (hv : 0 < v) (A B : ℝ) : HasDerivAt (N6 A B) (-(4 * A / v + B / √v) / (2 * v)) v := by
  have h := (hasDeriv_inv hv (2 * A)).add (hasDeriv_invSqrt hv B)
  have e : -(2 * A / v) / v + -(B / √v) / (2 * v) = -(4 * A / v + B / √v) / (2 * v) := by
    generalize B / √v = b; field_simp; ring
  rw [e] at h; exact h

theorem hasDeriv_ratio {v : ℝ} (hv : 0 < v) {C3 A B : ℝ} (hF : 0 < F6 C3 A B v) :
    HasDerivAt (fun v => 2 / 3 - N6 A B v / F6 C3 A B v / 6) (Z6 C3 A B v / (12 * v * F6 C3 A B v)) v := by
  have h := (((hasDeriv_N6 hv A B).div (hasDeriv_F6 hv C3 A B) hF.ne').div_const 6).const_sub (2 / 3)
  refine h.congr_deriv ?_
  unfold Z6
  generalize F6 C3 A B v = F at *; generalize N6 A B v = N at *; generalize B / √v = b; field_simp; ring

theorem hasDeriv_1V {v : ℝ} (hv : 0 < v) {C3 A B : ℝ} (hF : 0 < F6 C3 A B v) {X : ℝ} (hX : 0 < X) (K Y p : ℝ) :
    HasDerivAt (fun v => K * v ^ 2 * F6 C3 A B v * X ^ (2 / 3 - N6 A B v / F6 C3 A B v / 6) * Y - p)
      (K * v / 12 * X ^ (2 / 3 - N6 A B v / F6 C3 A B v / 6) * Y * (24 * F6 C3 A B v - 6 * N6 A B v + Z6 C3 A B v * log X)) v := by
  have h1 := ((((hasDerivAt_pow 2 v).const_mul K).mul (hasDeriv_F6 hv C3 A B)).mul
    ((hasDeriv_ratio hv hF).const_rpow hX)).mul_const Y
  refine (h1.sub_const p).congr_deriv ?_
  simp only [Pi.mul_apply]
  generalize X ^ (2 / 3 - N6 A B v / F6 C3 A B v / 6) = E
  generalize F6 C3 A B v = F at *; generalize N6 A B v = N at *; generalize Z6 C3 A B v = Z at *
  simp only [Nat.cast_ofNat]
  field_simp; ring

theorem hasDeriv_2V {v : ℝ} (hv : 0 < v) {C3 A B : ℝ} (hF : 0 < F6 C3 A B v) (u h w z : ℝ) :
    HasDerivAt (fun v => u - 40 * (2 / 3 - N6 A B v / F6 C3 A B v / 6) * h / w - z)
      (-(10 / 3 * h * Z6 C3 A B v / (w * v * F6 C3 A B v))) v := by
  have h1 := (((((hasDeriv_ratio hv hF).const_mul 40).mul_const h).div_const w).const_sub u).sub_const z
  refine h1.congr_deriv ?_
  generalize F6 C3 A B v = F at *; generalize Z6 C3 A B v = Z at *
  by_cases hw : w = 0
  · subst hw; simp
  field_simp; ring

theorem hasDeriv_hT (h q p : ℝ) : HasDerivAt (fun p => h * (1 + 20 * (p ^ 2 * q))) (40 * h * q * p) p := by
  have h1 := ((((hasDerivAt_pow 2 p).mul_const q).const_mul 20).const_add 1).const_mul h
  refine h1.congr_deriv ?_
  simp only [Nat.cast_ofNat]; ring

theorem hasDeriv_1P {ε h q p e M H : ℝ} (h1 : 0 < 1 - ε) (he : 0 < ε) (hX : 0 < 1 - ε + h * (1 + 20 * (p ^ 2 * q)))
    (hY : 0 < ε - h * (1 + 20 * (p ^ 2 * q))) :
    HasDerivAt (fun p => M * ((1 - ε + h * (1 + 20 * (p ^ 2 * q))) / (1 - ε)) ^ e * (ε / (ε - h * (1 + 20 * (p ^ 2 * q)))) ^ (4.65:ℝ) - p / H)
      (M * ((1 - ε + h * (1 + 20 * (p ^ 2 * q))) / (1 - ε)) ^ e * (ε / (ε - h * (1 + 20 * (p ^ 2 * q)))) ^ (4.65:ℝ) *
        (e / (1 - ε + h * (1 + 20 * (p ^ 2 * q))) + 4.65 / (ε - h * (1 + 20 * (p ^ 2 * q)))) * (40 * h * q * p) - 1 / H) p := by
  have dX := ((((hasDeriv_hT h q p).const_add (1 - ε)).div_const (1 - ε)).rpow_const (p := e) (Or.inl (div_pos hX h1).ne')).const_mul M
  have dY := ((hasDerivAt_const p ε).div ((hasDeriv_hT h q p).const_sub ε) hY.ne').rpow_const (p := 4.65) (Or.inl (div_pos he hY).ne')
  have hp := (hasDerivAt_id p).div_const H
  refine ((dX.mul dY).sub hp).congr_deriv ?_
  simp only [Pi.div_apply]
  rw [rpow_sub_one (div_pos hX h1).ne', rpow_sub_one (div_pos he hY).ne']
  generalize ((1 - ε + h * (1 + 20 * (p ^ 2 * q))) / (1 - ε)) ^ e = U
  generalize (ε / (ε - h * (1 + 20 * (p ^ 2 * q)))) ^ (4.65:ℝ) = W
  generalize h * (1 + 20 * (p ^ 2 * q)) = T at *
  field_simp; ring

theorem hasDeriv_2P {ε h q p e : ℝ} (hq : 0 < q) (hp : 0 < p) (hX : 0 < 1 - ε + h * (1 + 20 * (p ^ 2 * q)))
    (hY : 0 < ε - h * (1 + 20 * (p ^ 2 * q))) :
    HasDerivAt (fun p => 1 / (p ^ 2 * q) - 40 * e * h / (1 - ε + h * (1 + 20 * (p ^ 2 * q))) - 186 * h / (ε - h * (1 + 20 * (p ^ 2 * q))))
      (-(2 / (p ^ 3 * q)) + 40 * e * h * (40 * h * q * p) / (1 - ε + h * (1 + 20 * (p ^ 2 * q))) ^ 2 -
        186 * h * (40 * h * q * p) / (ε - h * (1 + 20 * (p ^ 2 * q))) ^ 2) p := by
  have d0 := (hasDerivAt_const p (1:ℝ)).div ((hasDerivAt_pow 2 p).mul_const q) (by positivity : p ^ 2 * q ≠ 0)
  have dX := (hasDerivAt_const p (40 * e * h)).div ((hasDeriv_hT h q p).const_add (1 - ε)) hX.ne'
  have dY := (hasDerivAt_const p (186 * h)).div ((hasDeriv_hT h q p).const_sub ε) hY.ne'
  refine ((d0.sub dX).sub dY).congr_deriv ?_
  generalize h * (1 + 20 * (p ^ 2 * q)) = T at *
  simp only [Nat.cast_ofNat]
  field_simp; ring

/-- the constants of the normal form -/
def Aof (rhog mug ε a C1 : ℝ) : ℝ := C1 * mug * a / (rhog * (1 - ε))
@[inherit_doc Aof] def Bof (rhog mug ε a C2 : ℝ) : ℝ := √6 * C2 / √((1 - ε) * (rhog / (mug * a)))

theorem f0_form (k : Column Vl rhog rhol mug ε a C1 C2 C3 H) (hV : 0 < Vg) :
    f0 C1 C2 C3 (ReG Vg rhog mug ε a) = F6 C3 (Aof rhog mug ε a C1) (Bof rhog mug ε a C2) Vg / 6 ∧
    cExp C1 C2 C3 (ReG Vg rhog mug ε a) = -(N6 (Aof rhog mug ε a C1) (Bof rhog mug ε a C2) Vg / F6 C3 (Aof rhog mug ε a C1) (Bof rhog mug ε a C2) Vg / 2) := by
  have h := k.h; have h1 := k.rhog; have h2 := k.mug; have h3 := k.a
  have hf := k.f0 hV
  have e : ReG Vg rhog mug ε a = 6 * ((1 - ε) * (rhog / (mug * a))) * Vg := by unfold ReG; field_simp
  set w : ℝ := (1 - ε) * (rhog / (mug * a)) with hw
  have hwp : 0 < w := by rw [hw]; positivity
  have e1 : C1 / ReG Vg rhog mug ε a = Aof rhog mug ε a C1 / Vg / 6 := by
    rw [e, hw]; unfold Aof; field_simp
  have s6 : √6 * √6 = 6 := mul_self_sqrt (by norm_num)
  have hs6 : 0 < √6 := by positivity
  have hsw : 0 < √w := sqrt_pos.mpr hwp
  have hsv : 0 < √Vg := sqrt_pos.mpr hV
  have er : √(ReG Vg rhog mug ε a) = √6 * √w * √Vg := by rw [e, sqrt_mul (by positivity), sqrt_mul (by norm_num)]
  have e2 : C2 / √(ReG Vg rhog mug ε a) = Bof rhog mug ε a C2 / √Vg / 6 := by
    rw [er]; unfold Bof; rw [← hw]
    generalize √6 = r at *
    field_simp
    linear_combination (-C2) * s6
  have ef : f0 C1 C2 C3 (ReG Vg rhog mug ε a) = F6 C3 (Aof rhog mug ε a C1) (Bof rhog mug ε a C2) Vg / 6 := by
    unfold f0 F6; rw [e1, e2]; ring
  refine ⟨ef, ?_⟩
  have hF : 0 < F6 C3 (Aof rhog mug ε a C1) (Bof rhog mug ε a C2) Vg := by rw [ef] at hf; linarith
  unfold cExp
  have e3 : C2 / (2 * √(ReG Vg rhog mug ε a)) = Bof rhog mug ε a C2 / √Vg / 12 := by
    rw [mul_comm, ← div_div, e2]; ring
  rw [ef, neg_div, e1, e3]; unfold N6
  generalize Bof rhog mug ε a C2 / √Vg = b; generalize F6 C3 _ _ Vg = F at *; generalize Aof rhog mug ε a C1 = A
  field_simp; ring

theorem F6_pos (k : Column Vl rhog rhol mug ε a C1 C2 C3 H) (hV : 0 < Vg) :
    0 < F6 C3 (Aof rhog mug ε a C1) (Bof rhog mug ε a C2) Vg := by
  have := k.f0 hV; rw [(f0_form k hV).1] at this; linarith

theorem holdup_form (k : Column Vl rhog rhol mug ε a C1 C2 C3 H) (P : ℝ) :
    holdup Vl rhol ε a H P = holdup0 Vl ε a * (1 + 20 * (P ^ 2 * (1 / (H * rhol * g) ^ 2))) := by
  unfold holdup; rw [div_pow]; ring

theorem err1_form (k : Column Vl rhog rhol mug ε a C1 C2 C3 H) (hV : 0 < Vg) (P : ℝ) :
    err1 Vl rhog rhol mug ε a C1 C2 C3 H Vg P =
      rhog * a * ε ^ (-4.65:ℝ) / 48 * Vg ^ 2 * F6 C3 (Aof rhog mug ε a C1) (Bof rhog mug ε a C2) Vg *
        ((1 - ε + holdup Vl rhol ε a H P) / (1 - ε)) ^ (2 / 3 - N6 (Aof rhog mug ε a C1) (Bof rhog mug ε a C2) Vg / F6 C3 (Aof rhog mug ε a C1) (Bof rhog mug ε a C2) Vg / 6) *
        (ε / (ε - holdup Vl rhol ε a H P)) ^ (4.65:ℝ) - P / H := by
  have h := k.h; have h1 := k.rhog; have h3 := k.a; have h4 := k.lo; have h5 := k.H
  obtain ⟨e1, e2⟩ := f0_form k hV
  unfold err1 dryDrop
  rw [e1, e2, rpow_neg h4.le]
  have hp := rpow_pos_of_pos h4 4.65
  congr 1
  congr 1
  rw [show ∀ x : ℝ, (2 + -(x / 2)) / 3 = 2 / 3 - x / 6 by intro x; ring]
  congr 1
  generalize F6 C3 _ _ Vg = F
  field_simp; ring

theorem err2_form (k : Column Vl rhog rhol mug ε a C1 C2 C3 H) (hV : 0 < Vg) (P : ℝ) :
    err2 Vl rhog rhol mug ε a C1 C2 C3 H Vg P =
      1 / (P ^ 2 * (1 / (H * rhol * g) ^ 2)) - 40 * (2 / 3 - N6 (Aof rhog mug ε a C1) (Bof rhog mug ε a C2) Vg / F6 C3 (Aof rhog mug ε a C1) (Bof rhog mug ε a C2) Vg / 6) *
        holdup0 Vl ε a / (1 - ε + holdup Vl rhol ε a H P) - 186 * holdup0 Vl ε a / (ε - holdup Vl rhol ε a H P) := by
  obtain ⟨e1, e2⟩ := f0_form k hV
  unfold err2
  rw [e2, show ∀ x : ℝ, (2 + -(x / 2)) / 3 = 2 / 3 - x / 6 by intro x; ring, div_pow, show rhol * g * H = H * rhol * g by ring]
  congr 3
  ring

theorem pdiv_to {x y z : ℝ} (h : y ≠ 0) (e : x / y = z) : x /ₚ y = .ok z := by rw [pdiv_ok h, e]
theorem ppow_to {x y z : ℝ} (h : 0 < x) (e : x ^ y = z) : x ^ₚ y = .ok z := by rw [ppow_ok h, e]
theorem step {α : Type _} {m : Py ℝ} {x : ℝ} {f : ℝ → Py α} {r : Py α} (h : m = .ok x) (h' : f x = r) : (m >>= f) = r := by rw [h]; exact h'

theorem flood_eval (k : Column Vl rhog rhol mug ε a C1 C2 C3 H) (hV : 0 < Vg) (hP : 0 < P) (hh : holdup Vl rhol ε a H P < ε) :
    Stichlmair_flood_f_and_jac Vg P Vl rhog rhol mug ε a C1 C2 C3 H =
      (let A := Aof rhog mug ε a C1; let B := Bof rhog mug ε a C2; let F := F6 C3 A B Vg; let N := N6 A B Vg; let Z := Z6 C3 A B Vg
       let h := holdup0 Vl ε a; let T := holdup Vl rhol ε a H P; let q := 1 / (H * rhol * g) ^ 2; let E := 2 / 3 - N / F / 6
       let U := ((1 - ε + T) / (1 - ε)) ^ E; let W := (ε / (ε - T)) ^ (4.65:ℝ); let K := rhog * a * ε ^ (-4.65:ℝ) / 48
       .ok ((K * Vg ^ 2 * F * U * W - P / H, 1 / (P ^ 2 * q) - 40 * E * h / (1 - ε + T) - 186 * h / (ε - T)),
        ((K * Vg / 12 * U * W * (24 * F - 6 * N + Z * log ((1 - ε + T) / (1 - ε))),
          K * Vg ^ 2 * F * U * W * (E / (1 - ε + T) + 4.65 / (ε - T)) * (40 * h * q * P) - 1 / H),
         (-(10 / 3 * h * Z / ((1 - ε + T) * Vg * F)),
          -(2 / (P ^ 3 * q)) + 40 * E * h * (40 * h * q * P) / (1 - ε + T) ^ 2 - 186 * h * (40 * h * q * P) / (ε - T) ^ 2)))) := by
  have hε := k.h; have h1 := k.rhog; have h2 := k.mug; have h3 := k.a; have h4 := k.lo; have h5 := k.H; have h6 := k.rhol; have h7 := g_pos
  have hF := F6_pos k hV; have hT0 := k.hT (P := P); have hVl := k.Vl
  have hε' : ε - 1 ≠ 0 := by linarith
  obtain ⟨A, hA⟩ : ∃ A, A = Aof rhog mug ε a C1 := ⟨_, rfl⟩
  obtain ⟨B, hB⟩ : ∃ B, B = Bof rhog mug ε a C2 := ⟨_, rfl⟩
  simp only [← hA, ← hB] at hF ⊢
  have ex20 : C1 * mug * a * (1 / Vg) * (1 / rhog) * (1 / (ε - 1)) = -(A / Vg) := by
    rw [hA]; unfold Aof; rw [show ε - 1 = -(1 - ε) by ring]; field_simp
  have es : √(-(ε - 1) * (Vg * rhog / (mug * a))) = √((1 - ε) * (rhog / (mug * a))) * √Vg := by
    rw [← sqrt_mul (by positivity)]; congr 1; ring
  have es' : √(Vg * rhog / (mug * a) * (1 - ε)) = √((1 - ε) * (rhog / (mug * a))) * √Vg := by
    rw [← sqrt_mul (by positivity)]; congr 1; ring
  have hw : 0 < √((1 - ε) * (rhog / (mug * a))) := sqrt_pos.mpr (by positivity)
  have hsv : 0 < √Vg := sqrt_pos.mpr hV
  have ex23 : √6 * C2 / (√((1 - ε) * (rhog / (mug * a))) * √Vg) = B / √Vg := by rw [hB]; unfold Bof; rw [div_div]
  have eT : ∀ x5 : ℝ, 0.555 * x5 = holdup0 Vl ε a → 0.555 * (x5 * (20 * (1 / (g * g)) * (1 / (rhol * rhol)) * (P * P) * (1 / (H * H)) + 1)) = holdup Vl rhol ε a H P := by
    intro x5 h5; rw [holdup_form k, ← h5]; field_simp; ring
  unfold Stichlmair_flood_f_and_jac
  refine step (pdiv_ok h5.ne') ?_
  refine step (ppow_ok h4) ?_
  refine step (pdiv_ok h7.ne') ?_
  refine step (ppow_ok' (by positivity) (by norm_num)) ?_
  have hx5 : 0.555 * (Vl * Vl * (a * ε ^ (-4.65:ℝ)) / g) ^ (1 / 3:ℝ) = holdup0 Vl ε a := by
    unfold holdup0
    rw [rpow_neg h4.le]
    have := rpow_pos_of_pos h4 4.65
    congr 2; field_simp
  have hx5' : (Vl * Vl * (a * ε ^ (-4.65:ℝ)) / g) ^ (2 / 3:ℝ) = ((Vl * Vl * (a * ε ^ (-4.65:ℝ)) / g) ^ (1 / 3:ℝ)) ^ 2 := by
    rw [← rpow_natCast, ← rpow_mul (by positivity)]; norm_num
  obtain ⟨x5, ex5⟩ : ∃ x, (Vl * Vl * (a * ε ^ (-4.65:ℝ)) / g) ^ (1 / 3:ℝ) = x := ⟨_, rfl⟩
  rw [ex5] at hx5 hx5' ⊢
  have eTx := eT x5 hx5
  refine step (pdiv_ok (by positivity)) ?_
  refine step (pdiv_ok (by positivity)) ?_
  refine step (pdiv_ok (by positivity)) ?_
  set T := holdup Vl rhol ε a H P with hTdef
  have hεT : 0 < ε - T := by linarith
  refine step (x := ε / (ε - T)) (by show ε /ₚ (ε - 0.555 * (x5 * (20 * (1 / (g * g)) * (1 / (rhol * rhol)) * (P * P) * (1 / (H * H)) + 1))) = _; rw [eTx, pdiv_ok hεT.ne']) ?_
  refine step (ppow_ok (by positivity)) ?_
  refine step (pdiv_ok hV.ne') ?_
  refine step (pdiv_ok h1.ne') ?_
  refine step (pdiv_ok hε') ?_
  refine step (pdiv_ok (by positivity)) ?_
  refine step (x := √((1 - ε) * (rhog / (mug * a))) * √Vg)
    (by show psqrt (-(ε - 1) * (Vg * rhog / (mug * a))) = _; rw [psqrt_ok (by rw [neg_sub]; positivity), es]) ?_
  refine step (x := B / √Vg) (by show pdiv (√6 * C2) _ = _; rw [pdiv_ok (by positivity), ex23]) ?_
  refine step (x := 2 * A / Vg) (by
    show 2 * C1 * mug * a * (1 / Vg) * (1 / rhog) /ₚ (1 - ε) = _
    rw [pdiv_ok hε.ne', hA]; unfold Aof; congr 1; field_simp) ?_
  refine step (x := √((1 - ε) * (rhog / (mug * a))) * √Vg)
    (by show psqrt (Vg * rhog / (mug * a) * (1 - ε)) = _; rw [psqrt_ok (by positivity), es']) ?_
  refine step (x := B / √Vg) (by show pdiv (√6 * C2) _ = _; rw [pdiv_ok (by positivity), ex23]) ?_
  have eF : 6 * C3 - C1 * mug * a * (1 / Vg) * (1 / rhog) * (1 / (ε - 1)) + B / √Vg = F6 C3 A B Vg := by rw [ex20]; unfold F6; ring
  refine step (x := 1 / F6 C3 A B Vg) (by
    show pdiv 1 (6 * C3 - C1 * mug * a * (1 / Vg) * (1 / rhog) * (1 / (ε - 1)) + B / √Vg) = _
    rw [eF, pdiv_ok hF.ne']) ?_
  have eX : -(1 / (ε - 1)) * (T + (1 - ε)) = (1 - ε + T) / (1 - ε) := by rw [show ε - 1 = -(1 - ε) by ring]; field_simp; ring
  have hX : 0 < 1 - ε + T := by linarith
  have eE : -(1 / 6) * ((2 * A / Vg + B / √Vg) * (1 / F6 C3 A B Vg)) + 2 / 3 = 2 / 3 - N6 A B Vg / F6 C3 A B Vg / 6 := by unfold N6; ring
  refine step (x := ((1 - ε + T) / (1 - ε)) ^ (2 / 3 - N6 A B Vg / F6 C3 A B Vg / 6)) (by
    show (-(1 / (ε - 1)) * (0.555 * (x5 * (20 * (1 / (g * g)) * (1 / (rhol * rhol)) * (P * P) * (1 / (H * H)) + 1)) + (1 - ε))) ^ₚ
      (-(1 / 6) * ((2 * A / Vg + B / √Vg) * (1 / F6 C3 A B Vg)) + 2 / 3) = _
    rw [eTx, eX, eE, ppow_ok (by positivity)]) ?_
  have e111 : x5 * (20 * (1 / (g * g)) * (1 / (rhol * rhol)) * (P * P) * (1 / (H * H)) + 1) = T / 0.555 := by rw [← eTx]; ring
  have e35 : 200 * ε - 111 * (x5 * (20 * (1 / (g * g)) * (1 / (rhol * rhol)) * (P * P) * (1 / (H * H)) + 1)) = 200 * (ε - T) := by rw [e111]; ring
  have e37 : -(200 * ε) + 111 * (x5 * (20 * (1 / (g * g)) * (1 / (rhol * rhol)) * (P * P) * (1 / (H * H)) + 1)) + 200 = 200 * (1 - ε + T) := by rw [e111]; ring
  refine step (x := 1 / (200 * (ε - T))) (by
    show pdiv 1 (200 * ε - 111 * (x5 * (20 * (1 / (g * g)) * (1 / (rhol * rhol)) * (P * P) * (1 / (H * H)) + 1))) = _
    rw [e35, pdiv_ok (by positivity)]) ?_
  refine step (x := 1 / (200 * (1 - ε + T))) (by
    show pdiv 1 (-(200 * ε) + 111 * (x5 * (20 * (1 / (g * g)) * (1 / (rhol * rhol)) * (P * P) * (1 / (H * H)) + 1)) + 200) = _
    rw [e37, pdiv_ok (by positivity)]) ?_
  refine step (x := x5 ^ 2) (by rw [ppow_ok' (by positivity) (by norm_num), hx5']) ?_
  refine step (pdiv_ok (by positivity)) ?_
  refine step (x := log ((1 - ε + T) / (1 - ε))) (by
    show plog (-(1 / (ε - 1)) * (0.555 * (x5 * (20 * (1 / (g * g)) * (1 / (rhol * rhol)) * (P * P) * (1 / (H * H)) + 1)) + (1 - ε))) = _
    rw [eTx, eX, plog_ok (by positivity)]) ?_
  have eZ : -4 * (-(A / Vg)) + B / √Vg + 1 / F6 C3 A B Vg * (-(B / √Vg) + 2 * (-(A / Vg))) * (B / √Vg - 2 * (-(A / Vg))) = Z6 C3 A B Vg := by
    unfold Z6 N6; ring
  refine step (x := -(10 / 3 * holdup0 Vl ε a * Z6 C3 A B Vg / ((1 - ε + T) * Vg * F6 C3 A B Vg))) (by
    show pdiv (-1.85 * (1 / Vg) * (1 / F6 C3 A B Vg) * (-4 * (C1 * mug * a * (1 / Vg) * (1 / rhog) * (1 / (ε - 1))) + B / √Vg +
      1 / F6 C3 A B Vg * (-(B / √Vg) + 2 * (C1 * mug * a * (1 / Vg) * (1 / rhog) * (1 / (ε - 1)))) * (B / √Vg - 2 * (C1 * mug * a * (1 / Vg) * (1 / rhog) * (1 / (ε - 1))))) * x5)
      (0.555 * (x5 * (20 * (1 / (g * g)) * (1 / (rhol * rhol)) * (P * P) * (1 / (H * H)) + 1)) + (1 - ε)) = _
    rw [ex20, eZ, eTx, add_comm T, pdiv_ok hX.ne', ← hx5]
    congr 1
    generalize F6 C3 A B Vg = F at *; generalize Z6 C3 A B Vg = Z at *
    field_simp; ring) ?_
  refine step (pdiv_ok (by positivity)) ?_
  simp only [Py.pure_eq, ex20, eZ, eF]
  congr 1
  have eN : 2 * A / Vg + B / √Vg = N6 A B Vg := rfl
  have e3 : 144 * C3 - 12 * -(A / Vg) + 18 * (B / √Vg) = 24 * F6 C3 A B Vg - 6 * N6 A B Vg := by unfold F6 N6; ring
  have eF' : 6 * C3 - -(A / Vg) + B / √Vg = F6 C3 A B Vg := by unfold F6; ring
  rw [← hx5]
  simp only [eN, e3, eF']
  clear_value T
  clear hTdef eTx e111 e35 e37 eT ex5 hx5' eE eX e3 eN eF eF' eZ
  generalize ((1 - ε + T) / (1 - ε)) ^ (2 / 3 - N6 A B Vg / F6 C3 A B Vg / 6) = U
  generalize (ε / (ε - T)) ^ (4.65:ℝ) = W
  generalize ε ^ (-4.65:ℝ) = e
  generalize log ((1 - ε + T) / (1 - ε)) = l
  generalize F6 C3 A B Vg = F at *; generalize N6 A B Vg = N; generalize Z6 C3 A B Vg = Z
  generalize ((Const.g : ℚ) : ℝ) = gg at *
  simp only [Prod.mk.injEq, true_and]
  refine ⟨⟨?_, ?_⟩, ⟨?_, ?_⟩, ?_⟩
  · ring
  · field_simp; ring
  · ring
  · field_simp; ring
  · field_simp; ring

/-- C97: the errors handed to the Newton solver are the two published equations, and the matrix handed with them is their Jacobian:
at every gas velocity and pressure drop where the liquid does not fill the bed -/
theorem C97_flood_jacobian (k : Column Vl rhog rhol mug ε a C1 C2 C3 H) (hV : 0 < Vg) (hP : 0 < P) (hh : holdup Vl rhol ε a H P < ε) :
    ∃ J11 J12 J21 J22, Stichlmair_flood_f_and_jac Vg P Vl rhog rhol mug ε a C1 C2 C3 H =
        .ok ((err1 Vl rhog rhol mug ε a C1 C2 C3 H Vg P, err2 Vl rhog rhol mug ε a C1 C2 C3 H Vg P), ((J11, J12), (J21, J22))) ∧
      HasDerivAt (fun v => err1 Vl rhog rhol mug ε a C1 C2 C3 H v P) J11 Vg ∧ HasDerivAt (fun p => err1 Vl rhog rhol mug ε a C1 C2 C3 H Vg p) J12 P ∧
      HasDerivAt (fun v => err2 Vl rhog rhol mug ε a C1 C2 C3 H v P) J21 Vg ∧ HasDerivAt (fun p => err2 Vl rhog rhol mug ε a C1 C2 C3 H Vg p) J22 P := by
  have hε := k.h; have hF := F6_pos k hV; have hT0 := k.hT (P := P)
  have hX : 0 < (1 - ε + holdup Vl rhol ε a H P) / (1 - ε) := by positivity
  have hH := k.H; have hrl := k.rhol; have hg := g_pos
  have near : ∀ᶠ v in nhds Vg, 0 < v := Ioi_mem_nhds hV
  have ev := flood_eval k hV hP hh
  simp only at ev
  refine ⟨_, _, _, _, by rw [err1_form k hV, err2_form k hV]; exact ev, ?_, ?_, ?_, ?_⟩
  · refine HasDerivAt.congr_of_eventuallyEq (hasDeriv_1V hV hF hX (rhog * a * ε ^ (-4.65:ℝ) / 48) ((ε / (ε - holdup Vl rhol ε a H P)) ^ (4.65:ℝ)) (P / H)) ?_
    filter_upwards [near] with v hv
    rw [err1_form k hv]
  · have h := hasDeriv_1P (ε := ε) (h := holdup0 Vl ε a) (q := 1 / (H * rhol * g) ^ 2) (p := P) (H := H)
      (M := rhog * a * ε ^ (-4.65:ℝ) / 48 * Vg ^ 2 * F6 C3 (Aof rhog mug ε a C1) (Bof rhog mug ε a C2) Vg)
      (e := 2 / 3 - N6 (Aof rhog mug ε a C1) (Bof rhog mug ε a C2) Vg / F6 C3 (Aof rhog mug ε a C1) (Bof rhog mug ε a C2) Vg / 6)
      hε k.lo (by rw [← holdup_form k]; positivity) (by rw [← holdup_form k]; linarith)
    simp only [← holdup_form k] at h
    simp only [err1_form k hV]
    exact h
  · refine HasDerivAt.congr_of_eventuallyEq (hasDeriv_2V hV hF (1 / (P ^ 2 * (1 / (H * rhol * g) ^ 2))) (holdup0 Vl ε a) (1 - ε + holdup Vl rhol ε a H P) (186 * holdup0 Vl ε a / (ε - holdup Vl rhol ε a H P))) ?_
    filter_upwards [near] with v hv
    rw [err2_form k hv]
  · have h := hasDeriv_2P (ε := ε) (h := holdup0 Vl ε a) (q := 1 / (H * rhol * g) ^ 2) (p := P)
      (e := 2 / 3 - N6 (Aof rhog mug ε a C1) (Bof rhog mug ε a C2) Vg / F6 C3 (Aof rhog mug ε a C1) (Bof rhog mug ε a C2) Vg / 6)
      (by positivity) hP (by rw [← holdup_form k]; positivity) (by rw [← holdup_form k]; linarith)
    simp only [← holdup_form k] at h
    simp only [err2_form k hV]
    exact h

/-- C97: on the pressure drop curve the flooding condition holds exactly where the first equation loses its slope in the pressure drop, that is where
the pressure drop rises vertically with the gas velocity -/
theorem C97_flood_vertical (k : Column Vl rhog rhol mug ε a C1 C2 C3 H) (hV : 0 < Vg) (hP : 0 < P) (hh : holdup Vl rhol ε a H P < ε)
    (h1 : err1 Vl rhog rhol mug ε a C1 C2 C3 H Vg P = 0) :
    err2 Vl rhog rhol mug ε a C1 C2 C3 H Vg P = 0 ↔ deriv (fun p => err1 Vl rhog rhol mug ε a C1 C2 C3 H Vg p) P = 0 := by
  have hε := k.h; have hT0 := k.hT (P := P)
  have hH := k.H; have hrl := k.rhol; have hg := g_pos
  have h := hasDeriv_1P (ε := ε) (h := holdup0 Vl ε a) (q := 1 / (H * rhol * g) ^ 2) (p := P) (H := H)
      (M := rhog * a * ε ^ (-4.65:ℝ) / 48 * Vg ^ 2 * F6 C3 (Aof rhog mug ε a C1) (Bof rhog mug ε a C2) Vg)
      (e := 2 / 3 - N6 (Aof rhog mug ε a C1) (Bof rhog mug ε a C2) Vg / F6 C3 (Aof rhog mug ε a C1) (Bof rhog mug ε a C2) Vg / 6)
      hε k.lo (by rw [← holdup_form k]; positivity) (by rw [← holdup_form k]; linarith)
  simp only [← holdup_form k] at h
  rw [err1_form k hV, sub_eq_zero] at h1
  rw [h1] at h
  simp only [err1_form k hV]
  rw [h.deriv, err2_form k hV]
  have hq : 0 < 1 / (H * rhol * g) ^ 2 := by positivity
  have hX : 0 < 1 - ε + holdup Vl rhol ε a H P := by positivity
  have hY : 0 < ε - holdup Vl rhol ε a H P := by linarith
  generalize 1 / (H * rhol * g) ^ 2 = q at *
  generalize holdup Vl rhol ε a H P = T at *
  generalize 2 / 3 - N6 (Aof rhog mug ε a C1) (Bof rhog mug ε a C2) Vg / F6 C3 (Aof rhog mug ε a C1) (Bof rhog mug ε a C2) Vg / 6 = e at *
  generalize holdup0 Vl ε a = m at *
  have e : P / H * (e / (1 - ε + T) + 4.65 / (ε - T)) * (40 * m * q * P) - 1 / H =
      -(P ^ 2 * q / H) * (1 / (P ^ 2 * q) - 40 * e * m / (1 - ε + T) - 186 * m / (ε - T)) := by field_simp; ring
  rw [e, mul_eq_zero, or_iff_right (by
    have : 0 < P ^ 2 * q / H := by positivity
    linarith)]

/-- C97: whenever a solver that returns only zeros succeeds, `Stichlmair_flood` returns the gas velocity of a flooding point: some pressure drop solves both equations with it -/
theorem C97_flood {ns : (ℝ × ℝ → Py ((ℝ × ℝ) × ((ℝ × ℝ) × (ℝ × ℝ)))) → ℝ × ℝ → Py (ℝ × ℝ)}
    (hns : ∀ f x0 x, ns f x0 = .ok x → ∃ J, f x = .ok ((0, 0), J)) (k : Column Vl rhog rhol mug ε a C1 C2 C3 H) {v : ℝ}
    (h : Stichlmair_flood ns Vl rhog rhol mug ε a C1 C2 C3 H = .ok v) :
    ∃ p J, Stichlmair_flood_f_and_jac v p Vl rhog rhol mug ε a C1 C2 C3 H = .ok ((0, 0), J) ∧
      (0 < v → 0 < p → holdup Vl rhol ε a H p < ε →
        err1 Vl rhog rhol mug ε a C1 C2 C3 H v p = 0 ∧ err2 Vl rhog rhol mug ε a C1 C2 C3 H v p = 0) := by
  unfold Stichlmair_flood at h
  obtain ⟨x, hx, e⟩ := Py.bind_eq_ok.mp h
  obtain ⟨J, hJ⟩ := hns _ _ _ hx
  have e : x.1 = v := Except.ok.inj e
  subst e
  refine ⟨x.2, J, hJ, fun h1 h2 h3 => ?_⟩
  obtain ⟨a1, a2, a3, a4, hm, -⟩ := C97_flood_jacobian k h1 h2 h3
  have := Except.ok.inj (hJ.symm.trans hm)
  simp only [Prod.mk.injEq] at this
  exact ⟨this.1.1.symm, this.1.2.symm⟩

/-! ### irrigated bed -/

theorem cExp_bounds (k : Column Vl rhog rhol mug ε a C1 C2 C3 H) (hV : 0 < Vg) :
    -1 ≤ cExp C1 C2 C3 (ReG Vg rhog mug ε a) ∧ cExp C1 C2 C3 (ReG Vg rhog mug ε a) ≤ 0 := by
  have hR := k.re hV; have hf := k.f0 hV; have h1 := k.C1; have h2 := k.C2; have h3 := k.C3
  have a1 : 0 ≤ C1 / ReG Vg rhog mug ε a := by positivity
  have hs : 0 < √(ReG Vg rhog mug ε a) := sqrt_pos.mpr hR
  have a2 : 0 ≤ C2 / √(ReG Vg rhog mug ε a) := by positivity
  have e : C2 / (2 * √(ReG Vg rhog mug ε a)) = C2 / √(ReG Vg rhog mug ε a) / 2 := by rw [mul_comm, ← div_div]
  unfold cExp
  constructor
  · rw [le_div_iff₀ hf, e, neg_div]; unfold f0; linarith
  · refine div_nonpos_of_nonpos_of_nonneg ?_ hf.le
    rw [e, neg_div]; linarith

/-- C97: whenever a root finder that returns only zeros succeeds, `Stichlmair_wet` returns a pressure drop that satisfies the published equation
with a liquid holdup below the voidage, and it is at least the dry pressure drop -/
theorem C97_wet {secant : (ℝ → Py ℝ) → ℝ → Py ℝ} (hs : ∀ f x0 x, secant f x0 = .ok x → f x = .ok 0)
    (k : Column Vl rhog rhol mug ε a C1 C2 C3 H) (hV : 0 < Vg)
    (h : Stichlmair_wet secant Vg Vl rhog rhol mug ε a C1 C2 C3 H = .ok P) :
    holdup Vl rhol ε a H P < ε ∧ err1 Vl rhog rhol mug ε a C1 C2 C3 H Vg P = 0 ∧ dryDrop Vg rhog mug ε a C1 C2 C3 H ≤ P := by
  have hε := k.h; have h1 := k.rhog; have h2 := k.mug; have h3 := k.a; have h4 := k.lo; have h5 := k.H; have h6 := k.rhol; have h7 := g_pos
  have hr := k.re hV; have hf := k.f0 hV
  have hsr : 0 < √(ReG Vg rhog mug ε a) := sqrt_pos.mpr hr
  have hp := rpow_pos_of_pos h4 4.65
  have ed : 3 / 4 * f0 C1 C2 C3 (ReG Vg rhog mug ε a) * (1 - ε) / ε ^ (4.65:ℝ) * rhog * H / (6 * (1 - ε) / a) * Vg * Vg = dryDrop Vg rhog mug ε a C1 C2 C3 H := by
    unfold dryDrop; field_simp
  have key : (Stichlmair_wet_err P (holdup0 Vl ε a) (1 / (H * rhol * g) * (1 / (H * rhol * g))) (dryDrop Vg rhog mug ε a C1 C2 C3 H) H ε
      (cExp C1 C2 C3 (ReG Vg rhog mug ε a))) = .ok 0 := by
    refine hs (fun x => Stichlmair_wet_err x (holdup0 Vl ε a) (1 / (H * rhol * g) * (1 / (H * rhol * g))) (dryDrop Vg rhog mug ε a C1 C2 C3 H) H ε
      (cExp C1 C2 C3 (ReG Vg rhog mug ε a))) (dryDrop Vg rhog mug ε a C1 C2 C3 H) P ?_
    rw [← h]
    unfold Stichlmair_wet
    symm
    refine step (pdiv_ok h3.ne') ?_
    refine step (pdiv_ok h2.ne') ?_
    refine step (pdiv_ok hr.ne') ?_
    refine step (psqrt_ok hr.le) ?_
    refine step (pdiv_ok hsr.ne') ?_
    refine step (ppow_ok h4) ?_
    refine step (pdiv_ok hp.ne') ?_
    refine step (pdiv_ok (by positivity)) ?_
    refine step (pdiv_ok hr.ne') ?_
    refine step (psqrt_ok hr.le) ?_
    refine step (pdiv_ok (mul_pos two_pos hsr).ne') ?_
    refine step (pdiv_ok hf.ne') ?_
    refine step (ppow_ok h4) ?_
    refine step (pdiv_ok (by positivity)) ?_
    refine step (ppow_ok' (by positivity) (by norm_num)) ?_
    refine step (pdiv_ok (by positivity)) ?_
    rw [← ed]
    rfl
  have eT : holdup0 Vl ε a * (1 + 20 * P * P * (1 / (H * rhol * g) * (1 / (H * rhol * g)))) = holdup Vl rhol ε a H P := by
    rw [holdup_form k]; ring
  have hT0 := k.hT (P := P)
  obtain ⟨c1, c2⟩ := cExp_bounds k hV
  have hX : 0 < (1 - ε + holdup Vl rhol ε a H P) / (1 - ε) := by positivity
  unfold Stichlmair_wet_err at key
  simp only [eT, pdiv_ok h5.ne', pdiv_ok hε.ne', ppow_ok hX, Py.ok_bind, Py.pure_eq] at key
  rcases lt_trichotomy (holdup Vl rhol ε a H P) ε with hlt | heq | hgt
  · have hY : 0 < ε - holdup Vl rhol ε a H P := by linarith
    rw [pdiv_ok hY.ne', Py.ok_bind, ppow_ok (by positivity), Py.ok_bind] at key
    have key := Except.ok.inj key
    refine ⟨hlt, key, ?_⟩
    have g1 : 1 ≤ ((1 - ε + holdup Vl rhol ε a H P) / (1 - ε)) ^ ((2 + cExp C1 C2 C3 (ReG Vg rhog mug ε a)) / 3) := by
      refine one_le_rpow ?_ (by linarith)
      rw [le_div_iff₀ hε]; linarith
    have g2 : 1 ≤ (ε / (ε - holdup Vl rhol ε a H P)) ^ (4.65:ℝ) := by
      refine one_le_rpow ?_ (by norm_num)
      rw [le_div_iff₀ hY]; linarith
    have hd := (C97_dry k hV).2.1
    have g3 := mul_le_mul g1 g2 zero_le_one (zero_le_one.trans g1)
    rw [sub_eq_zero, eq_div_iff h5.ne'] at key
    have e : dryDrop Vg rhog mug ε a C1 C2 C3 H / H * ((1 - ε + holdup Vl rhol ε a H P) / (1 - ε)) ^ ((2 + cExp C1 C2 C3 (ReG Vg rhog mug ε a)) / 3) *
        (ε / (ε - holdup Vl rhol ε a H P)) ^ (4.65:ℝ) * H = dryDrop Vg rhog mug ε a C1 C2 C3 H *
        (((1 - ε + holdup Vl rhol ε a H P) / (1 - ε)) ^ ((2 + cExp C1 C2 C3 (ReG Vg rhog mug ε a)) / 3) * (ε / (ε - holdup Vl rhol ε a H P)) ^ (4.65:ℝ)) := by
      field_simp
    rw [e] at key
    rw [← key]
    nlinarith
  · rw [heq, sub_self, pdiv_zero, Py.error_bind] at key; cases key
  · exfalso
    have hY : ε - holdup Vl rhol ε a H P < 0 := by linarith
    have hneg : ε / (ε - holdup Vl rhol ε a H P) < 0 := div_neg_of_pos_of_neg h4 hY
    have hni : ¬ ∃ n : ℤ, (n:ℝ) = 4.65 := by
      rintro ⟨n, hn⟩
      have h1 : (4:ℤ) < n := by exact_mod_cast (by rw [hn]; norm_num : (4:ℝ) < n)
      have h2 : n < 5 := by exact_mod_cast (by rw [hn]; norm_num : (n:ℝ) < 5)
      omega
    rw [pdiv_ok hY.ne, Py.ok_bind, show (ε / (ε - holdup Vl rhol ε a H P)) ^ₚ (4.65:ℝ) = .error .complexResult by
      unfold ppow; rw [if_neg (by rintro ⟨h, -⟩; linarith), if_pos ⟨hneg, hni⟩], Py.error_bind] at key
    cases key

/-- C97: without liquid the irrigated pressure drop is the dry one -/
theorem C97_wet_dry {secant : (ℝ → Py ℝ) → ℝ → Py ℝ} (hs : ∀ f x0 x, secant f x0 = .ok x → f x = .ok 0)
    (k : Column 0 rhog rhol mug ε a C1 C2 C3 H) (hV : 0 < Vg)
    (h : Stichlmair_wet secant Vg 0 rhog rhol mug ε a C1 C2 C3 H = .ok P) : P = dryDrop Vg rhog mug ε a C1 C2 C3 H := by
  obtain ⟨-, e, -⟩ := C97_wet hs k hV h
  have h0 : holdup 0 rhol ε a H P = 0 := by
    unfold holdup holdup0
    rw [show (0:ℝ) ^ 2 * a / (g * ε ^ (4.65:ℝ)) = 0 by simp, zero_rpow (by norm_num)]; ring
  have hε := k.h; have h4 := k.lo; have h5 := k.H
  unfold err1 at e
  rw [h0, add_zero, sub_zero, div_self hε.ne', div_self h4.ne', one_rpow, one_rpow] at e
  field_simp at e
  linarith

/-- the example of the documentation: a column of 25 mm Raschig rings -/
example : Column 5e-3 5 1200 5e-5 0.68 260 32 7 1 1 := ⟨by norm_num, by norm_num, by norm_num, by norm_num, by norm_num, by norm_num, by norm_num, by norm_num, by norm_num, by norm_num, by norm_num⟩
/-- its liquid does not fill the bed at a pressure drop of 1000 Pa/m -/
example : holdup 5e-3 1200 0.68 260 1 1000 < 0.68 := by
  have h1 : (0.68:ℝ) ^ (5:ℝ) ≤ 0.68 ^ (4.65:ℝ) := rpow_le_rpow_of_exponent_ge (by norm_num) (by norm_num) (by norm_num)
  have h2 : (0.68:ℝ) ^ (5:ℝ) = 0.68 ^ 5 := by exact_mod_cast rpow_natCast (0.68:ℝ) 5
  have hb : (5e-3:ℝ) ^ 2 * 260 / (g * 0.68 ^ (4.65:ℝ)) ≤ 0.2 ^ 3 := by
    rw [h2] at h1
    have hg : (g:ℝ) = 9.80665 := by unfold Const.g; norm_num
    rw [hg, div_le_iff₀ (by positivity)]
    norm_num at h1 ⊢; linarith
  have h3 := rpow_le_rpow (by have := g_pos; positivity) hb (by norm_num : (0:ℝ) ≤ 1 / 3)
  rw [show ((0.2:ℝ) ^ 3) ^ (1 / 3:ℝ) = 0.2 by rw [← rpow_natCast, ← rpow_mul (by norm_num)]; norm_num] at h3
  unfold holdup holdup0
  have hg : (g:ℝ) = 9.80665 := by unfold Const.g; norm_num
  have h4 : (1:ℝ) + 20 * (1000 / (1 * 1200 * g)) ^ 2 ≤ 2 := by rw [hg]; norm_num
  have h5 : (0:ℝ) ≤ 1 + 20 * (1000 / (1 * 1200 * g)) ^ 2 := by positivity
  nlinarith [mul_le_mul h3 h4 h5 (by norm_num : (0:ℝ) ≤ 0.2)]

end

end Verif.PackedTower
