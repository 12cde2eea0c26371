import Verif.Model.Core
import Verif.Spec.Core

/-! # C01, C02, C03, C78, C79: `fluids/core.py` -/

namespace Verif
open Verif.Core Verif.Spec

section
variable {K : Type _} [Field K] [DecidableEq K]

/-! ### C01 input selection

`f` is any fluid with nonvanishing properties, each optional argument is supplied or not (`given b`), so the theorems
range over every presence pattern. -/

/-- C01: `Reynolds` returns `rho V D/mu` for every sufficient pattern of arguments and ValueError for all others. -/
theorem C01_Reynolds (f : Fluid K) (hf : f.Ok) (V D : K) (r m n : Bool) :
    Reynolds V D (given r f.rho) (given m f.mu) (given n f.nu)
      = if (r && m) || n then .ok (f.rho * V * D / f.mu) else .error .valueError := by
  obtain ⟨h1, h2, h3, h4⟩ := hf
  cases r <;> cases m <;> cases n <;>
    simp [given, Reynolds, Fluid.nu, pdiv_ok h1, pdiv_ok (div_ne_zero h2 h1)] <;> field_simp

/-- C01: `Prandtl` returns `Cp mu/k` for every sufficient pattern and ValueError for all others. -/
theorem C01_Prandtl (f : Fluid K) (hf : f.Ok) (c k m n r a : Bool) :
    Prandtl (given c f.Cp) (given k f.k) (given m f.mu) (given n f.nu) (given r f.rho) (given a f.alpha)
      = if (k && c && m) || (n && r && c && k) || (n && a) then .ok (f.Cp * f.mu / f.k) else .error .valueError := by
  obtain ⟨h1, h2, h3, h4⟩ := hf
  have ha : f.k / (f.rho * f.Cp) ≠ 0 := div_ne_zero h4 (mul_ne_zero h1 h3)
  cases c <;> cases k <;> cases m <;> cases n <;> cases r <;> cases a <;>
    simp [given, Prandtl, Fluid.nu, Fluid.alpha, pdiv_ok h4, pdiv_ok ha] <;> field_simp

/-- C01: `Peclet_heat` -/
theorem C01_Peclet_heat (f : Fluid K) (hf : f.Ok) (V L : K) (r c k a : Bool) :
    Peclet_heat V L (given r f.rho) (given c f.Cp) (given k f.k) (given a f.alpha)
      = if (r && c && k) || a then .ok (V * L * f.rho * f.Cp / f.k) else .error .valueError := by
  obtain ⟨h1, h2, h3, h4⟩ := hf
  have ha : f.k / (f.rho * f.Cp) ≠ 0 := div_ne_zero h4 (mul_ne_zero h1 h3)
  cases r <;> cases c <;> cases k <;> cases a <;>
    simp [given, Peclet_heat, pickAlpha, Fluid.alpha, pdiv_ok (mul_ne_zero h1 h3), pdiv_ok ha] <;> field_simp

/-- C01: `Fourier_heat` -/
theorem C01_Fourier_heat (f : Fluid K) (hf : f.Ok) (t L : K) (hL : L ≠ 0) (r c k a : Bool) :
    Fourier_heat t L (given r f.rho) (given c f.Cp) (given k f.k) (given a f.alpha)
      = if (r && c && k) || a then .ok (t * f.k / (f.rho * f.Cp * L ^ 2)) else .error .valueError := by
  obtain ⟨h1, h2, h3, h4⟩ := hf
  cases r <;> cases c <;> cases k <;> cases a <;>
    simp [given, Fourier_heat, pickAlpha, Fluid.alpha, pdiv_ok (mul_ne_zero h1 h3), pdiv_ok (mul_ne_zero hL hL)] <;>
    field_simp

/-- C01: `Graetz_heat` -/
theorem C01_Graetz_heat (f : Fluid K) (hf : f.Ok) (V D x : K) (hx : x ≠ 0) (r c k a : Bool) :
    Graetz_heat V D x (given r f.rho) (given c f.Cp) (given k f.k) (given a f.alpha)
      = if (r && c && k) || a then .ok (V * D ^ 2 * f.rho * f.Cp / (x * f.k)) else .error .valueError := by
  obtain ⟨h1, h2, h3, h4⟩ := hf
  have ha : x * (f.k / (f.rho * f.Cp)) ≠ 0 := mul_ne_zero hx (div_ne_zero h4 (mul_ne_zero h1 h3))
  cases r <;> cases c <;> cases k <;> cases a <;>
    simp [given, Graetz_heat, pickAlpha, Fluid.alpha, pdiv_ok (mul_ne_zero h1 h3), pdiv_ok ha] <;> field_simp

/-- C01: `Schmidt` -/
theorem C01_Schmidt (f : Fluid K) (hf : f.Ok) (D : K) (hD : D ≠ 0) (m n r : Bool) :
    Schmidt D (given m f.mu) (given n f.nu) (given r f.rho)
      = if (r && m) || n then .ok (f.mu / (f.rho * D)) else .error .valueError := by
  obtain ⟨h1, h2, h3, h4⟩ := hf
  cases r <;> cases m <;> cases n <;>
    simp [given, Schmidt, Fluid.nu, pdiv_ok (mul_ne_zero h1 hD), pdiv_ok hD] <;> field_simp

/-- C01: `Lewis` -/
theorem C01_Lewis (f : Fluid K) (hf : f.Ok) (D : K) (hD : D ≠ 0) (d a c k r : Bool) :
    Lewis (given d D) (given a f.alpha) (given c f.Cp) (given k f.k) (given r f.rho)
      = if d && ((r && c && k) || a) then .ok (f.k / (f.rho * f.Cp * D)) else .error .valueError := by
  obtain ⟨h1, h2, h3, h4⟩ := hf
  cases d <;> cases r <;> cases c <;> cases k <;> cases a <;>
    simp [given, Lewis, Fluid.alpha, pdiv_ok (mul_ne_zero h1 h3), pdiv_ok hD] <;> field_simp

end

/-- C01: `Grashof` (gravity, expansion coefficient and the temperature difference in either order) -/
theorem C01_Grashof (f : Fluid ℝ) (hf : f.Ok) (L beta T1 T2 g : ℝ) (r m n : Bool) :
    Grashof L beta T1 T2 (given r f.rho) (given m f.mu) (given n f.nu) g
      = (if (r && m) || n then .ok (g * beta * |T2 - T1| * L ^ 3 * f.rho ^ 2 / f.mu ^ 2) else .error .valueError) ∧
    Grashof L beta T1 T2 (given r f.rho) (given m f.mu) (given n f.nu) g
      = Grashof L beta T2 T1 (given r f.rho) (given m f.mu) (given n f.nu) g := by
  obtain ⟨h1, h2, h3, h4⟩ := hf
  have hd := div_ne_zero h2 h1
  constructor
  · cases r <;> cases m <;> cases n <;>
      simp [given, Grashof, Fluid.nu, pdiv_ok h1, pdiv_ok (mul_ne_zero hd hd)] <;> field_simp
  · unfold Grashof; rw [abs_sub_comm]

example : (⟨998, 0.001, 4180, 0.6⟩ : Fluid ℝ).Ok := by simp [Fluid.Ok]; norm_num

/-! ### C01 identities -/

/-- C01: Pe = Re Pr, Le = Sc/Pr, Gz = Re Pr D/x, St = Nu/(Re Pr), Ra = Pr Gr, on one fluid state. -/
theorem C01_heat_identities {K : Type _} [Field K] [DecidableEq K] (f : Fluid K) (hf : f.Ok) (V L D x h : K)
    (hD : D ≠ 0) (hx : x ≠ 0) (hV : V ≠ 0) (hL : L ≠ 0) :
    ∃ Re Pr Pe Sc Le Gz St Nu, Reynolds V L (some f.rho) (some f.mu) none = .ok Re ∧
      Prandtl (some f.Cp) (some f.k) (some f.mu) none none none = .ok Pr ∧
      Peclet_heat V L (some f.rho) (some f.Cp) (some f.k) none = .ok Pe ∧
      Schmidt D (some f.mu) none (some f.rho) = .ok Sc ∧
      Lewis (some D) none (some f.Cp) (some f.k) (some f.rho) = .ok Le ∧
      Graetz_heat V L x (some f.rho) (some f.Cp) (some f.k) none = .ok Gz ∧
      Stanton h V f.rho f.Cp = .ok St ∧ Nusselt h L f.k = .ok Nu ∧ Biot h L f.k = .ok Nu ∧
      Pe = Re * Pr ∧ Le = Sc / Pr ∧ Gz = Re * Pr * L / x ∧ St = Nu / (Re * Pr) ∧
      Pr ≠ 0 ∧ Re ≠ 0 := by
  have hR := C01_Reynolds f hf V L true true false
  have hP := C01_Prandtl f hf true true true false false false
  have hPe := C01_Peclet_heat f hf V L true true true false
  have hS := C01_Schmidt f hf D hD true false true
  have hLe := C01_Lewis f hf D hD true false true true true
  have hG := C01_Graetz_heat f hf V L x hx true true true false
  obtain ⟨h1, h2, h3, h4⟩ := hf
  have hq : V * f.rho * f.Cp ≠ 0 := mul_ne_zero (mul_ne_zero hV h1) h3
  refine ⟨_, _, _, _, _, _, _, _, hR, hP, hPe, hS, hLe, hG, pdiv_ok hq, pdiv_ok h4, pdiv_ok h4, ?_, ?_, ?_, ?_, ?_, ?_⟩
  · field_simp
  · field_simp
  · field_simp
  · field_simp
  · exact div_ne_zero (mul_ne_zero h3 h2) h4
  · exact div_ne_zero (mul_ne_zero (mul_ne_zero h1 hV) hL) h2

/-- C01: We = Ca Re, Oh² Su = 1, We = Oh² Re², Ca Re Su = Re², for one liquid, velocity and length. -/
theorem C01_surface_tension_identities (V L rho mu sigma : ℝ) (hL : 0 < L) (hr : 0 < rho) (hm : 0 < mu) (hs : 0 < sigma) :
    ∃ Re We Ca Oh Su, Reynolds V L (some rho) (some mu) none = .ok Re ∧ Weber V L rho sigma = .ok We ∧
      Capillary V mu sigma = .ok Ca ∧ Ohnesorge L rho mu sigma = .ok Oh ∧ Suratman L rho mu sigma = .ok Su ∧
      We = Ca * Re ∧ Oh ^ 2 * Su = 1 ∧ We = Oh ^ 2 * Re ^ 2 ∧ Re ^ 2 = We * Su := by
  have hd : mu / rho ≠ 0 := (div_pos hm hr).ne'
  have hp : 0 < L * rho * sigma := by positivity
  have hsq : √(L * rho * sigma) ≠ 0 := (Real.sqrt_pos.mpr hp).ne'
  have hs2 : √(L * rho * sigma) ^ 2 = L * rho * sigma := Real.sq_sqrt hp.le
  refine ⟨V * L / (mu / rho), _, _, mu / √(L * rho * sigma), _, ?_, pdiv_ok hs.ne', pdiv_ok hs.ne', ?_,
    pdiv_ok (mul_pos hm hm).ne', ?_, ?_, ?_, ?_⟩
  · simp [Reynolds, pdiv_ok hr.ne', pdiv_ok hd]
  · simp [Ohnesorge, psqrt_ok hp.le, pdiv_ok hsq]
  · field_simp
  · rw [div_pow, hs2]; field_simp
  · rw [div_pow, hs2]; field_simp
  · field_simp

/-- C01: `Froude(squared=True)` is the square of `Froude`; the Confinement number is the inverse square root of the Bond
number; the densimetric Froude number is the Froude number scaled by the density ratio. -/
theorem C01_gravity_identities (V L rho1 rho2 sigma : ℝ) (hL : 0 < L) (hr : rho2 < rho1) (h2 : 0 < rho2) (hs : 0 < sigma) :
    ∃ Fr Co Bo Fd Fd', Froude V L g0 false = .ok Fr ∧ Froude V L g0 true = .ok (Fr ^ 2) ∧
      Confinement L rho1 rho2 sigma g0 = .ok Co ∧ Bond rho1 rho2 sigma L = .ok Bo ∧
      Froude_densimetric V L rho1 rho2 true g0 = .ok Fd ∧ Froude_densimetric V L rho1 rho2 false g0 = .ok Fd' ∧
      Fr ^ 2 = V ^ 2 / (g0 * L) ∧ Co ^ 2 * Bo = 1 ∧ Fd ^ 2 = Fr ^ 2 * rho1 / (rho1 - rho2) ∧
      Fd' ^ 2 = Fr ^ 2 * rho2 / (rho1 - rho2) := by
  have hg : (0 : ℝ) < g0 := by norm_num [g0]
  have hBo : Bond rho1 rho2 sigma L = .ok (g0 * (rho1 - rho2) * L * L / sigma) := pdiv_ok hs.ne'
  rw [hBo]
  generalize (g0 : ℝ) = g at hg ⊢
  have hd : 0 < rho1 - rho2 := sub_pos.mpr hr
  have h1 : 0 < L * g := by positivity
  have h1' : 0 < g * L := by positivity
  have n1 : √(L * g) ≠ 0 := (Real.sqrt_pos.mpr h1).ne'
  have n1' : √(g * L) ≠ 0 := (Real.sqrt_pos.mpr h1').ne'
  have e1 : √(L * g) ^ 2 = L * g := Real.sq_sqrt h1.le
  have e1' : √(g * L) ^ 2 = g * L := Real.sq_sqrt h1'.le
  have h3 : 0 < g * (rho1 - rho2) := by positivity
  have h4 : 0 < sigma / (g * (rho1 - rho2)) := by positivity
  have e4 : √(sigma / (g * (rho1 - rho2))) ^ 2 = _ := Real.sq_sqrt h4.le
  have h5 : 0 < rho1 / (rho1 - rho2) := div_pos (by linarith) hd
  have h6 : 0 < rho2 / (rho1 - rho2) := div_pos h2 hd
  have e5 : √(rho1 / (rho1 - rho2)) ^ 2 = _ := Real.sq_sqrt h5.le
  have e6 : √(rho2 / (rho1 - rho2)) ^ 2 = _ := Real.sq_sqrt h6.le
  refine ⟨V / √(L * g), √(sigma / (g * (rho1 - rho2))) / L, _, V / √(g * L) * √(rho1 / (rho1 - rho2)),
    V / √(g * L) * √(rho2 / (rho1 - rho2)), ?_, ?_, ?_, rfl, ?_, ?_, ?_, ?_, ?_, ?_⟩
  · simp [Froude, psqrt_ok h1.le, pdiv_ok n1]
  · simp [Froude, psqrt_ok h1.le, pdiv_ok n1, sq]
  · simp [Confinement, pdiv_ok h3.ne', psqrt_ok h4.le, pdiv_ok hL.ne']
  · simp [Froude_densimetric, psqrt_ok h1'.le, pdiv_ok n1', pdiv_ok hd.ne', psqrt_ok h5.le]
  · simp [Froude_densimetric, psqrt_ok h1'.le, pdiv_ok n1', pdiv_ok hd.ne', psqrt_ok h6.le]
  · rw [div_pow, e1, mul_comm L g]
  · rw [div_pow, e4]; field_simp
  · rw [mul_pow, div_pow, div_pow, e1, e1', e5]; field_simp
  · rw [mul_pow, div_pow, div_pow, e1, e1', e6]; field_simp

example : (0 : ℝ) < 0.05 ∧ (1.2 : ℝ) < 998 ∧ (0 : ℝ) < 1.2 ∧ (0 : ℝ) < 0.072 := by norm_num

/-- C01: the Hagen number is the Reynolds number squared times half the Darcy friction factor, the Euler number is half
the ratio of pressure drop to velocity head, and the drag/cavitation numbers are based on the velocity head. -/
theorem C01_pressure_identities (fd rho V D mu L dP Psat A : ℝ) (hr : rho ≠ 0) (hV : V ≠ 0) (hm : mu ≠ 0)
    (hA : A ≠ 0) :
    ∃ Re Eu Ca Cd, Reynolds V D (some rho) (some mu) none = .ok Re ∧ Euler dP rho V = .ok Eu ∧
      Cavitation dP Psat rho V = .ok Ca ∧ Drag (dP * A) A V rho = .ok Cd ∧
      Hagen Re fd = 1 / 2 * fd * (rho * V * D / mu) ^ 2 ∧ dP_from_K (2 * Eu) rho V = dP ∧
      dP_from_K Ca rho V = dP - Psat ∧ Cd = 2 * Eu := by
  have hd : mu / rho ≠ 0 := div_ne_zero hm hr
  have h1 : rho * V * V ≠ 0 := mul_ne_zero (mul_ne_zero hr hV) hV
  have h2 : 1 / 2 * rho * V * V ≠ 0 := mul_ne_zero (mul_ne_zero (mul_ne_zero (by norm_num) hr) hV) hV
  have h3 : 1 / 2 * A * rho * V * V ≠ 0 :=
    mul_ne_zero (mul_ne_zero (mul_ne_zero (mul_ne_zero (by norm_num) hA) hr) hV) hV
  refine ⟨V * D / (mu / rho), _, _, _, by simp [Reynolds, pdiv_ok hr, pdiv_ok hd], pdiv_ok h1, pdiv_ok h2, pdiv_ok h3, ?_,
    ?_, ?_, ?_⟩
  · unfold Hagen; field_simp
  · unfold dP_from_K; field_simp
  · unfold dP_from_K; field_simp
  · field_simp

/-! ### C02 -/

/-- the library function converting from one scale to another -/
noncomputable def convertT : Scale → Scale → ℝ → ℝ
  | .C, .K => C2K | .C, .F => C2F | .C, .R => C2R
  | .K, .C => K2C | .K, .F => K2F | .K, .R => K2R
  | .F, .C => F2C | .F, .K => F2K | .F, .R => F2R
  | .R, .C => R2C | .R, .K => R2K | .R, .F => R2F
  | .C, .C => id | .K, .K => id | .F, .F => id | .R, .R => id

/-- C02: each conversion returns the reading that names the same absolute temperature, so reverse conversions invert
each other and any path of conversions gives the direct result. -/
theorem C02_conversion (a b c : Scale) (x : ℝ) :
    (∀ y, y = convertT a b x ↔ b.toKelvin y = a.toKelvin x) ∧
    convertT b a (convertT a b x) = x ∧ convertT b c (convertT a b x) = convertT a c x := by
  refine ⟨fun y => ⟨?_, ?_⟩, ?_, ?_⟩
  · rintro rfl
    cases a <;> cases b <;> simp only [convertT, Scale.toKelvin, C2K, C2F, C2R, K2C, K2F, K2R, F2C, F2K, F2R, R2C, R2K,
      R2F, zero_Celsius, id] <;> ring
  · intro h
    cases a <;> cases b <;> simp only [convertT, Scale.toKelvin, C2K, C2F, C2R, K2C, K2F, K2R, F2C, F2K, F2R, R2C, R2K,
      R2F, zero_Celsius, id] at * <;> linarith
  · cases a <;> cases b <;> simp only [convertT, C2K, C2F, C2R, K2C, K2F, K2R, F2C, F2K, F2R, R2C, R2K,
      R2F, zero_Celsius, id] <;> ring
  · cases a <;> cases b <;> cases c <;> simp only [convertT, C2K, C2F, C2R, K2C, K2F, K2R, F2C, F2K, F2R, R2C, R2K,
      R2F, zero_Celsius, id] <;> ring

/-- C02 anchors: ice point and steam point. -/
theorem C02_fixed_points : convertT .C .F 0 = 32 ∧ convertT .C .F 100 = 212 ∧ convertT .C .K 0 = 273.15 ∧
    convertT .K .R 273.15 = 491.67 := by
  norm_num [convertT, C2F, C2K, K2R, zero_Celsius]

/-! ### C03 -/

section
variable {K : Type _} [Field K] [DecidableEq K]

/-- C03: friction factor, length and loss coefficient conversions invert each other. -/
theorem C03_loss_round_trip (fd L D Kl : K) (hf : fd ≠ 0) (hL : L ≠ 0) (hD : D ≠ 0) :
    (do f_from_K (← K_from_f fd L D) L D) = .ok fd ∧ (do K_from_f (← f_from_K Kl L D) L D) = .ok Kl ∧
    (do L_from_K (← K_from_f fd L D) D fd) = .ok L ∧ (do K_from_f fd (← L_from_K Kl D fd) D) = .ok Kl ∧
    L_equiv_from_K (K_from_L_equiv L fd) fd = .ok L ∧
    (do return K_from_L_equiv (← L_equiv_from_K Kl fd) fd) = .ok Kl ∧
    (do return (← L_equiv_from_K Kl fd) * D) = L_from_K Kl D fd := by
  simp only [f_from_K, K_from_f, L_from_K, L_equiv_from_K, K_from_L_equiv, pdiv_ok hf, pdiv_ok hL, pdiv_ok hD, Py.ok_bind,
    Py.pure_eq, Except.ok.injEq]
  refine ⟨?_, ?_, ?_, ?_, ?_, ?_, ?_⟩ <;> field_simp

/-- C03: pressure and head conversions invert each other and the head loss of a fitting corresponds to its pressure
loss. -/
theorem C03_head_pressure (Kl P head rho V g : K) (hr : rho ≠ 0) (hg : g ≠ 0) :
    head_from_P (P_from_head head rho g) rho g = .ok head ∧ (do return P_from_head (← head_from_P P rho g) rho g) = .ok P ∧
    head_from_P (dP_from_K Kl rho V) rho g = head_from_K Kl V g ∧
    (do return P_from_head (← head_from_K Kl V g) rho g) = .ok (dP_from_K Kl rho V) := by
  simp only [head_from_P, P_from_head, head_from_K, dP_from_K, pdiv_ok hr, pdiv_ok hg, Py.ok_bind, Py.pure_eq,
    Except.ok.injEq]
  refine ⟨?_, ?_, ?_, ?_⟩ <;> field_simp

/-- C03: `nu_mu_converter` returns the other viscosity, round-trips, and raises ValueError unless exactly one viscosity is
supplied (for every density). -/
theorem C03_nu_mu (rho mu nu : K) :
    (rho ≠ 0 → nu_mu_converter rho (some mu) none = .ok (mu / rho) ∧
      (do nu_mu_converter rho none (some (← nu_mu_converter rho (some mu) none))) = .ok mu ∧
      (do nu_mu_converter rho (some (← nu_mu_converter rho none (some nu))) none) = .ok nu) ∧
    nu_mu_converter rho none none = .error .valueError ∧
    nu_mu_converter rho (some mu) (some nu) = .error .valueError := by
  refine ⟨fun hr => ?_, rfl, rfl⟩
  simp only [nu_mu_converter, pdiv_ok hr, Py.ok_bind, Except.ok.injEq]
  refine ⟨trivial, ?_, ?_⟩ <;> field_simp

end

example : (do f_from_K (← K_from_f (2 : ℚ) 3 5) 3 5) = .ok 2 := by decide +kernel

/-! ### C78 unit invariance -/

private theorem pdiv_scale {K : Type _} [Field K] [DecidableEq K] {a b a' b' : K} (c : K) (hc : c ≠ 0) (ha : a' = c * a) (hb : b' = c * b) :
    a' /ₚ b' = a /ₚ b := by
  subst ha hb
  by_cases h : b = 0
  · simp [h]
  · rw [pdiv_ok h, pdiv_ok (mul_ne_zero hc h), mul_div_mul_left _ _ hc]

/-- the effect of rescaling on an intermediate quotient -/
private theorem pdiv_scale' (c e a b : ℝ) (he : e ≠ 0) {β : Type} (g : ℝ → Py β) :
    ((c * a) /ₚ (e * b) >>= g) = (a /ₚ b >>= fun q => g (c / e * q)) := by
  by_cases h : b = 0
  · simp [h]
  · simp only [pdiv_ok h, pdiv_ok (mul_ne_zero he h), Py.ok_bind]; congr 1; field_simp

private theorem psqrt_scale (c a : ℝ) (hc : 0 < c) {β : Type} (g : ℝ → Py β) :
    (psqrt (c ^ 2 * a) >>= g) = (psqrt a >>= fun q => g (c * q)) := by
  by_cases h : a < 0
  · have : c ^ 2 * a < 0 := by have := pow_pos hc 2; nlinarith
    simp [psqrt, h, this]
  · have h' := not_lt.mp h
    have : 0 ≤ c ^ 2 * a := by positivity
    rw [psqrt_ok h', psqrt_ok this, Real.sqrt_mul (by positivity), Real.sqrt_sq hc.le]; rfl

variable (u : Units)
open Units

/-- C78: a dimensionless group has the same value (or raises the same error) in every consistent system of units:
momentum groups. -/
theorem C78_momentum (V D L rho mu sigma dP Psat f N P F A Dp rhop roughness path c : ℝ) (rho' mu' nu' : Option ℝ) :
    Reynolds (u.vel * V) (u.l * D) (rho'.map (u.density * ·)) (mu'.map (u.visc * ·)) (nu'.map (u.diff * ·))
      = Reynolds V D rho' mu' nu' ∧
    Weber (u.vel * V) (u.l * L) (u.density * rho) (u.tension * sigma) = Weber V L rho sigma ∧
    Mach (u.vel * V) (u.vel * c) = Mach V c ∧
    Knudsen (u.l * path) (u.l * L) = Knudsen path L ∧
    Strouhal (f / u.t) (u.l * L) (u.vel * V) = Strouhal f L V ∧
    Euler (u.press * dP) (u.density * rho) (u.vel * V) = Euler dP rho V ∧
    Cavitation (u.press * dP) (u.press * Psat) (u.density * rho) (u.vel * V) = Cavitation dP Psat rho V ∧
    Power_number (u.power * P) (u.l * L) (N / u.t) (u.density * rho) = Power_number P L N rho ∧
    Drag (u.force * F) (u.area * A) (u.vel * V) (u.density * rho) = Drag F A V rho ∧
    Stokes_number (u.vel * V) (u.l * Dp) (u.l * D) (u.density * rhop) (u.visc * mu) = Stokes_number V Dp D rhop mu ∧
    Capillary (u.vel * V) (u.visc * mu) (u.tension * sigma) = Capillary V mu sigma ∧
    Suratman (u.l * L) (u.density * rho) (u.visc * mu) (u.tension * sigma) = Suratman L rho mu sigma ∧
    relative_roughness (u.l * D) (u.l * roughness) = relative_roughness D roughness := by
  have hl := u.hl.ne'
  have hm := u.hm.ne'
  have ht := u.ht.ne'
  have hd : u.density ≠ 0 := by unfold density; positivity
  refine ⟨?_, ?_, ?_, ?_, ?_, ?_, ?_, ?_, ?_, ?_, ?_, ?_, ?_⟩
  · rcases rho' with _ | r <;> rcases mu' with _ | m <;> rcases nu' with _ | n <;>
      simp only [Option.map_none, Option.map_some, Reynolds, pdiv_scale' _ _ _ _ hd]
    all_goals try (refine pdiv_scale u.diff (by unfold diff; positivity) ?_ ?_ <;>
      simp only [vel, diff] <;> field_simp)
    all_goals
      congr 1; funext q
      refine pdiv_scale u.diff (by unfold diff; positivity) ?_ ?_ <;>
        simp only [vel, diff, visc, density] <;> field_simp
  · refine pdiv_scale u.tension (by unfold tension; positivity) ?_ rfl
    simp only [vel, density, tension]; field_simp
  · exact pdiv_scale u.vel (by unfold vel; positivity) rfl rfl
  · exact pdiv_scale u.l hl rfl rfl
  · refine pdiv_scale u.vel (by unfold vel; positivity) ?_ rfl
    simp only [vel]; field_simp
  · refine pdiv_scale u.press (by unfold press; positivity) rfl ?_
    simp only [vel, density, press]; field_simp
  · refine pdiv_scale u.press (by unfold press; positivity) ?_ ?_ <;> simp only [vel, density, press] <;> field_simp
  · refine pdiv_scale u.power (by unfold power; positivity) rfl ?_
    simp only [density, power]; field_simp
  · refine pdiv_scale u.force (by unfold force; positivity) rfl ?_
    simp only [density, force, area, vel]; field_simp
  · refine pdiv_scale (u.visc * u.l) (by unfold visc; positivity) ?_ ?_ <;> simp only [vel, density, visc] <;> field_simp
  · refine pdiv_scale u.tension (by unfold tension; positivity) ?_ rfl
    simp only [vel, visc, tension]; field_simp
  · refine pdiv_scale (u.visc ^ 2) (by unfold visc; positivity) ?_ ?_ <;> simp only [density, visc, tension] <;> field_simp
  · exact pdiv_scale u.l hl rfl rfl

/-- C78: heat and mass transfer groups. -/
theorem C78_heat_mass (V L D x t h h' G q Hvap Te dT Kc dP mu alpha Kp : ℝ) (Cp k mu' nu rho a D' : Option ℝ) (rho0 Cp0 k0 : ℝ) :
    Prandtl (Cp.map (u.heatCap * ·)) (k.map (u.thermCond * ·)) (mu'.map (u.visc * ·)) (nu.map (u.diff * ·))
      (rho.map (u.density * ·)) (a.map (u.diff * ·)) = Prandtl Cp k mu' nu rho a ∧
    Peclet_heat (u.vel * V) (u.l * L) (rho.map (u.density * ·)) (Cp.map (u.heatCap * ·)) (k.map (u.thermCond * ·))
      (a.map (u.diff * ·)) = Peclet_heat V L rho Cp k a ∧
    Peclet_mass (u.vel * V) (u.l * L) (u.diff * D) = Peclet_mass V L D ∧
    Fourier_heat (u.t * t) (u.l * L) (rho.map (u.density * ·)) (Cp.map (u.heatCap * ·)) (k.map (u.thermCond * ·))
      (a.map (u.diff * ·)) = Fourier_heat t L rho Cp k a ∧
    Fourier_mass (u.t * t) (u.l * L) (u.diff * D) = Fourier_mass t L D ∧
    Graetz_heat (u.vel * V) (u.l * D) (u.l * x) (rho.map (u.density * ·)) (Cp.map (u.heatCap * ·)) (k.map (u.thermCond * ·))
      (a.map (u.diff * ·)) = Graetz_heat V D x rho Cp k a ∧
    Schmidt (u.diff * D) (mu'.map (u.visc * ·)) (nu.map (u.diff * ·)) (rho.map (u.density * ·)) = Schmidt D mu' nu rho ∧
    Lewis (D'.map (u.diff * ·)) (a.map (u.diff * ·)) (Cp.map (u.heatCap * ·)) (k.map (u.thermCond * ·))
      (rho.map (u.density * ·)) = Lewis D' a Cp k rho ∧
    Nusselt (u.htc * h) (u.l * L) (u.thermCond * k0) = Nusselt h L k0 ∧
    Biot (u.htc * h) (u.l * L) (u.thermCond * k0) = Biot h L k0 ∧
    Sherwood (u.vel * Kc) (u.l * L) (u.diff * D) = Sherwood Kc L D ∧
    Stanton (u.htc * h) (u.vel * V) (u.density * rho0) (u.heatCap * Cp0) = Stanton h V rho0 Cp0 ∧
    Eckert (u.vel * V) (u.heatCap * Cp0) (u.θ * dT) = Eckert V Cp0 dT ∧
    Jakob (u.heatCap * Cp0) (u.energyMass * Hvap) (u.θ * Te) = Jakob Cp0 Hvap Te ∧
    Bejan_L (u.press * dP) (u.l * L) (u.visc * mu) (u.diff * alpha) = Bejan_L dP L mu alpha ∧
    Bejan_p (u.press * dP) (u.area * Kp) (u.visc * mu) (u.diff * alpha) = Bejan_p dP Kp mu alpha ∧
    Boiling (u.massFlux * G) (u.flux * q) (u.energyMass * Hvap) = Boiling G q Hvap := by
  have hl := u.hl.ne'
  have hm := u.hm.ne'
  have ht := u.ht.ne'
  have hθ := u.hθ.ne'
  have pl := u.hl
  have pm := u.hm
  have pt := u.ht
  have pθ := u.hθ
  have hdiff : u.diff ≠ 0 := by unfold diff; positivity
  have hcond : u.thermCond ≠ 0 := by unfold thermCond; positivity
  have hα : ∀ (rho Cp k a : Option ℝ) {β : Type} (g : ℝ → Py β), (pickAlpha (rho.map (u.density * ·)) (Cp.map (u.heatCap * ·)) (k.map (u.thermCond * ·))
      (a.map (u.diff * ·)) >>= g) = (pickAlpha rho Cp k a >>= fun q => g (u.diff * q)) := by
    intro rho Cp k a β g
    have key : ∀ r c k : ℝ, (u.thermCond * k /ₚ (u.density * r * (u.heatCap * c)) >>= g)
        = (k /ₚ (r * c) >>= fun q => g (u.diff * q)) := by
      intro r c k
      have e : u.density * r * (u.heatCap * c) = (u.density * u.heatCap) * (r * c) := by ring
      rw [e, pdiv_scale' _ _ _ _ (by unfold density heatCap; positivity)]
      have : u.thermCond / (u.density * u.heatCap) = u.diff := by
        simp only [thermCond, density, heatCap, diff]; field_simp
      rw [this]
    rcases rho with _ | r <;> rcases Cp with _ | c <;> rcases k with _ | k <;> rcases a with _ | a <;>
      simp only [Option.map_none, Option.map_some, pickAlpha, Py.ok_bind, Py.error_bind, key]
  refine ⟨?_, ?_, ?_, ?_, ?_, ?_, ?_, ?_, ?_, ?_, ?_, ?_, ?_, ?_, ?_, ?_, ?_⟩
  · rcases Cp with _ | c <;> rcases k with _ | k <;> rcases mu' with _ | m <;> rcases nu with _ | n <;>
      rcases rho with _ | r <;> rcases a with _ | a <;> simp only [Option.map_none, Option.map_some, Prandtl]
    all_goals first
      | (exact pdiv_scale u.diff hdiff rfl rfl)
      | (refine pdiv_scale u.thermCond hcond ?_ rfl; simp only [thermCond, heatCap, visc, diff, density]; field_simp)
  · unfold Peclet_heat; rw [hα]; congr 1; funext q
    refine pdiv_scale u.diff hdiff ?_ rfl; simp only [vel, diff]; field_simp
  · refine pdiv_scale u.diff hdiff ?_ rfl; simp only [vel, diff]; field_simp
  · unfold Fourier_heat; rw [hα]; congr 1; funext q
    refine pdiv_scale (u.l ^ 2) (by positivity) ?_ ?_ <;> (try simp only [diff]) <;> field_simp
  · refine pdiv_scale (u.l ^ 2) (by positivity) ?_ ?_ <;> (try simp only [diff]) <;> field_simp
  · unfold Graetz_heat; rw [hα]; congr 1; funext q
    refine pdiv_scale (u.l * u.diff) (mul_ne_zero hl hdiff) ?_ ?_ <;> simp only [vel, diff] <;> field_simp
  · rcases mu' with _ | m <;> rcases nu with _ | n <;> rcases rho with _ | r <;>
      simp only [Option.map_none, Option.map_some, Schmidt]
    all_goals first
      | (exact pdiv_scale u.diff hdiff rfl rfl)
      | (refine pdiv_scale u.visc (by unfold visc; positivity) rfl ?_; simp only [visc, diff, density]; field_simp)
  · rcases D' with _ | D'
    · rfl
    · have : ∀ (D : ℝ) (a Cp k rho : Option ℝ), Lewis (some D) a Cp k rho = (pickAlpha rho Cp k a >>= fun al => al /ₚ D) := by
        intro D a Cp k rho
        rcases rho with _ | r <;> rcases Cp with _ | c <;> rcases k with _ | k <;> rcases a with _ | a <;> rfl
      rw [Option.map_some, this, this, hα]; congr 1; funext q
      exact pdiv_scale u.diff hdiff rfl rfl
  · refine pdiv_scale u.thermCond hcond ?_ rfl; simp only [htc, thermCond]; field_simp
  · refine pdiv_scale u.thermCond hcond ?_ rfl; simp only [htc, thermCond]; field_simp
  · refine pdiv_scale u.diff hdiff ?_ rfl; simp only [vel, diff]; field_simp
  · refine pdiv_scale u.htc (by unfold htc; positivity) rfl ?_; simp only [vel, htc, density, heatCap]; field_simp
  · refine pdiv_scale u.energyMass (by unfold energyMass; positivity) ?_ ?_ <;> simp only [vel, energyMass, heatCap] <;> field_simp
  · refine pdiv_scale u.energyMass (by unfold energyMass; positivity) ?_ rfl; simp only [energyMass, heatCap]; field_simp
  · refine pdiv_scale (u.diff * u.visc) (by unfold diff visc; positivity) ?_ ?_ <;> simp only [press, visc, diff] <;> field_simp
  · refine pdiv_scale (u.diff * u.visc) (by unfold diff visc; positivity) ?_ ?_ <;> simp only [press, visc, diff, area] <;> field_simp
  · refine pdiv_scale u.flux (by unfold flux; positivity) rfl ?_; simp only [flux, massFlux, energyMass]; field_simp

/-- C78: groups containing gravity (passed explicitly) and square roots. -/
theorem C78_gravity (V L beta T1 T2 rhol rhog mul sigma g mu rhof rhop Re Di D rho : ℝ) (heavy sq : Bool)
    (rho' mu' nu' : Option ℝ) :
    Grashof (u.l * L) (beta / u.θ) (u.θ * T1) (u.θ * T2) (rho'.map (u.density * ·)) (mu'.map (u.visc * ·))
      (nu'.map (u.diff * ·)) (u.accel * g) = Grashof L beta T1 T2 rho' mu' nu' g ∧
    Morton (u.density * rhol) (u.density * rhog) (u.visc * mul) (u.tension * sigma) (u.accel * g)
      = Morton rhol rhog mul sigma g ∧
    Archimedes (u.l * L) (u.density * rhof) (u.density * rhop) (u.visc * mu) (u.accel * g)
      = Archimedes L rhof rhop mu g ∧
    Froude (u.vel * V) (u.l * L) (u.accel * g) sq = Froude V L g sq ∧
    Froude_densimetric (u.vel * V) (u.l * L) (u.density * rhol) (u.density * rhog) heavy (u.accel * g)
      = Froude_densimetric V L rhol rhog heavy g ∧
    Confinement (u.l * D) (u.density * rhol) (u.density * rhog) (u.tension * sigma) (u.accel * g)
      = Confinement D rhol rhog sigma g ∧
    Ohnesorge (u.l * L) (u.density * rho) (u.visc * mu) (u.tension * sigma) = Ohnesorge L rho mu sigma ∧
    Dean Re (u.l * Di) (u.l * D) = Dean Re Di D := by
  have hl := u.hl.ne'
  have hm := u.hm.ne'
  have ht := u.ht.ne'
  have hθ := u.hθ.ne'
  have pl := u.hl
  have pm := u.hm
  have pt := u.ht
  have pθ := u.hθ
  have hd : u.density ≠ 0 := by unfold density; positivity
  have hv : u.vel ≠ 0 := by unfold vel; positivity
  have hv' : 0 < u.vel := by unfold vel; positivity
  have hdiff : u.diff ^ 2 ≠ 0 := by unfold diff; positivity
  have hT : |u.θ * T2 - u.θ * T1| = u.θ * |T2 - T1| := by
    rw [← mul_sub, abs_mul, abs_of_pos pθ]
  refine ⟨?_, ?_, ?_, ?_, ?_, ?_, ?_, ?_⟩
  · rcases rho' with _ | r <;> rcases mu' with _ | m <;> rcases nu' with _ | n <;>
      simp only [Option.map_none, Option.map_some, Grashof, pdiv_scale' _ _ _ _ hd, hT]
    all_goals try (refine pdiv_scale (u.diff ^ 2) hdiff ?_ ?_ <;> simp only [accel, diff] <;> field_simp)
    all_goals
      congr 1; funext q
      refine pdiv_scale (u.diff ^ 2) hdiff ?_ ?_ <;> simp only [accel, diff, visc, density] <;> field_simp
  · refine pdiv_scale (u.density ^ 2 * u.tension ^ 3) (by unfold density tension; positivity) ?_ ?_ <;>
      simp only [accel, visc, density, tension] <;> field_simp
  · refine pdiv_scale (u.visc ^ 2) (by unfold visc; positivity) ?_ ?_ <;>
      simp only [accel, visc, density] <;> field_simp
  · unfold Froude
    rw [show u.l * L * (u.accel * g) = u.vel ^ 2 * (L * g) by simp only [accel, vel]; field_simp, psqrt_scale _ _ hv']
    congr 1; funext q
    rw [pdiv_scale u.vel hv rfl rfl]
  · unfold Froude_densimetric
    rw [show u.accel * g * (u.l * L) = u.vel ^ 2 * (g * L) by simp only [accel, vel]; field_simp, psqrt_scale _ _ hv']
    congr 1; funext q
    rw [pdiv_scale u.vel hv rfl rfl]
    congr 1; funext q2
    cases heavy <;>
      simp only [if_true, if_false, Bool.false_eq_true, pdiv_scale u.density hd rfl (show u.density * rhol - u.density * rhog
        = u.density * (rhol - rhog) by ring)]
  · unfold Confinement
    have e : u.accel * g * (u.density * rhol - u.density * rhog) = (u.accel * u.density) * (g * (rhol - rhog)) := by ring
    rw [e, pdiv_scale' _ _ _ _ (by unfold accel density; positivity)]
    congr 1; funext q
    rw [show u.tension / (u.accel * u.density) * q = u.l ^ 2 * q by
      simp only [accel, density, tension]; field_simp, psqrt_scale _ _ pl]
    congr 1; funext q2
    exact pdiv_scale u.l hl rfl rfl
  · unfold Ohnesorge
    rw [show u.l * L * (u.density * rho) * (u.tension * sigma) = u.visc ^ 2 * (L * rho * sigma) by
      simp only [visc, density, tension]; field_simp, psqrt_scale _ _ (by unfold visc; positivity)]
    congr 1; funext q2
    exact pdiv_scale u.visc (by unfold visc; positivity) rfl rfl
  · unfold Dean
    rw [pdiv_scale u.l hl rfl rfl]

/-- a genuine change of units: SI to US customary (feet, pounds, hours, Rankine) -/
noncomputable example : Units := ⟨1 / 0.3048, 1 / 0.45359237, 1 / 3600, 9 / 5, by norm_num, by norm_num, by norm_num, by norm_num⟩

/-! ### C79 Engauge export parser -/

/-- how a plot digitiser writes curves: a header row carrying the curve's z, its points, a blank line -/
def exportCurves {α : Type} (cs : List (α × α × List (α × α))) : List (ELine α) :=
  cs.flatMap fun c => .row c.1 c.2.1 :: (c.2.2.map fun p => .row p.1 p.2) ++ [.blank]

private theorem efold_points {α : Type} (ps : List (α × α)) (s : EState α) (h : s.new_curve = false) :
    (ps.map fun p => ELine.row p.1 p.2).foldl estep s
      = { s with working_xs := s.working_xs ++ ps.map (·.1), working_ys := s.working_ys ++ ps.map (·.2) } := by
  induction ps generalizing s with
  | nil => simp
  | cons p ps ih =>
    simp only [List.map_cons, List.foldl_cons]
    rw [ih _ (by simp [estep, h])]
    simp [estep, h]

private theorem efold_curves {α : Type} (cs : List (α × α × List (α × α))) (hne : ∀ c ∈ cs, c.2.2 ≠ []) (s : EState α)
    (hn : s.new_curve = true) (hw : s.working_xs ≠ [] ∧ s.working_ys ≠ []) :
    let r := (exportCurves cs).foldl estep s
    r.z_values = s.z_values ++ cs.map (·.2.1) ∧ r.new_curve = true ∧
    r.x_lists ++ [r.working_xs] = s.x_lists ++ [s.working_xs] ++ cs.map (fun c => c.2.2.map (·.1)) ∧
    r.y_lists ++ [r.working_ys] = s.y_lists ++ [s.working_ys] ++ cs.map (fun c => c.2.2.map (·.2)) := by
  induction cs generalizing s with
  | nil => simp [exportCurves, hn]
  | cons c cs ih =>
    have hc := hne c (by simp)
    intro r
    have hr : r = (exportCurves cs).foldl estep
        ⟨s.z_values ++ [c.2.1], s.x_lists ++ [s.working_xs], s.y_lists ++ [s.working_ys], c.2.2.map (·.1), c.2.2.map (·.2), true⟩ := by
      simp only [r, exportCurves, List.flatMap_cons, List.foldl_append, List.foldl_cons, List.foldl_nil, List.cons_append]
      congr 1
      rw [efold_points _ _ (by simp [estep, hn])]
      simp [estep, hn, hw.1, hw.2]
    have := ih (fun c' h' => hne c' (by simp [h'])) ⟨s.z_values ++ [c.2.1], s.x_lists ++ [s.working_xs], s.y_lists ++ [s.working_ys], c.2.2.map (·.1), c.2.2.map (·.2), true⟩ rfl ⟨by simpa using hc, by simpa using hc⟩
    rw [← hr] at this
    simpa using this

/-- C79: parsing an export of any number of nonempty curves returns exactly their z values and point lists, aligned; the
flat form repeats each z once per point, in order. -/
theorem C79_engauge_round_trip {α : Type} (cs : List (α × α × List (α × α))) (h0 : cs ≠ []) (hne : ∀ c ∈ cs, c.2.2 ≠ []) :
    engauge (exportCurves cs)
      = (cs.map (·.2.1), cs.map (fun c => c.2.2.map (·.1)), cs.map (fun c => c.2.2.map (·.2))) ∧
    engauge_flat (exportCurves cs)
      = (cs.flatMap (fun c => c.2.2.map fun _ => c.2.1), cs.flatMap (fun c => c.2.2.map (·.1)),
         cs.flatMap (fun c => c.2.2.map (·.2))) := by
  have h1 : engauge (exportCurves cs)
      = (cs.map (·.2.1), cs.map (fun c => c.2.2.map (·.1)), cs.map (fun c => c.2.2.map (·.2))) := by
    obtain ⟨c, cs, rfl⟩ := List.exists_cons_of_ne_nil h0
    have hc := hne c (by simp)
    have hr : (exportCurves (c :: cs)).foldl estep {} = (exportCurves cs).foldl estep
        ⟨[c.2.1], [], [], c.2.2.map (·.1), c.2.2.map (·.2), true⟩ := by
      simp only [exportCurves, List.flatMap_cons, List.foldl_append, List.foldl_cons, List.foldl_nil, List.cons_append]
      congr 1
      rw [efold_points _ _ (by simp [estep])]
      simp [estep]
    have := efold_curves cs (fun c' h' => hne c' (by simp [h'])) ⟨[c.2.1], [], [], c.2.2.map (·.1), c.2.2.map (·.2), true⟩ rfl ⟨by simpa using hc, by simpa using hc⟩
    simp only [engauge, hr]
    obtain ⟨a1, -, a3, a4⟩ := this
    simp only [List.nil_append, List.singleton_append] at a1 a3 a4
    rw [a1, a3, a4]; rfl
  refine ⟨h1, ?_⟩
  simp only [engauge_flat, h1, Prod.mk.injEq]
  clear h1 hne h0
  refine ⟨?_, ?_, ?_⟩ <;> induction cs with
  | nil => rfl
  | cons c cs ih =>
    simp only [List.map_cons, List.zip_cons_cons, List.flatMap_cons, List.map_append, ih]
    congr 1
    rw [List.zip_map', List.map_map, List.map_map]; rfl

/-- C79 (finding): a curve without points is dropped from the x and y lists but keeps its z value, so the returned lists
no longer line up. -/
theorem C79_engauge_empty_curve_misaligned : ∃ cs : List (Nat × Nat × List (Nat × Nat)),
    (engauge (exportCurves cs)).1.length ≠ (engauge (exportCurves cs)).2.1.length :=
  ⟨[(0, 1, []), (0, 2, [(5, 6)])], by decide⟩

example : engauge (exportCurves [(0, 10, [(1, 2), (3, 4)]), (0, 20, [(5, 6)])])
    = ([10, 20], [[1, 3], [5]], [[2, 4], [6]]) := by decide

end Verif
