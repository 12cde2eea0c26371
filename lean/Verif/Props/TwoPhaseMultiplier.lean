import Verif.Props.TwoPhaseSeparated

/-! C101: the two-phase pressure drop correlations built on a single-phase multiplier. -/

open Real

noncomputable section

namespace Verif.TwoPhase

open Spec.TwoPhase

variable {ff : ℝ → ℝ → Py ℝ} {f : ℝ → ℝ} {m x rhol rhog mul mug sigma D roughness L Pr : ℝ} {P Pc : Option ℝ}

section
variable (h : Flow ff f m rhol rhog mul mug D roughness)
include h

/-! ### the documented formulas -/

/-- C101: the correlations documented as a multiple of the liquid-only drop (Friedel in its additive form), over the whole range of quality. -/
theorem C101_formulas (hs : 0 < sigma) (hx0 : 0 ≤ x) (hx1 : x ≤ 1) (hL : 0 < L) (hp : 0 < Pr) {p pc : ℝ} (hpc : 0 < pc) (hpr : Pr = p / pc) :
    (mug ≤ mul → Friedel ff m x rhol rhog mul mug sigma D roughness L =
      .ok ((1 - x) ^ 2 * drop f m rhol mul D L + x ^ 2 * drop f m rhog mug D L + friedelY m x rhol rhog mul mug sigma D * drop f m rhol mul D L)) ∧
    Gronnerud ff m x rhol rhog mul mug D roughness L = .ok (gronnerud m x rhol rhog mul mug D * drop f m rhol mul D L) ∧
    Chisholm ff m x rhol rhog mul mug D roughness L false =
      .ok (chisholm (chisholmB √(drop f m rhog mug D L / drop f m rhol mul D L) (flux m D)) 0.25 x (drop f m rhog mug D L / drop f m rhol mul D L) *
        drop f m rhol mul D L) ∧
    Baroczy_Chisholm ff m x rhol rhog mul mug D roughness L =
      .ok (chisholm (baroczyB √(drop f m rhog mug D L / drop f m rhol mul D L) (flux m D)) 0.25 x (drop f m rhog mug D L / drop f m rhol mul D L) *
        drop f m rhol mul D L) ∧
    Muller_Steinhagen_Heck ff m x rhol rhog mul mug D roughness L = .ok (msh x (drop f m rhol mul D L) (drop f m rhog mug D L)) ∧
    Lombardi_Pedrocchi m x rhol rhog sigma D L = .ok (lombardi m x rhol rhog sigma D L) ∧
    (rhog < rhol → Tran ff m x rhol rhog mul mug sigma D roughness L =
      .ok (tran (Co D rhol rhog sigma) x (drop f m rhog mug D L / drop f m rhol mul D L) * drop f m rhol mul D L)) ∧
    Zhang_Webb ff m x rhol mul (some p) (some pc) D roughness L = .ok (zhangWebb x Pr * drop f m rhol mul D L) :=
  ⟨fun hmu => h.Friedel_eq hmu hs hx0 hx1, h.Gronnerud_eq hx0, h.Chisholm_eq hx0 hx1 hL, h.Baroczy_eq hx0 hx1 hL, h.MSH_eq hx1,
    Flow.Lombardi_eq h.m0 h.rhol0 h.rhog0 hs h.D0 hx0 hx1, fun hr => h.Tran_eq hr hs hx0 hx1 hL,
    h.ZhangWebb_eq (by rw [Flow.zhangPr_ok hpc, hpr]) hp hx0 hx1⟩

/-- C101: the correlations whose formula needs both phases present (Xu-Fang and Chen-Friedel also allow pure gas). -/
theorem C101_formulas_interior (hs : 0 < sigma) (hx0 : 0 < x) (hx1 : x < 1) (hL : 0 < L) :
    Jung_Radermacher ff m x rhol rhog mul mug D roughness L = .ok (jung x rhol rhog mul mug * drop f m rhol mul D L) ∧
    Xu_Fang ff m x rhol rhog mul mug sigma D roughness L =
      .ok (xuFang x (drop f m rhog mug D L / drop f m rhol mul D L) (Fr m D (rhoH x rhol rhog)) (We m D (rhoH x rhol rhog) sigma) *
        drop f m rhol mul D L) ∧
    Bankoff ff m x rhol rhog mul mug D roughness L = .ok (bankoff x rhol rhog * drop f m rhol mul D L) ∧
    (mug ≤ mul → rhog < rhol → Chen_Friedel ff m x rhol rhog mul mug sigma D roughness L =
      .ok (((1 - x) ^ 2 * drop f m rhol mul D L + x ^ 2 * drop f m rhog mug D L + friedelY m x rhol rhog mul mug sigma D * drop f m rhol mul D L) *
        chenΩ (9.80665 * (rhol - rhog) * D ^ 2 / sigma / 4) (Re m rhol mul D) (Re (m * x) rhog mug D) (We m D (rhoH x rhol rhog) sigma))) ∧
    Yu_France ff m x rhol rhog mul mug D roughness L =
      .ok (yuX x rhol rhog (Re (m * (1 - x)) rhol mul D) (Re (m * x) rhog mug D) ^ (-1.9 : ℝ) * drop f (m * (1 - x)) rhol mul D L) :=
  ⟨h.Jung_eq hx0 hx1, h.XuFang_eq hs hx0 hx1.le hL, h.Bankoff_eq hx0 hx1, fun hmu hr => h.Chen_eq hmu hs hr hx0 hx1.le, h.YuFrance_eq hx0 hx1⟩

/-- C101: Theissing's interpolation, whenever the single-phase drops increase with the flow. -/
theorem C101_Theissing (hx0 : 0 < x) (hx1 : x < 1) (hL : 0 < L) (hl : drop f (m * (1 - x)) rhol mul D L < drop f m rhol mul D L)
    (hg : drop f (m * x) rhog mug D L < drop f m rhog mug D L) :
    ∃ n > 0, n = theissingN (log (drop f (m * (1 - x)) rhol mul D L / drop f m rhol mul D L) / log (1 - x))
      (log (drop f (m * x) rhog mug D L / drop f m rhog mug D L) / log x) (drop f (m * (1 - x)) rhol mul D L) (drop f (m * x) rhog mug D L) ∧
    Theissing ff m x rhol rhog mul mug D roughness L =
      .ok (theissing n (theissingE n rhol rhog) x (drop f m rhol mul D L) (drop f m rhog mug D L)) :=
  h.Theissing_eq hx0 hx1 hL hl hg

/-- C101: with the roughness correction Chisholm's exponent is `ln(f_lo/f_go) / ln(Re_go/Re_lo)` and B is multiplied by
`((1 + (μg/μl)² + 10^(-600 ε/D)) / 2)^(4 (1/4 - n))`; phases of equal viscosity raise ZeroDivisionError. -/
theorem C101_Chisholm_rough (hx0 : 0 < x) (hx1 : x < 1) (hL : 0 < L) :
    (mug ≠ mul → ∃ n, n = log (f (Re m rhol mul D) / f (Re m rhog mug D)) / log (Re m rhog mug D / Re m rhol mul D) ∧
      Chisholm ff m x rhol rhog mul mug D roughness L true =
        .ok (chisholm (chisholmB √(drop f m rhog mug D L / drop f m rhol mul D L) (flux m D) *
            ((1 + (mug / mul) ^ 2 + (10 : ℝ) ^ (-600 * roughness / D)) / 2) ^ (4 * (1 / 4 - n))) n x
          (drop f m rhog mug D L / drop f m rhol mul D L) * drop f m rhol mul D L)) ∧
    (mug = mul → Chisholm ff m x rhol rhog mul mug D roughness L true = .error .zeroDivisionError) := by
  have hx' : 0 < 1 - x := by linarith
  obtain ⟨h1, h2, h3, h4, h5, h6, h7, h8⟩ := h
  have r1 := Re_pos h1 h2 h4 h6; have r2 := Re_pos h1 h3 h5 h6
  have f1 := h8 _ r1; have f2 := h8 _ r2
  have p1 := drop_pos h8 h1 h2 h4 h6 hL; have p2 := drop_pos h8 h1 h3 h5 h6 hL
  obtain ⟨g1, g2, g3, g4⟩ := Flow.gamma_ok p1 p2
  have eR : Re m rhog mug D / Re m rhol mul D = mul / mug := by unfold Re velocity; field_simp
  have start : ∀ c, Chisholm ff m x rhol rhog mul mug D roughness L c =
      (Chisholm_rough (f (Re m rhol mul D)) (f (Re m rhog mug D)) (Re m rhol mul D) (Re m rhog mug D) mul mug D roughness
        (chisholmB √(drop f m rhog mug D L / drop f m rhol mul D L) (flux m D)) c >>= fun nB => do
          let t32 ← ppow x ((2 - nB.1) * 0.5)
          let t33 ← ppow (1 - x) ((2 - nB.1) * 0.5)
          let t34 ← ppow x (2 - nB.1)
          return (1 + (√(drop f m rhog mug D L / drop f m rhol mul D L) * √(drop f m rhog mug D L / drop f m rhol mul D L) - 1) *
            (nB.2 * t32 * t33 + t34)) * drop f m rhol mul D L) := by
    intro c
    simp only [Chisholm, flux_ok h6, vel1 h2 h6, vel1 h3 h6, Py.ok_bind, rey h2 h4, rey h3 h5, pdiv_ok h6.ne', h7 _ r1, h7 _ r2, drop_eq,
      g1, g2, Flow.chisholmB_ok g4 (flux_pos h1 h6)]
  have hR : 0 < Re m rhog mug D / Re m rhol mul D := by positivity
  refine ⟨fun hne => ⟨_, rfl, ?_⟩, fun he => ?_⟩
  · have l0 : log (Re m rhog mug D / Re m rhol mul D) ≠ 0 := by
      rw [eR]
      refine log_ne_zero_of_pos_of_ne_one (by positivity) ?_
      rw [Ne, div_eq_one_iff_eq h5.ne']; exact fun e => hne e.symm
    have hB : (0:ℝ) < 0.5 * (1 + mug / mul * (mug / mul) + (10:ℝ) ^ (-600 * roughness / D)) := by positivity
    rw [start]
    simp only [Chisholm_rough, if_true]
    py_eval [plog_ok]
    refine ok_congr ?_
    rw [g3, chisholm]
    rw [show (0.5 * (1 + mug / mul * (mug / mul) + (10:ℝ) ^ (-600 * roughness / D))) = (1 + (mug / mul) ^ 2 + (10 : ℝ) ^ (-600 * roughness / D)) / 2 by ring]
    have e1 : ∀ n : ℝ, (0.25 - n) * 4 = 4 * (1 / 4 - n) := fun n => by ring
    have e2 : ∀ n : ℝ, (2 - n) * 0.5 = (2 - n) / 2 := fun n => by ring
    rw [e1, e2]
  · have l0 : log (Re m rhog mug D / Re m rhol mul D) = 0 := by rw [eR, he, div_self h4.ne', log_one]
    rw [start]
    simp only [Chisholm_rough, if_true]
    py_eval [plog_ok]
    simp only [l0, pdiv_zero, Py.error_bind]

/-! ### single-phase limits -/

/-- C101: at quality 0 these correlations give the drop of the liquid flowing alone. -/
theorem C101_liquid_limit (hs : 0 < sigma) (hL : 0 < L) (hp : 0 < Pr) (hPr : Zhang_Webb_Pr P Pc = .ok Pr) :
    (mug ≤ mul → Friedel ff m 0 rhol rhog mul mug sigma D roughness L = .ok (drop f m rhol mul D L)) ∧
    Gronnerud ff m 0 rhol rhog mul mug D roughness L = .ok (drop f m rhol mul D L) ∧
    Chisholm ff m 0 rhol rhog mul mug D roughness L false = .ok (drop f m rhol mul D L) ∧
    Baroczy_Chisholm ff m 0 rhol rhog mul mug D roughness L = .ok (drop f m rhol mul D L) ∧
    Muller_Steinhagen_Heck ff m 0 rhol rhog mul mug D roughness L = .ok (drop f m rhol mul D L) ∧
    Theissing ff m 0 rhol rhog mul mug D roughness L = .ok (drop f m rhol mul D L) ∧
    (rhog < rhol → Tran ff m 0 rhol rhog mul mug sigma D roughness L = .ok (drop f m rhol mul D L)) ∧
    Zhang_Webb ff m 0 rhol mul P Pc D roughness L = .ok (drop f m rhol mul D L) := by
  have z1 : (0:ℝ) ^ (0.78 : ℝ) = 0 := zero_rpow (by norm_num)
  have z2 : (0:ℝ) ^ (1.8 : ℝ) = 0 := zero_rpow (by norm_num)
  have z3 : (0:ℝ) ^ ((2 - 0.25) / 2 : ℝ) = 0 := zero_rpow (by norm_num)
  have z4 : (0:ℝ) ^ (2 - 0.25 : ℝ) = 0 := zero_rpow (by norm_num)
  have z5 : (0:ℝ) ^ (0.875 : ℝ) = 0 := zero_rpow (by norm_num)
  have z6 : (0:ℝ) ^ (1.75 : ℝ) = 0 := zero_rpow (by norm_num)
  have z7 : (0:ℝ) ^ (0.8 : ℝ) = 0 := zero_rpow (by norm_num)
  refine ⟨fun hmu => ?_, ?_, ?_, ?_, ?_, h.Theissing_ends.1, fun hr => ?_, ?_⟩
  · rw [h.Friedel_eq hmu hs le_rfl zero_le_one, friedelY, z1]; simp
  · rw [h.Gronnerud_eq le_rfl, gronnerud, z2]; simp
  · rw [h.Chisholm_eq le_rfl zero_le_one hL, chisholm, z3, z4]; simp
  · rw [h.Baroczy_eq le_rfl zero_le_one hL, chisholm, z3, z4]; simp
  · rw [h.MSH_eq zero_le_one, msh]; simp
  · rw [h.Tran_eq hr hs le_rfl zero_le_one hL, tran, z5, z6]; simp
  · rw [h.ZhangWebb_eq hPr hp le_rfl zero_le_one, zhangWebb, z7]; simp

/-- C101: at quality 1 Friedel, Chisholm, Baroczy-Chisholm, Müller-Steinhagen-Heck, Theissing and Xu-Fang give the drop of the gas flowing alone.
Finding: Tran gives 4.3 times it, and Zhang-Webb 2.87/Pr times the liquid-only drop. -/
theorem C101_gas_limit (hs : 0 < sigma) (hL : 0 < L) (hp : 0 < Pr) (hPr : Zhang_Webb_Pr P Pc = .ok Pr) :
    (mug ≤ mul → Friedel ff m 1 rhol rhog mul mug sigma D roughness L = .ok (drop f m rhog mug D L)) ∧
    Chisholm ff m 1 rhol rhog mul mug D roughness L false = .ok (drop f m rhog mug D L) ∧
    Baroczy_Chisholm ff m 1 rhol rhog mul mug D roughness L = .ok (drop f m rhog mug D L) ∧
    Muller_Steinhagen_Heck ff m 1 rhol rhog mul mug D roughness L = .ok (drop f m rhog mug D L) ∧
    Theissing ff m 1 rhol rhog mul mug D roughness L = .ok (drop f m rhog mug D L) ∧
    Xu_Fang ff m 1 rhol rhog mul mug sigma D roughness L = .ok (drop f m rhog mug D L) ∧
    (rhog < rhol → Tran ff m 1 rhol rhog mul mug sigma D roughness L = .ok (4.3 * drop f m rhog mug D L)) ∧
    Zhang_Webb ff m 1 rhol mul P Pc D roughness L = .ok (2.87 / Pr * drop f m rhol mul D L) := by
  have p1 := drop_pos h.pos h.m0 h.rhol0 h.mul0 h.D0 hL
  have z1 : (0:ℝ) ^ (0.224 : ℝ) = 0 := zero_rpow (by norm_num)
  have z2 : (0:ℝ) ^ (0.632 : ℝ) = 0 := zero_rpow (by norm_num)
  have z3 : (0:ℝ) ^ ((2 - 0.25) / 2 : ℝ) = 0 := zero_rpow (by norm_num)
  have z4 : (0:ℝ) ^ (1 / 3 : ℝ) = 0 := zero_rpow (by norm_num)
  have z5 : (0:ℝ) ^ (0.875 : ℝ) = 0 := zero_rpow (by norm_num)
  have z6 : (0:ℝ) ^ (0.25 : ℝ) = 0 := zero_rpow (by norm_num)
  refine ⟨fun hmu => ?_, ?_, ?_, ?_, h.Theissing_ends.2, ?_, fun hr => ?_, ?_⟩
  · rw [h.Friedel_eq hmu hs zero_le_one le_rfl, friedelY, sub_self, z1]; simp
  · rw [h.Chisholm_eq zero_le_one le_rfl hL, chisholm, sub_self, z3, one_rpow, one_rpow]
    refine ok_congr ?_; field_simp; ring
  · rw [h.Baroczy_eq zero_le_one le_rfl hL, chisholm, sub_self, z3, one_rpow, one_rpow]
    refine ok_congr ?_; field_simp; ring
  · rw [h.MSH_eq le_rfl, msh, sub_self, z4]; simp
  · rw [h.XuFang_eq hs one_pos le_rfl hL, xuFang, one_rpow, sub_self, z2]
    refine ok_congr ?_; field_simp; ring
  · rw [h.Tran_eq hr hs zero_le_one le_rfl hL, tran, sub_self, z5, one_rpow, one_rpow]
    refine ok_congr ?_; field_simp; ring
  · rw [h.ZhangWebb_eq hPr hp zero_le_one le_rfl, zhangWebb, sub_self, z6]
    refine ok_congr ?_; ring

/-- C101: the others do not accept a pure liquid: their formula divides by the quality, and they raise ZeroDivisionError; Bankoff and Jung-Radermacher
do so for a pure gas too. -/
theorem C101_no_limit (hs : 0 < sigma) (hr : rhog < rhol) (hL : 0 < L) :
    Bankoff ff m 0 rhol rhog mul mug D roughness L = .error .zeroDivisionError ∧
    Bankoff ff m 1 rhol rhog mul mug D roughness L = .error .zeroDivisionError ∧
    Jung_Radermacher ff m 0 rhol rhog mul mug D roughness L = .error .zeroDivisionError ∧
    Jung_Radermacher ff m 1 rhol rhog mul mug D roughness L = .error .zeroDivisionError ∧
    Xu_Fang ff m 0 rhol rhog mul mug sigma D roughness L = .error .zeroDivisionError ∧
    Yu_France ff m 0 rhol rhog mul mug D roughness L = .error .zeroDivisionError := by
  obtain ⟨h1, h2, h3, h4, h5, h6, h7, h8⟩ := h
  have r1 := Re_pos h1 h2 h4 h6; have r2 := Re_pos h1 h3 h5 h6
  have p1 := drop_pos h8 h1 h2 h4 h6 hL
  have q1 : (0:ℝ) < 1 + 0 / 1 * rhog / rhol := by positivity
  refine ⟨?_, ?_, ?_, ?_, ?_, ?_⟩
  · simp only [Bankoff, vel1 h2 h6, Py.ok_bind, rey h2 h4, pdiv_ok h6.ne', h7 _ r1, pdiv_ok h2.ne', pdiv_zero, Py.error_bind]
  · simp only [Bankoff, vel1 h2 h6, Py.ok_bind, rey h2 h4, pdiv_ok h6.ne', h7 _ r1, pdiv_ok h2.ne', sub_self, pdiv_ok one_ne_zero, pdiv_ok q1.ne',
      pdiv_zero, Py.error_bind]
  · simp only [Jung_Radermacher, vel1 h2 h6, Py.ok_bind, rey h2 h4, pdiv_ok h6.ne', h7 _ r1, Voidage.Lockhart_Martinelli_Xtt, pdiv_zero, Py.error_bind]
  · have e0 : ppow (0:ℝ) 0.9 = .ok 0 := by rw [ppow_ok' le_rfl (by norm_num), zero_rpow (by norm_num)]
    have e1 : ppow (0:ℝ) (-1.47) = .error .zeroDivisionError := by simp [ppow]; norm_num
    simp only [Jung_Radermacher, vel1 h2 h6, Py.ok_bind, rey h2 h4, pdiv_ok h6.ne', h7 _ r1, Voidage.Lockhart_Martinelli_Xtt, sub_self, pdiv_ok one_ne_zero, zero_div]
    py_eval [e0, zero_mul, e1, Py.error_bind]
  · have hρ := rhoH_pos le_rfl zero_le_one h2 h3
    obtain ⟨a, e1, e2⟩ := homog le_rfl zero_le_one h2 h3
    have e3 : ppow (0:ℝ) 2.59 = .ok 0 := by rw [ppow_ok' le_rfl (by norm_num), zero_rpow (by norm_num)]
    have e4 : ppow (0:ℝ) 1.17 = .ok 0 := by rw [ppow_ok' le_rfl (by norm_num), zero_rpow (by norm_num)]
    have e5 : ppow (0:ℝ) (-0.475) = .error .zeroDivisionError := by simp [ppow]; norm_num
    have e6 : ppow (1 - 0:ℝ) 0.632 = .ok 1 := by rw [ppow_ok (by norm_num)]; simp
    simp only [Xu_Fang, vel1 h2 h6, vel1 h3 h6, Py.ok_bind, rey h2 h4, rey h3 h5, pdiv_ok h6.ne', h7 _ r1, h7 _ r2, drop_eq, e1, e2, (vel_h h6 hρ).1, (vel_h h6 hρ).2,
      froude h6 hρ, weber h6 hs hρ, pdiv_ok p1.ne', e3, e4, e5, e6, Py.error_bind]
  · have hq : (0:ℝ) ≤ rhog / rhol := by positivity
    simp only [Yu_France, sub_zero, mul_one, vel1 h2 h6, vel1 h3 h6, Py.ok_bind, rey h2 h4, rey h3 h5, pdiv_ok h6.ne', h7 _ r1, pdiv_ok h2.ne', psqrt_ok hq, pdiv_zero,
      Py.error_bind]

/-- C101: a gas more viscous than the liquid makes Friedel's and Chen-Friedel's viscosity term complex. -/
theorem C101_viscous_gas (hmu : mul < mug) (hx0 : 0 ≤ x) (hx1 : x ≤ 1) :
    Friedel ff m x rhol rhog mul mug sigma D roughness L = .error .complexResult := by
  have hx' : 0 ≤ 1 - x := by linarith
  obtain ⟨h1, h2, h3, h4, h5, h6, h7, h8⟩ := h
  have r1 := Re_pos h1 h2 h4 h6; have r2 := Re_pos h1 h3 h5 h6
  have hv : 1 - mug / mul < 0 := by rw [sub_neg, one_lt_div h4]; exact hmu
  have e : ppow (1 - mug / mul) 0.7 = .error .complexResult := by
    have hn : ¬ ∃ n : ℤ, (n : ℝ) = 0.7 := by
      rintro ⟨n, hn⟩
      have : (10 * n : ℤ) = 7 := by
        have : (10 * n : ℝ) = 7 := by rw [hn]; norm_num
        exact_mod_cast this
      omega
    unfold ppow
    rw [if_neg (fun h => hv.ne h.1), if_pos ⟨hv, hn⟩]
  unfold Friedel
  extract_lets A
  rw [vel2 h2 h6, Py.ok_bind, rey h2 h4, Py.ok_bind, pdiv_ok h6.ne', Py.ok_bind, h7 _ r1, Py.ok_bind, pdiv_ok h6.ne', Py.ok_bind]
  extract_lets dlo
  rw [vel1 h3 h6, Py.ok_bind, rey h3 h5, Py.ok_bind, Py.ok_bind, h7 _ r2, Py.ok_bind, ppow_ok' hx0 (by norm_num), Py.ok_bind, ppow_ok' hx' (by norm_num), Py.ok_bind]
  extract_lets F
  rw [pdiv_ok h3.ne', Py.ok_bind, ppow_ok (by positivity), Py.ok_bind, pdiv_ok h4.ne', Py.ok_bind, ppow_ok (by positivity), Py.ok_bind, Py.ok_bind, e, Py.error_bind]

/-! ### bounds -/

omit h in
theorem chisholmB_nonneg {Γ G : ℝ} (h1 : 0 < Γ) (h2 : 0 < G) : 0 < chisholmB Γ G ∧ 0 < baroczyB Γ G := by
  have := sqrt_pos.mpr h2
  unfold chisholmB baroczyB
  constructor <;> split_ifs <;> positivity

omit h in
theorem chisholm_ge {B n Γ2 a : ℝ} (hB : 0 < B) (hx0 : 0 ≤ x) (hx1 : x ≤ 1) (ha : 0 < a) (hΓ : 1 ≤ Γ2) : a ≤ chisholm B n x Γ2 * a := by
  have hx' : 0 ≤ 1 - x := by linarith
  have : 0 ≤ (Γ2 - 1) * (B * x ^ ((2 - n) / 2) * (1 - x) ^ ((2 - n) / 2) + x ^ (2 - n)) := mul_nonneg (by linarith) (by positivity)
  unfold chisholm
  nlinarith

/-- C101: when the gas-only drop is at least the liquid-only drop, as it is for ordinary gas-liquid pairs, the Chisholm, Baroczy-Chisholm and (up to its factor 4.3)
Tran drops are at least the liquid-only drop, and the Müller-Steinhagen-Heck and Xu-Fang drops are positive. -/
theorem C101_at_least_liquid (hs : 0 < sigma) (hx0 : 0 < x) (hx1 : x ≤ 1) (hL : 0 < L) (hP : drop f m rhol mul D L ≤ drop f m rhog mug D L) :
    (∃ p, Chisholm ff m x rhol rhog mul mug D roughness L false = .ok p ∧ drop f m rhol mul D L ≤ p) ∧
    (∃ p, Baroczy_Chisholm ff m x rhol rhog mul mug D roughness L = .ok p ∧ drop f m rhol mul D L ≤ p) ∧
    (rhog < rhol → ∃ p, Tran ff m x rhol rhog mul mug sigma D roughness L = .ok p ∧ drop f m rhol mul D L ≤ p) ∧
    (∃ p, Muller_Steinhagen_Heck ff m x rhol rhog mul mug D roughness L = .ok p ∧ 0 < p) ∧
    (∃ p, Xu_Fang ff m x rhol rhog mul mug sigma D roughness L = .ok p ∧ 0 < p) := by
  have hx' : 0 ≤ 1 - x := by linarith
  have p1 := drop_pos h.pos h.m0 h.rhol0 h.mul0 h.D0 hL; have p2 := drop_pos h.pos h.m0 h.rhog0 h.mug0 h.D0 hL
  have hΓ : 1 ≤ drop f m rhog mug D L / drop f m rhol mul D L := (one_le_div p1).mpr hP
  obtain ⟨b1, b2⟩ := chisholmB_nonneg (sqrt_pos.mpr (div_pos p2 p1)) (flux_pos h.m0 h.D0)
  refine ⟨⟨_, h.Chisholm_eq hx0.le hx1 hL, chisholm_ge b1 hx0.le hx1 p1 hΓ⟩, ⟨_, h.Baroczy_eq hx0.le hx1 hL, chisholm_ge b2 hx0.le hx1 p1 hΓ⟩,
    fun hr => ⟨_, h.Tran_eq hr hs hx0.le hx1 hL, ?_⟩, ⟨_, h.MSH_eq hx1, ?_⟩, ⟨_, h.XuFang_eq hs hx0 hx1 hL, ?_⟩⟩
  · have hc := Co_pos h.D0 hs hr
    have : 0 ≤ (4.3 * (drop f m rhog mug D L / drop f m rhol mul D L) - 1) *
        (Co D rhol rhog sigma * x ^ (0.875 : ℝ) * (1 - x) ^ (0.875 : ℝ) + x ^ (1.75 : ℝ)) := mul_nonneg (by linarith) (by positivity)
    unfold tran; nlinarith
  · have : 0 ≤ 2 * (drop f m rhog mug D L - drop f m rhol mul D L) * x := mul_nonneg (by linarith) hx0.le
    have : 0 ≤ (drop f m rhol mul D L + 2 * (drop f m rhog mug D L - drop f m rhol mul D L) * x) * (1 - x) ^ (1 / 3 : ℝ) := mul_nonneg (by linarith) (by positivity)
    unfold msh; positivity
  · have hρ := rhoH_pos hx0.le hx1 h.rhol0 h.rhog0
    have q1 := Fr_pos h.m0 h.D0 hρ; have q2 := We_pos h.m0 h.D0 hs hρ
    have : x ^ (2.59 : ℝ) ≤ 1 := rpow_le_one hx0.le hx1 (by norm_num)
    have h2 : 0 ≤ 2 * x ^ (1.17 : ℝ) * (drop f m rhog mug D L / drop f m rhol mul D L - 1) := mul_nonneg (by positivity) (by linarith)
    have h3 : 0 < x ^ (-0.475 : ℝ) := rpow_pos_of_pos hx0 _
    have h1 : 0 ≤ (1 - x ^ (2.59 : ℝ)) ^ (0.632 : ℝ) := rpow_nonneg (by linarith) _
    have h4 : 0 < 1 + 2 * x ^ (1.17 : ℝ) * (drop f m rhog mug D L / drop f m rhol mul D L - 1) + 0.00775 * x ^ (-0.475 : ℝ) *
        Fr m D (rhoH x rhol rhog) ^ (0.535 : ℝ) * We m D (rhoH x rhol rhog) sigma ^ (0.188 : ℝ) := by positivity
    unfold xuFang
    have h5 := mul_nonneg h1 h4.le
    have h6 : 0 < drop f m rhog mug D L / drop f m rhol mul D L * x ^ 3 := by positivity
    exact mul_pos (by linarith) p1

/-- C101: these are positive whatever the two single-phase drops. -/
theorem C101_positive (hs : 0 < sigma) (hx0 : 0 < x) (hx1 : x < 1) (hL : 0 < L) (hp : 0 < Pr) (hPr : Zhang_Webb_Pr P Pc = .ok Pr) :
    (mug ≤ mul → ∃ p, Friedel ff m x rhol rhog mul mug sigma D roughness L = .ok p ∧ 0 < p) ∧
    (mug ≤ mul → rhog < rhol → ∃ p, Chen_Friedel ff m x rhol rhog mul mug sigma D roughness L = .ok p ∧ 0 < p) ∧
    (∃ p, Lombardi_Pedrocchi m x rhol rhog sigma D L = .ok p ∧ 0 < p) ∧
    (∃ p, Zhang_Webb ff m x rhol mul P Pc D roughness L = .ok p ∧ 0 < p) ∧
    (∃ p, Jung_Radermacher ff m x rhol rhog mul mug D roughness L = .ok p ∧ 0 < p) ∧
    (∃ p, Bankoff ff m x rhol rhog mul mug D roughness L = .ok p ∧ 0 < p) ∧
    (∃ p, Yu_France ff m x rhol rhog mul mug D roughness L = .ok p ∧ 0 < p) := by
  have hx' : 0 < 1 - x := by linarith
  obtain ⟨b1, b2⟩ := h.Bankoff_base hx0 hx1
  obtain ⟨r1, r2, r3, -, -⟩ := h.sep hx0 hx1 hL
  have p1 := drop_pos h.pos h.m0 h.rhol0 h.mul0 h.D0 hL; have p2 := drop_pos h.pos h.m0 h.rhog0 h.mug0 h.D0 hL
  have p3 := drop_pos h.pos (mul_pos h.m0 hx') h.rhol0 h.mul0 h.D0 hL
  have hρ := rhoH_pos hx0.le hx1.le h.rhol0 h.rhog0
  have q1 := Fr_pos h.m0 h.D0 hρ; have q2 := We_pos h.m0 h.D0 hs hρ
  have hG := flux_pos h.m0 h.D0
  have hD := h.D0; have hl := h.rhol0; have hg := h.rhog0; have hul := h.mul0; have hug := h.mug0
  have hY : mug ≤ mul → 0 ≤ friedelY m x rhol rhog mul mug sigma D := by
    intro hmu
    have : 0 ≤ 1 - mug / mul := by rw [sub_nonneg, div_le_one hul]; exact hmu
    unfold friedelY; positivity
  have hF : mug ≤ mul → 0 < (1 - x) ^ 2 * drop f m rhol mul D L + x ^ 2 * drop f m rhog mug D L + friedelY m x rhol rhog mul mug sigma D * drop f m rhol mul D L := by
    intro hmu
    have := mul_nonneg (hY hmu) p1.le
    positivity
  refine ⟨fun hmu => ⟨_, h.Friedel_eq hmu hs hx0.le hx1.le, hF hmu⟩, fun hmu hr => ⟨_, h.Chen_eq hmu hs hr hx0 hx1.le, mul_pos (hF hmu) ?_⟩,
    ⟨_, Flow.Lombardi_eq h.m0 hl hg hs hD hx0.le hx1.le, ?_⟩, ⟨_, h.ZhangWebb_eq hPr hp hx0.le hx1.le, mul_pos ?_ p1⟩,
    ⟨_, h.Jung_eq hx0 hx1, mul_pos ?_ p1⟩, ⟨_, h.Bankoff_eq hx0 hx1, mul_pos ?_ p1⟩, ⟨_, h.YuFrance_eq hx0 hx1, mul_pos ?_ p3⟩⟩
  · have : 0 < rhol - rhog := by linarith
    unfold chenΩ; split_ifs <;> positivity
  · unfold lombardi; positivity
  · unfold zhangWebb; positivity
  · unfold jung Xtt; positivity
  · unfold bankoff; positivity
  · unfold yuX; positivity

omit h in
theorem theissing_ge {n E a b c : ℝ} (hn : 0 < n) (hE : 1 ≤ E) (hx0 : 0 < x) (hx1 : x < 1) (hc : 0 < c) (ha : c ≤ a) (hb : c ≤ b) : c ≤ theissing n E x a b := by
  have hE0 : 0 < E := by linarith
  have hx' : 0 < 1 - x := by linarith
  have ha0 := hc.trans_le ha; have hb0 := hc.trans_le hb
  have k : 0 < n * E := by positivity
  have i1 : c ^ (1 / (n * E)) ≤ a ^ (1 / (n * E)) := rpow_le_rpow hc.le ha (by positivity)
  have i2 : c ^ (1 / (n * E)) ≤ b ^ (1 / (n * E)) := rpow_le_rpow hc.le hb (by positivity)
  have q1 : 1 / E ≤ 1 := by rw [div_le_one hE0]; exact hE
  have j1 : 1 - x ≤ (1 - x) ^ (1 / E) := by
    calc 1 - x = (1 - x) ^ (1:ℝ) := (rpow_one _).symm
      _ ≤ _ := rpow_le_rpow_of_exponent_ge hx' (by linarith) q1
  have j2 : x ≤ x ^ (1 / E) := by
    calc x = x ^ (1:ℝ) := (rpow_one _).symm
      _ ≤ _ := rpow_le_rpow_of_exponent_ge hx0 hx1.le q1
  have hcp : 0 < c ^ (1 / (n * E)) := by positivity
  have key : c ^ (1 / (n * E)) ≤ a ^ (1 / (n * E)) * (1 - x) ^ (1 / E) + b ^ (1 / (n * E)) * x ^ (1 / E) := by
    have s1 : c ^ (1 / (n * E)) * (1 - x) ≤ a ^ (1 / (n * E)) * (1 - x) ^ (1 / E) := mul_le_mul i1 j1 hx'.le (by positivity)
    have s2 : c ^ (1 / (n * E)) * x ≤ b ^ (1 / (n * E)) * x ^ (1 / E) := mul_le_mul i2 j2 hx0.le (by positivity)
    linarith
  unfold theissing
  calc c = (c ^ (1 / (n * E))) ^ (n * E) := by rw [← rpow_mul hc.le, one_div_mul_cancel k.ne', rpow_one]
    _ ≤ _ := rpow_le_rpow hcp.le key k.le

/-- C101: Theissing never falls below the smaller of the two single-phase drops. -/
theorem C101_Theissing_bound (hx0 : 0 < x) (hx1 : x < 1) (hL : 0 < L) (hl : drop f (m * (1 - x)) rhol mul D L < drop f m rhol mul D L)
    (hg : drop f (m * x) rhog mug D L < drop f m rhog mug D L) :
    ∃ p, Theissing ff m x rhol rhog mul mug D roughness L = .ok p ∧ min (drop f m rhol mul D L) (drop f m rhog mug D L) ≤ p := by
  obtain ⟨n, hn, -, e⟩ := h.Theissing_eq hx0 hx1 hL hl hg
  have p1 := drop_pos h.pos h.m0 h.rhol0 h.mul0 h.D0 hL; have p2 := drop_pos h.pos h.m0 h.rhog0 h.mug0 h.D0 hL
  exact ⟨_, e, theissing_ge hn (Flow.theissingE_ge hn h.rhol0 h.rhog0) hx0 hx1 (lt_min p1 p2) (min_le_left _ _) (min_le_right _ _)⟩

/-! ### findings -/

/-- C101 finding: Chisholm and Müller-Steinhagen-Heck give a negative pressure drop when the gas-only drop is a tenth or less of the liquid-only drop, as in laminar
flow of a viscous liquid (at quality 1/2 and mass flux up to 500, and at quality 3/4). -/
theorem C101_negative (hL : 0 < L) (hP : drop f m rhog mug D L ≤ 0.1 * drop f m rhol mul D L) :
    (flux m D ≤ 500 → ∃ p, Chisholm ff m (1 / 2) rhol rhog mul mug D roughness L false = .ok p ∧ p < 0) ∧
    (∃ p, Muller_Steinhagen_Heck ff m (3 / 4) rhol rhog mul mug D roughness L = .ok p ∧ p < 0) := by
  have p1 := drop_pos h.pos h.m0 h.rhol0 h.mul0 h.D0 hL; have p2 := drop_pos h.pos h.m0 h.rhog0 h.mug0 h.D0 hL
  have hΓ : drop f m rhog mug D L / drop f m rhol mul D L ≤ 0.1 := by rw [div_le_iff₀ p1]; exact hP
  refine ⟨fun hG => ⟨_, h.Chisholm_eq (by norm_num) (by norm_num) hL, mul_neg_of_neg_of_pos ?_ p1⟩, ⟨_, h.MSH_eq (by norm_num), ?_⟩⟩
  · have hs : √(drop f m rhog mug D L / drop f m rhol mul D L) ≤ 9.5 := sqrt_le_iff.mpr ⟨by norm_num, by linarith⟩
    have a1 : (1 / 2 : ℝ) ≤ (1 / 2 : ℝ) ^ ((2 - 0.25) / 2 : ℝ) := by
      calc (1 / 2 : ℝ) = (1 / 2 : ℝ) ^ (1 : ℝ) := (rpow_one _).symm
        _ ≤ _ := rpow_le_rpow_of_exponent_ge (by norm_num) (by norm_num) (by norm_num)
    have a2 : (1 / 4 : ℝ) ≤ (1 / 2 : ℝ) ^ (2 - 0.25 : ℝ) := by
      calc (1 / 4 : ℝ) = (1 / 2 : ℝ) ^ (2 : ℝ) := by norm_num
        _ ≤ _ := rpow_le_rpow_of_exponent_ge (by norm_num) (by norm_num) (by norm_num)
    unfold chisholm chisholmB
    rw [if_pos hs, if_pos hG, show (1 - 1 / 2 : ℝ) = 1 / 2 by norm_num]
    generalize (1 / 2 : ℝ) ^ ((2 - 0.25) / 2 : ℝ) = u at *
    generalize (1 / 2 : ℝ) ^ (2 - 0.25 : ℝ) = v at *
    have : 1.45 ≤ 4.8 * u * u + v := by nlinarith
    nlinarith
  · unfold msh
    have a1 : (1 / 2 : ℝ) ≤ (1 - 3 / 4 : ℝ) ^ (1 / 3 : ℝ) := by
      calc (1 / 2 : ℝ) = (1 / 8 : ℝ) ^ (1 / 3 : ℝ) := by
            rw [show (1 / 8 : ℝ) = (1 / 2) ^ (3 : ℝ) by norm_num, ← rpow_mul (by norm_num)]; norm_num
        _ ≤ _ := rpow_le_rpow (by norm_num) (by norm_num) (by norm_num)
    have a2 : drop f m rhol mul D L + 2 * (drop f m rhog mug D L - drop f m rhol mul D L) * (3 / 4) ≤ -0.35 * drop f m rhol mul D L := by linarith
    nlinarith

omit h in
/-- C101: for two identical phases Grønnerud, Chisholm, Baroczy-Chisholm and Theissing give the single-phase drop at any quality.
Finding: Müller-Steinhagen-Heck gives less than 93 % of it at quality one half. -/
theorem C101_identical_phases {rho mu : ℝ} (h : Flow ff f m rho rho mu mu D roughness) (hx0 : 0 < x) (hx1 : x < 1) (hL : 0 < L) :
    Gronnerud ff m x rho rho mu mu D roughness L = .ok (drop f m rho mu D L) ∧
    Chisholm ff m x rho rho mu mu D roughness L false = .ok (drop f m rho mu D L) ∧
    Baroczy_Chisholm ff m x rho rho mu mu D roughness L = .ok (drop f m rho mu D L) ∧
    (drop f (m * (1 - x)) rho mu D L < drop f m rho mu D L → drop f (m * x) rho mu D L < drop f m rho mu D L →
      Theissing ff m x rho rho mu mu D roughness L = .ok (drop f m rho mu D L)) ∧
    ∃ p, Muller_Steinhagen_Heck ff m (1 / 2) rho rho mu mu D roughness L = .ok p ∧ p < 0.93 * drop f m rho mu D L := by
  have p1 := drop_pos h.pos h.m0 h.rhol0 h.mul0 h.D0 hL
  refine ⟨?_, ?_, ?_, fun h1 h2 => ?_, ⟨_, h.MSH_eq (by norm_num), ?_⟩⟩
  · rw [h.Gronnerud_eq hx0.le, gronnerud, div_self h.rhol0.ne', div_self h.mul0.ne', one_rpow]; simp
  · rw [h.Chisholm_eq hx0.le hx1.le hL, chisholm, div_self p1.ne']; simp
  · rw [h.Baroczy_eq hx0.le hx1.le hL, chisholm, div_self p1.ne']; simp
  · obtain ⟨n, hn, -, e⟩ := h.Theissing_eq hx0 hx1 hL h1 h2
    rw [e, theissingE, div_self h.rhol0.ne', sqrt_one, show (2 * 1 / (1 + 1) : ℝ) = 1 by norm_num, one_rpow, show (3 - 2 * 1 : ℝ) = 1 by norm_num, theissing,
      div_one, rpow_one, rpow_one, mul_one, ← mul_add, sub_add_cancel, mul_one, ← rpow_mul p1.le, one_div_mul_cancel hn.ne', rpow_one]
  · have a : (1 - 1 / 2 : ℝ) ^ (1 / 3 : ℝ) ≤ 0.8 := by
      calc (1 - 1 / 2 : ℝ) ^ (1 / 3 : ℝ) ≤ (0.8 ^ (3 : ℝ) : ℝ) ^ (1 / 3 : ℝ) := rpow_le_rpow (by norm_num) (by norm_num) (by norm_num)
        _ = 0.8 := by rw [← rpow_mul (by norm_num)]; norm_num
    unfold msh
    nlinarith

/-! ### length -/

/-- C101: every one of these drops is proportional to the length of the pipe. -/
theorem C101_length (hs : 0 < sigma) (hx0 : 0 < x) (hx1 : x < 1) (hL : 0 < L) (hp : 0 < Pr) (hPr : Zhang_Webb_Pr P Pc = .ok Pr) (hr : rhog < rhol) (hmu : mug ≤ mul) {p : ℝ} :
    (Friedel ff m x rhol rhog mul mug sigma D roughness 1 = .ok p → Friedel ff m x rhol rhog mul mug sigma D roughness L = .ok (L * p)) ∧
    (Gronnerud ff m x rhol rhog mul mug D roughness 1 = .ok p → Gronnerud ff m x rhol rhog mul mug D roughness L = .ok (L * p)) ∧
    (Chisholm ff m x rhol rhog mul mug D roughness 1 false = .ok p → Chisholm ff m x rhol rhog mul mug D roughness L false = .ok (L * p)) ∧
    (Baroczy_Chisholm ff m x rhol rhog mul mug D roughness 1 = .ok p → Baroczy_Chisholm ff m x rhol rhog mul mug D roughness L = .ok (L * p)) ∧
    (Muller_Steinhagen_Heck ff m x rhol rhog mul mug D roughness 1 = .ok p → Muller_Steinhagen_Heck ff m x rhol rhog mul mug D roughness L = .ok (L * p)) ∧
    (Lombardi_Pedrocchi m x rhol rhog sigma D 1 = .ok p → Lombardi_Pedrocchi m x rhol rhog sigma D L = .ok (L * p)) ∧
    (Tran ff m x rhol rhog mul mug sigma D roughness 1 = .ok p → Tran ff m x rhol rhog mul mug sigma D roughness L = .ok (L * p)) ∧
    (Zhang_Webb ff m x rhol mul P Pc D roughness 1 = .ok p → Zhang_Webb ff m x rhol mul P Pc D roughness L = .ok (L * p)) ∧
    (Jung_Radermacher ff m x rhol rhog mul mug D roughness 1 = .ok p → Jung_Radermacher ff m x rhol rhog mul mug D roughness L = .ok (L * p)) ∧
    (Xu_Fang ff m x rhol rhog mul mug sigma D roughness 1 = .ok p → Xu_Fang ff m x rhol rhog mul mug sigma D roughness L = .ok (L * p)) ∧
    (Bankoff ff m x rhol rhog mul mug D roughness 1 = .ok p → Bankoff ff m x rhol rhog mul mug D roughness L = .ok (L * p)) ∧
    (Chen_Friedel ff m x rhol rhog mul mug sigma D roughness 1 = .ok p → Chen_Friedel ff m x rhol rhog mul mug sigma D roughness L = .ok (L * p)) ∧
    (Yu_France ff m x rhol rhog mul mug D roughness 1 = .ok p → Yu_France ff m x rhol rhog mul mug D roughness L = .ok (L * p)) ∧
    (drop f (m * (1 - x)) rhol mul D 1 < drop f m rhol mul D 1 → drop f (m * x) rhog mug D 1 < drop f m rhog mug D 1 →
      Theissing ff m x rhol rhog mul mug D roughness 1 = .ok p → Theissing ff m x rhol rhog mul mug D roughness L = .ok (L * p)) := by
  have p1 := drop_pos h.pos h.m0 h.rhol0 h.mul0 h.D0 one_pos; have p2 := drop_pos h.pos h.m0 h.rhog0 h.mug0 h.D0 one_pos
  have hX : ∀ w1 w2 r1 r2 u1 u2 : ℝ, drop f w1 r1 u1 D L / drop f w2 r2 u2 D L = drop f w1 r1 u1 D 1 / drop f w2 r2 u2 D 1 := by
    intro w1 w2 r1 r2 u1 u2
    rw [drop_L f _ _ _ _ L, drop_L f w2 _ _ _ L, mul_div_mul_left _ _ hL.ne']
  refine ⟨fun e => ?_, fun e => ?_, fun e => ?_, fun e => ?_, fun e => ?_, fun e => ?_, fun e => ?_, fun e => ?_, fun e => ?_, fun e => ?_, fun e => ?_, fun e => ?_,
    fun e => ?_, fun q1 q2 e => ?_⟩
  · rw [h.Friedel_eq hmu hs hx0.le hx1.le] at e
    rw [h.Friedel_eq hmu hs hx0.le hx1.le, ← Except.ok.inj e, drop_L f _ _ _ _ L, drop_L f _ rhog _ _ L]
    refine ok_congr ?_; ring
  · rw [h.Gronnerud_eq hx0.le] at e
    rw [h.Gronnerud_eq hx0.le, ← Except.ok.inj e, drop_L f _ _ _ _ L]
    refine ok_congr ?_; ring
  · rw [h.Chisholm_eq hx0.le hx1.le one_pos] at e
    rw [h.Chisholm_eq hx0.le hx1.le hL, ← Except.ok.inj e, hX, drop_L f _ _ _ _ L]
    refine ok_congr ?_; ring
  · rw [h.Baroczy_eq hx0.le hx1.le one_pos] at e
    rw [h.Baroczy_eq hx0.le hx1.le hL, ← Except.ok.inj e, hX, drop_L f _ _ _ _ L]
    refine ok_congr ?_; ring
  · rw [h.MSH_eq hx1.le] at e
    rw [h.MSH_eq hx1.le, ← Except.ok.inj e, drop_L f _ _ _ _ L, drop_L f _ rhog _ _ L, msh, msh]
    refine ok_congr ?_; ring
  · rw [Flow.Lombardi_eq h.m0 h.rhol0 h.rhog0 hs h.D0 hx0.le hx1.le] at e
    rw [Flow.Lombardi_eq h.m0 h.rhol0 h.rhog0 hs h.D0 hx0.le hx1.le, ← Except.ok.inj e, lombardi, lombardi]
    refine ok_congr ?_; ring
  · rw [h.Tran_eq hr hs hx0.le hx1.le one_pos] at e
    rw [h.Tran_eq hr hs hx0.le hx1.le hL, ← Except.ok.inj e, hX, drop_L f _ _ _ _ L]
    refine ok_congr ?_; ring
  · rw [h.ZhangWebb_eq hPr hp hx0.le hx1.le] at e
    rw [h.ZhangWebb_eq hPr hp hx0.le hx1.le, ← Except.ok.inj e, drop_L f _ _ _ _ L]
    refine ok_congr ?_; ring
  · rw [h.Jung_eq hx0 hx1] at e
    rw [h.Jung_eq hx0 hx1, ← Except.ok.inj e, drop_L f _ _ _ _ L]
    refine ok_congr ?_; ring
  · rw [h.XuFang_eq hs hx0 hx1.le one_pos] at e
    rw [h.XuFang_eq hs hx0 hx1.le hL, ← Except.ok.inj e, hX, drop_L f _ _ _ _ L]
    refine ok_congr ?_; ring
  · rw [h.Bankoff_eq hx0 hx1] at e
    rw [h.Bankoff_eq hx0 hx1, ← Except.ok.inj e, drop_L f _ _ _ _ L]
    refine ok_congr ?_; ring
  · rw [h.Chen_eq hmu hs hr hx0 hx1.le] at e
    rw [h.Chen_eq hmu hs hr hx0 hx1.le, ← Except.ok.inj e, drop_L f _ _ _ _ L, drop_L f _ rhog _ _ L]
    refine ok_congr ?_; ring
  · rw [h.YuFrance_eq hx0 hx1] at e
    rw [h.YuFrance_eq hx0 hx1, ← Except.ok.inj e, drop_L f _ _ _ _ L]
    refine ok_congr ?_; ring
  · obtain ⟨n, hn, hn', e1⟩ := h.Theissing_eq hx0 hx1 one_pos q1 q2
    have lt : ∀ a b : ℝ, a < b → L * a < L * b := fun a b hab => mul_lt_mul_of_pos_left hab hL
    obtain ⟨n2, hn2, hn2', e2⟩ := h.Theissing_eq hx0 hx1 hL (by rw [drop_L f _ _ _ _ L, drop_L f m _ _ _ L]; exact lt _ _ q1)
      (by rw [drop_L f _ _ _ _ L, drop_L f m _ _ _ L]; exact lt _ _ q2)
    have hnn : n2 = n := by rw [hn', hn2', theissingN, theissingN, hX, hX, hX]
    rw [e1] at e
    rw [e2, hnn, ← Except.ok.inj e, drop_L f _ _ _ _ L, drop_L f _ rhog _ _ L]
    refine ok_congr ?_
    have hE := Flow.theissingE_ge hn h.rhol0 h.rhog0
    generalize theissingE n rhol rhog = E at *
    have hE0 : 0 < E := by linarith
    have k : n * E ≠ 0 := by positivity
    have hx' : 0 < 1 - x := by linarith
    unfold theissing
    rw [mul_rpow hL.le p1.le, mul_rpow hL.le p2.le, mul_assoc, mul_assoc, ← mul_add, mul_rpow (by positivity) (by positivity), ← rpow_mul hL.le, one_div_mul_cancel k, rpow_one]

end

/-- The finding is met by oil of 1 Pa s with air in a 1 cm pipe, with the library's own friction factor. -/
example (W : ℝ → ℝ) : ∃ p, Chisholm (fun Re eD => Friction.friction_factor W Re eD none true) 1e-4 (1 / 2) 900 1.2 1 1.8e-5 0.01 0 1 false = .ok p ∧ p < 0 := by
  obtain ⟨f, h⟩ := flow_default W (m := 1e-4) (rhol := 900) (rhog := 1.2) (mul := 1) (mug := 1.8e-5) (D := 0.01) (roughness := 0) (by norm_num) (by norm_num)
    (by norm_num) (by norm_num) (by norm_num) (by norm_num) (by norm_num) (by norm_num)
  have lam : ∀ Re, 0 < Re → Re < 2040 → f Re = 64 / Re := fun Re h0 h1 =>
    Except.ok.inj ((h.val Re h0).symm.trans (Friction.C40_laminar (W := W) (e := 0 / 0.01) none h0 (.inl h1)))
  have e1 : Re 1e-4 900 1 0.01 = 1 / (25 * π) := by unfold Re velocity; field_simp; norm_num
  have e2 : Re 1e-4 1.2 1.8e-5 0.01 = 20000 / (9 * π) := by unfold Re velocity; field_simp; norm_num
  have hpi := pi_gt_three
  have r1 : Re 1e-4 900 1 0.01 < 2040 := by rw [e1, div_lt_iff₀ (by positivity)]; linarith
  have r2 : Re 1e-4 1.2 1.8e-5 0.01 < 2040 := by rw [e2, div_lt_iff₀ (by positivity)]; linarith
  refine (C101_negative h one_pos ?_).1 ?_
  · unfold drop
    rw [lam _ (by rw [e1]; positivity) r1, lam _ (by rw [e2]; positivity) r2, e1, e2]
    unfold velocity
    field_simp
    norm_num
  · unfold flux
    rw [div_le_iff₀ (by positivity)]
    linarith

example : ∃ p, Friedel (fun Re _ => pdiv 64 Re) 0.6 0.1 915 2.67 180e-6 14e-6 0.0487 0.05 0 1 = .ok p ∧ 0 < p :=
  (C101_positive (Pr := 1 / 2) (P := some 1) (Pc := some 2) (flow_laminar (by norm_num) (by norm_num) (by norm_num) (by norm_num) (by norm_num) (by norm_num))
    (by norm_num) (by norm_num) (by norm_num) one_pos (by norm_num) (Flow.zhangPr_ok (by norm_num))).1 (by norm_num)

end Verif.TwoPhase
