import Verif.Model.TwoPhase
import Verif.Spec.TwoPhase
import Verif.Lemmas.Tactic
import Mathlib.Analysis.SpecialFunctions.Pow.Real

/-! Evaluation of the two-phase correlations into closed forms. -/

open Real

noncomputable section

namespace Verif.TwoPhase

open Spec.TwoPhase

/-- A flow with positive properties in a pipe whose single-phase friction factor is `f`, positive at every positive Reynolds number. -/
structure Flow (ff : ℝ → ℝ → Py ℝ) (f : ℝ → ℝ) (m rhol rhog mul mug D roughness : ℝ) : Prop where
  m0 : 0 < m
  rhol0 : 0 < rhol
  rhog0 : 0 < rhog
  mul0 : 0 < mul
  mug0 : 0 < mug
  D0 : 0 < D
  val : ∀ Re > 0, ff Re (roughness / D) = .ok (f Re)
  pos : ∀ Re > 0, 0 < f Re

variable {ff : ℝ → ℝ → Py ℝ} {f : ℝ → ℝ} {m x rhol rhog mul mug sigma D roughness L w rho mu : ℝ}

theorem area_eq (D : ℝ) : 0.25 * π * D * D = π / 4 * D ^ 2 := by ring

theorem vel1 (hr : 0 < rho) (hD : 0 < D) : pdiv w (rho * (0.25 * π * D * D)) = .ok (velocity w rho D) := by
  rw [pdiv_ok (by positivity), velocity, area_eq]

theorem vel2 (hr : 0 < rho) (hD : 0 < D) : pdiv w (0.25 * π * D * D * rho) = .ok (velocity w rho D) := by
  rw [mul_comm, vel1 hr hD]

theorem rey (hr : 0 < rho) (hm : 0 < mu) : Core.Reynolds (velocity w rho D) D (some rho) (some mu) none = .ok (Re w rho mu D) := by
  simp only [Core.Reynolds, pdiv_ok hr.ne', Py.ok_bind]
  rw [pdiv_ok (by positivity)]
  congr 1; unfold Re; field_simp

theorem velocity_pos (hw : 0 < w) (hr : 0 < rho) (hD : 0 < D) : 0 < velocity w rho D := by unfold velocity; positivity
theorem Re_pos (hw : 0 < w) (hr : 0 < rho) (hm : 0 < mu) (hD : 0 < D) : 0 < Re w rho mu D := by
  have := velocity_pos hw hr hD; unfold Re; positivity

theorem drop_eq (f : ℝ → ℝ) (w rho mu D L : ℝ) :
    f (Re w rho mu D) * L / D * (0.5 * rho * velocity w rho D * velocity w rho D) = drop f w rho mu D L := by unfold drop; ring

theorem drop_pos (hf : ∀ Re > 0, 0 < f Re) (hw : 0 < w) (hr : 0 < rho) (hm : 0 < mu) (hD : 0 < D) (hL : 0 < L) : 0 < drop f w rho mu D L := by
  have := velocity_pos hw hr hD; have := hf _ (Re_pos hw hr hm hD); unfold drop; positivity

theorem drop_L (f : ℝ → ℝ) (w rho mu D L : ℝ) : drop f w rho mu D L = L * drop f w rho mu D 1 := by unfold drop; ring

/-- Laminar check: with f = 64/Re the drop is Hagen-Poiseuille's. -/
theorem drop_laminar (hr : 0 < rho) (hm : 0 < mu) (hD : 0 < D) (hw : 0 < w) :
    drop (fun Re => 64 / Re) w rho mu D L = 128 * mu * L * w / (π * rho * D ^ 4) := by
  unfold drop Re velocity; field_simp; ring

/-- The multiplier form of Chisholm's equation. -/
theorem separated_eq {C Pl Pg : ℝ} (hl : 0 < Pl) (hg : 0 < Pg) :
    Pl * (1 + C / √(Pl / Pg) + 1 / (√(Pl / Pg) * √(Pl / Pg))) = separated C Pl Pg := by
  have h1 := mul_self_sqrt hl.le; have h2 := mul_self_sqrt hg.le
  have e1 : √(Pl / Pg) = √Pl / √Pg := sqrt_div hl.le Pg
  have e2 : √(Pl * Pg) = √Pl * √Pg := sqrt_mul hl.le Pg
  have p1 := sqrt_pos.mpr hl; have p2 := sqrt_pos.mpr hg
  rw [separated, e1, e2]
  generalize √Pl = a at *; generalize √Pg = b at *
  subst h1; subst h2
  field_simp

theorem sqrt_quarter {x : ℝ} (h : 0 ≤ x) : √√x = x ^ (0.25 : ℝ) := by
  rw [sqrt_eq_rpow, sqrt_eq_rpow, ← rpow_mul h]; norm_num

theorem rhoH_pos (hx0 : 0 ≤ x) (hx1 : x ≤ 1) (hl : 0 < rhol) (hg : 0 < rhog) : 0 < rhoH x rhol rhog := by
  unfold rhoH
  have : 0 < x / rhog + (1 - x) / rhol := by
    rcases hx0.eq_or_lt with rfl | h
    · have : 0 < 1 / rhol := by positivity
      simpa using this
    · have := div_pos h hg
      have : 0 ≤ (1 - x) / rhol := div_nonneg (by linarith) hl.le
      linarith
  exact inv_pos.mpr this

/-- The homogeneous voidage of the code gives the homogeneous density. -/
theorem homog (hx0 : 0 ≤ x) (hx1 : x ≤ 1) (hl : 0 < rhol) (hg : 0 < rhog) :
    ∃ a, Voidage.homogeneous x rhol rhog = .ok a ∧ rhol * (1 - a) + rhog * a = rhoH x rhol rhog := by
  unfold Voidage.homogeneous
  by_cases h1 : x = 1
  · subst h1; exact ⟨1, by simp, by simp [rhoH]⟩
  by_cases h0 : x = 0
  · subst h0; exact ⟨0, by simp, by simp [rhoH]⟩
  have hx : 0 < x := lt_of_le_of_ne hx0 (Ne.symm h0)
  have hx' : 0 < 1 - x := sub_pos.mpr (lt_of_le_of_ne hx1 h1)
  have hd : (0 : ℝ) < 1 + (1 - x) / x * (rhog / rhol) := by positivity
  refine ⟨1 / (1 + (1 - x) / x * (rhog / rhol)), by simp only [h1, h0, if_false]; py_eval [], ?_⟩
  have e : x * rhol + (1 - x) * rhog ≠ 0 := by positivity
  unfold rhoH
  field_simp
  ring

theorem vel_h (hD : 0 < D) {r : ℝ} (hr : 0 < r) : pdiv m r = .ok (m / r) ∧ pdiv (m / r) (0.25 * π * D * D) = .ok (velocity m r D) := by
  refine ⟨pdiv_ok hr.ne', ?_⟩
  rw [pdiv_ok (by positivity), velocity, area_eq, div_div]

theorem froude (hD : 0 < D) {r : ℝ} (hr : 0 < r) : Core.Froude (velocity m r D) D g true = .ok (Fr m D r) := by
  have hg : (0 : ℝ) < g := by norm_num [Const.g]
  have hs : 0 < √(D * g) := sqrt_pos.mpr (by positivity)
  simp only [Core.Froude, psqrt_ok (show (0 : ℝ) ≤ D * g by positivity), Py.ok_bind, pdiv_ok hs.ne', if_true, Py.pure_eq]
  congr 1
  have e : √(D * g) * √(D * g) = D * g := mul_self_sqrt (by positivity)
  have e2 : (g : ℝ) = 9.80665 := by norm_num [Const.g]
  rw [div_mul_div_comm, e, e2, velocity, Fr, flux]
  field_simp

theorem weber (hD : 0 < D) (hs : 0 < sigma) {r : ℝ} (hr : 0 < r) : Core.Weber (velocity m r D) D r sigma = .ok (We m D r sigma) := by
  rw [Core.Weber, pdiv_ok hs.ne']; congr 1; unfold velocity We flux; field_simp

theorem confinement (hD : 0 < D) (hs : 0 < sigma) (hr : rhog < rhol) : Core.Confinement D rhol rhog sigma g = .ok (Co D rhol rhog sigma) := by
  have e2 : (g : ℝ) = 9.80665 := by norm_num [Const.g]
  have hd : 0 < rhol - rhog := by linarith
  simp only [Core.Confinement, e2]
  rw [pdiv_ok (by positivity), Py.ok_bind, psqrt_ok (by positivity), Py.ok_bind, pdiv_ok hD.ne', Co]

theorem Fr_pos (hm : 0 < m) (hD : 0 < D) {r : ℝ} (hr : 0 < r) : 0 < Fr m D r := by unfold Fr flux; positivity
theorem We_pos (hm : 0 < m) (hD : 0 < D) (hs : 0 < sigma) {r : ℝ} (hr : 0 < r) : 0 < We m D r sigma := by unfold We flux; positivity
theorem Co_pos (hD : 0 < D) (hs : 0 < sigma) (hr : rhog < rhol) : 0 < Co D rhol rhog sigma := by
  have hd : 0 < rhol - rhog := by linarith
  unfold Co; exact div_pos (sqrt_pos.mpr (by positivity)) hD
theorem flux_pos (hm : 0 < m) (hD : 0 < D) : 0 < flux m D := by unfold flux; positivity
theorem flux_ok (hD : 0 < D) : pdiv m (0.25 * π * D * D) = .ok (flux m D) := by
  rw [pdiv_ok (by positivity), flux, area_eq]

/-- Ratio of friction terms: Friedel's E. -/
theorem E_eq (hf : 0 < f (Re m rhol mul D)) (hl : 0 < rhol) (hg : 0 < rhog) (hD : 0 < D) :
    rhol * f (Re m rhog mug D) / (rhog * f (Re m rhol mul D)) * drop f m rhol mul D L = drop f m rhog mug D L := by
  unfold drop
  generalize f (Re m rhol mul D) = a at *
  unfold velocity; field_simp

namespace Flow
variable (h : Flow ff f m rhol rhog mul mug D roughness)
include h

theorem Friedel_eq (hmu : mug ≤ mul) (hs : 0 < sigma) (hx0 : 0 ≤ x) (hx1 : x ≤ 1) :
    Friedel ff m x rhol rhog mul mug sigma D roughness L =
      .ok ((1 - x) ^ 2 * drop f m rhol mul D L + x ^ 2 * drop f m rhog mug D L +
        friedelY m x rhol rhog mul mug sigma D * drop f m rhol mul D L) := by
  obtain ⟨h1, h2, h3, h4, h5, h6, h7, h8⟩ := h
  have r1 := Re_pos h1 h2 h4 h6; have r2 := Re_pos h1 h3 h5 h6
  have f1 := h8 _ r1; have f2 := h8 _ r2
  obtain ⟨a, e1, e2⟩ := homog hx0 hx1 h2 h3
  have hr := rhoH_pos hx0 hx1 h2 h3
  have p1 := Fr_pos h1 h6 hr; have p2 := We_pos h1 h6 hs hr
  have hx' : 0 ≤ 1 - x := by linarith
  have hm' : 0 ≤ 1 - mug / mul := by rw [sub_nonneg, div_le_one h4]; exact hmu
  simp only [Friedel, vel1 h3 h6, vel2 h2 h6, Py.ok_bind, rey h2 h4, rey h3 h5, pdiv_ok h6.ne', h7 _ r1, h7 _ r2, drop_eq, e1, e2,
    (vel_h h6 hr).1, (vel_h h6 hr).2, froude h6 hr, weber h6 hs hr]
  py_eval [ppow_ok']
  have := E_eq (f := f) (mug := mug) (L := L) f1 h2 h3 h6
  refine ok_congr ?_
  unfold friedelY
  linear_combination x ^ 2 * this

omit h in
theorem gronnerudF_ok {F : ℝ} (hF : 0 < F) : Gronnerud_f_Fr F = .ok (gronnerudF F) ∧ 0 < gronnerudF F := by
  unfold Gronnerud_f_Fr gronnerudF
  by_cases h1 : 1 ≤ F
  · simp [h1, Py.pure_eq]
  · have : 0 < F ^ (0.3 : ℝ) := by positivity
    simp only [ge_iff_le, h1, if_false]
    constructor
    · py_eval []; congr 1; ring
    · positivity

theorem Gronnerud_eq (hx0 : 0 ≤ x) :
    Gronnerud ff m x rhol rhog mul mug D roughness L = .ok (gronnerud m x rhol rhog mul mug D * drop f m rhol mul D L) := by
  obtain ⟨h1, h2, h3, h4, h5, h6, h7, h8⟩ := h
  have r1 := Re_pos h1 h2 h4 h6
  have hF := Fr_pos h1 h6 h2
  obtain ⟨e1, e2⟩ := gronnerudF_ok hF
  have hv : flux m D / rhol = velocity m rhol D := by unfold flux velocity; rw [div_div, mul_comm rhol]
  have hq : (0 : ℝ) < (mul / mug) ^ (0.25 : ℝ) := by positivity
  simp only [Gronnerud, flux_ok h6, vel1 h2 h6, Py.ok_bind, rey h2 h4, pdiv_ok h6.ne', pdiv_ok h2.ne', pdiv_ok h3.ne', pdiv_ok h5.ne', hv, h7 _ r1, drop_eq,
    froude h6 h2, e1, psqrt_ok (div_pos h4 h5).le, psqrt_ok (sqrt_nonneg _), sqrt_quarter (div_pos h4 h5).le, pdiv_ok hq.ne', psqrt_ok e2.le,
    ppow_ok' hx0 (show (0 : ℝ) ≤ 1.8 by norm_num), Py.pure_eq]
  refine ok_congr ?_
  unfold gronnerud; ring

omit h in
theorem gamma_ok {a b : ℝ} (ha : 0 < a) (hb : 0 < b) : pdiv b a = .ok (b / a) ∧ psqrt (b / a) = .ok √(b / a) ∧ √(b / a) * √(b / a) = b / a ∧
    0 < √(b / a) :=
  ⟨pdiv_ok ha.ne', psqrt_ok (by positivity), mul_self_sqrt (by positivity), sqrt_pos.mpr (by positivity)⟩

omit h in
theorem chisholmB_ok {Γ G : ℝ} (hΓ : 0 < Γ) (hG : 0 < G) : Chisholm_B Γ G = .ok (chisholmB Γ G) := by
  have hs := sqrt_pos.mpr hG
  unfold Chisholm_B chisholmB
  split_ifs <;> py_eval []
  · rw [div_div, mul_comm]
  · rw [pow_two]

omit h in
theorem baroczyB_ok {Γ G : ℝ} (hΓ : 0 < Γ) (hG : 0 < G) : Baroczy_Chisholm_B Γ G = .ok (baroczyB Γ G) := by
  have hs := sqrt_pos.mpr hG
  unfold Baroczy_Chisholm_B baroczyB
  split_ifs <;> py_eval []
  · rw [mul_comm]
  · rw [pow_two, mul_comm]

theorem Chisholm_eq (hx0 : 0 ≤ x) (hx1 : x ≤ 1) (hL : 0 < L) :
    Chisholm ff m x rhol rhog mul mug D roughness L false =
      .ok (chisholm (chisholmB √(drop f m rhog mug D L / drop f m rhol mul D L) (flux m D)) 0.25 x (drop f m rhog mug D L / drop f m rhol mul D L) *
        drop f m rhol mul D L) := by
  have hx' : 0 ≤ 1 - x := by linarith
  obtain ⟨h1, h2, h3, h4, h5, h6, h7, h8⟩ := h
  have r1 := Re_pos h1 h2 h4 h6; have r2 := Re_pos h1 h3 h5 h6
  have p1 := drop_pos h8 h1 h2 h4 h6 hL; have p2 := drop_pos h8 h1 h3 h5 h6 hL
  obtain ⟨g1, g2, g3, g4⟩ := gamma_ok p1 p2
  simp only [Chisholm, flux_ok h6, vel1 h2 h6, vel1 h3 h6, Py.ok_bind, rey h2 h4, rey h3 h5, pdiv_ok h6.ne', h7 _ r1, h7 _ r2, drop_eq,
    g1, g2, chisholmB_ok g4 (flux_pos h1 h6), Chisholm_rough, Bool.false_eq_true, if_false, Py.pure_eq]
  py_eval [ppow_ok', show ((2 : ℝ) - 0.25) * 0.5 = (2 - 0.25) / 2 by norm_num, show (0 : ℝ) ≤ (2 - 0.25) / 2 by norm_num, show (0 : ℝ) ≤ (2 - 0.25) by norm_num]
  rw [g3]
  refine ok_congr ?_
  unfold chisholm; ring

theorem Baroczy_eq (hx0 : 0 ≤ x) (hx1 : x ≤ 1) (hL : 0 < L) :
    Baroczy_Chisholm ff m x rhol rhog mul mug D roughness L =
      .ok (chisholm (baroczyB √(drop f m rhog mug D L / drop f m rhol mul D L) (flux m D)) 0.25 x (drop f m rhog mug D L / drop f m rhol mul D L) *
        drop f m rhol mul D L) := by
  have hx' : 0 ≤ 1 - x := by linarith
  obtain ⟨h1, h2, h3, h4, h5, h6, h7, h8⟩ := h
  have r1 := Re_pos h1 h2 h4 h6; have r2 := Re_pos h1 h3 h5 h6
  have p1 := drop_pos h8 h1 h2 h4 h6 hL; have p2 := drop_pos h8 h1 h3 h5 h6 hL
  obtain ⟨g1, g2, g3, g4⟩ := gamma_ok p1 p2
  simp only [Baroczy_Chisholm, flux_ok h6, vel2 h2 h6, vel2 h3 h6, Py.ok_bind, rey h2 h4, rey h3 h5, pdiv_ok h6.ne', h7 _ r1, h7 _ r2, drop_eq,
    g1, g2, baroczyB_ok g4 (flux_pos h1 h6), Py.pure_eq]
  rw [ppow_ok' hx0 (by norm_num), Py.ok_bind, ppow_ok' hx' (by norm_num), Py.ok_bind, ppow_ok' hx0 (by norm_num), Py.ok_bind, g3]
  refine ok_congr ?_
  unfold chisholm; norm_num

theorem MSH_eq (hx1 : x ≤ 1) :
    Muller_Steinhagen_Heck ff m x rhol rhog mul mug D roughness L = .ok (msh x (drop f m rhol mul D L) (drop f m rhog mug D L)) := by
  have hx' : 0 ≤ 1 - x := by linarith
  obtain ⟨h1, h2, h3, h4, h5, h6, h7, h8⟩ := h
  have r1 := Re_pos h1 h2 h4 h6; have r2 := Re_pos h1 h3 h5 h6
  simp only [Muller_Steinhagen_Heck, vel1 h2 h6, vel1 h3 h6, Py.ok_bind, rey h2 h4, rey h3 h5, pdiv_ok h6.ne', h7 _ r1, h7 _ r2, drop_eq,
    Friction.pcbrt, hx', if_true, Py.pure_eq]
  refine ok_congr ?_
  unfold msh; ring

omit h in
theorem Lombardi_eq (hm : 0 < m) (hl : 0 < rhol) (hg : 0 < rhog) (hs : 0 < sigma) (hD : 0 < D) (hx0 : 0 ≤ x) (hx1 : x ≤ 1) :
    Lombardi_Pedrocchi m x rhol rhog sigma D L = .ok (lombardi m x rhol rhog sigma D L) := by
  obtain ⟨a, e1, e2⟩ := homog hx0 hx1 hl hg
  have hr := rhoH_pos hx0 hx1 hl hg
  have hG := flux_pos hm hD
  simp only [Lombardi_Pedrocchi, e1, e2, Py.ok_bind, flux_ok hD]
  py_eval []
  rfl

theorem Tran_eq (hr : rhog < rhol) (hs : 0 < sigma) (hx0 : 0 ≤ x) (hx1 : x ≤ 1) (hL : 0 < L) :
    Tran ff m x rhol rhog mul mug sigma D roughness L =
      .ok (tran (Co D rhol rhog sigma) x (drop f m rhog mug D L / drop f m rhol mul D L) * drop f m rhol mul D L) := by
  have hx' : 0 ≤ 1 - x := by linarith
  obtain ⟨h1, h2, h3, h4, h5, h6, h7, h8⟩ := h
  have r1 := Re_pos h1 h2 h4 h6; have r2 := Re_pos h1 h3 h5 h6
  have p1 := drop_pos h8 h1 h2 h4 h6 hL; have p2 := drop_pos h8 h1 h3 h5 h6 hL
  obtain ⟨g1, g2, g3, g4⟩ := gamma_ok p1 p2
  simp only [Tran, vel1 h2 h6, vel1 h3 h6, Py.ok_bind, rey h2 h4, rey h3 h5, pdiv_ok h6.ne', h7 _ r1, h7 _ r2, drop_eq, g1, confinement h6 hs hr]
  py_eval [ppow_ok']
  refine ok_congr ?_
  unfold tran; ring

omit h in
theorem zhangPr_ok {P Pc : ℝ} (hPc : 0 < Pc) : Zhang_Webb_Pr (some P) (some Pc) = .ok (P / Pc) := by
  simp only [Zhang_Webb_Pr, pdiv_ok hPc.ne']

theorem ZhangWebb_eq {P Pc : Option ℝ} {Pr : ℝ} (hPr : Zhang_Webb_Pr P Pc = .ok Pr) (hp : 0 < Pr) (hx0 : 0 ≤ x) (hx1 : x ≤ 1) :
    Zhang_Webb ff m x rhol mul P Pc D roughness L = .ok (zhangWebb x Pr * drop f m rhol mul D L) := by
  have hx' : 0 ≤ 1 - x := by linarith
  obtain ⟨h1, h2, h3, h4, h5, h6, h7, h8⟩ := h
  have r1 := Re_pos h1 h2 h4 h6
  simp only [Zhang_Webb, vel1 h2 h6, Py.ok_bind, rey h2 h4, pdiv_ok h6.ne', h7 _ r1, drop_eq, hPr]
  py_eval [ppow_ok', sqrt_quarter hx']
  refine ok_congr ?_
  unfold zhangWebb; ring

theorem Jung_eq (hx0 : 0 < x) (hx1 : x < 1) :
    Jung_Radermacher ff m x rhol rhog mul mug D roughness L = .ok (jung x rhol rhog mul mug * drop f m rhol mul D L) := by
  have hx' : 0 < 1 - x := by linarith
  obtain ⟨h1, h2, h3, h4, h5, h6, h7, h8⟩ := h
  have r1 := Re_pos h1 h2 h4 h6
  simp only [Jung_Radermacher, vel1 h2 h6, Py.ok_bind, rey h2 h4, pdiv_ok h6.ne', h7 _ r1, drop_eq, Voidage.Lockhart_Martinelli_Xtt]
  py_eval []
  refine ok_congr ?_
  unfold jung Xtt; ring

theorem XuFang_eq (hs : 0 < sigma) (hx0 : 0 < x) (hx1 : x ≤ 1) (hL : 0 < L) :
    Xu_Fang ff m x rhol rhog mul mug sigma D roughness L =
      .ok (xuFang x (drop f m rhog mug D L / drop f m rhol mul D L) (Fr m D (rhoH x rhol rhog)) (We m D (rhoH x rhol rhog) sigma) *
        drop f m rhol mul D L) := by
  obtain ⟨h1, h2, h3, h4, h5, h6, h7, h8⟩ := h
  have r1 := Re_pos h1 h2 h4 h6; have r2 := Re_pos h1 h3 h5 h6
  have p1 := drop_pos h8 h1 h2 h4 h6 hL; have p2 := drop_pos h8 h1 h3 h5 h6 hL
  obtain ⟨g1, g2, g3, g4⟩ := gamma_ok p1 p2
  obtain ⟨a, e1, e2⟩ := homog hx0.le hx1 h2 h3
  have hr := rhoH_pos hx0.le hx1 h2 h3
  have q1 := Fr_pos h1 h6 hr; have q2 := We_pos h1 h6 hs hr
  have hx' : 0 ≤ 1 - x ^ (2.59 : ℝ) := by
    rw [sub_nonneg]; exact rpow_le_one hx0.le hx1 (by norm_num)
  simp only [Xu_Fang, vel1 h2 h6, vel1 h3 h6, Py.ok_bind, rey h2 h4, rey h3 h5, pdiv_ok h6.ne', h7 _ r1, h7 _ r2, drop_eq, g1, e1, e2,
    (vel_h h6 hr).1, (vel_h h6 hr).2, froude h6 hr, weber h6 hs hr]
  py_eval [ppow_ok']
  refine ok_congr ?_
  unfold xuFang; ring

theorem Bankoff_base (hx0 : 0 < x) (hx1 : x < 1) : 0 < 1 - bankoffγ x rhol rhog * (1 - rhog / rhol) ∧ 0 < 1 + x * (rhol / rhog - 1) := by
  obtain ⟨h1, h2, h3, -⟩ := h
  have hr : 0 < rhog / rhol := by positivity
  have e : rhol / rhog = (rhog / rhol)⁻¹ := by rw [inv_div]
  rw [e]; unfold bankoffγ
  set r := rhog / rhol
  have hx' : 0 < (1 - x) / x * r := by have : 0 < 1 - x := by linarith
                                       positivity
  constructor
  · set k := (1 - x) / x * r
    rw [sub_pos, div_mul_eq_mul_div, div_lt_one (by positivity)]
    nlinarith [sq_nonneg (r - 0.349)]
  · have : 0 < x * r⁻¹ := by positivity
    linarith [mul_sub x r⁻¹ 1]

theorem Bankoff_eq (hx0 : 0 < x) (hx1 : x < 1) :
    Bankoff ff m x rhol rhog mul mug D roughness L = .ok (bankoff x rhol rhog * drop f m rhol mul D L) := by
  obtain ⟨b1, b2⟩ := h.Bankoff_base hx0 hx1
  have hx' : 0 < 1 - x := by linarith
  obtain ⟨h1, h2, h3, h4, h5, h6, h7, h8⟩ := h
  have r1 := Re_pos h1 h2 h4 h6
  have eγ : (0.71 + 2.35 * rhog / rhol) / (1 + (1 - x) / x * rhog / rhol) = bankoffγ x rhol rhog := by unfold bankoffγ; rw [mul_div_assoc, mul_div_assoc ((1 - x) / x)]
  have hd : 1 + (1 - x) / x * rhog / rhol ≠ 0 := by positivity
  simp only [Bankoff, vel1 h2 h6, Py.ok_bind, rey h2 h4, pdiv_ok h6.ne', h7 _ r1, drop_eq, pdiv_ok h2.ne', pdiv_ok h3.ne', pdiv_ok hx0.ne', pdiv_ok hd,
    pdiv_ok hx'.ne', eγ]
  rw [ppow_ok b1, Py.ok_bind, ppow_ok (by positivity), Py.ok_bind]
  refine ok_congr ?_
  unfold bankoff; ring

theorem Chen_eq (hmu : mug ≤ mul) (hs : 0 < sigma) (hr : rhog < rhol) (hx0 : 0 < x) (hx1 : x ≤ 1) :
    Chen_Friedel ff m x rhol rhog mul mug sigma D roughness L =
      .ok (((1 - x) ^ 2 * drop f m rhol mul D L + x ^ 2 * drop f m rhog mug D L + friedelY m x rhol rhog mul mug sigma D * drop f m rhol mul D L) *
        chenΩ (9.80665 * (rhol - rhog) * D ^ 2 / sigma / 4) (Re m rhol mul D) (Re (m * x) rhog mug D) (We m D (rhoH x rhol rhog) sigma)) := by
  have hF := h.Friedel_eq (L := L) (sigma := sigma) hmu hs hx0.le hx1
  obtain ⟨h1, h2, h3, h4, h5, h6, h7, h8⟩ := h
  have r1 := Re_pos h1 h2 h4 h6; have r2 := Re_pos h1 h3 h5 h6
  have f1 := h8 _ r1; have f2 := h8 _ r2
  have hρ := rhoH_pos hx0.le hx1 h2 h3
  have p1 := Fr_pos h1 h6 hρ; have p2 := We_pos h1 h6 hs hρ
  have hx' : 0 ≤ 1 - x := by linarith
  have hm' : 0 ≤ 1 - mug / mul := by rw [sub_nonneg, div_le_one h4]; exact hmu
  have hd : x / rhog + (1 - x) / rhol ≠ 0 := by
    have : 0 < x / rhog := by positivity
    have : 0 ≤ (1 - x) / rhol := by positivity
    positivity
  have eρ : 1 / (x / rhog + (1 - x) / rhol) = rhoH x rhol rhog := by rw [rhoH, one_div]
  have hBo : Core.Bond rhol rhog sigma D = .ok (9.80665 * (rhol - rhog) * D ^ 2 / sigma) := by
    rw [Core.Bond, pdiv_ok hs.ne', Core.g0]; congr 1; norm_num; ring
  have hB : 0 < 9.80665 * (rhol - rhog) * D ^ 2 / sigma / 4 := by
    have : 0 < rhol - rhog := by linarith
    positivity
  set Bo := 9.80665 * (rhol - rhog) * D ^ 2 / sigma / 4
  have hΩ : Chen_Friedel_Omega m x rhog mug D (0.25 * π * D * D) (Re m rhol mul D) (We m D (rhoH x rhol rhog) sigma) Bo =
      .ok (chenΩ Bo (Re m rhol mul D) (Re (m * x) rhog mug D) (We m D (rhoH x rhol rhog) sigma)) := by
    have r3 := Re_pos (mul_pos h1 hx0) h3 h5 h6
    unfold Chen_Friedel_Omega chenΩ
    split_ifs
    · simp only [vel1 h3 h6, Py.ok_bind, rey h3 h5]; py_eval []
    · py_eval []
  simp only [Chen_Friedel, vel1 h3 h6, vel1 h2 h6, Py.ok_bind, rey h2 h4, rey h3 h5, pdiv_ok h6.ne', h7 _ r1, h7 _ r2, drop_eq,
    pdiv_ok h3.ne', pdiv_ok h2.ne', pdiv_ok hd, eρ,
    (vel_h h6 hρ).1, (vel_h h6 hρ).2, froude h6 hρ, weber h6 hs hρ, hBo]
  py_eval [ppow_ok']
  rw [hΩ, Py.ok_bind]
  have := E_eq (f := f) (mug := mug) (L := L) f1 h2 h3 h6
  refine ok_congr ?_
  unfold friedelY
  linear_combination x ^ 2 * this * chenΩ Bo (Re m rhol mul D) (Re (m * x) rhog mug D) (We m D (rhoH x rhol rhog) sigma)

theorem YuFrance_eq (hx0 : 0 < x) (hx1 : x < 1) :
    Yu_France ff m x rhol rhog mul mug D roughness L =
      .ok (yuX x rhol rhog (Re (m * (1 - x)) rhol mul D) (Re (m * x) rhog mug D) ^ (-1.9 : ℝ) * drop f (m * (1 - x)) rhol mul D L) := by
  have hx' : 0 < 1 - x := by linarith
  obtain ⟨h1, h2, h3, h4, h5, h6, h7, h8⟩ := h
  have r1 := Re_pos (mul_pos h1 hx') h2 h4 h6; have r2 := Re_pos (mul_pos h1 hx0) h3 h5 h6
  simp only [Yu_France, vel1 h2 h6, vel1 h3 h6, Py.ok_bind, rey h2 h4, rey h3 h5, pdiv_ok h6.ne', h7 _ r1, drop_eq]
  py_eval []
  refine ok_congr ?_
  unfold yuX
  rw [sqrt_eq_rpow, sqrt_eq_rpow, show (1 / 2 : ℝ) = 0.5 by norm_num, mul_div_assoc (18.65 * (rhog / rhol) ^ (0.5 : ℝ))]


end Flow

end Verif.TwoPhase
