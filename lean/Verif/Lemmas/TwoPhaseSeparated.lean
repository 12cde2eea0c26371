import Verif.Lemmas.TwoPhase

/-! Evaluation of the Theissing and the separated-flow correlations into closed forms. -/

open Real

noncomputable section

namespace Verif.TwoPhase

open Spec.TwoPhase

variable {ff : ℝ → ℝ → Py ℝ} {f : ℝ → ℝ} {m x rhol rhog mul mug sigma D roughness L w rho mu : ℝ}

namespace Flow

variable (h : Flow ff f m rhol rhog mul mug D roughness)
include h

/-- Theissing at the ends needs nothing more. -/
theorem Theissing_ends :
    Theissing ff m 0 rhol rhog mul mug D roughness L = .ok (drop f m rhol mul D L) ∧
    Theissing ff m 1 rhol rhog mul mug D roughness L = .ok (drop f m rhog mug D L) := by
  obtain ⟨h1, h2, h3, h4, h5, h6, h7, h8⟩ := h
  have r1 := Re_pos h1 h2 h4 h6; have r2 := Re_pos h1 h3 h5 h6
  constructor <;>
  simp only [Theissing, vel1 h2 h6, vel1 h3 h6, Py.ok_bind, rey h2 h4, rey h3 h5, pdiv_ok h6.ne', h7 _ r1, h7 _ r2, drop_eq, if_true, one_ne_zero,
    if_false, Py.pure_eq]

/-- Theissing's exponent and ε exist and are positive when the single-phase drop increases with flow. -/
theorem theissing_n (hx0 : 0 < x) (hx1 : x < 1) (hL : 0 < L) (h1 : drop f (m * (1 - x)) rhol mul D L < drop f m rhol mul D L)
    (h2 : drop f (m * x) rhog mug D L < drop f m rhog mug D L) :
    0 < log (drop f (m * (1 - x)) rhol mul D L / drop f m rhol mul D L) / log (1 - x) ∧
    0 < log (drop f (m * x) rhog mug D L / drop f m rhog mug D L) / log x := by
  have hx' : 0 < 1 - x := by linarith
  have p1 := drop_pos h.pos (mul_pos h.m0 hx') h.rhol0 h.mul0 h.D0 hL
  have p2 := drop_pos h.pos (mul_pos h.m0 hx0) h.rhog0 h.mug0 h.D0 hL
  constructor
  · exact div_pos_of_neg_of_neg (log_neg (div_pos p1 (p1.trans h1)) ((div_lt_one (p1.trans h1)).mpr h1)) (log_neg hx' (by linarith))
  · exact div_pos_of_neg_of_neg (log_neg (div_pos p2 (p2.trans h2)) ((div_lt_one (p2.trans h2)).mpr h2)) (log_neg hx0 hx1)

omit h in
theorem theissingE_ge {n : ℝ} (hn : 0 < n) (hl : 0 < rhol) (hg : 0 < rhog) : 1 ≤ theissingE n rhol rhog := by
  have hq : 0 < rhol / rhog := by positivity
  have hy : 2 * √(rhol / rhog) / (1 + rhol / rhog) ≤ 1 := by
    rw [div_le_one (by positivity)]
    nlinarith [sq_sqrt hq.le, sq_nonneg (√(rhol / rhog) - 1)]
  have := rpow_le_one (by positivity) hy (show 0 ≤ 0.7 / n by positivity)
  unfold theissingE; linarith

omit h in
theorem theissingN_pos {n1 n2 c d : ℝ} (h1 : 0 < n1) (h2 : 0 < n2) (hc : 0 < c) (hd : 0 < d) : 0 < theissingN n1 n2 c d := by
  unfold theissingN; positivity

omit h in
theorem theissingN_ok {a b c d x : ℝ} (ha : 0 < a) (hb : 0 < b) (hc : 0 < c) (hd : 0 < d) (hx : 0 < x) (hx' : 0 < 1 - x) (l1 : log (1 - x) ≠ 0)
    (l2 : log x ≠ 0) : Theissing_n x a b c d = .ok (theissingN (log (c / a) / log (1 - x)) (log (d / b) / log x) c d) := by
  unfold Theissing_n; py_eval []; rw [theissingN]

omit h in
theorem theissingE_ok {n : ℝ} (hn : 0 < n) (h2 : 0 < rhol) (h3 : 0 < rhog) : Theissing_epsilon rhol rhog n = .ok (theissingE n rhol rhog) := by
  unfold Theissing_epsilon; py_eval []; rw [theissingE]

omit h in
theorem theissing_interp {x a b c d rhol rhog n E : ℝ} (hpn : 0 < n) (hE : 0 < E) (ha : 0 < a) (hb : 0 < b) (hx : 0 < x) (hx' : 0 < 1 - x)
    (hn' : Theissing_n x a b c d = .ok n) (hE' : Theissing_epsilon rhol rhog n = .ok E) :
    Theissing_interp x rhol rhog a b c d = .ok (theissing n E x a b) := by
  rw [Theissing_interp, hn', Py.ok_bind, hE', Py.ok_bind]
  py_eval []
  rw [theissing]

theorem Theissing_eq (hx0 : 0 < x) (hx1 : x < 1) (hL : 0 < L) (hl : drop f (m * (1 - x)) rhol mul D L < drop f m rhol mul D L)
    (hg : drop f (m * x) rhog mug D L < drop f m rhog mug D L) :
    ∃ n > 0, n = theissingN (log (drop f (m * (1 - x)) rhol mul D L / drop f m rhol mul D L) / log (1 - x))
      (log (drop f (m * x) rhog mug D L / drop f m rhog mug D L) / log x) (drop f (m * (1 - x)) rhol mul D L) (drop f (m * x) rhog mug D L) ∧
    Theissing ff m x rhol rhog mul mug D roughness L =
      .ok (theissing n (theissingE n rhol rhog) x (drop f m rhol mul D L) (drop f m rhog mug D L)) := by
  obtain ⟨n1, n2⟩ := h.theissing_n hx0 hx1 hL hl hg
  have hx' : 0 < 1 - x := by linarith
  obtain ⟨h1, h2, h3, h4, h5, h6, h7, h8⟩ := h
  have r1 := Re_pos h1 h2 h4 h6; have r2 := Re_pos h1 h3 h5 h6
  have r3 := Re_pos (mul_pos h1 hx') h2 h4 h6; have r4 := Re_pos (mul_pos h1 hx0) h3 h5 h6
  have p1 := drop_pos h8 h1 h2 h4 h6 hL; have p2 := drop_pos h8 h1 h3 h5 h6 hL
  have p3 := drop_pos h8 (mul_pos h1 hx') h2 h4 h6 hL; have p4 := drop_pos h8 (mul_pos h1 hx0) h3 h5 h6 hL
  have l1 : log (1 - x) ≠ 0 := (log_neg hx' (by linarith)).ne
  have l2 : log x ≠ 0 := (log_neg hx0 hx1).ne
  have hpn := theissingN_pos n1 n2 p3 p4
  refine ⟨_, hpn, rfl, ?_⟩
  have hE0 : 0 < theissingE _ rhol rhog := lt_of_lt_of_le one_pos (theissingE_ge hpn h2 h3)
  have key := theissing_interp hpn hE0 p1 p2 hx0 hx' (theissingN_ok p1 p2 p3 p4 hx0 hx' l1 l2) (theissingE_ok hpn h2 h3)
  rw [← key]
  clear key hE0 hpn n1 n2 hl hg
  have e1 : Theissing ff m x rhol rhog mul mug D roughness L = Theissing_mix ff m x rhol rhog mul mug D roughness L (0.25 * π * D * D)
      (drop f m rhol mul D L) (drop f m rhog mug D L) := by
    unfold Theissing
    extract_lets A
    rw [vel1 h2 h6, Py.ok_bind, rey h2 h4, Py.ok_bind, pdiv_ok h6.ne', Py.ok_bind, h7 _ r1, Py.ok_bind, pdiv_ok h6.ne', Py.ok_bind]
    extract_lets dlo
    rw [vel1 h3 h6, Py.ok_bind, rey h3 h5, Py.ok_bind, Py.ok_bind, h7 _ r2, Py.ok_bind, pdiv_ok h6.ne', Py.ok_bind, if_neg hx0.ne', if_neg hx1.ne]
    simp only [dlo, drop_eq]
    rfl
  rw [e1]
  simp only [Theissing_mix, vel1 h2 h6, vel1 h3 h6, Py.ok_bind, rey h2 h4, rey h3 h5, pdiv_ok h6.ne', h7 _ r3, h7 _ r4, drop_eq f]

/-! ### separated flow -/

/-- The common start of the separated flow correlations. -/
theorem sep {x : ℝ} (hx0 : 0 < x) (hx1 : x < 1) (hL : 0 < L) :
    0 < Re (m * (1 - x)) rhol mul D ∧ 0 < Re (m * x) rhog mug D ∧ 0 < Re m rhol mul D ∧
    0 < drop f (m * (1 - x)) rhol mul D L ∧ 0 < drop f (m * x) rhog mug D L := by
  have hx' : 0 < 1 - x := by linarith
  obtain ⟨h1, h2, h3, h4, h5, h6, h7, h8⟩ := h
  exact ⟨Re_pos (mul_pos h1 hx') h2 h4 h6, Re_pos (mul_pos h1 hx0) h3 h5 h6, Re_pos h1 h2 h4 h6,
    drop_pos h8 (mul_pos h1 hx') h2 h4 h6 hL, drop_pos h8 (mul_pos h1 hx0) h3 h5 h6 hL⟩

theorem Mishima_eq (hx0 : 0 < x) (hx1 : x < 1) (hL : 0 < L) :
    Mishima_Hibiki ff m x rhol rhog mul mug sigma D roughness L =
      .ok (separated (21 * (1 - exp (-319 * D))) (drop f (m * (1 - x)) rhol mul D L) (drop f (m * x) rhog mug D L)) := by
  obtain ⟨r1, r2, r3, p1, p2⟩ := h.sep hx0 hx1 hL
  obtain ⟨h1, h2, h3, h4, h5, h6, h7, h8⟩ := h
  simp only [Mishima_Hibiki, vel1 h2 h6, vel1 h3 h6, Py.ok_bind, rey h2 h4, rey h3 h5, pdiv_ok h6.ne', h7 _ r1, h7 _ r2, drop_eq]
  rw [← separated_eq p1 p2]
  py_eval [show (-0.319e3 : ℝ) = -319 by norm_num]

omit h in
theorem zhangC_ok {c : ℝ} (hc : 0 < c) (t : String) : Zhang_Hibiki_Mishima_C c t =
    if t = "adiabatic vapor" then .ok (21 * (1 - exp (-0.142 / c))) else if t = "adiabatic gas" then .ok (21 * (1 - exp (-0.674 / c)))
    else if t = "flow boiling" then .ok (21 * (1 - exp (-0.358 / c))) else .error .valueError := by
  unfold Zhang_Hibiki_Mishima_C
  split_ifs <;> py_eval []

theorem Zhang_eq {C : ℝ} {t : String} (hx0 : 0 < x) (hx1 : x < 1) (hL : 0 < L) (hr : rhog < rhol) (hs : 0 < sigma)
    (hC : Zhang_Hibiki_Mishima_C (Co D rhol rhog sigma) t = .ok C) :
    Zhang_Hibiki_Mishima ff m x rhol rhog mul mug sigma D roughness L t =
      .ok (separated C (drop f (m * (1 - x)) rhol mul D L) (drop f (m * x) rhog mug D L)) := by
  obtain ⟨r1, r2, r3, p1, p2⟩ := h.sep hx0 hx1 hL
  obtain ⟨h1, h2, h3, h4, h5, h6, h7, h8⟩ := h
  simp only [Zhang_Hibiki_Mishima, vel1 h2 h6, vel1 h3 h6, Py.ok_bind, rey h2 h4, rey h3 h5, pdiv_ok h6.ne', h7 _ r1, h7 _ r2, drop_eq,
    confinement h6 hs hr, hC]
  rw [← separated_eq p1 p2]
  py_eval []

theorem Zhang_error {t : String} (hx0 : 0 < x) (hx1 : x < 1) (hL : 0 < L) (hr : rhog < rhol) (hs : 0 < sigma)
    (hC : Zhang_Hibiki_Mishima_C (Co D rhol rhog sigma) t = .error .valueError) :
    Zhang_Hibiki_Mishima ff m x rhol rhog mul mug sigma D roughness L t = .error .valueError := by
  obtain ⟨r1, r2, r3, p1, p2⟩ := h.sep hx0 hx1 hL
  obtain ⟨h1, h2, h3, h4, h5, h6, h7, h8⟩ := h
  simp only [Zhang_Hibiki_Mishima, vel1 h2 h6, vel1 h3 h6, Py.ok_bind, rey h2 h4, rey h3 h5, pdiv_ok h6.ne', h7 _ r1, h7 _ r2, drop_eq,
    confinement h6 hs hr, hC]
  py_eval []
  rfl

theorem Hwang_eq (hx0 : 0 < x) (hx1 : x < 1) (hL : 0 < L) (hr : rhog < rhol) (hs : 0 < sigma) :
    Hwang_Kim ff m x rhol rhog mul mug sigma D roughness L =
      .ok (separated (hwangC (Re m rhol mul D) √(drop f (m * (1 - x)) rhol mul D L / drop f (m * x) rhog mug D L) (Co D rhol rhog sigma))
        (drop f (m * (1 - x)) rhol mul D L) (drop f (m * x) rhog mug D L)) := by
  obtain ⟨r1, r2, r3, p1, p2⟩ := h.sep hx0 hx1 hL
  obtain ⟨h1, h2, h3, h4, h5, h6, h7, h8⟩ := h
  have hc := Co_pos h6 hs hr
  have hq := sqrt_pos.mpr (div_pos p1 p2)
  simp only [Hwang_Kim, vel1 h2 h6, vel1 h3 h6, Py.ok_bind, rey h2 h4, rey h3 h5, pdiv_ok h6.ne', h7 _ r1, h7 _ r2, drop_eq,
    confinement h6 hs hr]
  rw [← separated_eq p1 p2]
  py_eval [show (-0.320 : ℝ) = -0.32 by norm_num, show (-0.820 : ℝ) = -0.82 by norm_num]
  rw [← hwangC]

theorem Wang_eq (hx0 : 0 < x) (hx1 : x < 1) (hL : 0 < L) :
    Wang_Chiang_Lu ff m x rhol rhog mul mug D roughness L =
      if 200 ≤ flux m D then
        .ok (drop f (m * x) rhog mug D L * (1 + 9.397 * √(drop f (m * (1 - x)) rhol mul D L / drop f (m * x) rhog mug D L) ^ (0.62 : ℝ) +
          0.564 * √(drop f (m * (1 - x)) rhol mul D L / drop f (m * x) rhog mug D L) ^ (2.45 : ℝ)))
      else .ok (separated (wangC √(drop f (m * (1 - x)) rhol mul D L / drop f (m * x) rhog mug D L) (Re m rhol mul D) rhol rhog mul mug)
        (drop f (m * (1 - x)) rhol mul D L) (drop f (m * x) rhog mug D L)) := by
  obtain ⟨r1, r2, r3, p1, p2⟩ := h.sep hx0 hx1 hL
  obtain ⟨h1, h2, h3, h4, h5, h6, h7, h8⟩ := h
  have hq := sqrt_pos.mpr (div_pos p1 p2)
  simp only [Wang_Chiang_Lu, flux_ok h6, vel1 h2 h6, vel1 h3 h6, Py.ok_bind, rey h2 h4, rey h3 h5, pdiv_ok h6.ne', h7 _ r1, h7 _ r2, drop_eq]
  py_eval []
  unfold Wang_Chiang_Lu_phi
  by_cases hG : 200 ≤ flux m D
  · simp only [ge_iff_le, hG, if_true]
    py_eval []
  · simp only [ge_iff_le, hG, if_false]
    simp only [vel1 h2 h6, Py.ok_bind, rey h2 h4]
    py_eval []
    rw [← separated_eq p1 p2, ← wangC]
    refine ok_congr ?_
    have e := mul_self_sqrt (div_pos p1 p2).le
    generalize √(drop f (m * (1 - x)) rhol mul D L / drop f (m * x) rhog mug D L) = X at *
    have e' : drop f (m * (1 - x)) rhol mul D L = X * X * drop f (m * x) rhog mug D L := by rw [e, div_mul_cancel₀ _ p2.ne']
    rw [e']; field_simp; ring

omit h in
theorem kimF_ok {R : ℝ} (hR : 0 < R) : friction_factor_Kim_Mudawar R = .ok (kimF R) ∧ 0 < kimF R := by
  have := sqrt_pos.mpr hR
  unfold friction_factor_Kim_Mudawar kimF
  split_ifs <;> refine ⟨?_, by positivity⟩ <;> py_eval []
  · rw [sqrt_quarter hR.le]
  · rw [rpow_neg hR.le]; rfl

omit h in
theorem kimC_ok {Rl Rg Rlo S : ℝ} (hl : 0 < rhol) (hg : 0 < rhog) (h3 : 0 < Rlo) (hS : 0 < S) :
    Kim_Mudawar_C Rl Rg Rlo S rhol rhog = .ok (kimC Rl Rg Rlo S rhol rhog) ∧ 0 < kimC Rl Rg Rlo S rhol rhog := by
  have e : √S = S ^ (0.5 : ℝ) := by rw [sqrt_eq_rpow]; norm_num
  unfold Kim_Mudawar_C kimC
  by_cases a : Rl < 2000 <;> by_cases b : Rg < 2000
  · simp only [a, b, and_self, if_true]
    exact ⟨by py_eval [e], by positivity⟩
  · simp only [a, b, not_lt.mp b, and_false, ge_iff_le, and_self, if_true, if_false]
    exact ⟨by py_eval [e], by positivity⟩
  · simp only [a, b, not_lt.mp a, false_and, ge_iff_le, and_self, if_true, if_false]
    exact ⟨by py_eval [e], by positivity⟩
  · simp only [a, b, and_self, false_and, and_false, if_false]
    exact ⟨by py_eval [e], by positivity⟩

end Flow

theorem Kim_eq (hm : 0 < m) (hl : 0 < rhol) (hg : 0 < rhog) (hmul : 0 < mul) (hmug : 0 < mug) (hs : 0 < sigma) (hD : 0 < D)
    (hx0 : 0 < x) (hx1 : x < 1) (hL : 0 < L) :
    Kim_Mudawar m x rhol rhog mul mug sigma D L =
      .ok (separated (kimC (Re (m * (1 - x)) rhol mul D) (Re (m * x) rhog mug D) (Re m rhol mul D) (rhog * sigma * D / mug ^ 2) rhol rhog)
        (drop kimF (m * (1 - x)) rhol mul D L) (drop kimF (m * x) rhog mug D L)) := by
  have hf : ∀ Re > 0, 0 < kimF Re := fun R hR => (Flow.kimF_ok hR).2
  have hx' : 0 < 1 - x := by linarith
  have r1 := Re_pos (mul_pos hm hx') hl hmul hD; have r2 := Re_pos (mul_pos hm hx0) hg hmug hD; have r3 := Re_pos hm hl hmul hD
  have p1 := drop_pos hf (mul_pos hm hx') hl hmul hD hL; have p2 := drop_pos hf (mul_pos hm hx0) hg hmug hD hL
  have hS : Core.Suratman D rhog mug sigma = .ok (rhog * sigma * D / mug ^ 2) := by rw [Core.Suratman, pdiv_ok (by positivity), pow_two]
  have hSp : 0 < rhog * sigma * D / mug ^ 2 := by positivity
  simp only [Kim_Mudawar, vel1 hl hD, vel1 hg hD, Py.ok_bind, rey hl hmul, rey hg hmug, pdiv_ok hD.ne', (Flow.kimF_ok r1).1, (Flow.kimF_ok r2).1, drop_eq, hS]
  rw [← separated_eq p1 p2]
  py_eval [(Flow.kimC_ok hl hg r3 hSp).1]

theorem lockhartF_ok {Rec R : ℝ} (hR : 0 < R) : Lockhart_Martinelli_fd R Rec = .ok (lockhartF Rec R) ∧ 0 < lockhartF Rec R := by
  unfold Lockhart_Martinelli_fd lockhartF
  split_ifs <;> refine ⟨?_, by positivity⟩ <;> py_eval []
  rw [rpow_neg hR.le]; rfl

theorem lockhartC_eq {Rl Rg Rec : ℝ} : Lockhart_Martinelli_C Rl Rg Rec = lockhartC (Rec ≤ Rl) (Rec ≤ Rg) := by
  unfold Lockhart_Martinelli_C lockhartC
  by_cases a : Rl < Rec <;> by_cases b : Rg < Rec
  · simp [a, b, not_le.mpr a, not_le.mpr b]
  · simp [a, b, not_le.mpr a, not_lt.mp b]
  · simp [a, b, not_lt.mp a, not_le.mpr b]
  · simp [a, b, not_lt.mp a, not_lt.mp b]

theorem Lockhart_eq {Rec : ℝ} (hm : 0 < m) (hl : 0 < rhol) (hg : 0 < rhog) (hmul : 0 < mul) (hmug : 0 < mug) (hD : 0 < D)
    (hx0 : 1e-30 ≤ x) (hx1 : x ≤ 1 - 1e-13) (hL : 0 < L) :
    Lockhart_Martinelli m x rhol rhog mul mug D L Rec =
      .ok (separated (lockhartC (Rec ≤ Re (m * (1 - x)) rhol mul D) (Rec ≤ Re (m * x) rhog mug D))
        (drop (lockhartF Rec) (m * (1 - x)) rhol mul D L) (drop (lockhartF Rec) (m * x) rhog mug D L)) := by
  have hf : ∀ Re > 0, 0 < lockhartF Rec Re := fun R hR => (lockhartF_ok hR).2
  have hx : 0 < x := lt_of_lt_of_le (by norm_num) hx0
  have hx' : 0 < 1 - x := by linarith
  have r1 := Re_pos (mul_pos hm hx') hl hmul hD; have r2 := Re_pos (mul_pos hm hx) hg hmug hD
  have p1 := drop_pos hf (mul_pos hm hx') hl hmul hD hL; have p2 := drop_pos hf (mul_pos hm hx) hg hmug hD hL
  have e : ∀ a b : ℝ, 0.5 * a * b ^ 2 = 0.5 * a * b * b := fun a b => by ring
  simp only [Lockhart_Martinelli, vel1 hl hD, vel1 hg hD, Py.ok_bind, rey hl hmul, rey hg hmug, pdiv_ok hD.ne', (lockhartF_ok r1).1, (lockhartF_ok r2).1, e, drop_eq,
    lockhartC_eq, gt_iff_lt, not_lt.mpr hx0, not_lt.mpr hx1, if_false]
  rw [← separated_eq p1 p2]
  py_eval []

theorem Lockhart_ends {Rec : ℝ} (hm : 0 < m) (hl : 0 < rhol) (hg : 0 < rhog) (hmul : 0 < mul) (hmug : 0 < mug) (hD : 0 < D) :
    (0 < x → x < 1e-30 → Lockhart_Martinelli m x rhol rhog mul mug D L Rec = .ok (drop (lockhartF Rec) (m * (1 - x)) rhol mul D L)) ∧
    (1 - 1e-13 < x → Lockhart_Martinelli m x rhol rhog mul mug D L Rec = .ok (drop (lockhartF Rec) (m * x) rhog mug D L)) ∧
    (0 < Rec → Lockhart_Martinelli m 0 rhol rhog mul mug D L Rec = .error .zeroDivisionError) := by
  have e : ∀ a b : ℝ, 0.5 * a * b ^ 2 = 0.5 * a * b * b := fun a b => by ring
  refine ⟨fun h0 h1 => ?_, fun h1 => ?_, fun hR => ?_⟩
  · have hx' : 0 < 1 - x := by norm_num at h1; linarith
    have h1' : ¬ 1 - 1e-13 < x := by norm_num at h1 ⊢; linarith
    have r1 := Re_pos (mul_pos hm hx') hl hmul hD; have r2 := Re_pos (mul_pos hm h0) hg hmug hD
    simp only [Lockhart_Martinelli, vel1 hl hD, vel1 hg hD, Py.ok_bind, rey hl hmul, rey hg hmug, pdiv_ok hD.ne', (lockhartF_ok r1).1, (lockhartF_ok r2).1, e, drop_eq,
      gt_iff_lt, h1, h1', if_false, if_true, Py.pure_eq]
  · have h0 : 0 < x := by norm_num at h1; linarith
    have r2 := Re_pos (mul_pos hm h0) hg hmug hD
    simp only [Lockhart_Martinelli, vel1 hl hD, vel1 hg hD, Py.ok_bind, rey hl hmul, rey hg hmug, pdiv_ok hD.ne', (lockhartF_ok r2).1, e, drop_eq,
      gt_iff_lt, h1, if_true, Py.pure_eq]
  · have r0 : Re (m * 0) rhog mug D = 0 := by simp [Re, velocity]
    simp only [Lockhart_Martinelli, vel1 hl hD, vel1 hg hD, Py.ok_bind, rey hl hmul, rey hg hmug, r0, Lockhart_Martinelli_fd, hR, if_true, pdiv_zero, Py.error_bind]

end Verif.TwoPhase
