import Verif.Props.FlowMeter

/-!
# C57: flow meter dispatch
-/

open Real
open Verif.FlowMeter

namespace Verif

/-- admissible operating point: pipe larger than the restriction, positive flow and fluid properties, a pressure drop, `k ≥ 1` -/
structure FMOk (D D2 m P1 P2 rho mu k : ℝ) : Prop where
  hD2 : 0 < D2
  hD : D2 < D
  hm : 0 < m
  hP2 : 0 < P2
  hP : P2 < P1
  hrho : 0 < rho
  hmu : 0 < mu
  hk : 1 ≤ k

example : FMOk 0.07366 0.05 7.702338 200000 183000 999.1 0.0011 1.33 := ⟨by norm_num, by norm_num, by norm_num, by norm_num, by norm_num,
  by norm_num, by norm_num, by norm_num⟩

/-- the pressure-tap arguments each meter documents -/
def tapsOk (meter : String) (taps tap_position : Option String) : Prop :=
  if meter ∈ ["orifice", "ISO 5167 orifice"] then
    taps ∈ [none, some "corner", some "flange", some "D", some "D/2", some "D and D/2"]
  else if meter = "Miller orifice" then taps ∈ [some "corner", some "flange", some "D and D/2", some "pipe"]
  else if meter = "Miller eccentric orifice" then
    taps ∈ [some "flange", some "vena contracta"] ∧ tap_position ∈ [some "180 degree", some "90 degree"]
  else if meter ∈ ["Miller segmental orifice", "segmental orifice"] then taps ∈ [some "flange", some "vena contracta"]
  else True

theorem C57_beta_reject {meter : String} (h : meter ∉ all_meters) (D D2 : ℝ) :
    differential_pressure_meter_beta D D2 meter = .error .valueError := by
  have h' : meter ∉ beta_simple_meters ∧ meter ∉ [CONE_METER, HOLLINGSHEAD_CONE] ∧ meter ∉ [WEDGE_METER, HOLLINGSHEAD_WEDGE] := by
    refine ⟨fun h1 => h (List.mem_append_left _ h1), fun h1 => h ?_, fun h1 => h ?_⟩ <;>
    · apply List.mem_append_right
      simp only [List.mem_cons, List.not_mem_nil, or_false] at h1 ⊢
      tauto
  simp only [differential_pressure_meter_beta, h'.1, h'.2.1, h'.2.2, if_false]

theorem wedge_mem {D H : ℝ} (h0 : 0 < H) (h1 : H < D) : ∃ b, diameter_ratio_wedge_meter D H = .ok b ∧ 0 < b ∧ b < 1 := by
  have hD : 0 < D := by linarith
  obtain ⟨b, hb, b0, b1, -⟩ := C58_wedge h0.le h1.le hD
  obtain ⟨c, hc, c0, -⟩ := C58_wedge le_rfl hD.le hD
  obtain ⟨d, hd, -, d1, -⟩ := C58_wedge hD.le le_rfl hD
  obtain ⟨x, y, hx, hy, hxy⟩ := C58_wedge_strictMono hD le_rfl h0 h1.le
  rw [hc] at hx; rw [hb] at hy; obtain rfl := Except.ok.inj hx; obtain rfl := Except.ok.inj hy
  obtain ⟨x, y, hx, hy, hxy'⟩ := C58_wedge_strictMono hD h0.le h1 le_rfl
  rw [hb] at hx; rw [hd] at hy; obtain rfl := Except.ok.inj hx; obtain rfl := Except.ok.inj hy
  exact ⟨b, hb, by linarith, by linarith⟩

theorem cone_mem {D Dc : ℝ} (h0 : 0 < Dc) (h1 : Dc < D) : ∃ b, diameter_ratio_cone_meter D Dc = .ok b ∧ 0 < b ∧ b < 1 := by
  obtain ⟨b0, b1⟩ := ratio_mem h0 h1
  have hD : 0 < D := by linarith
  have hs : 0 < 1 - Dc / D * (Dc / D) := by nlinarith
  refine ⟨_, by simp only [diameter_ratio_cone_meter, pdiv_ok hD.ne', Py.ok_bind, psqrt_ok hs.le], sqrt_pos.mpr hs, ?_⟩
  rw [sqrt_lt' one_pos]
  have : 0 < Dc / D * (Dc / D) := by positivity
  linarith

/-- C57: the diameter ratio is computed, strictly between 0 and 1, for every advertised meter; any other name raises `ValueError`. -/
theorem C57_beta {D D2 : ℝ} (h0 : 0 < D2) (h1 : D2 < D) (meter : String) :
    (meter ∈ all_meters → ∃ b, differential_pressure_meter_beta D D2 meter = .ok b ∧ 0 < b ∧ b < 1) ∧
      (meter ∉ all_meters → differential_pressure_meter_beta D D2 meter = .error .valueError) := by
  refine ⟨fun h => ?_, fun h => C57_beta_reject h D D2⟩
  have hD : D ≠ 0 := by linarith
  by_cases hs : meter ∈ beta_simple_meters
  · refine ⟨D2 / D, ?_, ratio_mem h0 h1⟩
    unfold differential_pressure_meter_beta
    rw [if_pos hs, pdiv_ok hD]
  · rcases List.mem_append.mp h with h | h
    · exact absurd h hs
    · simp only [List.mem_cons, List.not_mem_nil, or_false] at h
      rcases h with rfl | rfl | rfl | rfl
      · simp only [differential_pressure_meter_beta, hs, if_false, List.mem_cons, true_or, if_true]; exact cone_mem h0 h1
      · have : WEDGE_METER ∉ [CONE_METER, HOLLINGSHEAD_CONE] := by decide
        simp only [differential_pressure_meter_beta, hs, if_false, this]
        simp only [List.mem_cons, true_or, if_true]; exact wedge_mem h0 h1
      · simp only [differential_pressure_meter_beta, hs, if_false, List.mem_cons, true_or, or_true, if_true]; exact cone_mem h0 h1
      · have : HOLLINGSHEAD_WEDGE ∉ [CONE_METER, HOLLINGSHEAD_CONE] := by decide
        simp only [differential_pressure_meter_beta, hs, if_false, this]
        simp only [List.mem_cons, true_or, or_true, if_true]; exact wedge_mem h0 h1

theorem nozzle_total {D Do P1 P2 k : ℝ} (beta : Option ℝ) (h0 : 0 < Do) (h1 : Do < D) (hP2 : 0 < P2) (hP : P2 < P1) (hk : 1 ≤ k)
    (b0 : 0 < beta.getD (Do / D)) (b1 : beta.getD (Do / D) < 1) : ∃ e, nozzle_expansibility D Do P1 P2 k beta = .ok e := by
  rcases hk.lt_or_eq with h | h
  · obtain ⟨e, he, -⟩ := C56_nozzle beta (by linarith : D ≠ 0) b0 b1 h hP2 hP.le
    exact ⟨e, he⟩
  · subst h; exact ⟨_, (nozzle_one_eq h0 h1 hP2 hP).1⟩

theorem pipeRe_ok {D rho mu m : ℝ} (hD : 0 < D) (hrho : 0 < rho) (hmu : 0 < mu) (hm : 0 < m) :
    ∃ Re, pipeRe D rho mu m = .ok Re ∧ 0 < Re ∧ Re = 4 * m / (π * D * mu) := by
  have hp := pi_pos
  have h1 : 0.25 * π * D * D * rho ≠ 0 := by positivity
  refine ⟨rho * (m / (0.25 * π * D * D * rho)) * D / mu, by simp only [pipeRe, pdiv_ok h1, pdiv_ok hmu.ne', Py.ok_bind], by positivity, ?_⟩
  rw [show (0.25 : ℝ) = 1 / 4 by norm_num]
  field_simp

theorem one_sub_ne {b : ℝ} (b0 : 0 < b) (b1 : b < 1) : 1 - b * b * (b * b) ≠ 0 := by
  have hb4 : b ^ 4 < 1 := pow_lt_one₀ b0.le b1 (by norm_num)
  rw [show b * b * (b * b) = b ^ 4 by ring]; linarith

theorem tapLengths_ok {D : ℝ} (hD : 0 < D) {t : String} (ht : t ∈ ["corner", "flange", "D", "D/2", "D and D/2"]) :
    ∃ L1 L2, tapLengths D t = .ok (L1, L2) ∧ 0 ≤ L2 := by
  simp only [List.mem_cons, List.not_mem_nil, or_false] at ht
  rcases ht with rfl | rfl | rfl | rfl | rfl
  · exact ⟨0, 0, by simp [tapLengths], le_rfl⟩
  · exact ⟨0.0254 / D, 0.0254 / D, by simp [tapLengths, pdiv_ok hD.ne'], by positivity⟩
  · exact ⟨1, 0.47, by simp [tapLengths], by norm_num⟩
  · exact ⟨1, 0.47, by simp [tapLengths], by norm_num⟩
  · exact ⟨1, 0.47, by simp [tapLengths], by norm_num⟩

theorem RHG_ok {D Do rho mu m : ℝ} (h0 : 0 < Do) (h1 : Do < D) (hrho : 0 < rho) (hmu : 0 < mu) (hm : 0 < m) {t : String}
    (ht : t ∈ ["corner", "flange", "D", "D/2", "D and D/2"]) : ∃ C, C_Reader_Harris_Gallagher D Do rho mu m t = .ok C := by
  have hD : 0 < D := by linarith
  obtain ⟨b0, b1⟩ := ratio_mem h0 h1
  obtain ⟨Re, hRe, Re0, -⟩ := pipeRe_ok hD hrho hmu hm
  obtain ⟨L1, L2, hL, L0⟩ := tapLengths_ok hD ht
  have hR : 0 < 1 / Re := by positivity
  have hb : 1 - Do / D ≠ 0 := by linarith
  have hM : 0 ≤ 2 * L2 / (1 - Do / D) := div_nonneg (by positivity) (by linarith)
  have p1 : 0 < Do / D * (1 / Re) := by positivity
  have p2 : 0 < 3700 * (1 / Re) := by positivity
  have p3 : 0 < 1e6 * (Do / D) * (1 / Re) := by positivity
  simp only [C_Reader_Harris_Gallagher, hRe, Py.ok_bind, pdiv_ok Re0.ne', pdiv_ok hD.ne', hL, pdiv_ok hb, ppow_ok p1, pdiv_ok (one_sub_ne b0 b1),
    plog10_ok p2, ppow_ok' hM (by norm_num : (0 : ℝ) ≤ 1.1), ppow_ok b0, ppow_ok hR, ppow_ok p3, psqrt_ok b0.le, Py.pure_eq]
  split_ifs
  all_goals exact ⟨_, rfl⟩

theorem RHG_reject {D Do rho mu m : ℝ} (h0 : 0 < Do) (h1 : Do < D) (hrho : 0 < rho) (hmu : 0 < mu) (hm : 0 < m) {t : String}
    (ht : t ∉ ["corner", "flange", "D", "D/2", "D and D/2"]) : C_Reader_Harris_Gallagher D Do rho mu m t = .error .valueError := by
  have hD : 0 < D := by linarith
  obtain ⟨Re, hRe, Re0, -⟩ := pipeRe_ok hD hrho hmu hm
  have hL : tapLengths D t = .error .valueError := by
    simp only [List.mem_cons, List.not_mem_nil, or_false, not_or] at ht
    obtain ⟨a, b, c, d, e⟩ := ht
    simp only [tapLengths, List.mem_cons, List.not_mem_nil, a, b, c, d, e, or_self, if_false]
  simp only [C_Reader_Harris_Gallagher, hRe, Py.ok_bind, pdiv_ok Re0.ne', pdiv_ok hD.ne', hL, Py.error_bind]

theorem millerCoefs_cases {D Re b c : ℝ} (hD : 0 < D) (b0 : 0 < b) (b1 : b < 1) {meter : String} {taps pos : Option String}
    (hm : meter ∈ [MILLER_ORIFICE, MILLER_ECCENTRIC_ORIFICE, MILLER_SEGMENTAL_ORIFICE, MILLER_QUARTER_CIRCLE_ORIFICE, MILLER_CONICAL_ORIFICE]) :
    (tapsOk meter taps pos → ∃ r, millerCoefs D Re b c meter taps pos = .ok r) ∧
      (¬ tapsOk meter taps pos → millerCoefs D Re b c meter taps pos = .error .valueError) := by
  have hne : 1 - b * (b * b * b) ≠ 0 := by
    have := one_sub_ne b0 b1
    rwa [show b * b * (b * b) = b * (b * b * b) by ring] at this
  have hDm : D * 1000 ≠ 0 := by positivity
  have hDn : D * 1000 * (1 - b * (b * b * b)) ≠ 0 := mul_ne_zero hDm hne
  simp only [List.mem_cons, List.not_mem_nil, or_false] at hm
  rcases hm with rfl | rfl | rfl | rfl | rfl
  · simp only [tapsOk, millerCoefs, List.mem_cons, List.not_mem_nil, or_false, String.reduceEq, if_true, if_false, true_or, psqrt_ok b0.le,
      Py.ok_bind, or_self]
    constructor
    · rintro (rfl | rfl | rfl | rfl)
      · simp only [if_true]; exact ⟨_, rfl⟩
      · simp only [Option.some.injEq, String.reduceEq, if_true, if_false, pdiv_ok hne, pdiv_ok hDm, pdiv_ok hDn, Py.ok_bind]
        split_ifs <;> exact ⟨_, rfl⟩
      · simp only [Option.some.injEq, String.reduceEq, if_true, if_false, pdiv_ok hne, Py.ok_bind]; exact ⟨_, rfl⟩
      · simp only [Option.some.injEq, String.reduceEq, if_true, if_false, pdiv_ok hne, Py.ok_bind]; exact ⟨_, rfl⟩
    · intro h
      simp only [not_or] at h
      simp only [h.1, h.2.1, h.2.2.1, h.2.2.2, if_false]
  · simp only [tapsOk, millerCoefs, List.mem_cons, List.not_mem_nil, or_false, String.reduceEq, if_true, if_false, true_or, or_self]
    constructor
    · rintro ⟨rfl | rfl, rfl | rfl⟩ <;>
      · simp only [Option.some.injEq, String.reduceEq, true_or, or_true, not_true, if_true, if_false, pdiv_ok hne, Py.ok_bind]
        split_ifs <;> exact ⟨_, rfl⟩
    · intro h
      by_cases hp : pos = some "180 degree" ∨ pos = some "90 degree"
      · have ht : ¬ (taps = some "flange" ∨ taps = some "vena contracta") := fun ht => h ⟨ht, hp⟩
        simp only [not_or] at ht
        simp only [hp, not_true, if_false, ht.1, ht.2]
      · simp only [hp, not_false_eq_true, if_true]
  · simp only [tapsOk, millerCoefs, List.mem_cons, List.not_mem_nil, or_false, String.reduceEq, if_true, if_false, true_or, or_self]
    constructor
    · rintro (rfl | rfl) <;>
      · simp only [Option.some.injEq, String.reduceEq, if_true, if_false, pdiv_ok hne, Py.ok_bind]
        split_ifs <;> exact ⟨_, rfl⟩
    · intro h
      simp only [not_or] at h
      simp only [h.1, h.2, if_false]
  · simp only [tapsOk, millerCoefs, List.mem_cons, List.not_mem_nil, or_false, String.reduceEq, if_true, if_false, true_or, or_self,
      pdiv_ok hne, Py.ok_bind, not_true, false_implies, and_true, true_implies]
    exact ⟨_, rfl⟩
  · simp only [tapsOk, millerCoefs, List.mem_cons, List.not_mem_nil, or_false, String.reduceEq, if_true, if_false, true_or, or_self,
      not_true, false_implies, and_true, true_implies]
    split_ifs <;> exact ⟨_, rfl⟩

theorem Miller_cases {D Do rho mu m : ℝ} (h0 : 0 < Do) (h1 : Do < D) (hrho : 0 < rho) (hmu : 0 < mu) (hm : 0 < m) {meter : String}
    {taps pos : Option String}
    (hmt : meter ∈ [MILLER_ORIFICE, MILLER_ECCENTRIC_ORIFICE, MILLER_SEGMENTAL_ORIFICE, MILLER_QUARTER_CIRCLE_ORIFICE, MILLER_CONICAL_ORIFICE]) :
    (tapsOk meter taps pos → ∃ C, C_Miller_1996 D Do rho mu m meter taps pos = .ok C) ∧
      (¬ tapsOk meter taps pos → C_Miller_1996 D Do rho mu m meter taps pos = .error .valueError) := by
  have hD : 0 < D := by linarith
  obtain ⟨b0, b1⟩ := ratio_mem h0 h1
  obtain ⟨Re, hRe, Re0, -⟩ := pipeRe_ok hD hrho hmu hm
  obtain ⟨ha, hb⟩ := millerCoefs_cases (Re := Re) (c := (Do / D) ^ (2.1 : ℝ)) (taps := taps) (pos := pos) hD b0 b1 hmt
  constructor
  · intro h
    obtain ⟨⟨x, n, c⟩, hr⟩ := ha h
    simp only [C_Miller_1996, hRe, Py.ok_bind, pdiv_ok hD.ne', ppow_ok b0, hr, ppow_ok Re0, Py.pure_eq]
    exact ⟨_, rfl⟩
  · intro h
    simp only [C_Miller_1996, hRe, Py.ok_bind, pdiv_ok hD.ne', ppow_ok b0, hb h, Py.error_bind]

/-- C57: for every advertised meter other than the unspecified one, at every admissible operating point, the discharge coefficient and
expansibility are computed when the tap arguments are ones the meter documents, and `ValueError` is raised when they are not. -/
theorem C57_correlation (H : Hollingshead) {D D2 m P1 P2 rho mu k : ℝ} (h : FMOk D D2 m P1 P2 rho mu k) {meter : String}
    (hmt : meter ∈ all_meters) (hu : meter ≠ UNSPECIFIED_METER) (taps pos : Option String) (Cs : Option ℝ) :
    (tapsOk meter taps pos → ∃ r, correlation H D D2 m P1 P2 rho mu k (translate meter) taps pos Cs = .ok r) ∧
      (¬ tapsOk meter taps pos → correlation H D D2 m P1 P2 rho mu k (translate meter) taps pos Cs = .error .valueError) := by
  obtain ⟨h0, h1, hm, hP2, hP, hrho, hmu, hk⟩ := h
  have hD : 0 < D := by linarith
  have hD' := hD.ne'
  obtain ⟨b0, b1⟩ := ratio_mem h0 h1
  obtain ⟨Re, hRe, Re0, -⟩ := pipeRe_ok hD hrho hmu hm
  have hlog := plog_ok Re0
  obtain ⟨e, he, -⟩ := C56_orifice h0 h1.le (by linarith : 0 < k) hP2 hP.le
  obtain ⟨n, hn⟩ := nozzle_total (Do := D2) none h0 h1 hP2 hP hk b0 b1
  obtain ⟨w, hw, w0, w1⟩ := wedge_mem h0 h1
  obtain ⟨nw, hnw⟩ := nozzle_total (Do := D2) (some w) h0 h1 hP2 hP hk w0 w1
  obtain ⟨c, hc, c0, c1⟩ := cone_mem h0 h1
  obtain ⟨ec, hec, -⟩ := C56_cone h0 h1 (by linarith : 0 < k) hP2 hP.le
  have hmean : meanExpansibility D D2 P1 P2 k = .ok (0.5 * (e + n)) := by
    simp only [meanExpansibility, he, hn, Py.ok_bind, Py.pure_eq]
  have hecc : ∃ x, C_eccentric_orifice_ISO_15377_1998 D D2 = .ok x :=
    ⟨_, by simp only [C_eccentric_orifice_ISO_15377_1998, pdiv_ok hD', Py.ok_bind, Py.pure_eq]; rfl⟩
  obtain ⟨C1, hC1⟩ := hecc
  have hq : ∃ x, C_quarter_circle_orifice_ISO_15377_1998 D D2 = .ok x :=
    ⟨_, by simp only [C_quarter_circle_orifice_ISO_15377_1998, pdiv_ok hD', Py.ok_bind, Py.pure_eq]; rfl⟩
  obtain ⟨C2, hC2⟩ := hq
  have hmill := fun {meter} hmt => Miller_cases (meter := meter) (taps := taps) (pos := pos) h0 h1 hrho hmu hm hmt
  have p6 : 0 < 1e6 / Re := by positivity
  have hlr : ∃ x, C_long_radius_nozzle D D2 rho mu m = .ok x :=
    ⟨_, by simp only [C_long_radius_nozzle, hRe, pdiv_ok hD', pdiv_ok Re0.ne', psqrt_ok b0.le, psqrt_ok p6.le, Py.ok_bind, Py.pure_eq]; rfl⟩
  obtain ⟨C3, hC3⟩ := hlr
  have hisa : ∃ x, C_ISA_1932_nozzle D D2 rho mu m = .ok x :=
    ⟨_, by simp only [C_ISA_1932_nozzle, hRe, pdiv_ok hD', pdiv_ok Re0.ne', ppow_ok b0, ppow_ok p6, Py.ok_bind, Py.pure_eq]; rfl⟩
  obtain ⟨C4, hC4⟩ := hisa
  have hvn : ∃ x, C_venturi_nozzle D D2 = .ok x :=
    ⟨_, by simp only [C_venturi_nozzle, pdiv_ok hD', psqrt_ok b0.le, Py.ok_bind, Py.pure_eq]; rfl⟩
  obtain ⟨C5, hC5⟩ := hvn
  have hrhg : (taps ∈ [none, some "corner", some "flange", some "D", some "D/2", some "D and D/2"] →
      ∃ C, C_Reader_Harris_Gallagher D D2 rho mu m (taps.getD "corner") = .ok C) ∧
      (taps ∉ [none, some "corner", some "flange", some "D", some "D/2", some "D and D/2"] →
      C_Reader_Harris_Gallagher D D2 rho mu m (taps.getD "corner") = .error .valueError) := by
    cases taps with
    | none => exact ⟨fun _ => RHG_ok h0 h1 hrho hmu hm (by simp), fun h => absurd (by simp) h⟩
    | some t =>
      simp only [List.mem_cons, List.not_mem_nil, or_false, Option.some.injEq, reduceCtorEq, false_or, Option.getD_some]
      exact ⟨fun h => RHG_ok h0 h1 hrho hmu hm (by simpa using h), fun h => RHG_reject h0 h1 hrho hmu hm (by simpa using h)⟩
  simp only [all_meters, beta_simple_meters, List.cons_append, List.nil_append, List.mem_cons, List.not_mem_nil, or_false] at hmt
  rcases hmt with rfl | rfl | rfl | rfl | rfl | rfl | rfl | rfl | rfl | rfl | rfl | rfl | rfl | rfl | rfl | rfl | rfl | rfl | rfl | rfl |
    rfl | rfl | rfl | rfl | rfl | rfl | rfl | rfl
  -- ISO 5167
  · simp only [tapsOk, translate, correlation, String.reduceEq, if_true, if_false, List.mem_cons, List.not_mem_nil, or_false, true_or, or_true]
    simp only [List.mem_cons, List.not_mem_nil, or_false] at hrhg
    refine ⟨fun h => ?_, fun h => ?_⟩
    · obtain ⟨C, hC⟩ := hrhg.1 h
      simp only [hC, he, Py.ok_bind, Py.pure_eq]; exact ⟨_, rfl⟩
    · simp only [hrhg.2 h, Py.error_bind]
  · refine ⟨fun _ => ?_, fun h => absurd (by simp [tapsOk]) h⟩
    simp only [translate, correlation, String.reduceEq, if_true, if_false, hC1, he, Py.ok_bind, Py.pure_eq]; exact ⟨_, rfl⟩
  · refine ⟨fun _ => ?_, fun h => absurd (by simp [tapsOk]) h⟩
    simp only [translate, correlation, String.reduceEq, if_true, if_false, hmean, Py.ok_bind, Py.pure_eq]; exact ⟨_, rfl⟩
  · refine ⟨fun _ => ?_, fun h => absurd (by simp [tapsOk]) h⟩
    simp only [translate, correlation, String.reduceEq, if_true, if_false, hC2, he, Py.ok_bind, Py.pure_eq]; exact ⟨_, rfl⟩
  -- Miller
  · have hx := hmill (meter := MILLER_ORIFICE) (by simp)
    simp only [translate, correlation, String.reduceEq, if_true, if_false, List.mem_cons, true_or]
    refine ⟨fun h => ?_, fun h => by simp only [hx.2 h, Py.error_bind]⟩
    obtain ⟨C, hC⟩ := hx.1 h
    simp only [hC, he, Py.ok_bind, Py.pure_eq]; exact ⟨_, rfl⟩
  · have hx := hmill (meter := MILLER_ECCENTRIC_ORIFICE) (by simp)
    simp only [translate, correlation, String.reduceEq, if_true, if_false, List.mem_cons, true_or, or_true]
    refine ⟨fun h => ?_, fun h => by simp only [hx.2 h, Py.error_bind]⟩
    obtain ⟨C, hC⟩ := hx.1 h
    simp only [hC, he, Py.ok_bind, Py.pure_eq]; exact ⟨_, rfl⟩
  · have hx := hmill (meter := MILLER_SEGMENTAL_ORIFICE) (by simp)
    simp only [translate, correlation, String.reduceEq, if_true, if_false, List.mem_cons, true_or, or_true]
    refine ⟨fun h => ?_, fun h => by simp only [hx.2 h, Py.error_bind]⟩
    obtain ⟨C, hC⟩ := hx.1 h
    simp only [hC, he, Py.ok_bind, Py.pure_eq]; exact ⟨_, rfl⟩
  · have hx := hmill (meter := MILLER_CONICAL_ORIFICE) (by simp)
    simp only [translate, correlation, String.reduceEq, if_true, if_false, List.mem_cons, List.not_mem_nil, or_self]
    refine ⟨fun h => ?_, fun h => by simp only [hx.2 h, Py.error_bind]⟩
    obtain ⟨C, hC⟩ := hx.1 h
    simp only [hC, hmean, Py.ok_bind, Py.pure_eq]; exact ⟨_, rfl⟩
  · have hx := hmill (meter := MILLER_QUARTER_CIRCLE_ORIFICE) (by simp)
    simp only [translate, correlation, String.reduceEq, if_true, if_false, List.mem_cons, true_or, or_true]
    refine ⟨fun h => ?_, fun h => by simp only [hx.2 h, Py.error_bind]⟩
    obtain ⟨C, hC⟩ := hx.1 h
    simp only [hC, he, Py.ok_bind, Py.pure_eq]; exact ⟨_, rfl⟩
  -- generic names
  · simp only [tapsOk, translate, correlation, String.reduceEq, if_true, if_false, List.mem_cons, List.not_mem_nil, or_false, true_or, or_true]
    simp only [List.mem_cons, List.not_mem_nil, or_false] at hrhg
    refine ⟨fun h => ?_, fun h => ?_⟩
    · obtain ⟨C, hC⟩ := hrhg.1 h
      simp only [hC, he, Py.ok_bind, Py.pure_eq]; exact ⟨_, rfl⟩
    · simp only [hrhg.2 h, Py.error_bind]
  · refine ⟨fun _ => ?_, fun h => absurd (by simp [tapsOk]) h⟩
    simp only [translate, correlation, String.reduceEq, if_true, if_false, hC1, he, Py.ok_bind, Py.pure_eq]; exact ⟨_, rfl⟩
  · refine ⟨fun _ => ?_, fun h => absurd (by simp [tapsOk]) h⟩
    simp only [translate, correlation, String.reduceEq, if_true, if_false, hmean, Py.ok_bind, Py.pure_eq]; exact ⟨_, rfl⟩
  · have hx := hmill (meter := MILLER_SEGMENTAL_ORIFICE) (by simp)
    have ht : tapsOk SEGMENTAL_ORIFICE taps pos = tapsOk MILLER_SEGMENTAL_ORIFICE taps pos := by simp [tapsOk]
    rw [ht]
    simp only [translate, correlation, String.reduceEq, if_true, if_false, List.mem_cons, true_or, or_true]
    refine ⟨fun h => ?_, fun h => by simp only [hx.2 h, Py.error_bind]⟩
    obtain ⟨C, hC⟩ := hx.1 h
    simp only [hC, he, Py.ok_bind, Py.pure_eq]; exact ⟨_, rfl⟩
  · refine ⟨fun _ => ?_, fun h => absurd (by simp [tapsOk]) h⟩
    simp only [translate, correlation, String.reduceEq, if_true, if_false, hC2, he, Py.ok_bind, Py.pure_eq]; exact ⟨_, rfl⟩
  · exact absurd rfl hu
  all_goals
    refine ⟨fun _ => ?_, fun h => absurd (by simp [tapsOk]) h⟩
    simp only [translate, correlation, C_wedge_meter_ISO_5167_6_2017, String.reduceEq, List.mem_cons, List.not_mem_nil, or_self, if_true, if_false, hRe, hlog, pdiv_ok hD', hn, hnw, hw, hc, hec,
      he, hC3, hC4, hC5, Py.ok_bind, Py.pure_eq]
    exact ⟨_, rfl⟩

theorem translate_not_mem {meter : String} (h : meter ∉ all_meters) : translate meter = meter := by
  simp only [all_meters, beta_simple_meters, List.cons_append, List.nil_append, List.mem_cons, List.not_mem_nil, or_false, not_or] at h
  simp only [translate, h, if_false]

/-- C57: a meter name outside the advertised set raises `ValueError`, whatever the other arguments. -/
theorem C57_C_epsilon_reject (H : Hollingshead) {D D2 m P1 P2 rho mu k : ℝ} {meter : String} (h : meter ∉ all_meters) (taps pos : Option String)
    (Cs es : Option ℝ) : differential_pressure_meter_C_epsilon H D D2 m P1 P2 rho mu k meter taps pos Cs es = .error .valueError := by
  rw [differential_pressure_meter_C_epsilon, translate_not_mem h]
  simp only [all_meters, beta_simple_meters, List.cons_append, List.nil_append, List.mem_cons, List.not_mem_nil, or_false, not_or] at h
  simp only [correlation, h, List.mem_cons, List.not_mem_nil, or_self, if_false, Py.error_bind]

/-- C57: for every advertised meter with documented tap arguments the discharge coefficient and expansibility are computed; a specified
coefficient or expansibility is returned as given, whatever the correlation gives, and does not affect the other value. -/
theorem C57_C_epsilon (H : Hollingshead) {D D2 m P1 P2 rho mu k : ℝ} (h : FMOk D D2 m P1 P2 rho mu k) {meter : String}
    (hmt : meter ∈ all_meters) (hu : meter ≠ UNSPECIFIED_METER) {taps pos : Option String} (ht : tapsOk meter taps pos) :
    ∃ C e, ∀ Cs es : Option ℝ, differential_pressure_meter_C_epsilon H D D2 m P1 P2 rho mu k meter taps pos Cs es =
      .ok (Cs.getD C, es.getD e) := by
  obtain ⟨⟨C, e⟩, hr⟩ := (C57_correlation H h hmt hu taps pos none).1 ht
  refine ⟨C, e, fun Cs es => ?_⟩
  have hr' : correlation H D D2 m P1 P2 rho mu k (translate meter) taps pos Cs = .ok (C, e) := by
    rw [← hr]
    have : translate meter ≠ UNSPECIFIED_METER := by
      unfold translate
      split_ifs <;> first | decide | exact hu
    simp only [correlation, if_neg this]
  simp only [differential_pressure_meter_C_epsilon, hr', Py.ok_bind, Py.pure_eq]

/-- C57: undocumented tap arguments raise `ValueError`, even when the coefficient is specified. -/
theorem C57_C_epsilon_taps (H : Hollingshead) {D D2 m P1 P2 rho mu k : ℝ} (h : FMOk D D2 m P1 P2 rho mu k) {meter : String}
    (hmt : meter ∈ all_meters) (hu : meter ≠ UNSPECIFIED_METER) {taps pos : Option String} (ht : ¬ tapsOk meter taps pos) (Cs es : Option ℝ) :
    differential_pressure_meter_C_epsilon H D D2 m P1 P2 rho mu k meter taps pos Cs es = .error .valueError := by
  simp only [differential_pressure_meter_C_epsilon, (C57_correlation H h hmt hu taps pos Cs).2 ht, Py.error_bind]

/-- C57: the unspecified meter needs `C_specified`, and uses it with the orifice expansibility (or the specified one). -/
theorem C57_unspecified (H : Hollingshead) {D D2 m P1 P2 rho mu k : ℝ} (h : FMOk D D2 m P1 P2 rho mu k) (taps pos : Option String)
    (Cs es : Option ℝ) :
    ∃ e, orifice_expansibility D D2 P1 P2 k = .ok e ∧
      (∀ C, Cs = some C → differential_pressure_meter_C_epsilon H D D2 m P1 P2 rho mu k UNSPECIFIED_METER taps pos Cs es = .ok (C, es.getD e)) ∧
      (Cs = none → differential_pressure_meter_C_epsilon H D D2 m P1 P2 rho mu k UNSPECIFIED_METER taps pos Cs es = .error .valueError) := by
  obtain ⟨e, he, -⟩ := C56_orifice h.hD2 h.hD.le (by linarith [h.hk] : 0 < k) h.hP2 h.hP.le
  refine ⟨e, he, ?_, ?_⟩
  · rintro C rfl
    simp only [differential_pressure_meter_C_epsilon, translate, correlation, String.reduceEq, List.mem_cons, List.not_mem_nil, or_self,
      if_true, if_false, he, Py.ok_bind, Py.pure_eq, Option.getD_some]
  · rintro rfl
    simp only [differential_pressure_meter_C_epsilon, translate, correlation, String.reduceEq, List.mem_cons, List.not_mem_nil, or_self,
      if_true, if_false, he, Py.ok_bind, Py.error_bind]

/-- C57 (finding): the advertised default arguments (no taps) are not accepted by the Miller orifice, the Miller eccentric orifice, the Miller
segmental orifice and the generic segmental orifice: all raise `ValueError`; every other meter works without tap arguments. -/
theorem C57_default_taps {meter : String} (hmt : meter ∈ all_meters) :
    ¬ tapsOk meter none none ↔ meter ∈ [MILLER_ORIFICE, MILLER_ECCENTRIC_ORIFICE, MILLER_SEGMENTAL_ORIFICE, SEGMENTAL_ORIFICE] := by
  simp only [all_meters, beta_simple_meters, List.cons_append, List.nil_append, List.mem_cons, List.not_mem_nil, or_false] at hmt
  rcases hmt with rfl | rfl | rfl | rfl | rfl | rfl | rfl | rfl | rfl | rfl | rfl | rfl | rfl | rfl | rfl | rfl | rfl | rfl | rfl | rfl |
    rfl | rfl | rfl | rfl | rfl | rfl | rfl | rfl <;> simp [tapsOk]

/-! ### Solver -/

/-- number of unknowns among the four -/
def unknowns (D2 P1 P2 m : Option ℝ) : ℕ := ([D2, P1, P2, m].filter (·.isNone)).length

/-- C57: unless exactly one of `m`, `D2`, `P1`, `P2` is left out, the solver raises `ValueError`. -/
theorem C57_solver_one_unknown (S : Solvers) (H : Hollingshead) (D rho mu : ℝ) (k D2 P1 P2 m : Option ℝ) (meter : String)
    (taps pos : Option String) (Cs es : Option ℝ) (h : unknowns D2 P1 P2 m ≠ 1) :
    differential_pressure_meter_solver S H D rho mu k D2 P1 P2 m meter taps pos Cs es = .error .valueError := by
  cases D2 <;> cases P1 <;> cases P2 <;> cases m <;> simp [unknowns] at h <;> rfl

/-- contract of the root finders: whatever is returned is a root of the residual -/
def IsRootFinder (s : (ℝ → Py ℝ) → Py ℝ) : Prop := ∀ f x, s f = .ok x → f x = .ok 0

/-- the meter equation: the flow equals the flow computed from the meter's own discharge coefficient and expansibility -/
def MeterEquation (H : Hollingshead) (D D2 m P1 P2 rho mu k : ℝ) (meter : String) (taps pos : Option String) (Cs es : Option ℝ) : Prop :=
  ∃ C e, differential_pressure_meter_C_epsilon H D D2 m P1 P2 rho mu k meter taps pos Cs es = .ok (C, e) ∧
    flow_meter_discharge D D2 P1 P2 rho C e meter = .ok m

theorem residual_zero {H : Hollingshead} {D D2 m P1 P2 rho mu k : ℝ} {meter : String} {taps pos : Option String} {Cs es : Option ℝ}
    (h : FlowMeter.residual H D D2 m P1 P2 rho mu k meter taps pos Cs es = .ok 0) : MeterEquation H D D2 m P1 P2 rho mu k meter taps pos Cs es := by
  unfold FlowMeter.residual at h
  obtain ⟨⟨C, e⟩, h1, h2⟩ := Py.bind_eq_ok.mp h
  obtain ⟨mc, h3, h4⟩ := Py.bind_eq_ok.mp h2
  refine ⟨C, e, h1, ?_⟩
  rw [h3]
  have := Except.ok.inj h4
  rw [show mc = m by linarith]

/-- C57: whichever of the four is left out, and whatever root finder is used, a returned value satisfies the meter equation together with the
three given ones (with `k = 1.4` assumed when only the expansibility is given). -/
theorem C57_solver_correct {S : Solvers} (hS : IsRootFinder S.m ∧ IsRootFinder S.D2 ∧ IsRootFinder S.P2 ∧ IsRootFinder S.P1) (H : Hollingshead)
    {D rho mu : ℝ} {k D2 P1 P2 m : Option ℝ} {meter : String} {taps pos : Option String} {Cs es : Option ℝ} {x : ℝ}
    (h : differential_pressure_meter_solver S H D rho mu k D2 P1 P2 m meter taps pos Cs es = .ok x) :
    unknowns D2 P1 P2 m = 1 ∧ (k = none → es ≠ none) ∧
      MeterEquation H D (D2.getD x) (m.getD x) (P1.getD x) (P2.getD x) rho mu (k.getD 1.4) meter taps pos Cs es := by
  have hu : unknowns D2 P1 P2 m = 1 := by
    by_contra hne
    rw [C57_solver_one_unknown S H D rho mu k D2 P1 P2 m meter taps pos Cs es hne] at h
    exact absurd h (by simp)
  refine ⟨hu, ?_⟩
  have hk : ∀ k' : Option ℝ, k' = (if k = none ∧ es ≠ none then some 1.4 else k) → ∀ kk, k' = some kk → (k = none → es ≠ none) ∧ kk = k.getD 1.4 := by
    intro k' hk' kk hkk
    rw [hkk] at hk'
    cases k with
    | none =>
      by_cases he : es = none
      · simp [he] at hk'
      · simp only [ne_eq, he, not_false_eq_true, and_self, if_true, Option.some.injEq] at hk'
        exact ⟨fun _ => he, by simp [hk']⟩
    | some y =>
      simp only [reduceCtorEq, false_and, if_false, Option.some.injEq] at hk'
      exact ⟨fun h => absurd h (by simp), by simp [hk']⟩
  rcases m with _ | m <;> rcases D2 with _ | D2 <;> rcases P1 with _ | P1 <;> rcases P2 with _ | P2 <;> try (simp [unknowns] at hu; done)
  · simp only [differential_pressure_meter_solver] at h
    obtain ⟨y, h1, h2⟩ := Py.bind_eq_ok.mp h
    have h3 := hS.1 _ _ h1
    obtain rfl := (Except.ok.inj h2).symm
    split at h3
    · exact absurd h3 (by simp)
    · next kk hkk =>
      obtain ⟨ha, hb⟩ := hk _ rfl kk hkk
      exact ⟨ha, by rw [← hb]; exact residual_zero h3⟩
  · simp only [differential_pressure_meter_solver] at h
    have h3 := hS.2.1 _ _ h
    split at h3
    · exact absurd h3 (by simp)
    · next kk hkk =>
      obtain ⟨ha, hb⟩ := hk _ rfl kk hkk
      exact ⟨ha, by rw [← hb]; exact residual_zero h3⟩
  · simp only [differential_pressure_meter_solver] at h
    have h3 := hS.2.2.2 _ _ h
    split at h3
    · exact absurd h3 (by simp)
    · next kk hkk =>
      obtain ⟨ha, hb⟩ := hk _ rfl kk hkk
      exact ⟨ha, by rw [← hb]; exact residual_zero h3⟩
  · simp only [differential_pressure_meter_solver] at h
    have h3 := hS.2.2.1 _ _ h
    split at h3
    · exact absurd h3 (by simp)
    · next kk hkk =>
      obtain ⟨ha, hb⟩ := hk _ rfl kk hkk
      exact ⟨ha, by rw [← hb]; exact residual_zero h3⟩

/-! ### Permanent pressure loss -/

/-- C57: `differential_pressure_meter_dP` computes the loss of every orifice and of the nozzles when `C` is given, and asks for `C` otherwise. -/
theorem C57_dP_orifice {D D2 P1 P2 : ℝ} (h0 : 0 < D2) (h1 : D2 < D) {meter : String}
    (hm : meter ∈ dP_orifice_set ++ [LONG_RADIUS_NOZZLE, ISA_1932_NOZZLE]) :
    (∀ C, 0 < C → ∃ dP, differential_pressure_meter_dP D D2 P1 P2 (some C) meter = .ok dP ∧ dP_orifice D D2 P1 P2 C = .ok dP) ∧
      differential_pressure_meter_dP D D2 P1 P2 none meter = .error .valueError := by
  have e : ∀ C, differential_pressure_meter_dP D D2 P1 P2 C meter = dP_with_C D D2 P1 P2 C := by
    intro C
    rcases List.mem_append.mp hm with h | h
    · simp only [differential_pressure_meter_dP, h, if_true]
    · simp only [List.mem_cons, List.not_mem_nil, or_false] at h
      rcases h with rfl | rfl <;>
        simp only [differential_pressure_meter_dP, List.mem_cons, List.not_mem_nil, String.reduceEq, or_self, if_true, if_false]
  refine ⟨fun C hC => ?_, by rw [e]; rfl⟩
  rw [e]
  obtain ⟨b0, b1⟩ := ratio_mem h0 h1
  have hD : D ≠ 0 := by linarith
  have hS := one_sub_pos b0 b1 hC
  have e' : 1 - D2 / D * (D2 / D) * (D2 / D * (D2 / D)) * (1 - C * C) = 1 - (D2 / D) ^ 4 * (1 - C ^ 2) := by ring
  have e2 : √(1 - (D2 / D) ^ 4 * (1 - C ^ 2)) + C * (D2 / D * (D2 / D)) ≠ 0 := by positivity
  simp only [dP_with_C, dP_orifice, pdiv_ok hD, Py.ok_bind, e', psqrt_ok hS.le, pdiv_ok e2, Py.pure_eq]
  exact ⟨_, rfl, rfl⟩

theorem venturi_total {D D2 P1 P2 : ℝ} (h0 : 0 < D2) (h1 : D2 < D) : ∃ dP, dP_venturi_tube D D2 P1 P2 = .ok dP := by
  have hD : D ≠ 0 := by linarith
  have hs : venturi_tube_betas.Pairwise (· < ·) := by
    rw [← List.isChain_iff_pairwise]; norm_num [venturi_tube_betas]
  obtain ⟨x, hx⟩ := interp_total (D2 / D) hs (dy := venturi_tube_dP_high) (by rfl) (by simp [venturi_tube_betas]) none none false
  obtain ⟨y, hy⟩ := interp_total (D2 / D) hs (dy := venturi_tube_dP_low) (by rfl) (by simp [venturi_tube_betas]) none none false
  have hs2 : ([0.065, 0.5] : List ℝ).Pairwise (· < ·) := by norm_num
  obtain ⟨z, hz⟩ := interp_total D hs2 (dy := [x, y]) (by rfl) (by simp) none none false
  exact ⟨_, by simp only [dP_venturi_tube, pdiv_ok hD, hx, hy, hz, Py.ok_bind, Py.pure_eq]; rfl⟩

/-- C57 (with finding): of the advertised meters, exactly the venturi nozzle (`NotImplementedError`) and the unspecified meter (`ValueError`) have
no permanent pressure loss; all others do, at every admissible geometry, when `C` is given. -/
theorem C57_dP {D D2 P1 P2 C : ℝ} (h0 : 0 < D2) (h1 : D2 < D) (hC : 0 < C) {meter : String} (hm : meter ∈ all_meters) :
    (meter ≠ VENTURI_NOZZLE → meter ≠ UNSPECIFIED_METER → ∃ dP, differential_pressure_meter_dP D D2 P1 P2 (some C) meter = .ok dP) ∧
      (meter = VENTURI_NOZZLE → differential_pressure_meter_dP D D2 P1 P2 (some C) meter = .error .notImplementedError) ∧
      (meter = UNSPECIFIED_METER → differential_pressure_meter_dP D D2 P1 P2 (some C) meter = .error .valueError) := by
  refine ⟨fun hv hu => ?_, ?_, ?_⟩
  · by_cases ho : meter ∈ dP_orifice_set ++ [LONG_RADIUS_NOZZLE, ISA_1932_NOZZLE]
    · obtain ⟨dP, h, -⟩ := (C57_dP_orifice (P1 := P1) (P2 := P2) h0 h1 ho).1 C hC
      exact ⟨dP, h⟩
    · have : meter ∈ [AS_CAST_VENTURI_TUBE, MACHINED_CONVERGENT_VENTURI_TUBE, ROUGH_WELDED_CONVERGENT_VENTURI_TUBE,
          HOLLINGSHEAD_VENTURI_SMOOTH, HOLLINGSHEAD_VENTURI_SHARP, CONE_METER, HOLLINGSHEAD_CONE, WEDGE_METER, HOLLINGSHEAD_WEDGE] := by
        simp only [dP_orifice_set, all_meters, beta_simple_meters, List.cons_append, List.nil_append, List.mem_cons, List.not_mem_nil, or_false,
          not_or] at hm ho ⊢
        tauto
      simp only [List.mem_cons, List.not_mem_nil, or_false] at this
      have hcone : ∃ dP, dP_cone_meter D D2 P1 P2 = .ok dP := by
        obtain ⟨b, hb, -⟩ := cone_mem h0 h1
        exact ⟨_, by simp only [dP_cone_meter, hb, Py.ok_bind, Py.pure_eq]; rfl⟩
      have hwedge : ∃ dP, dP_wedge_meter D D2 P1 P2 = .ok dP := by
        obtain ⟨b, hb, -⟩ := wedge_mem h0 h1
        exact ⟨_, by simp only [dP_wedge_meter, hb, Py.ok_bind, Py.pure_eq]; rfl⟩
      have hvt := venturi_total (P1 := P1) (P2 := P2) h0 h1
      rcases this with rfl | rfl | rfl | rfl | rfl | rfl | rfl | rfl | rfl <;>
      · simp only [differential_pressure_meter_dP, List.mem_cons, List.not_mem_nil, String.reduceEq, or_self, or_true, true_or, or_false,
          if_true, if_false]
        assumption
  · rintro rfl
    simp only [differential_pressure_meter_dP, List.mem_cons, List.not_mem_nil, String.reduceEq, or_self, if_true, if_false]
  · rintro rfl
    simp only [differential_pressure_meter_dP, List.mem_cons, List.not_mem_nil, String.reduceEq, or_self, if_false]

/-- C57: names outside the advertised set have no pressure loss either. -/
theorem C57_dP_reject {D D2 P1 P2 : ℝ} {C : Option ℝ} {meter : String} (h : meter ∉ all_meters) :
    differential_pressure_meter_dP D D2 P1 P2 C meter = .error .valueError := by
  simp only [all_meters, beta_simple_meters, List.cons_append, List.nil_append, List.mem_cons, List.not_mem_nil, or_false, not_or] at h
  simp only [differential_pressure_meter_dP, h, List.mem_cons, List.not_mem_nil, or_self, if_false]

/-- the root finder contract and a given flow: with the trivial finder for the P2 branch -/
example : unknowns (some 0.05) (some 2e5) none (some 7.7) = 1 := by simp [unknowns]

end Verif
