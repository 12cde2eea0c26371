import Verif.Props.SafetyValve
import Mathlib.Topology.Order.OrderClosed
import Mathlib.Analysis.SpecialFunctions.Log.Basic

/-! C90: flare noise follows the documented level laws. -/

open Real

noncomputable section

namespace Verif.Safety
open Verif.Seq (interp)

/-- decimal logarithm -/
def lg (x : ℝ) : ℝ := log x / log 10

theorem log10_pos : 0 < log 10 := log_pos (by norm_num)

theorem lg_mono {x y : ℝ} (hx : 0 < x) (h : x ≤ y) : lg x ≤ lg y := div_le_div_of_nonneg_right (log_le_log hx h) log10_pos.le

theorem lg_bound {x : ℝ} (h : x ≤ 2.93) (h0 : 2.92 ≤ x) : 0.46 ≤ lg x ∧ lg x ≤ 0.4674 := by
  have h1 : 0 < x := by linarith
  unfold lg
  rw [le_div_iff₀ log10_pos, div_le_iff₀ log10_pos]
  constructor
  · have : log (10 ^ 23) ≤ log (x ^ 50) := log_le_log (by norm_num) (le_trans (by norm_num) (pow_le_pow_left₀ (by norm_num) h0 50))
    rw [log_pow, log_pow] at this; push_cast at this; linarith [log10_pos]
  · have : log (x ^ 92) ≤ log (10 ^ 43) := log_le_log (by positivity) (le_trans (pow_le_pow_left₀ h1.le h 92) (by norm_num))
    rw [log_pow, log_pow] at this; push_cast at this; linarith [log10_pos]

/-- the pressure-ratio curve: two straight lines in the logarithm of the ratio, joined between 2.92 and 2.93 -/
def curve (x : ℝ) : ℝ :=
  if x ≤ 1 then 12.7647
  else if x ≤ 2.92 then 87.9084 * lg x + 12.7647
  else if x ≤ 2.93 then
    (87.9084 * lg x + 12.7647) + ((4.8239 * lg x + 51.6217) - (87.9084 * lg x + 12.7647)) * ((x - 2.92) / 0.01)
  else 4.8239 * lg x + 51.6217

theorem graph_eq (x : ℝ) : API521_noise_graph x = .ok (curve x) := by
  have hs : ([2.92, 2.93] : List ℝ).Pairwise (· < ·) := by simp; norm_num
  unfold API521_noise_graph curve
  simp only []
  rcases lt_or_ge x 1 with h | h
  · rw [if_pos h, plog10_ok one_pos, Py.ok_bind, if_pos (by norm_num), if_pos h.le]
    simp
  · rw [if_neg (not_lt.mpr h), plog10_ok (by linarith), Py.ok_bind]
    rcases eq_or_lt_of_le h with rfl | h1
    · rw [if_pos (by norm_num), if_pos le_rfl]; simp
    rw [if_neg (not_le.mpr h1)]
    rcases lt_or_ge x 2.92 with h2 | h2
    · rw [if_pos h2, if_pos h2.le]; rfl
    rw [if_neg (not_lt.mpr h2)]
    rcases lt_or_ge x 2.93 with h3 | h3
    · rw [if_pos h3, C21_interp_inside x [2.92, 2.93] [87.9084 * (log x / log 10) + 12.7647, 4.8239 * (log x / log 10) + 51.6217] hs rfl none none false 0 (by simp) (by simpa using h2) (by simpa using h3.le), if_pos h3.le]
      congr 1
      rcases eq_or_lt_of_le h2 with rfl | h2
      · rw [if_pos le_rfl]; simp [lg]
      · rw [if_neg (not_le.mpr h2)]
        simp only [List.getD_cons_zero, List.getD_cons_succ, lg]; norm_num
    · rw [if_neg (not_lt.mpr h3), if_neg (not_le.mpr (lt_of_lt_of_le (by norm_num) h3))]
      rcases eq_or_lt_of_le h3 with rfl | h3
      · rw [if_pos le_rfl]
        congr 1
        have : ((2.93:ℝ) - 2.92) / 0.01 = 1 := by norm_num
        rw [this]; simp [lg]
      · rw [if_neg (not_le.mpr h3)]; rfl

/-- the chart value is defined for every pressure ratio, flat below 1, and never decreases as the pressure ratio grows -/
theorem C90_graph (x : ℝ) : ∃ L, API521_noise_graph x = .ok L ∧ 12.7647 ≤ L ∧ (x ≤ 1 → L = 12.7647) ∧
    (1 ≤ x → x ≤ 2.92 → L = 87.9084 * lg x + 12.7647) ∧ (2.93 ≤ x → L = 4.8239 * lg x + 51.6217) := by
  refine ⟨_, graph_eq x, ?_, fun h => ?_, fun h h' => ?_, fun h => ?_⟩
  · unfold curve
    split_ifs with h1 h2 h3
    · exact le_rfl
    · have : 0 ≤ lg x := div_nonneg (log_nonneg (not_le.mp h1).le) log10_pos.le
      linarith
    · obtain ⟨a, b⟩ := lg_bound h3 (not_le.mp h2).le
      have ht : 0 ≤ (x - 2.92) / 0.01 := div_nonneg (by linarith [not_le.mp h2]) (by norm_num)
      have : 0 ≤ (4.8239 * lg x + 51.6217) - (87.9084 * lg x + 12.7647) := by linarith
      have := mul_nonneg this ht
      linarith
    · have : 0 ≤ lg x := div_nonneg (log_nonneg (not_le.mp h1).le) log10_pos.le
      linarith
  · rw [curve, if_pos h]
  · rcases eq_or_lt_of_le h with rfl | h
    · simp [curve, lg]
    · rw [curve, if_neg (not_le.mpr h), if_pos h']
  · rw [curve, if_neg (not_le.mpr (lt_of_lt_of_le (by norm_num) h)), if_neg (not_le.mpr (lt_of_lt_of_le (by norm_num) h))]
    rcases eq_or_lt_of_le h with rfl | h
    · rw [if_pos le_rfl, show ((2.93:ℝ) - 2.92) / 0.01 = 1 by norm_num]; ring
    · rw [if_neg (not_le.mpr h)]

theorem curve_mono {x y : ℝ} (h : x ≤ y) : curve x ≤ curve y := by
  -- on each piece, and across the joints
  have p1 : ∀ {a b : ℝ}, 1 ≤ a → a ≤ b → b ≤ 2.92 → curve a ≤ curve b := by
    intro a b ha hab hb
    obtain ⟨La, ha1, -, -, ha2, -⟩ := C90_graph a
    obtain ⟨Lb, hb1, -, -, hb2, -⟩ := C90_graph b
    rw [graph_eq] at ha1 hb1
    rw [Except.ok.inj ha1, Except.ok.inj hb1, ha2 ha (hab.trans hb), hb2 (ha.trans hab) hb]
    have := lg_mono (by linarith) hab
    linarith
  have p3 : ∀ {a b : ℝ}, 2.93 ≤ a → a ≤ b → curve a ≤ curve b := by
    intro a b ha hab
    obtain ⟨La, ha1, -, -, -, ha2⟩ := C90_graph a
    obtain ⟨Lb, hb1, -, -, -, hb2⟩ := C90_graph b
    rw [graph_eq] at ha1 hb1
    rw [Except.ok.inj ha1, Except.ok.inj hb1, ha2 ha, hb2 (ha.trans hab)]
    have := lg_mono (by linarith) hab
    linarith
  have mid : ∀ {a : ℝ}, 2.92 ≤ a → a ≤ 2.93 → curve a =
      (87.9084 * lg a + 12.7647) + ((4.8239 * lg a + 51.6217) - (87.9084 * lg a + 12.7647)) * ((a - 2.92) / 0.01) := by
    intro a h1 h2
    rw [curve, if_neg (not_le.mpr (lt_of_lt_of_le (by norm_num) h1))]
    rcases eq_or_lt_of_le h1 with rfl | h1
    · rw [if_pos le_rfl]; norm_num
    · rw [if_neg (not_le.mpr h1), if_pos h2]
  have p2 : ∀ {a b : ℝ}, 2.92 ≤ a → a ≤ b → b ≤ 2.93 → curve a ≤ curve b := by
    intro a b ha hab hb
    rw [mid ha (hab.trans hb), mid (ha.trans hab) hb]
    obtain ⟨a1, a2⟩ := lg_bound (hab.trans hb) ha
    obtain ⟨b1, b2⟩ := lg_bound hb (ha.trans hab)
    have hl := lg_mono (by linarith) hab
    have ta : 0 ≤ (a - 2.92) / 0.01 := div_nonneg (by linarith) (by norm_num)
    have tb : (b - 2.92) / 0.01 ≤ 1 := by rw [div_le_one (by norm_num)]; linarith
    have tab : (a - 2.92) / 0.01 ≤ (b - 2.92) / 0.01 := div_le_div_of_nonneg_right (by linarith) (by norm_num)
    generalize (a - 2.92) / 0.01 = s at *
    generalize (b - 2.92) / 0.01 = t at *
    generalize lg a = u at *
    generalize lg b = v at *
    nlinarith [mul_nonneg (sub_nonneg.mpr tb) (sub_nonneg.mpr hl), mul_nonneg (sub_nonneg.mpr tab) (sub_nonneg.mpr (a2.trans (by norm_num : (0.4674:ℝ) ≤ 0.4675))),
      mul_nonneg (ta.trans tab) (sub_nonneg.mpr hl)]
  have p0 : ∀ {a : ℝ}, a ≤ 1 → curve a = 12.7647 := fun {a} ha => by rw [curve, if_pos ha]
  have ge1 : ∀ a, 12.7647 ≤ curve a := by
    intro a
    obtain ⟨L, h1, h2, -⟩ := C90_graph a
    rw [graph_eq] at h1; rw [Except.ok.inj h1]; exact h2
  rcases le_or_gt x 1 with hx | hx
  · rw [p0 hx]; exact ge1 y
  rcases le_or_gt y 2.92 with hy | hy
  · exact p1 hx.le h hy
  rcases le_or_gt x 2.92 with hx2 | hx2
  · refine (p1 hx.le hx2 le_rfl).trans ?_
    rcases le_or_gt y 2.93 with hy2 | hy2
    · exact p2 le_rfl hy.le hy2
    · exact (p2 le_rfl (by norm_num) le_rfl).trans (p3 le_rfl hy2.le)
  · rcases le_or_gt y 2.93 with hy2 | hy2
    · exact p2 hx2.le h hy2
    · rcases le_or_gt x 2.93 with hx3 | hx3
      · exact (p2 hx2.le hx3 le_rfl).trans (p3 le_rfl hy2.le)
      · exact p3 hx3.le h

theorem C90_graph_monotone {x y a b : ℝ} (h : x ≤ y) (hx : API521_noise_graph x = .ok a) (hy : API521_noise_graph y = .ok b) : a ≤ b := by
  rw [graph_eq] at hx hy
  rw [← Except.ok.inj hx, ← Except.ok.inj hy]; exact curve_mono h

/-- the chart value has no jump -/
theorem C90_graph_continuous : ∃ F : ℝ → ℝ, Continuous F ∧ ∀ x, API521_noise_graph x = .ok (F x) := by
  refine ⟨curve, ?_, graph_eq⟩
  have e : curve = fun x => if x ≤ 1 then 12.7647 else if x ≤ 2.92 then 87.9084 * lg (max x 1) + 12.7647 else if x ≤ 2.93 then
      (87.9084 * lg (max x 1) + 12.7647) + ((4.8239 * lg (max x 1) + 51.6217) - (87.9084 * lg (max x 1) + 12.7647)) * ((x - 2.92) / 0.01)
      else 4.8239 * lg (max x 1) + 51.6217 := by
    funext x; unfold curve
    split_ifs with h1
    · rfl
    all_goals rw [max_eq_left (not_le.mp h1).le]
  have hl : Continuous fun x : ℝ => lg (max x 1) := by
    unfold lg
    refine Continuous.div_const ?_ _
    exact (continuous_id.max continuous_const).log fun x => (lt_of_lt_of_le one_pos (le_max_right x 1)).ne'
  rw [e]
  refine continuous_const.if_le ?_ continuous_id continuous_const ?_
  · refine Continuous.if_le (by fun_prop) ?_ continuous_id continuous_const ?_
    · refine Continuous.if_le (by fun_prop) (by fun_prop) continuous_id continuous_const ?_
      rintro x rfl; rw [show ((2.93:ℝ) - 2.92) / 0.01 = 1 by norm_num]; ring
    · rintro x rfl; rw [if_pos (by norm_num)]; norm_num
  · rintro x rfl; rw [if_pos (by norm_num)]; simp [lg]

theorem noise_eq {m P1 P2 c r : ℝ} (hm : 0 < m) (hc : 0 < c) (hr : 0 < r) (hP : P2 ≠ 0) :
    API521_noise m P1 P2 c r = .ok (curve (P1 / P2) + 10 * lg (0.5 * m * c * c) - 20 * lg (r * (1 / 30))) := by
  unfold API521_noise
  rw [pdiv_ok hP, Py.ok_bind, graph_eq, Py.ok_bind, plog10_ok (by positivity), Py.ok_bind, plog10_ok (by positivity), Py.ok_bind]; rfl

theorem lg_mul {a b : ℝ} (ha : 0 < a) (hb : 0 < b) : lg (a * b) = lg a + lg b := by
  unfold lg; rw [log_mul ha.ne' hb.ne', add_div]

/-- spreading: moving from `r` to `k r` lowers the level by `20 lg k`; `k` times the mass flow raises it by `10 lg k` -/
theorem C90_noise_laws {m P1 P2 c r k : ℝ} (hm : 0 < m) (hc : 0 < c) (hr : 0 < r) (hP : P2 ≠ 0) (hk : 0 < k) :
    ∃ L, API521_noise m P1 P2 c r = .ok L ∧ API521_noise m P1 P2 c (k * r) = .ok (L - 20 * lg k) ∧
      API521_noise (k * m) P1 P2 c r = .ok (L + 10 * lg k) ∧ API521_noise m P1 P2 (k * c) r = .ok (L + 20 * lg k) := by
  refine ⟨_, noise_eq hm hc hr hP, ?_, ?_, ?_⟩
  · rw [noise_eq hm hc (by positivity) hP, mul_assoc k r, lg_mul hk (by positivity)]; congr 1; ring
  · rw [noise_eq (by positivity) hc hr hP, show 0.5 * (k * m) * c * c = k * (0.5 * m * c * c) by ring, lg_mul hk (by positivity)]; congr 1; ring
  · rw [noise_eq hm (by positivity) hr hP, show 0.5 * m * (k * c) * (k * c) = k * (k * (0.5 * m * c * c)) by ring, lg_mul hk (by positivity),
      lg_mul hk (by positivity)]; congr 1; ring

/-- at 30 m the level is the chart value plus ten times the logarithm of half the mass flow times the speed of sound squared, in decibel -/
theorem C90_noise_at_30m {m P1 P2 c : ℝ} (hm : 0 < m) (hc : 0 < c) (hP : P2 ≠ 0) :
    ∃ L, API521_noise_graph (P1 / P2) = .ok L ∧ API521_noise m P1 P2 c 30 = .ok (L + 10 * lg (m * c ^ 2 / 2)) := by
  refine ⟨_, graph_eq _, ?_⟩
  rw [noise_eq hm hc (by norm_num) hP]; congr 1
  rw [show (30:ℝ) * (1 / 30) = 1 by norm_num, show 0.5 * m * c * c = m * c ^ 2 / 2 by ring]; simp [lg]

/-- a higher relieving pressure is never quieter -/
theorem C90_noise_pressure {m P1 P1' P2 c r a b : ℝ} (hm : 0 < m) (hc : 0 < c) (hr : 0 < r) (hP : 0 < P2) (h : P1 ≤ P1')
    (ha : API521_noise m P1 P2 c r = .ok a) (hb : API521_noise m P1' P2 c r = .ok b) : a ≤ b := by
  rw [noise_eq hm hc hr hP.ne'] at ha hb
  rw [← Except.ok.inj ha, ← Except.ok.inj hb]
  have := curve_mono (div_le_div_of_nonneg_right h hP.le : P1 / P2 ≤ P1' / P2)
  linarith

theorem C90_noise_errors (m P1 P2 c r : ℝ) :
    (P2 = 0 → API521_noise m P1 P2 c r = .error .zeroDivisionError) ∧
    (P2 ≠ 0 → (m ≤ 0 ∨ c = 0 ∨ r ≤ 0) → API521_noise m P1 P2 c r = .error .valueError) := by
  constructor
  · rintro rfl; unfold API521_noise; rw [pdiv_zero]; rfl
  · intro h0 h
    unfold API521_noise
    rw [pdiv_ok h0, Py.ok_bind, graph_eq, Py.ok_bind]
    by_cases hw : 0.5 * m * c * c ≤ 0
    · rw [plog10, if_pos hw]; rfl
    · have hr : r ≤ 0 := by
        rcases h with h | h | h
        · exact absurd (by nlinarith [mul_self_nonneg c] : 0.5 * m * c * c ≤ 0) hw
        · exact absurd (by rw [h]; simp) hw
        · exact h
      rw [plog10_ok (not_le.mp hw), Py.ok_bind, plog10, if_pos (by linarith)]; rfl

/-- finding: the documented formulas take the flow in tonnes per hour, 3.6 times the flow in kg/s; the code multiplies by 360, so the levels come
out 30 dB (ground flare) and 34 dB (elevated flare) above the documented formulas -/
theorem C90_VDI_offset {m : ℝ} (h : 0 < m) :
    VDI_3732_noise_ground_flare m = .ok ((100 + 15 * lg (3.6 * m)) + 30) ∧
    VDI_3732_noise_elevated_flare m = .ok ((112 + 17 * lg (3.6 * m)) + 34) := by
  have e : lg (m * 360) = lg (3.6 * m) + 2 := by
    rw [show m * 360 = 3.6 * m * 100 by ring, lg_mul (by positivity) (by norm_num)]
    congr 1
    unfold lg; rw [show (100:ℝ) = 10 ^ 2 by norm_num, log_pow]; field_simp [log10_pos.ne']; norm_num
  unfold VDI_3732_noise_ground_flare VDI_3732_noise_elevated_flare
  simp only []
  rw [plog10_ok (by positivity)]
  simp only [Py.ok_bind, Py.pure_eq]
  change Except.ok (100 + 15 * lg (m * 360)) = _ ∧ Except.ok (112 + 17 * lg (m * 360)) = _
  rw [e]; constructor <;> congr 1 <;> ring

/-- `k` times the flow raises the flare noise by `15 lg k` and `17 lg k`; a flow that is not positive raises ValueError -/
theorem C90_VDI_laws {m k : ℝ} (h : 0 < m) (hk : 0 < k) :
    (∃ L, VDI_3732_noise_ground_flare m = .ok L ∧ VDI_3732_noise_ground_flare (k * m) = .ok (L + 15 * lg k)) ∧
    (∃ L, VDI_3732_noise_elevated_flare m = .ok L ∧ VDI_3732_noise_elevated_flare (k * m) = .ok (L + 17 * lg k)) ∧
    (∀ m' ≤ 0, VDI_3732_noise_ground_flare m' = .error .valueError ∧ VDI_3732_noise_elevated_flare m' = .error .valueError) := by
  obtain ⟨a1, b1⟩ := C90_VDI_offset h
  obtain ⟨a2, b2⟩ := C90_VDI_offset (mul_pos hk h)
  have e : lg (3.6 * (k * m)) = lg (3.6 * m) + lg k := by rw [show 3.6 * (k * m) = 3.6 * m * k by ring, lg_mul (by positivity) hk]
  rw [e] at a2 b2
  refine ⟨⟨_, a1, ?_⟩, ⟨_, b1, ?_⟩, fun m' h' => ?_⟩
  · rw [a2]; congr 1; ring
  · rw [b2]; congr 1; ring
  · have : m' * 360 ≤ 0 := by linarith
    unfold VDI_3732_noise_ground_flare VDI_3732_noise_elevated_flare
    simp only [plog10, if_pos this, Py.error_bind, and_self]

example : ∃ L, API521_noise 14.6 330e3 101325 353 30 = .ok L ∧ API521_noise 14.6 330e3 101325 353 (2 * 30) = .ok (L - 20 * lg 2) := by
  obtain ⟨L, h1, h2, -⟩ := C90_noise_laws (m := 14.6) (P1 := 330e3) (P2 := 101325) (c := 353) (r := 30) (k := 2) (by norm_num) (by norm_num) (by norm_num)
    (by norm_num) (by norm_num)
  exact ⟨L, h1, h2⟩

end Verif.Safety
