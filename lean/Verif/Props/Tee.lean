import Verif.Model.Fittings
import Verif.Lemmas.InterpTable
import Verif.Lemmas.Tactic

/-! C89: loss coefficients of Crane tees. -/

open Real

noncomputable section

namespace Verif.Fittings
open Verif.Seq (interp)

theorem pdiv_scale {k x y : ℝ} (hk : k ≠ 0) : (k * x) /ₚ (k * y) = x /ₚ y := by
  by_cases hy : y = 0
  · rw [hy, mul_zero, pdiv_zero, pdiv_zero]
  · rw [pdiv_ok hy, pdiv_ok (mul_ne_zero hk hy), mul_div_mul_left _ _ hk]

/-- only the ratios of the diameters and of the flows matter -/
theorem C89_ratios {a b : ℝ} (ha : a ≠ 0) (hb : b ≠ 0) (D_run D_branch Q_run Q_branch angle : ℝ) :
    K_branch_converging_Crane (a * D_run) (a * D_branch) (b * Q_run) (b * Q_branch) angle = K_branch_converging_Crane D_run D_branch Q_run Q_branch angle ∧
    K_run_converging_Crane (a * D_run) (a * D_branch) (b * Q_run) (b * Q_branch) angle = K_run_converging_Crane D_run D_branch Q_run Q_branch angle ∧
    K_branch_diverging_Crane (a * D_run) (a * D_branch) (b * Q_run) (b * Q_branch) angle = K_branch_diverging_Crane D_run D_branch Q_run Q_branch angle ∧
    K_run_diverging_Crane (a * D_run) (a * D_branch) (b * Q_run) (b * Q_branch) = K_run_diverging_Crane D_run D_branch Q_run Q_branch := by
  unfold K_branch_converging_Crane K_run_converging_Crane K_branch_diverging_Crane K_run_diverging_Crane
  simp only [← mul_add, pdiv_scale ha, pdiv_scale hb, and_self]

/-! ### Specification: the published equations in the flow fraction `q` of the branch and the diameter ratio `β` -/

/-- Crane's converging-branch multiplier -/
def Cb (β q : ℝ) : ℝ := if β ^ 2 ≤ 0.35 then 1 else if q ≤ 0.4 then 0.9 * (1 - q) else 0.55

/-- Crane's diverging-branch multiplier -/
def Gb (β q angle : ℝ) : ℝ :=
  if angle < 75 then (if β ^ 2 ≤ 0.35 then (if q ≤ 0.4 then 1.1 - 0.7 * q else 0.85) else (if q ≤ 0.6 then 1 - 0.6 * q else 0.6))
  else if β ^ 2 ≤ 2 / 3 then 1 else 1 + 0.3 * q ^ 2

/-- `q` and `β` of a tee -/
structure Tee (D_run D_branch Q_run Q_branch : ℝ) (β q : ℝ) : Prop where
  run : 0 < D_run
  branch : 0 < D_branch
  total : Q_run + Q_branch ≠ 0
  beta : D_branch = β * D_run
  frac : Q_branch = q * (Q_run + Q_branch)

section
variable {D_run D_branch Q_run Q_branch β q : ℝ}

theorem Tee.pos (h : Tee D_run D_branch Q_run Q_branch β q) : 0 < β := by
  by_contra hn
  have := mul_nonpos_of_nonpos_of_nonneg (not_lt.mp hn) h.run.le
  linarith [h.branch, h.beta]

theorem Tee.div (h : Tee D_run D_branch Q_run Q_branch β q) : D_branch /ₚ D_run = .ok β ∧ Q_branch /ₚ (Q_run + Q_branch) = .ok q := by
  rw [pdiv_ok h.run.ne', pdiv_ok h.total]
  refine ⟨?_, ?_⟩ <;> congr 1
  · rw [div_eq_iff h.run.ne']; exact h.beta
  · rw [div_eq_iff h.total]; exact h.frac

theorem angles_ok : branch_converging_Crane_angles.Pairwise (· < ·) ∧ branch_converging_Crane_Fs.Pairwise (· ≥ ·) ∧
    run_converging_Crane_angles.Pairwise (· < ·) ∧ run_converging_Crane_Fs.Pairwise (· ≥ ·) := by
  simp only [branch_converging_Crane_angles, branch_converging_Crane_Fs, run_converging_Crane_angles, run_converging_Crane_Fs]
  norm_num

theorem branch_conv_eq (h : Tee D_run D_branch Q_run Q_branch β q) (angle : ℝ) :
    ∃ F, interp angle branch_converging_Crane_angles branch_converging_Crane_Fs none none false = .ok F ∧ 0 ≤ F ∧ F ≤ 1.74 ∧
      K_branch_converging_Crane D_run D_branch Q_run Q_branch angle = .ok (Cb β q * (1 + (q / β ^ 2) ^ 2 - 2 * (1 - q) ^ 2 - F / β ^ 2 * q ^ 2)) := by
  obtain ⟨s1, s2, -, -⟩ := angles_ok
  obtain ⟨F, hF⟩ := interp_total angle s1 (by rfl : branch_converging_Crane_angles.length = branch_converging_Crane_Fs.length) (by simp [branch_converging_Crane_angles]) none none false
  have hb := interp_bounds angle s1 (by rfl : branch_converging_Crane_angles.length = branch_converging_Crane_Fs.length) (by simp [branch_converging_Crane_angles])
    (lo := 0) (hi := 1.74) (by simp only [branch_converging_Crane_Fs, List.mem_cons, List.not_mem_nil, or_false, forall_eq_or_imp, forall_eq]; norm_num) hF
  refine ⟨F, hF, hb.1, hb.2, ?_⟩
  have hβ := h.pos
  have hβ2 : β * β ≠ 0 := by positivity
  unfold K_branch_converging_Crane
  have hβ3 : β ^ 2 ≠ 0 := by positivity
  simp only [h.div.1, h.div.2, Py.ok_bind, hF, ← sq, pdiv_ok hβ3, Py.pure_eq, Cb, one_mul]

theorem run_conv_eq (h : Tee D_run D_branch Q_run Q_branch β q) (angle : ℝ) :
    (75 ≤ angle → K_run_converging_Crane D_run D_branch Q_run Q_branch angle = .ok (1.55 * q - q ^ 2)) ∧
    (angle < 75 → ∃ F, interp angle run_converging_Crane_angles run_converging_Crane_Fs none none false = .ok F ∧ 1 ≤ F ∧ F ≤ 1.74 ∧
      K_run_converging_Crane D_run D_branch Q_run Q_branch angle = .ok (1 - (1 - q) ^ 2 - F / β ^ 2 * q ^ 2)) := by
  have hβ := h.pos
  have hβ2 : β * β ≠ 0 := by positivity
  constructor
  · intro ha
    unfold K_run_converging_Crane
    simp only [h.div.1, h.div.2, Py.ok_bind, if_pos (not_lt.mpr ha), Py.pure_eq, ← sq]
  · intro ha
    obtain ⟨-, -, s1, s2⟩ := angles_ok
    obtain ⟨F, hF⟩ := interp_total angle s1 (by rfl : run_converging_Crane_angles.length = run_converging_Crane_Fs.length) (by simp [run_converging_Crane_angles]) none none false
    have hb := interp_bounds angle s1 (by rfl : run_converging_Crane_angles.length = run_converging_Crane_Fs.length) (by simp [run_converging_Crane_angles])
      (lo := 1) (hi := 1.74) (by simp only [run_converging_Crane_Fs, List.mem_cons, List.not_mem_nil, or_false, forall_eq_or_imp, forall_eq]; norm_num) hF
    refine ⟨F, hF, hb.1, hb.2, ?_⟩
    unfold K_run_converging_Crane
    have hn : ¬ ¬ angle < 75 := not_not.mpr ha
    simp only [h.div.1, h.div.2, Py.ok_bind, if_neg hn, hF, pdiv_ok hβ2, Py.pure_eq]
    congr 1; ring

theorem branch_div_eq (h : Tee D_run D_branch Q_run Q_branch β q) (angle : ℝ) :
    K_branch_diverging_Crane D_run D_branch Q_run Q_branch angle = .ok (Gb β q angle *
      (if angle < 60 ∨ β ≤ 2 / 3 then 1 + (q / β ^ 2) ^ 2 - 2 * (q / β ^ 2) * cos (angle * (π / 180)) else 1 + 0.3 * (q / β ^ 2) ^ 2)) := by
  have hβ := h.pos
  have hβ2 : β * β ≠ 0 := by positivity
  unfold K_branch_diverging_Crane
  simp only [h.div.1, h.div.2, Py.ok_bind, pdiv_ok hβ2, Py.pure_eq, Gb]
  congr 1
  rw [show 1 + 0.3 * q * q = 1 + 0.3 * q ^ 2 by ring, ← sq]
  congr 1
  split_ifs <;> simp

theorem run_div_eq (h : Tee D_run D_branch Q_run Q_branch β q) :
    K_run_diverging_Crane D_run D_branch Q_run Q_branch =
      .ok ((if β ^ 2 ≤ 0.4 then 0.4 else if q ≤ 0.5 then 2 * (2 * q - 1) else 0.3 * (2 * q - 1)) * q ^ 2) := by
  unfold K_run_diverging_Crane
  simp only [h.div.1, h.div.2, Py.ok_bind, Py.pure_eq, ← sq]
  congr 1; ring

/-! ### Properties -/

/-- with no flow in the branch the run has no loss, the converging branch gains the dynamic head of the combined flow (times its multiplier) and
the diverging branch loses it -/
theorem C89_no_branch_flow (h : Tee D_run D_branch Q_run Q_branch β 0) (angle : ℝ) :
    K_run_converging_Crane D_run D_branch Q_run Q_branch angle = .ok 0 ∧ K_run_diverging_Crane D_run D_branch Q_run Q_branch = .ok 0 ∧
    K_branch_converging_Crane D_run D_branch Q_run Q_branch angle = .ok (if β ^ 2 ≤ 0.35 then -1 else -0.9) ∧
    K_branch_diverging_Crane D_run D_branch Q_run Q_branch angle = .ok (if angle < 75 ∧ β ^ 2 ≤ 0.35 then 1.1 else 1) := by
  refine ⟨?_, ?_, ?_, ?_⟩
  · rcases le_or_gt 75 angle with ha | ha
    · rw [(run_conv_eq h angle).1 ha]; congr 1; norm_num
    · obtain ⟨F, -, -, -, e⟩ := (run_conv_eq h angle).2 ha
      rw [e]; congr 1; norm_num
  · rw [run_div_eq h]; congr 1; norm_num
  · obtain ⟨F, -, -, -, e⟩ := branch_conv_eq h angle
    rw [e, Cb]; congr 1; split_ifs <;> norm_num at *
  · rw [branch_div_eq h, Gb]; congr 1
    by_cases ha : angle < 75 <;> by_cases hb : β ^ 2 ≤ 0.35 <;> norm_num [ha, hb]

/-- all flow through the branch of a converging tee -/
theorem C89_all_branch_flow (h : Tee D_run D_branch Q_run Q_branch β 1) {angle : ℝ} (ha : 90 ≤ angle) :
    K_branch_converging_Crane D_run D_branch Q_run Q_branch angle = .ok ((if β ^ 2 ≤ 0.35 then 1 else 0.55) * (1 + 1 / β ^ 4)) ∧
    K_run_converging_Crane D_run D_branch Q_run Q_branch angle = .ok 0.55 := by
  obtain ⟨s1, s2, -, -⟩ := angles_ok
  have hβ := h.pos
  constructor
  · obtain ⟨F, hF, -, -, e⟩ := branch_conv_eq h angle
    have hF0 : F = 0 := by
      rcases eq_or_lt_of_le ha with rfl | ha
      · rw [C21_interp_inside 90 branch_converging_Crane_angles branch_converging_Crane_Fs s1 rfl none none false 2 (by simp [branch_converging_Crane_angles]) (by norm_num [branch_converging_Crane_angles]) (by norm_num [branch_converging_Crane_angles])] at hF
        rw [← Except.ok.inj hF]; norm_num [branch_converging_Crane_angles, branch_converging_Crane_Fs]
      · rw [(C21_interp_outside angle branch_converging_Crane_angles branch_converging_Crane_Fs s1 rfl (by simp [branch_converging_Crane_angles]) none none false).2 (by simpa [branch_converging_Crane_angles] using ha)] at hF
        rw [← Except.ok.inj hF]; norm_num [branch_converging_Crane_angles, branch_converging_Crane_Fs]
    rw [e, hF0, Cb]; congr 1
    rw [if_neg (by norm_num : ¬ (1:ℝ) ≤ 0.4)]
    congr 1; field_simp; ring
  · rw [(run_conv_eq h angle).1 (by linarith)]; congr 1; norm_num

/-- a larger angle of the branch never lowers the loss of the converging branch, nor (below 75 degrees) of the converging run -/
theorem C89_angle_monotone (h : Tee D_run D_branch Q_run Q_branch β q) (hq : q ≤ 1) {angle angle' K K' : ℝ} (ha : angle ≤ angle') :
    (K_branch_converging_Crane D_run D_branch Q_run Q_branch angle = .ok K → K_branch_converging_Crane D_run D_branch Q_run Q_branch angle' = .ok K' → K ≤ K') ∧
    (angle' < 75 → K_run_converging_Crane D_run D_branch Q_run Q_branch angle = .ok K → K_run_converging_Crane D_run D_branch Q_run Q_branch angle' = .ok K' → K ≤ K') := by
  obtain ⟨s1, s2, s3, s4⟩ := angles_ok
  have hβ := h.pos
  constructor
  · intro h1 h2
    obtain ⟨F, hF, -, -, e⟩ := branch_conv_eq h angle
    obtain ⟨F', hF', -, -, e'⟩ := branch_conv_eq h angle'
    rw [e] at h1; rw [e'] at h2
    rw [← Except.ok.inj h1, ← Except.ok.inj h2]
    have hm := interp_antitone s1 s2 rfl (by simp [branch_converging_Crane_angles]) ha hF hF'
    have hC : 0 ≤ Cb β q := by
      unfold Cb; split_ifs
      · norm_num
      · have : 0 ≤ 1 - q := by linarith
        positivity
      · norm_num
    have hd : F' / β ^ 2 ≤ F / β ^ 2 := div_le_div_of_nonneg_right hm (by positivity)
    have : F' / β ^ 2 * q ^ 2 ≤ F / β ^ 2 * q ^ 2 := mul_le_mul_of_nonneg_right hd (by positivity)
    exact mul_le_mul_of_nonneg_left (by linarith) hC
  · intro h75 h1 h2
    obtain ⟨F, hF, -, -, e⟩ := (run_conv_eq h angle).2 (by linarith)
    obtain ⟨F', hF', -, -, e'⟩ := (run_conv_eq h angle').2 h75
    rw [e] at h1; rw [e'] at h2
    rw [← Except.ok.inj h1, ← Except.ok.inj h2]
    have hm := interp_antitone s3 s4 rfl (by simp [run_converging_Crane_angles]) ha hF hF'
    have hd : F' / β ^ 2 ≤ F / β ^ 2 := div_le_div_of_nonneg_right hm (by positivity)
    have : F' / β ^ 2 * q ^ 2 ≤ F / β ^ 2 * q ^ 2 := mul_le_mul_of_nonneg_right hd (by positivity)
    linarith

/-- at the tabulated angles the interpolated factor is the tabulated one -/
theorem C89_tabulated (h : Tee D_run D_branch Q_run Q_branch β q) (hq : 0.4 < q) (hβ : 0.35 < β ^ 2) :
    K_branch_converging_Crane D_run D_branch Q_run Q_branch 30 = .ok (0.55 * (1 + (q / β ^ 2) ^ 2 - 2 * (1 - q) ^ 2 - 1.74 / β ^ 2 * q ^ 2)) ∧
    K_branch_converging_Crane D_run D_branch Q_run Q_branch 45 = .ok (0.55 * (1 + (q / β ^ 2) ^ 2 - 2 * (1 - q) ^ 2 - 1.41 / β ^ 2 * q ^ 2)) ∧
    K_branch_converging_Crane D_run D_branch Q_run Q_branch 60 = .ok (0.55 * (1 + (q / β ^ 2) ^ 2 - 2 * (1 - q) ^ 2 - 1 / β ^ 2 * q ^ 2)) ∧
    K_branch_converging_Crane D_run D_branch Q_run Q_branch 90 = .ok (0.55 * (1 + (q / β ^ 2) ^ 2 - 2 * (1 - q) ^ 2)) ∧
    K_run_converging_Crane D_run D_branch Q_run Q_branch 30 = .ok (1 - (1 - q) ^ 2 - 1.74 / β ^ 2 * q ^ 2) ∧
    K_run_converging_Crane D_run D_branch Q_run Q_branch 45 = .ok (1 - (1 - q) ^ 2 - 1.41 / β ^ 2 * q ^ 2) ∧
    K_run_converging_Crane D_run D_branch Q_run Q_branch 60 = .ok (1 - (1 - q) ^ 2 - 1 / β ^ 2 * q ^ 2) := by
  obtain ⟨s1, -, s3, -⟩ := angles_ok
  have hC : Cb β q = 0.55 := by rw [Cb, if_neg (not_le.mpr hβ), if_neg (not_le.mpr hq)]
  have tb : ∀ a i F, i < 3 → branch_converging_Crane_angles.getD i 0 ≤ a → a ≤ branch_converging_Crane_angles.getD (i + 1) 0 →
      F = branch_converging_Crane_Fs.getD i 0 + (branch_converging_Crane_Fs.getD (i + 1) 0 - branch_converging_Crane_Fs.getD i 0) * ((a - branch_converging_Crane_angles.getD i 0) / (branch_converging_Crane_angles.getD (i + 1) 0 - branch_converging_Crane_angles.getD i 0)) →
      K_branch_converging_Crane D_run D_branch Q_run Q_branch a = .ok (0.55 * (1 + (q / β ^ 2) ^ 2 - 2 * (1 - q) ^ 2 - F / β ^ 2 * q ^ 2)) := by
    intro a i F hi h1 h2 hF
    obtain ⟨F', hF', -, -, e⟩ := branch_conv_eq h a
    rw [C21_interp_inside a branch_converging_Crane_angles branch_converging_Crane_Fs s1 rfl none none false i (by simp [branch_converging_Crane_angles]; omega) h1 h2, ← hF] at hF'
    rw [e, ← Except.ok.inj hF', hC]
  have tr : ∀ a i F, i < 2 → a < 75 → run_converging_Crane_angles.getD i 0 ≤ a → a ≤ run_converging_Crane_angles.getD (i + 1) 0 →
      F = run_converging_Crane_Fs.getD i 0 + (run_converging_Crane_Fs.getD (i + 1) 0 - run_converging_Crane_Fs.getD i 0) * ((a - run_converging_Crane_angles.getD i 0) / (run_converging_Crane_angles.getD (i + 1) 0 - run_converging_Crane_angles.getD i 0)) →
      K_run_converging_Crane D_run D_branch Q_run Q_branch a = .ok (1 - (1 - q) ^ 2 - F / β ^ 2 * q ^ 2) := by
    intro a i F hi h75 h1 h2 hF
    obtain ⟨F', hF', -, -, e⟩ := (run_conv_eq h a).2 h75
    rw [C21_interp_inside a run_converging_Crane_angles run_converging_Crane_Fs s3 rfl none none false i (by simp [run_converging_Crane_angles]; omega) h1 h2, ← hF] at hF'
    rw [e, ← Except.ok.inj hF']
  refine ⟨tb 30 0 1.74 ?_ ?_ ?_ ?_, tb 45 1 1.41 ?_ ?_ ?_ ?_, tb 60 2 1 ?_ ?_ ?_ ?_, ?_, tr 30 0 1.74 ?_ ?_ ?_ ?_ ?_, tr 45 1 1.41 ?_ ?_ ?_ ?_ ?_, tr 60 1 1 ?_ ?_ ?_ ?_ ?_⟩
  case refine_13 =>
    rw [tb 90 2 0 (by norm_num) (by norm_num [branch_converging_Crane_angles]) (by norm_num [branch_converging_Crane_angles])
      (by norm_num [branch_converging_Crane_angles, branch_converging_Crane_Fs])]
    congr 1; ring
  all_goals norm_num [branch_converging_Crane_angles, branch_converging_Crane_Fs, run_converging_Crane_angles, run_converging_Crane_Fs]

/-- the diverging branch never gains pressure: its coefficient is the multiplier times the squared velocity change, or a positive sum -/
theorem C89_branch_diverging (h : Tee D_run D_branch Q_run Q_branch β q) (h0 : 0 ≤ q) (h1 : q ≤ 1) (angle : ℝ) :
    ∃ K, K_branch_diverging_Crane D_run D_branch Q_run Q_branch angle = .ok K ∧ 0 ≤ K ∧
      (angle < 60 ∨ β ≤ 2 / 3 → K = Gb β q angle * ((q / β ^ 2 * cos (angle * (π / 180)) - 1) ^ 2 + (q / β ^ 2 * sin (angle * (π / 180))) ^ 2)) ∧
      0.6 ≤ Gb β q angle ∧ Gb β q angle ≤ 1.3 := by
  have hG : 0.6 ≤ Gb β q angle ∧ Gb β q angle ≤ 1.3 := by
    unfold Gb; split_ifs <;> constructor <;> norm_num at * <;> nlinarith
  have hsc := sin_sq_add_cos_sq (angle * (π / 180))
  have e : 1 + (q / β ^ 2) ^ 2 - 2 * (q / β ^ 2) * cos (angle * (π / 180)) =
      (q / β ^ 2 * cos (angle * (π / 180)) - 1) ^ 2 + (q / β ^ 2 * sin (angle * (π / 180))) ^ 2 := by
    linear_combination -(q / β ^ 2) ^ 2 * hsc
  refine ⟨_, branch_div_eq h angle, ?_, fun hc => ?_, hG.1, hG.2⟩
  · refine mul_nonneg (by linarith [hG.1]) ?_
    split_ifs
    · rw [e]; positivity
    · positivity
  · rw [if_pos hc, e]

/-- the diverging run: negative (pressure recovery) exactly for a large branch taking less than half the flow, and never above 0.4 -/
theorem C89_run_diverging (h : Tee D_run D_branch Q_run Q_branch β q) (h0 : 0 < q) (h1 : q ≤ 1) :
    ∃ K, K_run_diverging_Crane D_run D_branch Q_run Q_branch = .ok K ∧ -0.15 ≤ K ∧ K ≤ 0.4 ∧ (K < 0 ↔ 0.4 < β ^ 2 ∧ q < 0.5) := by
  refine ⟨_, run_div_eq h, ?_⟩
  split_ifs with ha hb
  · refine ⟨by nlinarith, by nlinarith, fun hk => ?_, fun hk => absurd ha (not_le.mpr hk.1)⟩
    have : 0 < q ^ 2 := by positivity
    linarith
  · have hq2 : 0 < q ^ 2 := by positivity
    refine ⟨?_, by nlinarith, fun hk => ⟨not_le.mp ha, ?_⟩, fun hk => ?_⟩
    · nlinarith [sq_nonneg (q - 1 / 3)]
    · by_contra hn
      have := mul_nonneg (by linarith [not_lt.mp hn] : (0:ℝ) ≤ 2 * (2 * q - 1)) hq2.le
      linarith
    · exact mul_neg_of_neg_of_pos (by linarith [hk.2]) hq2
  · have hq2 : 0 < q ^ 2 := by positivity
    have h2 : 0 ≤ 2 * q - 1 := by linarith [not_le.mp hb]
    refine ⟨?_, by nlinarith, fun hk => ?_, fun hk => absurd hk.2 (not_lt.mpr (not_le.mp hb).le)⟩
    · have := mul_nonneg (mul_nonneg (by norm_num : (0:ℝ) ≤ 0.3) h2) hq2.le
      linarith
    · have := mul_nonneg (mul_nonneg (by norm_num : (0:ℝ) ≤ 0.3) h2) hq2.le
      linarith

/-- the converging run of a tee with a branch at 75 degrees or more: between 0 and 0.601, independent of the branch diameter -/
theorem C89_run_converging (h : Tee D_run D_branch Q_run Q_branch β q) (h0 : 0 ≤ q) (h1 : q ≤ 1) {angle : ℝ} (ha : 75 ≤ angle) :
    ∃ K, K_run_converging_Crane D_run D_branch Q_run Q_branch angle = .ok K ∧ K = 1.55 * q - q ^ 2 ∧ 0 ≤ K ∧ K ≤ 0.601 := by
  refine ⟨_, (run_conv_eq h angle).1 ha, rfl, by nlinarith, by nlinarith [sq_nonneg (q - 0.775)]⟩

end

/-- finding: the coefficients jump; at equal diameters the converging run drops by more than 0.05 from just below 75 degrees to 75 degrees, and the
diverging branch jumps where its multiplier changes -/
theorem C89_jumps : (∀ angle, 60 ≤ angle → angle < 75 → K_run_converging_Crane 1 1 1 1 angle = .ok 0.5) ∧ K_run_converging_Crane 1 1 1 1 75 = .ok 0.525 ∧
    K_branch_diverging_Crane 1 1 2 3 60 = .ok (0.64 * (1 + 0.3 * 0.6 ^ 2)) ∧
    ∀ ε > 0, ∃ K, K_branch_diverging_Crane 1 1 2 (3 + ε) 60 = .ok K ∧ K = 0.6 * (1 + 0.3 * ((3 + ε) / (5 + ε)) ^ 2) := by
  have t : Tee 1 1 1 1 1 (1 / 2) := ⟨by norm_num, by norm_num, by norm_num, by norm_num, by norm_num⟩
  have t2 : Tee 1 1 2 3 1 (3 / 5) := ⟨by norm_num, by norm_num, by norm_num, by norm_num, by norm_num⟩
  obtain ⟨-, -, s3, -⟩ := angles_ok
  refine ⟨fun angle h1 h2 => ?_, ?_, ?_, fun ε hε => ?_⟩
  · obtain ⟨F, hF, -, -, e⟩ := (run_conv_eq t angle).2 h2
    have hF1 : F = 1 := by
      rcases eq_or_lt_of_le h1 with rfl | h1
      · rw [C21_interp_inside 60 run_converging_Crane_angles run_converging_Crane_Fs s3 rfl none none false 1 (by simp [run_converging_Crane_angles]) (by norm_num [run_converging_Crane_angles]) (by norm_num [run_converging_Crane_angles])] at hF
        rw [← Except.ok.inj hF]; norm_num [run_converging_Crane_angles, run_converging_Crane_Fs]
      · rw [(C21_interp_outside angle run_converging_Crane_angles run_converging_Crane_Fs s3 rfl (by simp [run_converging_Crane_angles]) none none false).2 (by simpa [run_converging_Crane_angles] using h1)] at hF
        rw [← Except.ok.inj hF]; norm_num [run_converging_Crane_angles, run_converging_Crane_Fs]
    rw [e, hF1]; congr 1; norm_num
  · rw [(run_conv_eq t 75).1 le_rfl]; congr 1; norm_num
  · rw [branch_div_eq t2, Gb, if_pos (by norm_num), if_neg (by norm_num), if_pos (by norm_num), if_neg (by norm_num)]; congr 1; norm_num
  · have t3 : Tee 1 1 2 (3 + ε) 1 ((3 + ε) / (5 + ε)) :=
      ⟨by norm_num, by norm_num, by positivity, by norm_num, by rw [show 2 + (3 + ε) = 5 + ε by ring]; field_simp⟩
    refine ⟨_, branch_div_eq t3 60, ?_⟩
    have : ¬ (3 + ε) / (5 + ε) ≤ 0.6 := by
      rw [not_le, lt_div_iff₀ (by positivity)]; linarith
    rw [Gb, if_pos (by norm_num), if_neg (by norm_num), if_neg this, if_neg (by norm_num)]; norm_num

/-- division by zero: a zero run diameter or no flow at all -/
theorem C89_errors (D_run D_branch Q_run Q_branch angle : ℝ) (h : D_run = 0 ∨ Q_run + Q_branch = 0) :
    K_branch_converging_Crane D_run D_branch Q_run Q_branch angle = .error .zeroDivisionError ∧
    K_run_converging_Crane D_run D_branch Q_run Q_branch angle = .error .zeroDivisionError ∧
    K_branch_diverging_Crane D_run D_branch Q_run Q_branch angle = .error .zeroDivisionError ∧
    K_run_diverging_Crane D_run D_branch Q_run Q_branch = .error .zeroDivisionError := by
  unfold K_branch_converging_Crane K_run_converging_Crane K_branch_diverging_Crane K_run_diverging_Crane
  by_cases hD : D_run = 0
  · simp only [hD, pdiv_zero, Py.error_bind, and_self]
  · have hQ := h.resolve_left hD
    simp only [hQ, pdiv_zero, pdiv_ok hD, Py.ok_bind, Py.error_bind, and_self]

/-- a concrete tee -/
example : Tee 0.08 0.04 1 3 0.5 0.75 := ⟨by norm_num, by norm_num, by norm_num, by norm_num, by norm_num⟩

end Verif.Fittings
