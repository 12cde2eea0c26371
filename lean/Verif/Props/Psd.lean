import Verif.Lemmas.Erf
import Verif.Lemmas.Tactic
import Mathlib.Analysis.SpecialFunctions.Pow.Deriv
import Mathlib.Analysis.SpecialFunctions.Log.Deriv

/-! C68: particle size distributions are probability distributions. -/

open Real MeasureTheory Filter Topology

noncomputable section

namespace Verif.Psd

/-! ### Specification -/

/-- `F` returns a cumulative distribution of sizes and `f` its density: `F` is 0 at 0, never decreases, never exceeds 1, tends to 1 and is
continuous; away from the corner sizes its derivative is what `f` returns, which is not negative -/
def IsDistribution (F f : ℝ → Py ℝ) (corner : ℝ → Prop) : Prop :=
  ∃ G : ℝ → ℝ, (∀ d, 0 ≤ d → F d = .ok (G d)) ∧ G 0 = 0 ∧ MonotoneOn G (Set.Ici 0) ∧ (∀ d, 0 ≤ d → 0 ≤ G d ∧ G d ≤ 1) ∧
    Tendsto G atTop (𝓝 1) ∧ (∀ d, 0 < d → ContinuousAt G d) ∧ ContinuousWithinAt G (Set.Ici 0) 0 ∧
    ∀ d, 0 < d → ¬ corner d → ∃ g, f d = .ok g ∧ 0 ≤ g ∧ HasDerivAt G g d

/-! ### The three families -/

/-- C68: Gates, Gaudin and Schuhman -/
theorem C68_Gates_Gaudin_Schuhman {dc m : ℝ} (hd : 0 < dc) (hm : 0 < m) :
    IsDistribution (fun d => cdf_Gates_Gaudin_Schuhman d dc m) (fun d => pdf_Gates_Gaudin_Schuhman d dc m) (fun d => d = dc) := by
  have hle : ∀ d, 0 ≤ d → d ≤ dc → (d / dc) ^ m ≤ 1 := fun d h0 h1 =>
    rpow_le_one (by positivity) (by rw [div_le_one hd]; exact h1) hm.le
  have hpc : Continuous fun d : ℝ => (d / dc) ^ m := by
    refine Continuous.rpow_const (by fun_prop) fun x => Or.inr hm.le
  have hcont : Continuous fun d : ℝ => if d ≤ dc then (d / dc) ^ m else 1 := by
    refine Continuous.if_le hpc continuous_const continuous_id continuous_const fun x hx => ?_
    subst hx; rw [div_self hd.ne', one_rpow]
  refine ⟨fun d => if d ≤ dc then (d / dc) ^ m else 1, fun d h0 => ?_, ?_, ?_, fun d h0 => ?_, ?_, fun d _ => hcont.continuousAt, hcont.continuousWithinAt, fun d h0 hne => ?_⟩
  · unfold cdf_Gates_Gaudin_Schuhman
    beta_reduce
    split_ifs
    · py_eval []
      exact ppow_ok' (by positivity) hm.le
    · rfl
  · simp only [hd.le, if_true, zero_div]; exact zero_rpow hm.ne'
  · intro a ha b hb hab
    have ha' : 0 ≤ a := ha
    beta_reduce
    split_ifs with h1 h2 h2
    · exact rpow_le_rpow (by positivity) (by gcongr) hm.le
    · exact hle a ha' h1
    · linarith
    · exact le_rfl
  · beta_reduce
    split_ifs with h1
    · exact ⟨by positivity, hle d h0 h1⟩
    · exact ⟨zero_le_one, le_rfl⟩
  · refine tendsto_const_nhds.congr' ?_
    filter_upwards [eventually_gt_atTop dc] with d h1
    rw [if_neg (by linarith)]
  · rcases lt_or_gt_of_ne hne with h1 | h1
    · refine ⟨m / d * (d / dc) ^ m, ?_, by positivity, ?_⟩
      · unfold pdf_Gates_Gaudin_Schuhman
        beta_reduce
        rw [if_pos h1.le]; py_eval []
      · have e : (fun d : ℝ => (d / dc) ^ m) =ᶠ[𝓝 d] fun d => if d ≤ dc then (d / dc) ^ m else 1 := by
          filter_upwards [eventually_lt_nhds h1] with y hy
          rw [if_pos (le_of_lt hy)]
        refine HasDerivAt.congr_of_eventuallyEq ?_ e.symm
        have h2 := ((hasDerivAt_id d).div_const dc).rpow_const (p := m) (Or.inl (by simp only [id]; positivity))
        refine h2.congr_deriv ?_
        simp only [id]
        rw [rpow_sub_one (by positivity)]; field_simp
    · refine ⟨0, ?_, le_rfl, ?_⟩
      · unfold pdf_Gates_Gaudin_Schuhman; beta_reduce; rw [if_neg (by linarith)]
      · have e : (fun _ : ℝ => (1 : ℝ)) =ᶠ[𝓝 d] fun d => if d ≤ dc then (d / dc) ^ m else 1 := by
          filter_upwards [eventually_gt_nhds h1] with y hy
          rw [if_neg (not_le.mpr hy)]
        exact (hasDerivAt_const d (1 : ℝ)).congr_of_eventuallyEq e.symm

/-- C68: Rosin and Rammler -/
theorem C68_Rosin_Rammler {k m : ℝ} (hk : 0 < k) (hm : 0 < m) :
    IsDistribution (fun d => cdf_Rosin_Rammler d k m) (fun d => pdf_Rosin_Rammler d k m) (fun _ => False) := by
  have hcont : Continuous fun d : ℝ => 1 - exp (-k * d ^ m) := by
    have : Continuous fun d : ℝ => d ^ m := continuous_id.rpow_const fun x => Or.inr hm.le
    fun_prop
  refine ⟨fun d => 1 - exp (-k * d ^ m), fun d h0 => ?_, ?_, ?_, fun d h0 => ?_, ?_, fun d _ => hcont.continuousAt, hcont.continuousWithinAt, fun d h0 _ => ?_⟩
  · unfold cdf_Rosin_Rammler; beta_reduce; rw [ppow_ok' h0 hm.le]; rfl
  · simp [zero_rpow hm.ne']
  · intro a ha b hb hab
    have ha' : 0 ≤ a := ha
    have := rpow_le_rpow ha' hab hm.le
    beta_reduce
    have h2 : exp (-k * b ^ m) ≤ exp (-k * a ^ m) := exp_le_exp.mpr (by nlinarith)
    linarith
  · have h1 : 0 ≤ d ^ m := by positivity
    have h2 : exp (-k * d ^ m) ≤ 1 := exp_le_one_iff.mpr (by nlinarith)
    have := exp_pos (-k * d ^ m)
    exact ⟨by linarith, by linarith⟩
  · have h1 : Tendsto (fun d : ℝ => -k * d ^ m) atTop atBot := (tendsto_rpow_atTop hm).const_mul_atTop_of_neg (by linarith)
    have h2 := (tendsto_exp_atBot.comp h1).const_sub 1
    simpa using h2
  · refine ⟨d ^ (m - 1) * k * m * exp (-d ^ m * k), ?_, by positivity, ?_⟩
    · unfold pdf_Rosin_Rammler; py_eval []
    · have h1 := (hasDerivAt_rpow_const (x := d) (p := m) (Or.inl h0.ne')).const_mul (-k)
      have h2 := h1.exp.const_sub 1
      refine h2.congr_deriv ?_
      rw [show -d ^ m * k = -k * d ^ m by ring]; ring

/-- the value `cdf_lognormal` returns -/
def lognormalG (dc s d : ℝ) : ℝ := if 0 < d then 0.5 * (1 + erf (log (d / dc) / (s * √2))) else 0

theorem cdf_lognormal_eval {dc s d : ℝ} (hd : 0 < dc) (hs : 0 < s) : cdf_lognormal d dc s = .ok (lognormalG dc s d) := by
  have h2 : 0 < √(2 : ℝ) := by positivity
  unfold cdf_lognormal lognormalG
  split_ifs with h0
  · have : 0 < d / dc := by positivity
    py_eval []
  · have : ¬ 0 < d / dc := fun h => h0 (by rwa [lt_div_iff₀ hd, zero_mul] at h)
    have h3 : plog (d / dc) = .error .valueError := by unfold plog; rw [if_pos (not_lt.mp this)]
    py_eval [h3, Py.error_bind]

theorem lognormalG_deriv {dc s d : ℝ} (hd : 0 < dc) (hs : 0 < s) (h0 : 0 < d) :
    HasDerivAt (lognormalG dc s) (1 / (d * s * √(2 * π)) * exp (-0.5 * (log (d / dc) / s) * (log (d / dc) / s))) d := by
  have e : (fun d => 0.5 * (1 + erf (log (d / dc) / (s * √2)))) =ᶠ[𝓝 d] lognormalG dc s := by
    filter_upwards [eventually_gt_nhds h0] with y hy
    unfold lognormalG; rw [if_pos hy]
  refine HasDerivAt.congr_of_eventuallyEq ?_ e.symm
  have hq : d / dc ≠ 0 := by positivity
  have h1 := (((hasDerivAt_id d).div_const dc).log hq).div_const (s * √2)
  have h2 := (((erf_hasDerivAt _).comp d h1).const_add 1).const_mul 0.5
  refine h2.congr_deriv ?_
  simp only [id]
  have hs2 : √(2 : ℝ) ^ 2 = 2 := sq_sqrt (by norm_num)
  have hpi : √(2 * π) = √2 * √π := sqrt_mul (by norm_num) _
  have h2p : 0 < √(2 : ℝ) := by positivity
  have hpp : 0 < √π := sqrt_pos.mpr pi_pos
  have ee : -(log (d / dc) / (s * √2)) ^ 2 = -0.5 * (log (d / dc) / s) * (log (d / dc) / s) := by
    rw [div_pow, mul_pow, hs2]; field_simp; norm_num; ring
  rw [ee, hpi]
  field_simp
  norm_num

/-- C68: the log-normal distribution -/
theorem C68_lognormal {dc s : ℝ} (hd : 0 < dc) (hs : 0 < s) :
    IsDistribution (fun d => cdf_lognormal d dc s) (fun d => pdf_lognormal d dc s) (fun _ => False) := by
  have h2 : 0 < √(2 : ℝ) := by positivity
  have hlog : Tendsto (fun d : ℝ => log (d / dc) / (s * √2)) atTop atTop :=
    (tendsto_log_atTop.comp (tendsto_id.atTop_div_const hd)).atTop_div_const (by positivity)
  refine ⟨lognormalG dc s, fun d h0 => cdf_lognormal_eval hd hs, by simp [lognormalG], ?_, fun d h0 => ?_, ?_,
    fun d h0 => (lognormalG_deriv hd hs h0).continuousAt, ?_, fun d h0 _ => ⟨_, ?_, ?_, lognormalG_deriv hd hs h0⟩⟩
  · intro a ha b hb hab
    have ha' : 0 ≤ a := ha
    unfold lognormalG
    split_ifs with h1 h3 h3
    · have : log (a / dc) / (s * √2) ≤ log (b / dc) / (s * √2) := by gcongr
      have := erf_strictMono.monotone this
      linarith
    · exact absurd (h1.trans_le hab) h3
    · linarith [neg_one_lt_erf (log (b / dc) / (s * √2))]
    · exact le_rfl
  · unfold lognormalG
    split_ifs
    · exact ⟨by linarith [neg_one_lt_erf (log (d / dc) / (s * √2))], by linarith [erf_lt_one (log (d / dc) / (s * √2))]⟩
    · exact ⟨le_rfl, zero_le_one⟩
  · have h3 : Tendsto (fun d : ℝ => 0.5 * (1 + erf (log (d / dc) / (s * √2)))) atTop (𝓝 (0.5 * (1 + 1))) :=
      ((erf_tendsto.comp hlog).const_add 1).const_mul 0.5
    rw [show (0.5 * (1 + 1) : ℝ) = 1 by norm_num] at h3
    refine h3.congr' ?_
    filter_upwards [eventually_gt_atTop 0] with d h0
    unfold lognormalG; rw [if_pos h0]
  · have hz : lognormalG dc s 0 = 0 := by simp [lognormalG]
    have hr : Tendsto (lognormalG dc s) (𝓝[>] 0) (𝓝 0) := by
      have h3 : Tendsto (fun d : ℝ => d / dc) (𝓝[>] 0) (𝓝[>] 0) := by
        refine tendsto_nhdsWithin_iff.mpr ⟨?_, ?_⟩
        · have : Tendsto (fun d : ℝ => d / dc) (𝓝 0) (𝓝 (0 / dc)) := (continuous_id.div_const dc).tendsto 0
          rw [zero_div] at this
          exact this.mono_left nhdsWithin_le_nhds
        · filter_upwards [self_mem_nhdsWithin] with d (h : 0 < d)
          exact div_pos h hd
      have h4 : Tendsto (fun d : ℝ => log (d / dc) / (s * √2)) (𝓝[>] 0) atBot :=
        (tendsto_log_nhdsGT_zero.comp h3).atBot_div_const (by positivity)
      have h5 : Tendsto (fun d : ℝ => 0.5 * (1 + erf (log (d / dc) / (s * √2)))) (𝓝[>] 0) (𝓝 (0.5 * (1 + -1))) :=
        ((erf_tendsto_bot.comp h4).const_add 1).const_mul 0.5
      rw [show (0.5 * (1 + -1) : ℝ) = 0 by norm_num] at h5
      refine h5.congr' ?_
      filter_upwards [self_mem_nhdsWithin] with d (h : 0 < d)
      unfold lognormalG; rw [if_pos h]
    rw [← continuousWithinAt_Ioi_iff_Ici]
    unfold ContinuousWithinAt; rw [hz]; exact hr
  · unfold pdf_lognormal
    have hq : 0 < d / dc := by positivity
    have hp := pi_pos
    have h3 : 0 < √(2 * π) := by positivity
    py_eval []
  · have hp := pi_pos
    positivity

end Verif.Psd
