import Verif.Props.LiquidNoise
import Mathlib.Analysis.Complex.ExponentialBounds

/-!
# C125: the noise of gases in control valves
-/

namespace Verif.C125
open Verif Verif.Noise Real

noncomputable section

/-! ### Specification -/

/-- the critical pressure ratio at the vena contracta -/
def spVcc (k : ℝ) : ℝ := 1 - (2 / (k + 1)) ^ (k / (k - 1))

/-- recovery correction -/
def spAlpha (k F : ℝ) : ℝ := (1 - spVcc k) / (1 - F ^ 2 * spVcc k)

/-- Mach number of a jet expanding from the pressure ratio `r` -/
def machOf (k r : ℝ) : ℝ := √(2 / (k - 1) * (r ^ ((k - 1) / k) - 1))

/-- the regime boundaries -/
def spLimits (k F : ℝ) : Limits :=
  ⟨spVcc k, F ^ 2 * spVcc k, spAlpha k F, 1 - 1 / spAlpha k F * (1 / k) ^ (k / (k - 1)), 1 - 1 / (22 * spAlpha k F)⟩

section
variable {k F x : ℝ}

theorem vcc_mem (hk : 1 < k) : 0 < spVcc k ∧ spVcc k < 1 := by
  unfold spVcc
  have h1 : 0 < 2 / (k + 1) := by positivity
  have h2 : 2 / (k + 1) < 1 := by rw [div_lt_one (by linarith)]; linarith
  have hp : 0 < k / (k - 1) := div_pos (by linarith) (by linarith)
  have := Real.rpow_pos_of_pos h1 (k / (k - 1))
  have := Real.rpow_lt_one h1.le h2 hp
  constructor <;> linarith

theorem xc_lt (hk : 1 < k) (hF : 0 < F) (hF1 : F ≤ 1) : F ^ 2 * spVcc k ≤ spVcc k ∧ F ^ 2 * spVcc k < 1 := by
  obtain ⟨h0, h1⟩ := vcc_mem hk
  have : F ^ 2 * spVcc k ≤ spVcc k := mul_le_of_le_one_left h0.le (pow_le_one₀ hF.le hF1)
  exact ⟨this, this.trans_lt h1⟩

theorem alpha_pos (hk : 1 < k) (hF : 0 < F) (hF1 : F ≤ 1) : 0 < spAlpha k F := by
  obtain ⟨h0, h1⟩ := vcc_mem hk
  unfold spAlpha
  have := (xc_lt hk hF hF1).2
  exact div_pos (by linarith) (by linarith)

theorem limits_ok (hk : 1 < k) (hF : 0 < F) (hF1 : F ≤ 1) : limits k F = .ok (spLimits k F) := by
  obtain ⟨h0, h1⟩ := vcc_mem hk
  have ha := alpha_pos hk hF hF1
  have hx := (xc_lt hk hF hF1).2
  have e : (2 / (k + 1)) ^ (k / (k - 1)) = 1 - spVcc k := by unfold spVcc; ring
  unfold limits
  rw [pdiv_ok (show k + 1 ≠ 0 by linarith), Py.ok_bind, pdiv_ok (show k - 1 ≠ 0 by linarith), Py.ok_bind,
    ppow_ok (show 0 < 2 / (k + 1) by positivity), Py.ok_bind, e]
  simp only [sub_sub_cancel]
  have e2 : (1 - spVcc k) / (1 - F ^ 2 * spVcc k) = spAlpha k F := rfl
  rw [pdiv_ok (show 1 - F ^ 2 * spVcc k ≠ 0 by linarith), Py.ok_bind, e2, pdiv_ok ha.ne', Py.ok_bind,
    pdiv_ok (show k ≠ 0 by linarith), Py.ok_bind, ppow_ok (show 0 < 1 / k by positivity), Py.ok_bind,
    pdiv_ok (show 22 * spAlpha k F ≠ 0 by positivity), Py.ok_bind]
  rfl

/-- at the pressure ratio `y ^ (k/(k-1))` the Mach number is `√(2 (y-1)/(k-1))` -/
theorem machOf_pow (hk : 1 < k) {y : ℝ} (hy : 0 ≤ y) : machOf k (y ^ (k / (k - 1))) = √(2 / (k - 1) * (y - 1)) := by
  unfold machOf
  rw [← Real.rpow_mul hy, show k / (k - 1) * ((k - 1) / k) = 1 by
    have : k - 1 ≠ 0 := by linarith
    have : k ≠ 0 := by linarith
    field_simp, Real.rpow_one]

theorem machOf_mono (hk : 1 < k) {r s : ℝ} (hr : 0 ≤ r) (h : r ≤ s) : machOf k r ≤ machOf k s := by
  unfold machOf
  apply Real.sqrt_le_sqrt
  have hk0 : 0 < k := by linarith
  have := Real.rpow_le_rpow hr h (show 0 ≤ (k - 1) / k from div_nonneg (by linarith) hk0.le)
  apply mul_le_mul_of_nonneg_left (by linarith)
  exact div_nonneg (by norm_num) (by linarith)

theorem machOf_lt (hk : 1 < k) {r s : ℝ} (hr : 1 ≤ r) (h : r < s) : machOf k r < machOf k s := by
  unfold machOf
  have hk0 : 0 < k := by linarith
  have hk1 : 0 < k - 1 := by linarith
  have hlt := Real.rpow_lt_rpow (by linarith) h (show 0 < (k - 1) / k from div_pos hk1 hk0)
  have h1 : 1 ≤ r ^ ((k - 1) / k) := Real.one_le_rpow hr (by positivity)
  apply Real.sqrt_lt_sqrt
  · exact mul_nonneg (by positivity) (by linarith)
  · exact mul_lt_mul_of_pos_left (by linarith) (by positivity)

/-- pressure ratio of the choked jet: `((k+1)/2)^(k/(k-1))`, Mach one -/
theorem one_sub_vcc_inv (hk : 1 < k) : 1 / (1 - spVcc k) = ((k + 1) / 2) ^ (k / (k - 1)) := by
  have : 1 - spVcc k = (2 / (k + 1)) ^ (k / (k - 1)) := by unfold spVcc; ring
  rw [this, one_div, ← Real.inv_rpow (by positivity), inv_div]

theorem mach_choked (hk : 1 < k) : machOf k (1 / (1 - spVcc k)) = 1 := by
  rw [one_sub_vcc_inv hk, machOf_pow hk (by positivity), show 2 / (k - 1) * ((k + 1) / 2 - 1) = 1 by
    have : k - 1 ≠ 0 := by linarith
    field_simp; ring, Real.sqrt_one]

theorem mach_screech (hk : 1 < k) : machOf k (k ^ (k / (k - 1))) = √2 := by
  rw [machOf_pow hk (by linarith), show 2 / (k - 1) * (k - 1) = 2 by
    have : k - 1 ≠ 0 := by linarith
    field_simp]

/-- `k^(k/(k-1))` is at most `k e`, below the limit 22 of regime 5 for every `k` up to 8 -/
theorem pow_lt_22 (hk : 1 < k) (hk8 : k ≤ 8) : k ^ (k / (k - 1)) < 22 := by
  have hk0 : 0 < k := by linarith
  have hk1 : 0 < k - 1 := by linarith
  rw [Real.rpow_def_of_pos hk0]
  have hlog : log k ≤ k - 1 := Real.log_le_sub_one_of_pos hk0
  have h1 : log k * (k / (k - 1)) = log k + log k / (k - 1) := by field_simp; ring
  have h2 : log k / (k - 1) ≤ 1 := by rw [div_le_one hk1]; exact hlog
  rw [h1, Real.exp_add, Real.exp_log hk0]
  have h3 : exp (log k / (k - 1)) ≤ exp 1 := Real.exp_le_exp.2 h2
  have h4 := Real.exp_one_lt_d9
  calc k * exp (log k / (k - 1)) ≤ 8 * exp 1 := mul_le_mul hk8 h3 (Real.exp_pos _).le (by norm_num)
    _ < 22 := by linarith

theorem mach5_gt (hk : 1 < k) (hk8 : k ≤ 8) : √2 < machOf k 22 := by
  rw [← mach_screech hk]
  exact machOf_lt hk (Real.one_le_rpow hk.le (div_nonneg (by linarith) (by linarith))) (pow_lt_22 hk hk8)

theorem mach5_ok (hk : 1 < k) : mach5 k = .ok (machOf k 22) := by
  have hk1 : 0 < k - 1 := by linarith
  have hk0 : 0 < k := by linarith
  have h1 : (1 : ℝ) ≤ 22 ^ ((k - 1) / k) := Real.one_le_rpow (by norm_num) (by positivity)
  unfold mach5
  rw [pdiv_ok hk1.ne', Py.ok_bind, pdiv_ok hk0.ne', Py.ok_bind,
    psqrt_ok (mul_nonneg (by positivity) (by linarith))]
  rfl

/-- the Mach number of the jet: expansion from `1/(α(1-x))`, at most the one at 22 -/
def spMach (k F x : ℝ) : ℝ := min (machOf k (1 / (spAlpha k F * (1 - x)))) (machOf k 22)

theorem ratio_at_xc (hk : 1 < k) (hF : 0 < F) (hF1 : F ≤ 1) :
    1 / (spAlpha k F * (1 - F ^ 2 * spVcc k)) = 1 / (1 - spVcc k) := by
  have := (xc_lt hk hF hF1).2
  unfold spAlpha
  rw [div_mul_cancel₀ _ (by linarith)]

theorem ratio_at_xB (hk : 1 < k) (hF : 0 < F) (hF1 : F ≤ 1) :
    1 / (spAlpha k F * (1 - (spLimits k F).xB)) = k ^ (k / (k - 1)) := by
  have ha := alpha_pos hk hF hF1
  have hk0 : 0 < k := by linarith
  unfold spLimits
  dsimp only
  rw [sub_sub_cancel, ← mul_assoc, mul_one_div_cancel ha.ne', one_mul, one_div, ← Real.inv_rpow (by positivity), one_div, inv_inv]

theorem ratio_at_xCE (hk : 1 < k) (hF : 0 < F) (hF1 : F ≤ 1) :
    1 / (spAlpha k F * (1 - (spLimits k F).xCE)) = 22 := by
  have ha := alpha_pos hk hF hF1
  unfold spLimits
  dsimp only
  rw [sub_sub_cancel]; field_simp

theorem ratio_lt (hk : 1 < k) (hF : 0 < F) (hF1 : F ≤ 1) {y : ℝ} (hx : x < 1) (h : y < x) :
    1 / (spAlpha k F * (1 - y)) < 1 / (spAlpha k F * (1 - x)) := by
  have ha := alpha_pos hk hF hF1
  apply one_div_lt_one_div_of_lt (mul_pos ha (by linarith))
  exact mul_lt_mul_of_pos_left (by linarith) ha

theorem choked_ratio (hk : 1 < k) : 1 ≤ 1 / (1 - spVcc k) := by
  obtain ⟨h0, h1⟩ := vcc_mem hk
  rw [le_div_iff₀ (by linarith)]; linarith

theorem mach_supersonic (hk : 1 < k) (hk8 : k ≤ 8) (hF : 0 < F) (hF1 : F ≤ 1) (hx : x < 1)
    (h : (spLimits k F).xc < x) : 1 < spMach k F x := by
  have h2 : (1:ℝ) < √2 := by rw [Real.lt_sqrt (by norm_num)]; norm_num
  apply lt_min _ (h2.trans (mach5_gt hk hk8))
  refine (mach_choked hk).symm.trans_lt ?_
  apply machOf_lt hk (choked_ratio hk)
  rw [← ratio_at_xc hk hF hF1]
  exact ratio_lt hk hF hF1 hx h

theorem mach_screeching (hk : 1 < k) (hk8 : k ≤ 8) (hF : 0 < F) (hF1 : F ≤ 1) (hx : x < 1)
    (h : (spLimits k F).xB < x) : √2 < spMach k F x := by
  apply lt_min _ (mach5_gt hk hk8)
  rw [← mach_screech hk]
  apply machOf_lt hk (Real.one_le_rpow hk.le (div_nonneg (by linarith) (by linarith)))
  rw [← ratio_at_xB hk hF hF1]
  exact ratio_lt hk hF hF1 hx h

theorem mach_full (hk : 1 < k) (hF : 0 < F) (hF1 : F ≤ 1) (hx : x < 1)
    (h : (spLimits k F).xCE ≤ x) : spMach k F x = machOf k 22 := by
  apply min_eq_right
  apply machOf_mono hk (by norm_num)
  rw [← ratio_at_xCE hk hF hF1]
  have ha := alpha_pos hk hF hF1
  apply one_div_le_one_div_of_le (mul_pos ha (by linarith))
  exact mul_le_mul_of_nonneg_left (by linarith) ha.le

theorem machJ_ok (hk : 1 < k) (hF : 0 < F) (hF1 : F ≤ 1) (hx : x < 1) (h : (spLimits k F).xc < x) :
    machJ k x (spLimits k F) (machOf k 22) = .ok (spMach k F x) := by
  have ha := alpha_pos hk hF hF1
  have hk1 : 0 < k - 1 := by linarith
  have hk0 : 0 < k := by linarith
  have hr : 1 ≤ 1 / (spAlpha k F * (1 - x)) := by
    have h1 := choked_ratio hk
    rw [← ratio_at_xc hk hF hF1] at h1
    exact h1.trans (ratio_lt hk hF hF1 hx h).le
  have hr1 : 1 ≤ (1 / (spAlpha k F * (1 - x))) ^ ((k - 1) / k) := Real.one_le_rpow hr (by positivity)
  have e : (spLimits k F).alpha = spAlpha k F := rfl
  unfold machJ
  rw [e, pdiv_ok hk1.ne', Py.ok_bind, pdiv_ok (mul_pos ha (by linarith)).ne', Py.ok_bind, pdiv_ok hk0.ne', Py.ok_bind,
    ppow_ok (by linarith), Py.ok_bind, psqrt_ok (mul_nonneg (by positivity) (by linarith)), Py.ok_bind]
  rfl

/-- subsonic: Mach number at the vena contracta -/
def spMachVc (k F x : ℝ) : ℝ := machOf k (1 / (1 - x / F ^ 2))

theorem sub_ratio (hk : 1 < k) (hF : 0 < F) (h : x ≤ (spLimits k F).xc) : x / F ^ 2 ≤ spVcc k := by
  rw [div_le_iff₀ (by positivity)]
  have : x ≤ F ^ 2 * spVcc k := h
  linarith

theorem machVc_ok (hk : 1 < k) (hF : 0 < F) (hx : 0 ≤ x) (h : x ≤ (spLimits k F).xc) :
    machVc k x F = .ok (spMachVc k F x) ∧ spMachVc k F x ≤ 1 ∧ (0 < x → 0 < spMachVc k F x) := by
  obtain ⟨h0, h1⟩ := vcc_mem hk
  have hq := sub_ratio hk hF h
  have hk1 : 0 < k - 1 := by linarith
  have hk0 : 0 < k := by linarith
  have hq0 : 0 ≤ x / F ^ 2 := by positivity
  have hb : 0 < 1 - x / F ^ 2 := by linarith
  have e : (1 - x / F ^ 2) ^ ((1 - k) / k) = (1 / (1 - x / F ^ 2)) ^ ((k - 1) / k) := by
    rw [one_div, Real.inv_rpow hb.le, ← Real.rpow_neg hb.le]; congr 1; ring
  have hr : 1 ≤ 1 / (1 - x / F ^ 2) := by rw [le_div_iff₀ hb]; linarith
  have hr1 : 1 ≤ (1 / (1 - x / F ^ 2)) ^ ((k - 1) / k) := Real.one_le_rpow hr (by positivity)
  refine ⟨?_, ?_, fun hx0 => ?_⟩
  · unfold machVc
    rw [pdiv_ok hk1.ne', Py.ok_bind, pdiv_ok (by positivity), Py.ok_bind, pdiv_ok hk0.ne', Py.ok_bind,
      ppow_ok hb, Py.ok_bind, e, psqrt_ok (mul_nonneg (by positivity) (by linarith))]
    rfl
  · unfold spMachVc
    refine le_of_le_of_eq ?_ (mach_choked hk)
    exact machOf_mono hk (by linarith) (one_div_le_one_div_of_le (by linarith) (by linarith))
  · have hq1 : 0 < x / F ^ 2 := by positivity
    have : machOf k 1 = 0 := by unfold machOf; simp
    unfold spMachVc
    rw [← this]
    exact machOf_lt hk le_rfl (by rw [lt_div_iff₀ hb]; linarith)

end

/-- diameter of the jet -/
def spDj (Kv F Fd : ℝ) : ℝ := 4.6e-3 * Fd * √(Fittings.Kv_to_Cv Kv * F)

/-- speed of sound at the choked vena contracta -/
def spSound (P1 rho k : ℝ) : ℝ := √(2 * k * P1 / (k + 1) / rho)

/-- speed of sound at the subsonic vena contracta -/
def spSoundVc (P1 rho k F x : ℝ) : ℝ := √(k * P1 / rho * (1 - x / F ^ 2) ^ ((k - 1) / k))

section
variable {m P1 rho k Kv x F Fd An Stp : ℝ}

theorem soundVcc_ok (hP : 0 < P1) (hr : 0 < rho) (hk : 1 < k) : soundVcc P1 rho k = .ok (spSound P1 rho k) ∧ 0 < spSound P1 rho k := by
  have hk0 : 0 < k := by linarith
  unfold soundVcc spSound
  refine ⟨?_, by positivity⟩
  rw [pdiv_ok (by linarith), Py.ok_bind, pdiv_ok hr.ne', Py.ok_bind, psqrt_ok (by positivity)]

/-- **The five regimes.** For a gas flowing through the valve, power, peak frequency and efficiency are found in every
regime and positive: a subsonic jet up to `xc`; above it a jet of Mach number above one, and above `√2` once `x` is above
`xB`, where the shock cells screech. -/
theorem C125_gas_regimes (hm : 0 < m) (hP : 0 < P1) (hr : 0 < rho) (hk : 1 < k) (hk8 : k ≤ 8) (hK : 0 < Kv) (hF : 0 < F)
    (hF1 : F ≤ 1) (hFd : 0 < Fd) (hS : 0 < Stp) (hx : 0 < x) (hx1 : x < 1) :
    ∃ l j, limits k F = .ok l ∧ gasJet m P1 rho k Kv x F Fd An Stp l = .ok j ∧ 0 < j.Wm ∧ 0 < j.fp ∧ 0 < j.eta ∧
      l.xc = F ^ 2 * l.x_vcc ∧ l.xc ≤ l.x_vcc ∧ l.x_vcc < 1 ∧
      (x ≤ l.xc → ∃ M, 0 < M ∧ M ≤ 1 ∧ M = spMachVc k F x ∧ j = ⟨0.5 * m * (M * spSoundVc P1 rho k F x) ^ 2,
        Stp * M * spSoundVc P1 rho k F x / spDj Kv F Fd, (10 : ℝ) ^ An * F ^ 2 * M ^ 3⟩) ∧
      (l.xc < x → ∃ M, 1 < M ∧ M = spMach k F x ∧ j.Wm = 0.5 * m * spSound P1 rho k ^ 2 ∧
        (x ≤ l.x_vcc → j.fp = Stp * M * spSound P1 rho k / spDj Kv F Fd ∧
          j.eta = (10 : ℝ) ^ An * (x / l.x_vcc) * M ^ (6.6 * F ^ 2)) ∧
        (l.x_vcc < x → x ≤ l.xB → j.fp = Stp * M * spSound P1 rho k / spDj Kv F Fd ∧
          j.eta = (10 : ℝ) ^ An * M ^ (6.6 * F ^ 2)) ∧
        (l.x_vcc < x → l.xB < x → √2 < M ∧ (l.xCE ≤ x → M = machOf k 22) ∧
          j.fp = 1.4 * Stp * spSound P1 rho k / spDj Kv F Fd / √(M ^ 2 - 1) ∧
          j.eta = 0.5 * (10 : ℝ) ^ An * M ^ 2 * √2 ^ (6.6 * F ^ 2))) := by
  obtain ⟨h0, h1⟩ := vcc_mem hk
  have hk1 : 0 < k - 1 := by linarith
  have hk0 : 0 < k := by linarith
  have hC := Kv_pos hK
  have hDj : 0 < spDj Kv F Fd := by unfold spDj; positivity
  obtain ⟨hs, hs0⟩ := soundVcc_ok hP hr hk
  have hxc := (xc_lt hk hF hF1).1
  have e66 : 6.6 * F * F = 6.6 * F ^ 2 := by ring
  have hgas : gasJet m P1 rho k Kv x F Fd An Stp (spLimits k F) =
      (if regime x (spLimits k F) = 1 then subsonicJet m P1 rho k x F (spDj Kv F Fd) An Stp
      else if regime x (spLimits k F) = 2 then do
        let f ← x /ₚ (spLimits k F).x_vcc
        shockJet m P1 rho k x F (spDj Kv F Fd) An Stp f (spLimits k F) (machOf k 22)
      else if regime x (spLimits k F) = 3 then shockJet m P1 rho k x F (spDj Kv F Fd) An Stp 1 (spLimits k F) (machOf k 22)
      else if regime x (spLimits k F) = 4 then do
        let Mj ← machJ k x (spLimits k F) (machOf k 22)
        screechJet m P1 rho k F (spDj Kv F Fd) An Stp Mj
      else screechJet m P1 rho k F (spDj Kv F Fd) An Stp (machOf k 22)) := by
    unfold gasJet
    rw [psqrt_ok (mul_pos hC hF).le, Py.ok_bind, mach5_ok hk, Py.ok_bind]
    rfl
  have hshock : ∀ f, (spLimits k F).xc < x → shockJet m P1 rho k x F (spDj Kv F Fd) An Stp f (spLimits k F) (machOf k 22) =
      .ok ⟨0.5 * m * spSound P1 rho k * spSound P1 rho k, Stp * spMach k F x * spSound P1 rho k / spDj Kv F Fd,
        (10 : ℝ) ^ An * f * spMach k F x ^ (6.6 * F * F)⟩ := by
    intro f h
    have hM := mach_supersonic hk hk8 hF hF1 hx1 h
    unfold shockJet
    rw [machJ_ok hk hF hF1 hx1 h, Py.ok_bind, hs, Py.ok_bind, pdiv_ok hDj.ne', Py.ok_bind, ppow_ok (by linarith), Py.ok_bind]
    rfl
  have hscreech : ∀ M, √2 < M → screechJet m P1 rho k F (spDj Kv F Fd) An Stp M =
      .ok ⟨0.5 * m * spSound P1 rho k * spSound P1 rho k, 1.4 * Stp * spSound P1 rho k / spDj Kv F Fd / √(M * M - 1),
        0.5 * (10 : ℝ) ^ An * M * M * √2 ^ (6.6 * F * F)⟩ ∧ 0 < M * M - 1 := by
    intro M hM
    have hMM : 0 < M * M - 1 := by
      have := Real.mul_self_sqrt (show (0:ℝ) ≤ 2 by norm_num)
      nlinarith [Real.sqrt_nonneg 2]
    refine ⟨?_, hMM⟩
    unfold screechJet
    rw [hs, Py.ok_bind, pdiv_ok hDj.ne', Py.ok_bind, psqrt_ok hMM.le, Py.ok_bind, pdiv_ok (Real.sqrt_pos.2 hMM).ne', Py.ok_bind]
    rfl
  refine ⟨spLimits k F, ?_⟩
  by_cases hA : x ≤ (spLimits k F).xc
  · obtain ⟨hMv, hM1, hM0⟩ := machVc_ok hk hF hx.le hA
    have hM0 := hM0 hx
    have hq := sub_ratio hk hF hA
    have hb : 0 < 1 - x / F ^ 2 := by linarith
    have hc : 0 < spSoundVc P1 rho k F x := by unfold spSoundVc; positivity
    refine ⟨⟨0.5 * m * (spMachVc k F x * spSoundVc P1 rho k F x) ^ 2,
        Stp * spMachVc k F x * spSoundVc P1 rho k F x / spDj Kv F Fd, (10 : ℝ) ^ An * F ^ 2 * spMachVc k F x ^ 3⟩,
      limits_ok hk hF hF1, ?_, by positivity, by positivity, by positivity, rfl, hxc, h1,
      fun _ => ⟨_, hM0, hM1, rfl, rfl⟩, fun h => absurd hA (not_le.2 h)⟩
    have hreg : regime x (spLimits k F) = 1 := by unfold regime; rw [if_pos hA]
    rw [hgas, hreg, if_pos rfl]
    unfold subsonicJet
    rw [hMv, Py.ok_bind, pdiv_ok hr.ne', Py.ok_bind, pdiv_ok (by positivity), Py.ok_bind, pdiv_ok hk0.ne', Py.ok_bind,
      ppow_ok hb, Py.ok_bind, psqrt_ok (by positivity), Py.ok_bind, pdiv_ok hDj.ne', Py.ok_bind]
    rfl
  · have hA' := not_le.1 hA
    have hM := mach_supersonic hk hk8 hF hF1 hx1 hA'
    have hM0 : 0 < spMach k F x := by linarith
    have hv : 0 < (spLimits k F).x_vcc := h0
    by_cases hB : x ≤ (spLimits k F).x_vcc
    · refine ⟨⟨0.5 * m * spSound P1 rho k * spSound P1 rho k, Stp * spMach k F x * spSound P1 rho k / spDj Kv F Fd,
        (10 : ℝ) ^ An * (x / (spLimits k F).x_vcc) * spMach k F x ^ (6.6 * F * F)⟩, limits_ok hk hF hF1, ?_,
        by positivity, by positivity, by positivity, rfl, hxc, h1, fun h => absurd h hA,
        fun _ => ⟨_, hM, rfl, by ring, fun _ => ⟨rfl, by rw [e66]⟩, fun h => absurd hB (not_le.2 h), fun h => absurd hB (not_le.2 h)⟩⟩
      have hreg : regime x (spLimits k F) = 2 := by unfold regime; rw [if_neg hA, if_pos ⟨hA', hB⟩]
      rw [hgas, hreg, if_neg (by norm_num), if_pos rfl, pdiv_ok hv.ne', Py.ok_bind]
      exact hshock _ hA'
    · have hB' := not_le.1 hB
      by_cases hD : x ≤ (spLimits k F).xB
      · refine ⟨⟨0.5 * m * spSound P1 rho k * spSound P1 rho k, Stp * spMach k F x * spSound P1 rho k / spDj Kv F Fd,
          (10 : ℝ) ^ An * 1 * spMach k F x ^ (6.6 * F * F)⟩, limits_ok hk hF hF1, ?_,
          by positivity, by positivity, by positivity, rfl, hxc, h1, fun h => absurd h hA,
          fun _ => ⟨_, hM, rfl, by ring, fun h => absurd h hB, fun _ _ => ⟨rfl, by rw [e66, mul_one]⟩,
            fun _ h => absurd hD (not_le.2 h)⟩⟩
        have hreg : regime x (spLimits k F) = 3 := by
          unfold regime; rw [if_neg hA, if_neg (fun h => hB h.2), if_pos ⟨hB', hD⟩]
        rw [hgas, hreg, if_neg (by norm_num), if_neg (by norm_num), if_pos rfl]
        exact hshock _ hA'
      · have hD' := not_le.1 hD
        have hMs := mach_screeching hk hk8 hF hF1 hx1 hD'
        obtain ⟨hsc, hMM⟩ := hscreech _ hMs
        refine ⟨⟨0.5 * m * spSound P1 rho k * spSound P1 rho k,
          1.4 * Stp * spSound P1 rho k / spDj Kv F Fd / √(spMach k F x * spMach k F x - 1),
          0.5 * (10 : ℝ) ^ An * spMach k F x * spMach k F x * √2 ^ (6.6 * F * F)⟩, limits_ok hk hF hF1, ?_,
          by positivity, by positivity, by positivity, rfl, hxc, h1, fun h => absurd h hA,
          fun _ => ⟨_, hM, rfl, by ring, fun h => absurd h hB, fun _ h => absurd h hD,
            fun _ _ => ⟨hMs, fun h => mach_full hk hF hF1 hx1 h, by rw [sq], by rw [e66]; ring⟩⟩⟩
        by_cases hE : x ≤ (spLimits k F).xCE
        · have hreg : regime x (spLimits k F) = 4 := by
            unfold regime; rw [if_neg hA, if_neg (fun h => hB h.2), if_neg (fun h => hD h.2), if_pos ⟨hD', hE⟩]
          rw [hgas, hreg, if_neg (by norm_num), if_neg (by norm_num), if_neg (by norm_num), if_pos rfl,
            machJ_ok hk hF hF1 hx1 hA', Py.ok_bind]
          exact hsc
        · have hreg : regime x (spLimits k F) = 5 := by
            unfold regime; rw [if_neg hA, if_neg (fun h => hB h.2), if_neg (fun h => hD h.2), if_neg (fun h => hE h.2)]
          rw [hgas, hreg, if_neg (by norm_num), if_neg (by norm_num), if_neg (by norm_num), if_neg (by norm_num),
            ← mach_full hk hF hF1 hx1 (not_le.1 hE).le]
          exact hsc

/-- air through a valve with a recovery factor of 0.8 at a pressure ratio of 0.28 meets the hypotheses -/
example : (0:ℝ) < 2.22 ∧ (1:ℝ) < 1.22 ∧ (1.22:ℝ) ≤ 8 ∧ (0:ℝ) < 0.792 / 0.98 ∧ (0.792 / 0.98 : ℝ) ≤ 1 ∧ (0:ℝ) < 0.28 ∧ (0.28:ℝ) < 1 := by
  norm_num

end
end
end Verif.C125
