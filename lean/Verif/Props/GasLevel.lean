import Verif.Props.GasNoise

/-!
# C125: the level of the noise of gases in control valves
-/

namespace Verif.C125
open Verif Verif.Noise Real

noncomputable section

section
variable {k F : ℝ}

/-- **The boundaries.** The choked regime begins below the critical ratio and screech below the limit of regime 5; without
pressure recovery (`F = 1`) regime 3 lies between regimes 2 and 4.  The order "x_vcc < xB" the code relies on fails for
valves with high recovery: with `k = 2` and `F = 1/2` screech would begin below the critical ratio, so regime 3 is empty. -/
theorem C125_gas_order (hk : 1 < k) (hk8 : k ≤ 8) (hF : 0 < F) (hF1 : F ≤ 1) :
    (F < 1 → (spLimits k F).xc < (spLimits k F).x_vcc) ∧ (spLimits k F).xB < (spLimits k F).xCE ∧
    (spLimits k 1).x_vcc < (spLimits k 1).xB ∧ (spLimits 2 (1 / 2)).xB < (spLimits 2 (1 / 2)).x_vcc := by
  obtain ⟨h0, h1⟩ := vcc_mem hk
  have ha := alpha_pos hk hF hF1
  have hk0 : 0 < k := by linarith
  have hk1 : 0 < k - 1 := by linarith
  refine ⟨fun h => ?_, ?_, ?_, ?_⟩
  · show F ^ 2 * spVcc k < spVcc k
    have : F ^ 2 < 1 := pow_lt_one₀ hF.le h two_ne_zero
    nlinarith
  · unfold spLimits
    dsimp only
    have hp := pow_lt_22 hk hk8
    have hpp : 0 < k ^ (k / (k - 1)) := by positivity
    have : (1 / k) ^ (k / (k - 1)) = 1 / k ^ (k / (k - 1)) := by rw [one_div, Real.inv_rpow hk0.le, one_div]
    rw [this, div_mul_div_comm, one_mul]
    have : 1 / (22 * spAlpha k F) < 1 / (spAlpha k F * k ^ (k / (k - 1))) :=
      one_div_lt_one_div_of_lt (by positivity) (by nlinarith)
    linarith
  · unfold spLimits
    dsimp only
    have e1 : spAlpha k 1 = 1 := by unfold spAlpha; rw [one_pow, one_mul]; exact div_self (by linarith)
    rw [e1]
    have hlt : 1 / k < 2 / (k + 1) := by rw [div_lt_div_iff₀ hk0 (by linarith)]; linarith
    have := Real.rpow_lt_rpow (by positivity) hlt (show 0 < k / (k - 1) by positivity)
    unfold spVcc
    linarith
  · have e2 : ((2:ℝ) / (2 + 1)) ^ ((2:ℝ) / (2 - 1)) = 4 / 9 := by
      rw [show (2:ℝ) / (2 - 1) = (2 : ℕ) by norm_num, Real.rpow_natCast]; norm_num
    have e3 : ((1:ℝ) / 2) ^ ((2:ℝ) / (2 - 1)) = 1 / 4 := by
      rw [show (2:ℝ) / (2 - 1) = (2 : ℕ) by norm_num, Real.rpow_natCast]; norm_num
    unfold spLimits spAlpha spVcc
    dsimp only
    rw [e2, e3]; norm_num

/-- **Continuity.** At the onset of choking the subsonic and the choked formulas agree: Mach number one on both sides, the
same speed of sound, and hence the same power, frequency and efficiency.  At the onset of screech the Mach number is
`√2` and the efficiencies agree, while the peak frequency drops from `√2` to 1.4 times `Stp·c/Dj`.  From the last boundary
on the Mach number keeps its limit. -/
theorem C125_gas_continuity {P1 rho An : ℝ} (hk : 1 < k) (hk8 : k ≤ 8) (hF : 0 < F) (hF1 : F ≤ 1) (hP : 0 < P1) (hr : 0 < rho) :
    (let x := (spLimits k F).xc;
      spMachVc k F x = 1 ∧ spMach k F x = 1 ∧ spSoundVc P1 rho k F x = spSound P1 rho k ∧
      (10 : ℝ) ^ An * F ^ 2 * spMachVc k F x ^ 3 = (10 : ℝ) ^ An * (x / (spLimits k F).x_vcc) * spMach k F x ^ (6.6 * F ^ 2)) ∧
    (let M := spMach k F (spLimits k F).xB;
      M = √2 ∧ (10 : ℝ) ^ An * M ^ (6.6 * F ^ 2) = 0.5 * (10 : ℝ) ^ An * M ^ 2 * √2 ^ (6.6 * F ^ 2) ∧
      (1.4 / √(M ^ 2 - 1) : ℝ) < M) ∧
    spMach k F (spLimits k F).xCE = machOf k 22 := by
  obtain ⟨h0, h1⟩ := vcc_mem hk
  have hk0 : 0 < k := by linarith
  have hk1 : 0 < k - 1 := by linarith
  have h5 := mach5_gt hk hk8
  have h2 : (1:ℝ) < √2 := by rw [Real.lt_sqrt (by norm_num)]; norm_num
  have hq : (spLimits k F).xc / F ^ 2 = spVcc k := by
    show F ^ 2 * spVcc k / F ^ 2 = _
    field_simp
  have m1 : spMachVc k F (spLimits k F).xc = 1 := by unfold spMachVc; rw [hq, mach_choked hk]
  have m2 : spMach k F (spLimits k F).xc = 1 := by
    unfold spMach
    rw [show (spLimits k F).xc = F ^ 2 * spVcc k from rfl, ratio_at_xc hk hF hF1, mach_choked hk]
    exact min_eq_left (by linarith)
  have m3 : spMach k F (spLimits k F).xB = √2 := by
    unfold spMach
    rw [ratio_at_xB hk hF hF1, mach_screech hk]
    exact min_eq_left h5.le
  have sq2 : √2 ^ 2 = (2:ℝ) := Real.sq_sqrt (by norm_num)
  refine ⟨⟨m1, m2, ?_, ?_⟩, ⟨m3, ?_, ?_⟩, ?_⟩
  · unfold spSoundVc spSound
    have : (1 - spVcc k) ^ ((k - 1) / k) = 2 / (k + 1) := by
      unfold spVcc
      rw [sub_sub_cancel, ← Real.rpow_mul (by positivity), show k / (k - 1) * ((k - 1) / k) = 1 by field_simp, Real.rpow_one]
    rw [hq, this]
    congr 1
    field_simp
  · rw [m1, m2, show (spLimits k F).xc = F ^ 2 * spVcc k from rfl, show (spLimits k F).x_vcc = spVcc k from rfl,
      mul_div_cancel_right₀ _ h0.ne', Real.one_rpow]; ring
  · rw [m3, sq2]; ring
  · rw [m3, sq2]
    norm_num
    rw [Real.lt_sqrt (by norm_num)]; norm_num
  · unfold spMach
    rw [ratio_at_xCE hk hF hF1, min_self]

end

/-! ### The level -/

/-- shape of the spectrum at the ratio `r` of the frequency to the peak -/
def gasShape (r : ℝ) : ℝ := (10 : ℝ) ^ (-0.8 : ℝ) / ((1 + (0.5 * r) ^ (2.5 : ℝ)) * (1 + (0.5 / r) ^ (1.7 : ℝ)))

open Classical in
/-- frequency factor of the pipe: below the internal coincidence frequency, below the ring frequency, above it -/
def spGx (f fr fo : ℝ) : ℝ := if f < fo then (fo / fr) ^ (2 / 3 : ℝ) * (f / fo) ^ 4 else if f < fr then √(f / fr) else 1

/-- frequency factor of the external coincidence: the larger of `f` and `fo` over `fg`, at most one -/
def spGy (f fo fg : ℝ) : ℝ := min (max f fo / fg) 1

/-- sound transmitted by the pipe wall, one metre away -/
def gasTransmission (d Di t_pipe rho_pipe P_air rho2 c2 fr fo fg : ℝ) (b : Band) : ℝ :=
  8.25e-7 * (c2 / (t_pipe * b.f)) ^ 2 * spGx b.f fr fo /
    ((rho2 * c2 + 2 * π * t_pipe * b.f * rho_pipe * √(0.01 / b.f)) / (415 * spGy b.f fo fg) + 1) *
    (P_air / 101325) * (10 : ℝ) ^ (-(dTL d) / 10) * ((Di + 2 * t_pipe) / (Di + 2 * t_pipe + 2))

theorem fold_log (x : ℝ) : 10 * (log x / log 10) = dB x := rfl

theorem gasShape_pos {r : ℝ} (h : 0 < r) : 0 < gasShape r := by unfold gasShape; positivity

theorem bandLevel_ok {W r : ℝ} (hW : 0 < W) (hr : 0 < r) : bandLevel (dB W) r = .ok (dB (W * gasShape r)) := by
  unfold bandLevel
  have h1 : 0 < (1 + (0.5 * r) ^ (2.5 : ℝ)) * (1 + (0.5 / r) ^ (1.7 : ℝ)) := by positivity
  rw [ppow_ok (by positivity), Py.ok_bind, pdiv_ok hr.ne', Py.ok_bind, ppow_ok (by positivity), Py.ok_bind,
    plog10_ok h1, Py.ok_bind, Py.pure_eq]
  unfold gasShape
  rw [dB_mul hW (by positivity), dB_div (by positivity) h1, dB_rpow, fold_log]
  congr 1; ring

theorem ten_dB {x : ℝ} (hx : 0 < x) : (10 : ℝ) ^ (0.1 * dB x) = x := by
  have := exp_dB hx
  rw [exp_ten] at this
  rw [show 0.1 * dB x = dB x / 10 by ring]; exact this

theorem spGx_pos {f fr fo : ℝ} (hf : 0 < f) (hr : 0 < fr) (ho : 0 < fo) : 0 < spGx f fr fo := by
  unfold spGx; split_ifs <;> positivity
theorem spGy_pos {f fo fg : ℝ} (hf : 0 < f) (hg : 0 < fg) : 0 < spGy f fo fg := by
  unfold spGy
  exact lt_min (div_pos (lt_max_of_lt_left hf) hg) one_pos

theorem freqFactors_ok {f fr fo fg : ℝ} (hf : 0 < f) (hr : 0 < fr) (ho : 0 < fo) (hg : 0 < fg) :
    freqFactors f fr fo fg = .ok (spGx f fr fo, spGy f fo fg) := by
  unfold freqFactors spGx spGy
  by_cases h : f < fo
  · rw [if_pos h, if_pos h, max_eq_right h.le, pdiv_ok hr.ne', Py.ok_bind, ppow_ok (by positivity), Py.ok_bind,
      pdiv_ok ho.ne', Py.ok_bind]
    by_cases h2 : fo < fg
    · rw [if_pos h2, pdiv_ok hg.ne', min_eq_left ((div_lt_one hg).2 h2).le]; rfl
    · rw [if_neg h2, min_eq_right ((one_le_div hg).2 (not_lt.1 h2))]; rfl
  · rw [if_neg h, if_neg h, max_eq_left (not_lt.1 h)]
    have hx : (if f < fr then do
        let a ← f /ₚ fr
        let s ← psqrt a
        return s
      else return 1 : Py ℝ) = .ok (if f < fr then √(f / fr) else 1) := by
      split_ifs
      · rw [pdiv_ok hr.ne', Py.ok_bind, psqrt_ok (by positivity)]
      · rfl
    rw [hx, Py.ok_bind]
    by_cases h2 : f < fg
    · rw [if_pos h2, pdiv_ok hg.ne', min_eq_left ((div_lt_one hg).2 h2).le]; rfl
    · rw [if_neg h2, min_eq_right ((one_le_div hg).2 (not_lt.1 h2))]; rfl

/-- **Frequency factors.** Both are positive, `Gy` is at most one and so is `Gx` in a gas whose speed of sound is at most
four times that of the air.  The correction for small valves lies between 0 and 9 decibels; it jumps by 0.9475 at 0.15 m. -/
theorem C125_factors {f Di t_pipe c_pipe c_air c2 : ℝ} (hf : 0 < f) (hD : 0 < Di) (ht : 0 < t_pipe) (hp : 0 < c_pipe)
    (ha : 0 < c_air) (hc : 0 < c2) :
    (∃ q Gx Gy, gasFreqs Di t_pipe c_pipe c_air c2 = .ok q ∧ freqFactors f q.1 q.2.1 q.2.2 = .ok (Gx, Gy) ∧
      0 < Gx ∧ 0 < Gy ∧ Gy ≤ 1 ∧ (c2 ≤ 4 * c_air → Gx ≤ 1)) ∧
    (∀ d, 0 ≤ dTL d ∧ dTL d ≤ 9) ∧ dTL 0.15 = 0.9475 ∧ (∀ d > 0.15, dTL d = 0) := by
  have hπ := Real.pi_pos
  have hfr : 0 < c_pipe / (π * Di) := by positivity
  have hfo : 0 < 0.25 * (c_pipe / (π * Di)) * (c2 / c_air) := by positivity
  have hfg : 0 < √3 * c_air ^ 2 / (π * t_pipe * c_pipe) := by positivity
  refine ⟨⟨(c_pipe / (π * Di), 0.25 * (c_pipe / (π * Di)) * (c2 / c_air), √3 * c_air ^ 2 / (π * t_pipe * c_pipe)),
    _, _, ?_, freqFactors_ok hf hfr hfo hfg, spGx_pos hf hfr hfo, spGy_pos hf hfg, min_le_right _ _, fun h => ?_⟩, ?_, ?_, ?_⟩
  · unfold gasFreqs
    rw [pdiv_ok (by positivity), Py.ok_bind, pdiv_ok ha.ne', Py.ok_bind, pdiv_ok (by positivity), Py.ok_bind]
    rfl
  · unfold spGx
    split_ifs with h1 h2
    · have e1 : 0.25 * (c_pipe / (π * Di)) * (c2 / c_air) / (c_pipe / (π * Di)) ≤ 1 := by
        rw [show 0.25 * (c_pipe / (π * Di)) * (c2 / c_air) / (c_pipe / (π * Di)) = c2 / (4 * c_air) by
            field_simp; norm_num,
          div_le_one (by positivity)]; exact h
      have e2 := (div_lt_one hfo).2 h1
      exact mul_le_one₀ (Real.rpow_le_one (by positivity) e1 (by norm_num)) (by positivity) (pow_le_one₀ (by positivity) e2.le)
    · exact Real.sqrt_le_one.2 ((div_lt_one hfr).2 h2).le
    · exact le_rfl
  · intro d
    unfold dTL
    split_ifs with h1 h2
    · norm_num
    · obtain ⟨ha, hb⟩ := h2
      constructor
      · nlinarith [mul_nonneg (sub_nonneg.2 ha) (sub_nonneg.2 hb), mul_nonneg (mul_nonneg (sub_nonneg.2 ha) (sub_nonneg.2 hb)) (sub_nonneg.2 hb),
          mul_nonneg (mul_nonneg (sub_nonneg.2 ha) (sub_nonneg.2 hb)) (sub_nonneg.2 ha), sq_nonneg (d - 0.1)]
      · nlinarith [mul_nonneg (sub_nonneg.2 ha) (sub_nonneg.2 hb), mul_nonneg (mul_nonneg (sub_nonneg.2 ha) (sub_nonneg.2 hb)) (sub_nonneg.2 hb),
          mul_nonneg (mul_nonneg (sub_nonneg.2 ha) (sub_nonneg.2 hb)) (sub_nonneg.2 ha), sq_nonneg (d - 0.1)]
    · norm_num
  · unfold dTL; norm_num
  · intro d hd; unfold dTL; rw [if_pos hd]

/-- the documented domain: a gas that expands through a valve -/
structure GasOk (m P1 P2 T rho k MW Kv d Di t_pipe Fd F rho_pipe c_pipe P_air c_air Stp beta : ℝ) : Prop where
  hm : 0 < m
  hP2 : 0 < P2
  hP1 : P2 < P1
  hT : 0 < T
  hrho : 0 < rho
  hk : 1 < k
  hk8 : k ≤ 8
  hMW : 0 < MW
  hKv : 0 < Kv
  hd : 0 < d
  hDi : 0 < Di
  ht : 0 < t_pipe
  hFd : 0 < Fd
  hF : 0 < F
  hF1 : F ≤ 1
  hrho_pipe : 0 < rho_pipe
  hc_pipe : 0 < c_pipe
  hP_air : 0 < P_air
  hc_air : 0 < c_air
  hStp : 0 < Stp
  hbeta : 0 < beta

/-- speed of sound downstream -/
def spC2 (T k MW : ℝ) : ℝ := √(k * (Const.R : ℝ) * T / (MW / 1000))
/-- Mach number in the pipe -/
def spM2 (m Di rho2 c2 : ℝ) : ℝ := 4 * m / (π * Di * Di * rho2 * c2)
/-- velocity in the outlet of the valve -/
def spUR (m d Di rho2 beta : ℝ) : ℝ := 4 * m / (π * rho2 * Di * Di) * Di * Di / (beta * d * d)
/-- acoustic power of the flow leaving the valve -/
def spWaR (m d Di rho2 c2 beta An : ℝ) : ℝ :=
  (10 : ℝ) ^ An * (spUR m d Di rho2 beta / c2) ^ 3 *
    (0.5 * m * spUR m d Di rho2 beta * spUR m d Di rho2 beta * ((1 - d * d / (Di * Di)) ^ 2 + 0.2))

open Classical in
/-- sound power in a band: the jet, and the flow leaving the valve when the Mach number in the pipe exceeds 0.3 -/
def spGas (j : GasJet) (m P1 P2 T rho k MW d Di t_pipe rho_pipe c_pipe P_air c_air An Stp beta : ℝ) (b : Band) : ℝ :=
  let rho2 := rho * (P2 / P1)
  let c2 := spC2 T k MW
  let fr := c_pipe / (π * Di)
  3.2e9 * rho2 * c2 / Di ^ 2 * (1 / (1 - min (spM2 m Di rho2 c2) 0.3)) ^ (1.6 : ℝ) *
    (j.eta * j.Wm * gasShape (b.f / j.fp) +
      if spM2 m Di rho2 c2 > 0.3 then spWaR m d Di rho2 c2 beta An * gasShape (b.f / (Stp * spUR m d Di rho2 beta / d)) else 0) *
    gasTransmission d Di t_pipe rho_pipe P_air rho2 c2 fr (0.25 * fr * (c2 / c_air)) (√3 * c_air ^ 2 / (π * t_pipe * c_pipe)) b

theorem R_pos : (0 : ℝ) < (Const.R : ℝ) := by
  have : (0 : ℚ) < Const.R := by unfold Const.R Const.N_A Const.k; norm_num
  exact_mod_cast this

theorem gasTransmission_pos {d Di t_pipe rho_pipe P_air rho2 c2 fr fo fg : ℝ} {b : Band} (hD : 0 < Di) (ht : 0 < t_pipe)
    (hp : 0 < rho_pipe) (hP : 0 < P_air) (hr2 : 0 < rho2) (hc2 : 0 < c2) (hr : 0 < fr) (ho : 0 < fo) (hg : 0 < fg) (hf : 0 < b.f) :
    0 < gasTransmission d Di t_pipe rho_pipe P_air rho2 c2 fr fo fg b := by
  have hx := spGx_pos hf hr ho
  have hy := spGy_pos (fo := fo) hf hg
  have hπ := Real.pi_pos
  unfold gasTransmission
  positivity

theorem gasStep_ok {g : GasLoop} {d Di t_pipe rho_pipe P_air w : ℝ} {b : Band} (hD : 0 < Di) (ht : 0 < t_pipe)
    (hp : 0 < rho_pipe) (hP : 0 < P_air) (hr2 : 0 < g.rho2) (hc2 : 0 < g.c2) (hr : 0 < g.fr) (ho : 0 < g.fo) (hg : 0 < g.fg) (hf : 0 < b.f)
    (hPa : g.P_air_ratio = P_air / 101325) (hw : 0 < w)
    (hL : gasInternal g.L_pi g.fp_inv g.outlet b.f = .ok (dB w)) (s : ℝ) :
    gasStep g d Di t_pipe rho_pipe s b =
      .ok (s + w * gasTransmission d Di t_pipe rho_pipe P_air g.rho2 g.c2 g.fr g.fo g.fg b * (10 : ℝ) ^ (b.A / 10)) := by
  have hx := spGx_pos hf hr ho
  have hy := spGy_pos (fo := g.fo) hf hg
  have hπ := Real.pi_pos
  have hden : 0 < (g.rho2 * g.c2 + 2 * π * t_pipe * b.f * rho_pipe * √(0.01 / b.f)) / (415 * spGy b.f g.fo g.fg) + 1 := by positivity
  have hX : 0 < 8.25e-7 * (g.c2 / (t_pipe * b.f)) ^ 2 * spGx b.f g.fr g.fo /
      ((g.rho2 * g.c2 + 2 * π * t_pipe * b.f * rho_pipe * √(0.01 / b.f)) / (415 * spGy b.f g.fo g.fg) + 1) * (P_air / 101325) := by
    positivity
  have hTL : gasTL b.f g.fr g.fo g.fg g.rho2 g.c2 t_pipe rho_pipe g.P_air_ratio (dTL d) =
      .ok (dB (8.25e-7 * (g.c2 / (t_pipe * b.f)) ^ 2 * spGx b.f g.fr g.fo /
      ((g.rho2 * g.c2 + 2 * π * t_pipe * b.f * rho_pipe * √(0.01 / b.f)) / (415 * spGy b.f g.fo g.fg) + 1) * (P_air / 101325)) - dTL d) := by
    unfold gasTL
    rw [freqFactors_ok hf hr ho hg, Py.ok_bind, pdiv_ok hf.ne', Py.ok_bind, psqrt_ok (by positivity), Py.ok_bind]
    dsimp only
    rw [pdiv_ok (show 415 * spGy b.f g.fo g.fg ≠ 0 by positivity), Py.ok_bind, pdiv_ok (mul_pos ht hf).ne', Py.ok_bind,
      pdiv_ok hden.ne', Py.ok_bind, hPa, plog10_ok hX, Py.ok_bind, Py.pure_eq, fold_log]
  have hq : 0 < (Di + 2 * t_pipe + 2) / (Di + 2 * t_pipe) := by positivity
  unfold gasStep
  rw [hL, Py.ok_bind, hTL, Py.ok_bind, pdiv_ok (show Di + 2 * t_pipe ≠ 0 by positivity), Py.ok_bind, plog10_ok hq, Py.ok_bind, Py.pure_eq]
  rw [fold_log]
  congr 2
  have e : w * gasTransmission d Di t_pipe rho_pipe P_air g.rho2 g.c2 g.fr g.fo g.fg b =
      w * (8.25e-7 * (g.c2 / (t_pipe * b.f)) ^ 2 * spGx b.f g.fr g.fo /
      ((g.rho2 * g.c2 + 2 * π * t_pipe * b.f * rho_pipe * √(0.01 / b.f)) / (415 * spGy b.f g.fo g.fg) + 1) * (P_air / 101325)) *
      ((Di + 2 * t_pipe + 2) / (Di + 2 * t_pipe))⁻¹ * (10 : ℝ) ^ (-(dTL d) / 10) := by
    unfold gasTransmission; rw [inv_div]; ring
  rw [e]
  generalize 8.25e-7 * (g.c2 / (t_pipe * b.f)) ^ 2 * spGx b.f g.fr g.fo /
      ((g.rho2 * g.c2 + 2 * π * t_pipe * b.f * rho_pipe * √(0.01 / b.f)) / (415 * spGy b.f g.fo g.fg) + 1) * (P_air / 101325) = X at *
  generalize (Di + 2 * t_pipe + 2) / (Di + 2 * t_pipe) = Q at *
  rw [show 0.1 * (dB w + (dB X - dTL d) - dB Q + b.A) = 0.1 * dB (w * X * Q⁻¹) + -(dTL d) / 10 + b.A / 10 by
      rw [dB_mul (by positivity) (by positivity), dB_mul hw hX, dB_inv]; ring,
    Real.rpow_add (by norm_num), Real.rpow_add (by norm_num), ten_dB (by positivity)]

theorem level_ok {Wa rho2 c2 Di Lg y : ℝ} (hW : 0 < Wa) (hr : 0 < rho2) (hc : 0 < c2) (hD : 0 < Di) (hy : 0 < y) (hL : Lg = dB y) :
    level Wa rho2 c2 Di Lg = .ok (dB (3.2e9 * rho2 * c2 / Di ^ 2 * y * Wa)) := by
  unfold level
  rw [pdiv_ok (by positivity), Py.ok_bind, plog10_ok (by positivity), Py.ok_bind, Py.pure_eq, fold_log, hL,
    ← dB_mul (by positivity) hy]
  congr 2; ring

variable {m P1 P2 T1 T rho k MW Kv d Di t_pipe Fd F rho_pipe c_pipe P_air rho_air c_air An Stp beta : ℝ}
  {FL FLP FP T2 : Option ℝ}

theorem spUR_pos {rho2 : ℝ} (hm : 0 < m) (hd : 0 < d) (hD : 0 < Di) (hr : 0 < rho2) (hb : 0 < beta) : 0 < spUR m d Di rho2 beta := by
  unfold spUR
  have hπ := Real.pi_pos
  positivity

theorem spWaR_pos {rho2 c2 : ℝ} (hm : 0 < m) (hd : 0 < d) (hD : 0 < Di) (hr : 0 < rho2) (hc : 0 < c2) (hb : 0 < beta) :
    0 < spWaR m d Di rho2 c2 beta An := by
  have := spUR_pos hm hd hD hr hb
  unfold spWaR
  positivity

theorem spGas_pos (h : GasOk m P1 P2 T rho k MW Kv d Di t_pipe Fd F rho_pipe c_pipe P_air c_air Stp beta) {j : GasJet}
    (hW : 0 < j.Wm) (hf : 0 < j.fp) (he : 0 < j.eta) {b : Band} (hb : 0 < b.f) :
    0 < spGas j m P1 P2 T rho k MW d Di t_pipe rho_pipe c_pipe P_air c_air An Stp beta b := by
  have hπ := Real.pi_pos
  have hk := h.hk; have hP2 := h.hP2; have hP1 := hP2.trans h.hP1; have hr := h.hrho; have hT := h.hT; have hMW := h.hMW
  have hD := h.hDi; have hc_pipe := h.hc_pipe; have hc_air := h.hc_air; have ht := h.ht
  have hk0 : 0 < k := by linarith
  have hR := R_pos
  have hr2 : 0 < rho * (P2 / P1) := by positivity
  have hc2 : 0 < spC2 T k MW := by unfold spC2; positivity
  have hU := spUR_pos h.hm h.hd hD hr2 h.hbeta
  have hWa := spWaR_pos (An := An) h.hm h.hd hD hr2 hc2 h.hbeta
  have htr := gasTransmission_pos (d := d) hD ht h.hrho_pipe h.hP_air hr2 hc2 (show 0 < c_pipe / (π * Di) by positivity)
    (show 0 < 0.25 * (c_pipe / (π * Di)) * (spC2 T k MW / c_air) by positivity)
    (show 0 < √3 * c_air ^ 2 / (π * t_pipe * c_pipe) by positivity) hb
  have hs1 := gasShape_pos (div_pos hb hf)
  have hd := h.hd; have hS := h.hStp
  have hs2 := gasShape_pos (show 0 < b.f / (Stp * spUR m d Di (rho * (P2 / P1)) beta / d) by positivity)
  have hmin : min (spM2 m Di (rho * (P2 / P1)) (spC2 T k MW)) 0.3 ≤ 0.3 := min_le_right _ _
  have hl : 0 < 1 / (1 - min (spM2 m Di (rho * (P2 / P1)) (spC2 T k MW)) 0.3) := div_pos one_pos (by linarith)
  unfold spGas
  dsimp only
  apply mul_pos (mul_pos (by positivity) _) htr
  split_ifs
  · positivity
  · rw [add_zero]; positivity

/-- **The gas noise prediction.** For every gas that expands through a valve (with `F` the recovery factor, from `FLP/FP`
or `FL`, and `T` the outlet temperature, `T1` unless given) the call succeeds, and the level is that of the sum, over the
33 bands, of the sound powers of the standard: those of the jet, and of the flow leaving the valve when the Mach number
in the pipe exceeds 0.3, times the transmission of the pipe wall. -/
theorem C125_gas (h : GasOk m P1 P2 T rho k MW Kv d Di t_pipe Fd F rho_pipe c_pipe P_air c_air Stp beta)
    (hF : flTerm FL FLP FP = .ok F) (hT2 : T2.getD T1 = T) :
    ∃ j, gasJet m P1 rho k Kv ((P1 - P2) / P1) F Fd An Stp (spLimits k F) = .ok j ∧ 0 < j.Wm ∧ 0 < j.fp ∧ 0 < j.eta ∧
    control_valve_noise_g_2011 m P1 P2 T1 rho k MW Kv d Di t_pipe Fd FL FLP FP rho_pipe c_pipe P_air rho_air c_air An Stp T2 beta =
      .ok (total (spGas j m P1 P2 T rho k MW d Di t_pipe rho_pipe c_pipe P_air c_air An Stp beta)) := by
  have hπ := Real.pi_pos
  have hk := h.hk; have hP2 := h.hP2; have hP1 := hP2.trans h.hP1; have hr := h.hrho; have hT := h.hT; have hMW := h.hMW
  have hD := h.hDi; have hc_pipe := h.hc_pipe; have hc_air := h.hc_air; have ht := h.ht; have hd := h.hd; have hS := h.hStp
  have hm := h.hm
  have hk0 : 0 < k := by linarith
  have hR := R_pos
  have hr2 : 0 < rho * (P2 / P1) := by positivity
  have hc2 : 0 < spC2 T k MW := by unfold spC2; positivity
  have hx0 : 0 < (P1 - P2) / P1 := div_pos (by linarith [h.hP1]) hP1
  have hx1 : (P1 - P2) / P1 < 1 := by rw [div_lt_one hP1]; linarith
  obtain ⟨l, j, hl, hj, hW, hfp, he, _⟩ := C125_gas_regimes (An := An) hm hP1 hr hk h.hk8 h.hKv h.hF h.hF1 h.hFd hS hx0 hx1
  obtain rfl : spLimits k F = l := Except.ok.inj ((limits_ok hk h.hF h.hF1).symm.trans hl)
  refine ⟨j, hj, hW, hfp, he, ?_⟩
  have hU := spUR_pos hm hd hD hr2 h.hbeta
  have hWa := spWaR_pos (An := An) hm hd hD hr2 hc2 h.hbeta
  have hM2 : 0 < spM2 m Di (rho * (P2 / P1)) (spC2 T k MW) := by unfold spM2; positivity
  have hmin : min (spM2 m Di (rho * (P2 / P1)) (spC2 T k MW)) 0.3 ≤ 0.3 := min_le_right _ _
  have hlg : 0 < 1 / (1 - min (spM2 m Di (rho * (P2 / P1)) (spC2 T k MW)) 0.3) := div_pos one_pos (by linarith)
  set y := (1 / (1 - min (spM2 m Di (rho * (P2 / P1)) (spC2 T k MW)) 0.3)) ^ (1.6 : ℝ) with hy
  have hy0 : 0 < y := by positivity
  have hLg : 16 * (log (1 / (1 - min (spM2 m Di (rho * (P2 / P1)) (spC2 T k MW)) 0.3)) / log 10) = dB y := by
    rw [hy]; unfold dB; rw [Real.log_rpow hlg]; ring
  have hdown : downstream m P1 P2 T rho k MW Di = .ok (rho * (P2 / P1), spC2 T k MW,
      spM2 m Di (rho * (P2 / P1)) (spC2 T k MW), dB y) := by
    unfold downstream
    rw [pdiv_ok hP1.ne', Py.ok_bind]
    dsimp only
    rw [pdiv_ok (show MW / 1000 ≠ 0 by positivity), Py.ok_bind, psqrt_ok (by positivity), Py.ok_bind]
    have : √(k * (Const.R : ℝ) * T / (MW / 1000)) = spC2 T k MW := rfl
    rw [this, pdiv_ok (by positivity), Py.ok_bind]
    have : 4 * m / (π * Di * Di * (rho * (P2 / P1)) * spC2 T k MW) = spM2 m Di (rho * (P2 / P1)) (spC2 T k MW) := rfl
    rw [this, pdiv_ok (by linarith), Py.ok_bind, plog10_ok hlg, Py.ok_bind, Py.pure_eq, hLg]
  have hLpi := level_ok (mul_pos he hW) hr2 hc2 hD hy0 rfl
  have hfreq : gasFreqs Di t_pipe c_pipe c_air (spC2 T k MW) = .ok (c_pipe / (π * Di),
      0.25 * (c_pipe / (π * Di)) * (spC2 T k MW / c_air), √3 * c_air ^ 2 / (π * t_pipe * c_pipe)) := by
    unfold gasFreqs
    rw [pdiv_ok (by positivity), Py.ok_bind, pdiv_ok hc_air.ne', Py.ok_bind, pdiv_ok (by positivity), Py.ok_bind]
    rfl
  set B := 3.2e9 * (rho * (P2 / P1)) * spC2 T k MW / Di ^ 2 * y with hB
  have hB0 : 0 < B := by positivity
  have hsetup : ∀ o, outletIf m d Di (rho * (P2 / P1)) (spC2 T k MW) (spM2 m Di (rho * (P2 / P1)) (spC2 T k MW)) (dB y) beta An Stp = .ok o →
      gasSetup m P1 P2 T1 rho k MW Kv d Di t_pipe Fd FL FLP FP c_pipe P_air c_air An Stp T2 beta =
      .ok ⟨dB (B * (j.eta * j.Wm)), 1 / j.fp, o, c_pipe / (π * Di),
        0.25 * (c_pipe / (π * Di)) * (spC2 T k MW / c_air), √3 * c_air ^ 2 / (π * t_pipe * c_pipe), rho * (P2 / P1), spC2 T k MW,
        P_air / 101325⟩ := by
    intro o ho
    unfold gasSetup
    rw [pdiv_ok hP1.ne', Py.ok_bind, hF, Py.ok_bind, limits_ok hk h.hF h.hF1, Py.ok_bind, hj, Py.ok_bind,
      pdiv_ok hfp.ne', Py.ok_bind, hT2, hdown, Py.ok_bind]
    dsimp only
    rw [ho, Py.ok_bind, hLpi, Py.ok_bind, hfreq, Py.ok_bind]
    rfl
  have hloop : ∀ g : GasLoop, g.fr = c_pipe / (π * Di) → g.fo = 0.25 * (c_pipe / (π * Di)) * (spC2 T k MW / c_air) →
      g.fg = √3 * c_air ^ 2 / (π * t_pipe * c_pipe) → g.rho2 = rho * (P2 / P1) → g.c2 = spC2 T k MW →
      g.P_air_ratio = P_air / 101325 → ∀ w : Band → ℝ, (∀ b ∈ bands, 0 < w b) →
      (∀ b ∈ bands, gasInternal g.L_pi g.fp_inv g.outlet b.f = .ok (dB (w b))) →
      (∀ b ∈ bands, w b * gasTransmission d Di t_pipe rho_pipe P_air g.rho2 g.c2 g.fr g.fo g.fg b =
        spGas j m P1 P2 T rho k MW d Di t_pipe rho_pipe c_pipe P_air c_air An Stp beta b) →
      (do let s ← bands.foldlM (gasStep g d Di t_pipe rho_pipe) 0
          let l ← plog10 s
          return 10 * l : Py ℝ) =
        .ok (total (spGas j m P1 P2 T rho k MW d Di t_pipe rho_pipe c_pipe P_air c_air An Stp beta)) := by
    intro g h1 h2 h3 h4 h5 h6 w hw hi hs
    rw [fold_sum bands _ (fun b => spGas j m P1 P2 T rho k MW d Di t_pipe rho_pipe c_pipe P_air c_air An Stp beta b *
      (10 : ℝ) ^ (b.A / 10)), Py.ok_bind, zero_add,
      plog10_ok (total_pos fun b hb => spGas_pos h hW hfp he (bands_pos b hb).1), Py.ok_bind]
    · rfl
    · intro b hb s
      rw [← hs b hb]
      exact gasStep_ok hD ht h.hrho_pipe h.hP_air (by rw [h4]; exact hr2) (by rw [h5]; exact hc2) (by rw [h1]; positivity)
        (by rw [h2]; positivity) (by rw [h3]; positivity) (bands_pos b hb).1 h6 (hw b hb) (hi b hb) s
  unfold control_valve_noise_g_2011
  by_cases hM : spM2 m Di (rho * (P2 / P1)) (spC2 T k MW) > 0.3
  · have hout : outletIf m d Di (rho * (P2 / P1)) (spC2 T k MW) (spM2 m Di (rho * (P2 / P1)) (spC2 T k MW)) (dB y) beta An Stp =
        .ok (some (dB (B * spWaR m d Di (rho * (P2 / P1)) (spC2 T k MW) beta An), Stp * spUR m d Di (rho * (P2 / P1)) beta / d)) := by
      unfold outletIf outletNoise
      have hb := h.hbeta
      rw [if_pos hM, pdiv_ok (by positivity), Py.ok_bind, pdiv_ok (show beta * d * d ≠ 0 by positivity), Py.ok_bind,
        pdiv_ok (show Di * Di ≠ 0 by positivity), Py.ok_bind]
      dsimp only
      have : 4 * m / (π * (rho * (P2 / P1)) * Di * Di) * Di * Di / (beta * d * d) = spUR m d Di (rho * (P2 / P1)) beta := rfl
      rw [this, pdiv_ok hd.ne', Py.ok_bind, pdiv_ok hc2.ne', Py.ok_bind]
      have : (10 : ℝ) ^ An * (spUR m d Di (rho * (P2 / P1)) beta / spC2 T k MW) ^ 3 *
        (0.5 * m * spUR m d Di (rho * (P2 / P1)) beta * spUR m d Di (rho * (P2 / P1)) beta * ((1 - d * d / (Di * Di)) ^ 2 + 0.2)) =
        spWaR m d Di (rho * (P2 / P1)) (spC2 T k MW) beta An := rfl
      rw [this, level_ok hWa hr2 hc2 hD hy0 rfl, Py.ok_bind]
      rfl
    rw [hsetup _ hout, Py.ok_bind]
    refine hloop _ rfl rfl rfl rfl rfl rfl (fun b => B * (j.eta * j.Wm * gasShape (b.f / j.fp) +
      spWaR m d Di (rho * (P2 / P1)) (spC2 T k MW) beta An * gasShape (b.f / (Stp * spUR m d Di (rho * (P2 / P1)) beta / d)))) ?_ ?_ ?_
    · intro b hb
      have hf := (bands_pos b hb).1
      have hs1 := gasShape_pos (div_pos hf hfp)
      have hs2 := gasShape_pos (show 0 < b.f / (Stp * spUR m d Di (rho * (P2 / P1)) beta / d) by positivity)
      positivity
    · intro b hb
      have hf := (bands_pos b hb).1
      have hs1 := gasShape_pos (div_pos hf hfp)
      have hq : 0 < Stp * spUR m d Di (rho * (P2 / P1)) beta / d := by positivity
      have hs2 := gasShape_pos (div_pos hf hq)
      unfold gasInternal
      dsimp only
      rw [bandLevel_ok (by positivity) (by positivity), Py.ok_bind, pdiv_ok hq.ne', Py.ok_bind,
        bandLevel_ok (by positivity) (by positivity), Py.ok_bind, mul_one_div,
        ten_dB (mul_pos (mul_pos hB0 (mul_pos he hW)) hs1), ten_dB (mul_pos (mul_pos hB0 hWa) hs2),
        plog10_ok (add_pos (mul_pos (mul_pos hB0 (mul_pos he hW)) hs1) (mul_pos (mul_pos hB0 hWa) hs2)),
        Py.ok_bind, Py.pure_eq, fold_log]
      congr 2; ring
    · intro b hb
      unfold spGas
      dsimp only
      rw [if_pos hM, hB, hy]
  · have hout : outletIf m d Di (rho * (P2 / P1)) (spC2 T k MW) (spM2 m Di (rho * (P2 / P1)) (spC2 T k MW)) (dB y) beta An Stp =
        .ok none := by unfold outletIf; rw [if_neg hM]; rfl
    rw [hsetup _ hout, Py.ok_bind]
    refine hloop _ rfl rfl rfl rfl rfl rfl (fun b => B * (j.eta * j.Wm * gasShape (b.f / j.fp))) ?_ ?_ ?_
    · intro b hb
      have hf := (bands_pos b hb).1
      have hs1 := gasShape_pos (div_pos hf hfp)
      positivity
    · intro b hb
      have hf := (bands_pos b hb).1
      unfold gasInternal
      dsimp only
      rw [bandLevel_ok (by positivity) (by positivity), Py.ok_bind, mul_one_div]
      rw [Py.pure_eq]; congr 2; ring
    · intro b hb
      unfold spGas
      dsimp only
      rw [if_neg hM, hB, hy, add_zero]

/-- the valve correction only enters the efficiency of the jet, as a power of ten -/
theorem jet_An {x a : ℝ} (hm : 0 < m) (hP : 0 < P1) (hr : 0 < rho) (hk : 1 < k) (hk8 : k ≤ 8) (hK : 0 < Kv) (hF : 0 < F)
    (hF1 : F ≤ 1) (hFd : 0 < Fd) (hS : 0 < Stp) (hx : 0 < x) (hx1 : x < 1) {j j' : GasJet}
    (h : gasJet m P1 rho k Kv x F Fd An Stp (spLimits k F) = .ok j)
    (h' : gasJet m P1 rho k Kv x F Fd (An + a) Stp (spLimits k F) = .ok j') :
    j'.Wm = j.Wm ∧ j'.fp = j.fp ∧ j'.eta = (10 : ℝ) ^ a * j.eta := by
  have e10 : (10 : ℝ) ^ (An + a) = 10 ^ a * 10 ^ An := by rw [Real.rpow_add (by norm_num)]; ring
  obtain ⟨l, i, hl, hi, _, _, _, _, _, _, A1, A2⟩ := C125_gas_regimes (An := An) hm hP hr hk hk8 hK hF hF1 hFd hS hx hx1
  obtain ⟨l', i', hl', hi', _, _, _, _, _, _, B1, B2⟩ := C125_gas_regimes (An := An + a) hm hP hr hk hk8 hK hF hF1 hFd hS hx hx1
  obtain rfl : spLimits k F = l := Except.ok.inj ((limits_ok hk hF hF1).symm.trans hl)
  obtain rfl : spLimits k F = l' := Except.ok.inj ((limits_ok hk hF hF1).symm.trans hl')
  obtain rfl : j = i := Except.ok.inj (h.symm.trans hi)
  obtain rfl : j' = i' := Except.ok.inj (h'.symm.trans hi')
  by_cases c1 : x ≤ (spLimits k F).xc
  · obtain ⟨M, _, _, rfl, rfl⟩ := A1 c1
    obtain ⟨M', _, _, rfl, rfl⟩ := B1 c1
    refine ⟨rfl, rfl, ?_⟩
    dsimp only
    rw [e10]; ring
  · obtain ⟨M, _, rfl, w, a1, a2, a3⟩ := A2 (not_le.1 c1)
    obtain ⟨M', _, rfl, w', b1, b2, b3⟩ := B2 (not_le.1 c1)
    refine ⟨w'.trans w.symm, ?_⟩
    by_cases c2 : x ≤ (spLimits k F).x_vcc
    · rw [(a1 c2).1, (a1 c2).2, (b1 c2).1, (b1 c2).2, e10]
      exact ⟨rfl, by ring⟩
    · have c2' := not_le.1 c2
      by_cases c3 : x ≤ (spLimits k F).xB
      · rw [(a2 c2' c3).1, (a2 c2' c3).2, (b2 c2' c3).1, (b2 c2' c3).2, e10]
        exact ⟨rfl, by ring⟩
      · have c3' := not_le.1 c3
        rw [(a3 c2' c3').2.2.1, (a3 c2' c3').2.2.2, (b3 c2' c3').2.2.1, (b3 c2' c3').2.2.2, e10]
        exact ⟨rfl, by ring⟩

/-- **Scaling.** The valve correction `An` counts ten decibels per unit; `q` times the pressure of the air raises the level
by `10 log10 q`; the density of the air is never read, and the inlet temperature only when no outlet temperature is given. -/
theorem C125_gas_scaling (h : GasOk m P1 P2 T rho k MW Kv d Di t_pipe Fd F rho_pipe c_pipe P_air c_air Stp beta)
    (hF : flTerm FL FLP FP = .ok F) (hT2 : T2.getD T1 = T) (a : ℝ) {q : ℝ} (hq : 0 < q) (rho_air' T1' : ℝ) : ∃ L,
    control_valve_noise_g_2011 m P1 P2 T1 rho k MW Kv d Di t_pipe Fd FL FLP FP rho_pipe c_pipe P_air rho_air c_air An Stp T2 beta = .ok L ∧
    control_valve_noise_g_2011 m P1 P2 T1 rho k MW Kv d Di t_pipe Fd FL FLP FP rho_pipe c_pipe P_air rho_air c_air (An + a) Stp T2 beta =
      .ok (L + 10 * a) ∧
    control_valve_noise_g_2011 m P1 P2 T1 rho k MW Kv d Di t_pipe Fd FL FLP FP rho_pipe c_pipe (q * P_air) rho_air c_air An Stp T2 beta =
      .ok (L + 10 * (log q / log 10)) ∧
    control_valve_noise_g_2011 m P1 P2 T1' rho k MW Kv d Di t_pipe Fd FL FLP FP rho_pipe c_pipe P_air rho_air' c_air An Stp (some T) beta =
      .ok L := by
  obtain ⟨j, hj, hW, hfp, he, hn⟩ := C125_gas (An := An) (rho_air := rho_air) h hF hT2
  obtain ⟨j', hj', hW', hfp', he', hn'⟩ := C125_gas (An := An + a) (rho_air := rho_air) h hF hT2
  obtain ⟨j2, hj2, _, _, _, hn2⟩ := C125_gas (An := An) (rho_air := rho_air) { h with hP_air := mul_pos hq h.hP_air } hF hT2
  obtain ⟨j3, hj3, _, _, _, hn3⟩ := C125_gas (An := An) (rho_air := rho_air') (T1 := T1') (T2 := some T) h hF rfl
  obtain rfl : j = j2 := Except.ok.inj (hj.symm.trans hj2)
  obtain rfl : j = j3 := Except.ok.inj (hj.symm.trans hj3)
  have hpos : ∀ b ∈ bands, 0 < spGas j m P1 P2 T rho k MW d Di t_pipe rho_pipe c_pipe P_air c_air An Stp beta b :=
    fun b hb => spGas_pos h hW hfp he (bands_pos b hb).1
  have hP1 := h.hP2.trans h.hP1
  have hP2 := h.hP2
  obtain ⟨eW, ef, ee⟩ := jet_An h.hm hP1 h.hrho h.hk h.hk8 h.hKv h.hF h.hF1 h.hFd h.hStp
    (div_pos (by linarith [h.hP1]) hP1) (by rw [div_lt_one hP1]; linarith) hj hj'
  refine ⟨_, hn, ?_, ?_, hn3⟩
  · rw [hn']; congr 1
    rw [← dB_rpow a]
    refine total_scale (by positivity) hpos fun b _ => ?_
    have e2 : ∀ r c, spWaR m d Di r c beta (An + a) = (10 : ℝ) ^ a * spWaR m d Di r c beta An := by
      intro r c; unfold spWaR; rw [Real.rpow_add (by norm_num)]; ring
    unfold spGas
    dsimp only
    rw [eW, ef, ee, e2]
    split_ifs <;> ring
  · rw [hn2]; congr 1
    refine total_scale hq hpos fun b _ => ?_
    unfold spGas gasTransmission
    ring

/-- **Errors.** Without a recovery factor (neither `FL` nor both of `FLP` and `FP`) the call raises ValueError; without a
pressure drop it raises ZeroDivisionError; against the pressure gradient it raises ValueError. -/
theorem C125_gas_errors (hm : 0 < m) (hP1 : 0 < P1) (hr : 0 < rho) (hk : 1 < k) (hKv : 0 < Kv) (hFd : 0 < Fd) (hF : 0 < F)
    (hF1 : F ≤ 1) (hfl : flTerm FL FLP FP = .ok F) :
    (∀ fp flp : Option ℝ, fp = none ∨ flp = none →
      control_valve_noise_g_2011 m P1 P2 T1 rho k MW Kv d Di t_pipe Fd none flp fp rho_pipe c_pipe P_air rho_air c_air An Stp T2 beta =
        .error .valueError) ∧
    control_valve_noise_g_2011 m P1 P1 T1 rho k MW Kv d Di t_pipe Fd FL FLP FP rho_pipe c_pipe P_air rho_air c_air An Stp T2 beta =
      .error .zeroDivisionError ∧
    (P1 < P2 →
      control_valve_noise_g_2011 m P1 P2 T1 rho k MW Kv d Di t_pipe Fd FL FLP FP rho_pipe c_pipe P_air rho_air c_air An Stp T2 beta =
        .error .valueError) := by
  obtain ⟨h0, h1⟩ := vcc_mem hk
  have hk0 : 0 < k := by linarith
  have hk1 : 0 < k - 1 := by linarith
  have hC := Kv_pos hKv
  have hDj : 0 < spDj Kv F Fd := by unfold spDj; positivity
  have hxc : 0 < (spLimits k F).xc := by show 0 < F ^ 2 * spVcc k; positivity
  have hjet : ∀ x : ℝ, x ≤ 0 → gasJet m P1 rho k Kv x F Fd An Stp (spLimits k F) = subsonicJet m P1 rho k x F (spDj Kv F Fd) An Stp := by
    intro x hx
    unfold gasJet
    rw [psqrt_ok (mul_pos hC hF).le, Py.ok_bind, mach5_ok hk, Py.ok_bind, if_pos (by unfold regime; rw [if_pos (hx.trans hxc.le)])]
    rfl
  refine ⟨fun fp flp h => ?_, ?_, fun h => ?_⟩
  · have : flTerm none flp fp = .error .valueError := by
      rcases h with rfl | rfl
      · rfl
      · cases fp <;> rfl
    unfold control_valve_noise_g_2011 gasSetup
    rw [pdiv_ok hP1.ne', Py.ok_bind, this]; rfl
  · unfold control_valve_noise_g_2011 gasSetup
    rw [pdiv_ok hP1.ne', Py.ok_bind, hfl, Py.ok_bind, limits_ok hk hF hF1, Py.ok_bind, sub_self, zero_div, hjet 0 le_rfl]
    obtain ⟨hM, _, _⟩ := machVc_ok hk hF le_rfl hxc.le
    have hM0 : spMachVc k F 0 = 0 := by unfold spMachVc machOf; simp
    unfold subsonicJet
    rw [hM, hM0, Py.ok_bind, pdiv_ok hr.ne', Py.ok_bind, pdiv_ok (by positivity), Py.ok_bind, pdiv_ok hk0.ne', Py.ok_bind, zero_div, sub_zero,
      ppow_ok one_pos, Py.ok_bind, psqrt_ok (by positivity), Py.ok_bind, pdiv_ok hDj.ne', Py.ok_bind, Py.pure_eq, Py.ok_bind]
    dsimp only
    rw [mul_zero, zero_mul, zero_div, pdiv_zero, Py.error_bind, Py.error_bind]
  · have hx : (P1 - P2) / P1 < 0 := div_neg_of_neg_of_pos (by linarith) hP1
    have hq : (P1 - P2) / P1 / F ^ 2 < 0 := div_neg_of_neg_of_pos hx (by positivity)
    have hb : 1 < 1 - (P1 - P2) / P1 / F ^ 2 := by linarith
    unfold control_valve_noise_g_2011 gasSetup
    rw [pdiv_ok hP1.ne', Py.ok_bind, hfl, Py.ok_bind, limits_ok hk hF hF1, Py.ok_bind, hjet _ hx.le]
    have hp : (1 - (P1 - P2) / P1 / F ^ 2) ^ ((1 - k) / k) < 1 :=
      Real.rpow_lt_one_of_one_lt_of_neg hb (div_neg_of_neg_of_pos (by linarith) hk0)
    have hneg : 2 / (k - 1) * ((1 - (P1 - P2) / P1 / F ^ 2) ^ ((1 - k) / k) - 1) < 0 :=
      mul_neg_of_pos_of_neg (by positivity) (by linarith)
    unfold subsonicJet machVc
    rw [pdiv_ok hk1.ne', Py.ok_bind, pdiv_ok (by positivity), Py.ok_bind, pdiv_ok hk0.ne', Py.ok_bind,
      ppow_ok (by linarith), Py.ok_bind]
    unfold psqrt
    rw [if_pos hneg]
    rfl

/-- the worked example of the documentation meets the hypotheses -/
example : GasOk 2.22 1e6 7.2e5 450 5.3 1.22 19.8 77.85 0.1 0.2031 0.008 0.296 (0.792 / 0.98) 8000 5000 101325 343 0.2 0.93 := by
  constructor <;> norm_num

example : flTerm none (some 0.792) (some 0.98) = .ok (0.792 / 0.98) := by
  unfold flTerm; exact pdiv_ok (by norm_num)

end
end Verif.C125
