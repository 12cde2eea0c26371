import Verif.Model.ValveNoise
import Mathlib.Algebra.Order.BigOperators.Group.List

/-!
# C125: the noise of liquids in control valves
-/

namespace Verif.C125
open Verif Verif.Noise Real

noncomputable section

/-! ### Specification: sound powers add over the bands -/

/-- the level, in decibels, of a ratio of powers -/
def dB (x : ℝ) : ℝ := 10 * (log x / log 10)

/-- the level of the sum of the powers in the 33 bands, each weighted by its A-weight -/
def total (w : Band → ℝ) : ℝ := dB ((bands.map fun b => w b * (10 : ℝ) ^ (b.A / 10)).sum)

/-- shape of the spectrum of turbulent noise with peak frequency `fp` -/
def turbShape (fp : ℝ) (b : Band) : ℝ := (10 : ℝ) ^ (-0.8 : ℝ) / (0.25 * b.f3 / fp ^ 3 + fp * b.inv)

/-- shape of the spectrum of cavitation noise with peak frequency `fc` -/
def cavShape (fc : ℝ) (b : Band) : ℝ :=
  0.12589254117941673 / (0.25 * b.f15 / (fc * √fc) + b.fn15 * (fc * √fc))

/-- sound transmitted by the pipe wall with ring frequency `c_pipe/(π Di)`, one metre away -/
def liqTransmission (Di t_pipe rho_pipe c_pipe rho_air c_air : ℝ) (b : Band) : ℝ :=
  (c_air * rho_air * Di) / (10 * (c_pipe * rho_pipe * t_pipe)) *
    ((Di + 2 * t_pipe) / (Di + 2 * t_pipe + 2)) /
    (c_pipe / (π * Di) * b.inv + b.f15 * (π * Di / c_pipe * √(π * Di / c_pipe))) ^ 2

/-! ### Decibels -/

theorem log10_pos : 0 < log 10 := Real.log_pos (by norm_num)

theorem dB_mul {x y : ℝ} (hx : 0 < x) (hy : 0 < y) : dB (x * y) = dB x + dB y := by
  unfold dB; rw [Real.log_mul hx.ne' hy.ne']; ring
theorem dB_div {x y : ℝ} (hx : 0 < x) (hy : 0 < y) : dB (x / y) = dB x - dB y := by
  unfold dB; rw [Real.log_div hx.ne' hy.ne']; ring
theorem dB_inv {x : ℝ} : dB x⁻¹ = - dB x := by
  unfold dB; rw [Real.log_inv]; ring
theorem dB_rpow (a : ℝ) : dB ((10 : ℝ) ^ a) = 10 * a := by
  unfold dB; rw [Real.log_rpow (by norm_num)]; field_simp [log10_pos.ne']
theorem dB_lt {x y : ℝ} (hx : 0 < x) (h : x < y) : dB x < dB y := by
  unfold dB
  have := Real.log_lt_log hx h
  have := div_lt_div_of_pos_right this log10_pos
  linarith
theorem exp_dB {x : ℝ} (hx : 0 < x) : exp (log 10 / 10 * dB x) = x := by
  unfold dB
  rw [show log 10 / 10 * (10 * (log x / log 10)) = log x by field_simp [log10_pos.ne']]
  exact Real.exp_log hx
theorem exp_ten (a : ℝ) : exp (log 10 / 10 * a) = (10 : ℝ) ^ (a / 10) := by
  rw [Real.rpow_def_of_pos (by norm_num)]; congr 1; ring

/-- a loop that adds one successful term per band is a sum -/
theorem fold_sum {β : Type} (l : List β) (f : ℝ → β → Py ℝ) (w : β → ℝ)
    (h : ∀ b ∈ l, ∀ s, f s b = .ok (s + w b)) (s : ℝ) : l.foldlM f s = .ok (s + (l.map w).sum) := by
  induction l generalizing s with
  | nil => simp
  | cons b t ih =>
    rw [List.foldlM_cons, h b (by simp) s, Py.ok_bind, ih (fun b' hb' => h b' (by simp [hb']))]
    simp only [List.map_cons, List.sum_cons]; congr 1; ring

/-- the entries of the tables are positive -/
theorem bands_pos : ∀ b ∈ bands, 0 < b.f ∧ 0 < b.inv ∧ 0 < b.f15 ∧ 0 < b.fn15 ∧ 0 < b.f3 := by
  intro b hb
  unfold bands at hb
  obtain ⟨p, hp, rfl⟩ := List.mem_map.1 hb
  have key : ∀ p ∈ freqs.zip (freqsInv.zip (freqs15.zip (freqsN15.zip (freqs3.zip aWeights)))),
      0 < dec p.1 ∧ 0 < dec p.2.1 ∧ 0 < dec p.2.2.1 ∧ 0 < dec p.2.2.2.1 ∧ 0 < dec p.2.2.2.2.1 := by
    decide +kernel
  obtain ⟨h1, h2, h3, h4, h5⟩ := key p hp
  refine ⟨?_, ?_, ?_, ?_, ?_⟩ <;> dsimp only <;> exact_mod_cast (by assumption)

theorem bands_length : bands.length = 33 := by
  unfold bands
  rw [List.length_map]; decide +kernel

theorem total_pos {w : Band → ℝ} (h : ∀ b ∈ bands, 0 < w b) :
    0 < (bands.map fun b => w b * (10 : ℝ) ^ (b.A / 10)).sum := by
  apply List.sum_pos
  · intro x hx
    obtain ⟨b, hb, rfl⟩ := List.mem_map.1 hx
    exact mul_pos (h b hb) (by positivity)
  · intro h0
    have := congrArg List.length h0
    rw [List.length_map, bands_length] at this
    simp at this

/-- multiplying the power in every band by `k` raises the level by `10 log10 k` -/
theorem total_scale {w w' : Band → ℝ} {k : ℝ} (hk : 0 < k) (hw : ∀ b ∈ bands, 0 < w b)
    (h : ∀ b ∈ bands, w' b = k * w b) : total w' = total w + dB k := by
  unfold total
  have : (bands.map fun b => w' b * (10 : ℝ) ^ (b.A / 10)) = (bands.map fun b => k * (w b * (10 : ℝ) ^ (b.A / 10))) := by
    apply List.map_congr_left
    intro b hb; rw [h b hb]; ring
  rw [this, List.sum_map_mul_left, dB_mul hk (total_pos hw)]; ring

/-- less power in every band is a lower level -/
theorem total_lt {w w' : Band → ℝ} (hw : ∀ b ∈ bands, 0 < w b) (h : ∀ b ∈ bands, w b < w' b) : total w < total w' := by
  unfold total
  apply dB_lt (total_pos hw)
  apply List.sum_lt_sum_of_ne_nil
  · intro h0
    have := congrArg List.length h0
    rw [bands_length] at this
    simp at this
  · intro b hb
    exact mul_lt_mul_of_pos_right (h b hb) (by positivity)

/-- **Tables.** The 33 bands have increasing frequencies, and the tabulated reciprocals, cubes and powers ±3/2 are those
of the frequencies to 15 digits. -/
theorem C125_tables : freqs.length = 33 ∧ freqsInv.length = 33 ∧ freqs15.length = 33 ∧ freqsN15.length = 33 ∧
    freqs3.length = 33 ∧ aWeights.length = 33 ∧ (freqs.map dec).Pairwise (· < ·) ∧
    (∀ p ∈ freqs.zip freqsInv, |dec p.1 * dec p.2 - 1| ≤ 1e-15) ∧
    (∀ p ∈ freqs.zip freqs3, dec p.2 = dec p.1 ^ 3) ∧
    (∀ p ∈ freqs.zip freqs15, |dec p.2 ^ 2 / dec p.1 ^ 3 - 1| ≤ 1e-15) ∧
    (∀ p ∈ freqs.zip freqsN15, |dec p.2 ^ 2 * dec p.1 ^ 3 - 1| ≤ 1e-15) := by
  decide +kernel

/-! ### Liquids -/

/-- pressure ratio of incipient cavitation, corrected for the inlet pressure -/
def spInc (P1 Kv FL Fd : ℝ) (xFz : Option ℝ) : ℝ :=
  xFz.getD (0.9 / √(1 + 3 * Fd * √(Fittings.Kv_to_Cv Kv / (1.17 * FL)))) * √(√(√(6e5 / P1)))

/-- velocity at the vena contracta -/
def spU (P1 P2 Psat rho FL : ℝ) : ℝ := √(2 * min (P1 - P2) (FL * FL * (P1 - Psat)) / rho) / FL

/-- acoustic efficiency of turbulence -/
def spTurb (P1 P2 Psat rho c FL An : ℝ) : ℝ := (10 : ℝ) ^ An * spU P1 P2 Psat rho FL / c

/-- pressure ratio -/
def spX (P1 P2 Psat : ℝ) : ℝ := (P1 - P2) / (P1 - Psat)

open Classical in
/-- acoustic efficiency of cavitation: zero up to the incipient ratio `z` -/
def spCav (P1 P2 Psat FL z turb : ℝ) : ℝ :=
  if spX P1 P2 Psat ≤ z then 0
  else 0.32 * turb * √((P1 - P2) / (min (P1 - P2) (FL * FL * (P1 - Psat)) * z)) * exp (5 * z) *
    √((1 - z) / (1 - spX P1 P2 Psat)) * (spX P1 P2 Psat / z) ^ 5 * (spX P1 P2 Psat - z) * √(spX P1 P2 Psat - z)

/-- peak frequency of the turbulent noise -/
def spPeak (P1 P2 Psat rho Kv d FL Fd z : ℝ) : ℝ :=
  0.036 * FL ^ 2 * Fittings.Kv_to_Cv Kv * Fd ^ (0.75 : ℝ) / (1.17 * z * √z * d ^ 2) * (1 / (P1 - Psat)) ^ (0.57 : ℝ) *
    spU P1 P2 Psat rho FL / (0.0046 * Fd * √(Fittings.Kv_to_Cv Kv * FL))

/-- peak frequency of the cavitation noise -/
def spPeakCav (x z fp : ℝ) : ℝ := 6 * fp * ((1 - x) / (1 - z)) ^ 2 * (z / x) ^ 2 * √(z / x)

/-- sound power in a band: 3.2e9 · (stream power) · ρc/Di² · (efficiencies × shapes) · transmission -/
def spLiquid (m P1 P2 Psat rho c Kv d Di FL Fd t_pipe rho_pipe c_pipe rho_air c_air : ℝ) (xFz : Option ℝ) (An : ℝ)
    (b : Band) : ℝ :=
  let z := spInc P1 Kv FL Fd xFz
  let turb := spTurb P1 P2 Psat rho c FL An
  let fp := spPeak P1 P2 Psat rho Kv d FL Fd z
  3.2e9 * (0.5 * m * (spU P1 P2 Psat rho FL * FL) ^ 2) * rho * c / Di ^ 2 *
    (turb * turbShape fp b + spCav P1 P2 Psat FL z turb * cavShape (spPeakCav (spX P1 P2 Psat) z fp) b) *
    liqTransmission Di t_pipe rho_pipe c_pipe rho_air c_air b

/-- the documented domain: a flowing liquid that does not flash -/
structure LiqOk (m P1 P2 Psat rho c Kv d Di FL Fd t_pipe rho_pipe c_pipe rho_air c_air : ℝ) (xFz : Option ℝ) : Prop where
  hm : 0 < m
  hP1 : 0 < P1
  hP2 : P2 < P1
  hPsat : Psat < P2
  hrho : 0 < rho
  hc : 0 < c
  hKv : 0 < Kv
  hd : 0 < d
  hDi : 0 < Di
  hFL : 0 < FL
  hFd : 0 < Fd
  ht_pipe : 0 < t_pipe
  hrho_pipe : 0 < rho_pipe
  hc_pipe : 0 < c_pipe
  hrho_air : 0 < rho_air
  hc_air : 0 < c_air
  hxFz : ∀ z, xFz = some z → 0 < z

theorem Kv_pos {Kv : ℝ} (h : 0 < Kv) : 0 < Fittings.Kv_to_Cv Kv := by unfold Fittings.Kv_to_Cv; positivity

section
variable {m P1 P2 Psat rho c Kv d Di FL Fd t_pipe rho_pipe c_pipe rho_air c_air An : ℝ} {xFz : Option ℝ}

theorem spInc_pos (hP : 0 < P1) (hK : 0 < Kv) (hF : 0 < FL) (hd : 0 < Fd) (hz : ∀ z, xFz = some z → 0 < z) :
    0 < spInc P1 Kv FL Fd xFz := by
  unfold spInc
  have := Kv_pos hK
  apply mul_pos _ (by positivity)
  cases xFz with
  | none => simp only [Option.getD_none]; positivity
  | some z => exact hz z rfl

theorem spU_pos (h2 : P2 < P1) (hs : Psat < P1) (hr : 0 < rho) (hF : 0 < FL) : 0 < spU P1 P2 Psat rho FL := by
  unfold spU
  have : 0 < min (P1 - P2) (FL * FL * (P1 - Psat)) := lt_min (by linarith) (mul_pos (by positivity) (by linarith))
  positivity

theorem liqJet_ok (hP : 0 < P1) (hs : Psat < P1) (h2 : P2 ≤ P1) (hr : 0 < rho) (hc : 0 < c) (hK : 0 < Kv)
    (hF : 0 < FL) (hd : 0 < Fd) :
    liqJet m P1 P2 Psat rho c Kv FL Fd xFz An = .ok ⟨Fittings.Kv_to_Cv Kv, spX P1 P2 Psat,
      min (P1 - P2) (FL * FL * (P1 - Psat)), spInc P1 Kv FL Fd xFz, 0.0046 * Fd * √(Fittings.Kv_to_Cv Kv * FL),
      spU P1 P2 Psat rho FL, 0.5 * m * spU P1 P2 Psat rho FL * spU P1 P2 Psat rho FL * FL * FL,
      spTurb P1 P2 Psat rho c FL An⟩ := by
  have hC := Kv_pos hK
  have hmin : 0 ≤ min (P1 - P2) (FL * FL * (P1 - Psat)) := le_min (by linarith) (mul_nonneg (by positivity) (by linarith))
  have hinc : incipient (Fittings.Kv_to_Cv Kv) FL Fd xFz =
      .ok (xFz.getD (0.9 / √(1 + 3 * Fd * √(Fittings.Kv_to_Cv Kv / (1.17 * FL))))) := by
    cases xFz with
    | some z => rfl
    | none =>
      unfold incipient
      have h1 : 0 < 1 + 3 * Fd * √(Fittings.Kv_to_Cv Kv / (1.17 * FL)) := by positivity
      simp only [pdiv_ok (show (1.17 * FL : ℝ) ≠ 0 by positivity), Py.ok_bind,
        psqrt_ok (show 0 ≤ Fittings.Kv_to_Cv Kv / (1.17 * FL) by positivity), psqrt_ok h1.le,
        pdiv_ok (show √(1 + 3 * Fd * √(Fittings.Kv_to_Cv Kv / (1.17 * FL))) ≠ 0 by positivity), Py.pure_eq,
        Option.getD_none, mul_one]
  unfold liqJet
  simp only [pdiv_ok (show P1 - Psat ≠ 0 by linarith), Py.ok_bind, hinc, pdiv_ok hP.ne',
    psqrt_ok (show (0:ℝ) ≤ 6e5 / P1 by positivity), psqrt_ok (Real.sqrt_nonneg _), psqrt_ok (mul_pos hC hF).le,
    pdiv_ok hr.ne', psqrt_ok (show 0 ≤ 2 * min (P1 - P2) (FL * FL * (P1 - Psat)) / rho by positivity),
    pdiv_ok hF.ne', pdiv_ok hc.ne', Py.pure_eq]
  rfl

theorem liqPipe_ok (hD : 0 < Di) (ht : 0 < t_pipe) (h1 : 0 < rho_pipe) (h2 : 0 < c_pipe) (h3 : 0 < rho_air) (h4 : 0 < c_air) :
    liqPipe Di t_pipe rho_pipe c_pipe rho_air c_air = .ok (c_pipe / (π * Di), π * Di / c_pipe * √(π * Di / c_pipe),
      -10 - dB (c_pipe * rho_pipe * t_pipe / (c_air * rho_air * Di)),
      - dB ((Di + 2 * t_pipe + 2) / (Di + 2 * t_pipe))) := by
  have hπ := Real.pi_pos
  unfold liqPipe
  have e : 1 / (c_pipe / (π * Di)) = π * Di / c_pipe := by field_simp
  simp only [pdiv_ok (show π * Di ≠ 0 by positivity), Py.ok_bind, pdiv_ok (show c_pipe / (π * Di) ≠ 0 by positivity),
    pdiv_ok (show c_air * rho_air * Di ≠ 0 by positivity), pdiv_ok (show Di + 2 * t_pipe ≠ 0 by positivity),
    plog10_ok (show 0 < c_pipe * rho_pipe * t_pipe / (c_air * rho_air * Di) by positivity),
    plog10_ok (show 0 < (Di + 2 * t_pipe + 2) / (Di + 2 * t_pipe) by positivity), e,
    psqrt_ok (show 0 ≤ π * Di / c_pipe by positivity), Py.pure_eq]
  unfold dB
  congr 3; ring

theorem spX_mem (h1 : P2 < P1) (h2 : Psat < P2) : 0 < spX P1 P2 Psat ∧ spX P1 P2 Psat < 1 := by
  unfold spX
  refine ⟨div_pos (by linarith) (by linarith), ?_⟩
  rw [div_lt_one (by linarith)]; linarith

theorem spTurb_pos (h2 : P2 < P1) (hs : Psat < P1) (hr : 0 < rho) (hc : 0 < c) (hF : 0 < FL) :
    0 < spTurb P1 P2 Psat rho c FL An := by
  unfold spTurb
  have := spU_pos h2 hs hr hF
  positivity

theorem spCav_nonneg {z turb : ℝ} (h1 : P2 < P1) (h2 : Psat < P2) (hF : 0 < FL) (hz : 0 < z) (ht : 0 < turb) :
    0 ≤ spCav P1 P2 Psat FL z turb := by
  unfold spCav
  obtain ⟨hx, hx1⟩ := spX_mem h1 h2
  split_ifs with h
  · exact le_rfl
  · push Not at h
    have : 0 < spX P1 P2 Psat - z := by linarith
    positivity

theorem spPeak_pos {z : ℝ} (h2 : P2 < P1) (hs : Psat < P1) (hr : 0 < rho) (hK : 0 < Kv) (hd : 0 < d) (hF : 0 < FL)
    (hFd : 0 < Fd) (hz : 0 < z) : 0 < spPeak P1 P2 Psat rho Kv d FL Fd z := by
  unfold spPeak
  have hC := Kv_pos hK
  have hU := spU_pos h2 hs hr hF
  have hP : 0 < P1 - Psat := by linarith
  positivity

theorem peakTurb_ok {j : LiqJet} (hs : Psat < P1) (hd : 0 < d) (hF : 0 < FL) (hFd : 0 < Fd) (hz : 0 < j.xFzp1)
    (hK : 0 < Kv) (hC : j.C = Fittings.Kv_to_Cv Kv) (hU : j.Uvc = spU P1 P2 Psat rho FL)
    (hD : j.Dj = 0.0046 * Fd * √(Fittings.Kv_to_Cv Kv * FL)) :
    peakTurb P1 Psat d FL Fd j = .ok (spPeak P1 P2 Psat rho Kv d FL Fd j.xFzp1) := by
  have hP : 0 < P1 - Psat := by linarith
  have hCp := Kv_pos hK
  have hDj : j.Dj ≠ 0 := by rw [hD]; positivity
  unfold peakTurb
  simp only [ppow_ok hFd, Py.ok_bind, psqrt_ok hz.le,
    pdiv_ok (show 1.17 * j.xFzp1 * √j.xFzp1 * d * d ≠ 0 by positivity), pdiv_ok hP.ne',
    ppow_ok (show 0 < 1 / (P1 - Psat) by positivity), pdiv_ok hDj, Py.pure_eq]
  unfold spPeak
  rw [hC, hU, hD]; congr 1; congr 1
  rw [show 0.036 * FL * FL * Fittings.Kv_to_Cv Kv = 0.036 * FL ^ 2 * Fittings.Kv_to_Cv Kv by ring,
    show 1.17 * j.xFzp1 * √j.xFzp1 * d * d = 1.17 * j.xFzp1 * √j.xFzp1 * d ^ 2 by ring]

theorem etaCav_ok {j : LiqJet} (h1 : P2 < P1) (h2 : Psat < P2) (hF : 0 < FL) (hz : 0 < j.xFzp1)
    (hx : j.xF = spX P1 P2 Psat) (hd : j.dPc = min (P1 - P2) (FL * FL * (P1 - Psat))) (hc : j.xFzp1 < j.xF) :
    etaCav P1 P2 j = .ok (spCav P1 P2 Psat FL j.xFzp1 j.eta_turb) := by
  obtain ⟨hx0, hx1⟩ := spX_mem h1 h2
  rw [← hx] at hx0 hx1
  have hmin : 0 < min (P1 - P2) (FL * FL * (P1 - Psat)) := lt_min (by linarith) (mul_pos (by positivity) (by linarith))
  have hP : 0 < P1 - P2 := by linarith
  have hdp : 0 < j.dPc := by rw [hd]; exact hmin
  unfold etaCav
  have hb : 0 ≤ (1 - j.xFzp1) / (1 - j.xF) := div_nonneg (by linarith) (by linarith)
  simp only [pdiv_ok hz.ne', Py.ok_bind, pdiv_ok (mul_pos hdp hz).ne',
    psqrt_ok (show 0 ≤ (P1 - P2) / (j.dPc * j.xFzp1) by positivity), pdiv_ok (show 1 - j.xF ≠ 0 by linarith),
    psqrt_ok hb, psqrt_ok (show 0 ≤ j.xF - j.xFzp1 by linarith), Py.pure_eq]
  unfold spCav
  rw [if_neg (by rw [← hx]; exact not_le.2 hc), ← hx, ← hd]
  congr 1; ring

/-- the internal level in a band is the level of the power there -/
theorem bandInternal_none {W fp : ℝ} {b : Band} (hW : 0 < W) (hfp : 0 < fp) (h3 : 0 < b.f3) (hi : 0 < b.inv) :
    bandInternal (dB W) fp (1 / fp * (1 / fp) * (1 / fp)) none b = .ok (dB (W * turbShape fp b)) := by
  have e : 0.25 * (1 / fp * (1 / fp) * (1 / fp)) * b.f3 + b.inv * fp = 0.25 * b.f3 / fp ^ 3 + fp * b.inv := by
    field_simp
  have hy : 0 < 0.25 * b.f3 / fp ^ 3 + fp * b.inv := by positivity
  unfold bandInternal
  rw [e, plog_ok hy, Py.ok_bind]
  dsimp only
  rw [Py.pure_eq]
  unfold turbShape
  rw [dB_mul hW (by positivity), dB_div (by positivity) hy, dB_rpow]
  congr 1; unfold dB; ring

theorem exp_turb {fp : ℝ} {b : Band} (hfp : 0 < fp) (h3 : 0 < b.f3) (hi : 0 < b.inv) :
    exp (log 10 * (-0.8 - log (0.25 * b.f3 / fp ^ 3 + fp * b.inv) * (1 / log 10))) = turbShape fp b := by
  have hy : 0 < 0.25 * b.f3 / fp ^ 3 + fp * b.inv := by positivity
  have hl := log10_pos
  rw [show log 10 * (-0.8 - log (0.25 * b.f3 / fp ^ 3 + fp * b.inv) * (1 / log 10)) =
    log 10 * (-0.8) - log (0.25 * b.f3 / fp ^ 3 + fp * b.inv) by field_simp, Real.exp_sub, Real.exp_log hy]
  unfold turbShape
  rw [Real.rpow_def_of_pos (by norm_num)]

theorem bandInternal_some {W fp fc eT eC : ℝ} {b : Band} (hW : 0 < W) (hfp : 0 < fp) (hfc : 0 < fc) (hT : 0 < eT)
    (hC : 0 ≤ eC) (h3 : 0 < b.f3) (hi : 0 < b.inv) (h15 : 0 < b.f15) (hn15 : 0 < b.fn15) :
    bandInternal (dB ((eT + eC) * W)) fp (1 / fp * (1 / fp) * (1 / fp))
      (some ⟨eC, 0.25 * (1 / fc * √(1 / fc)), 1 / (1 / fc * √(1 / fc)), eT * (1 / (eT + eC)), eC * (1 / (eT + eC))⟩) b =
    .ok (dB (W * (eT * turbShape fp b + eC * cavShape fc b))) := by
  have e : 0.25 * (1 / fp * (1 / fp) * (1 / fp)) * b.f3 + b.inv * fp = 0.25 * b.f3 / fp ^ 3 + fp * b.inv := by
    field_simp
  have hy : 0 < 0.25 * b.f3 / fp ^ 3 + fp * b.inv := by positivity
  have hts : 0 < turbShape fp b := by unfold turbShape; positivity
  have hcs : 0 < cavShape fc b := by unfold cavShape; positivity
  have hsum : 0 < eT + eC := by linarith
  have hsq : √(1 / fc) = 1 / √fc := by rw [Real.sqrt_div zero_le_one, Real.sqrt_one]
  have hcs' : 0.12589254117941673 / (0.25 * (1 / fc * √(1 / fc)) * b.f15 + b.fn15 * (1 / (1 / fc * √(1 / fc)))) =
      cavShape fc b := by
    unfold cavShape; rw [hsq]; congr 1; field_simp
  have hden : 0.25 * (1 / fc * √(1 / fc)) * b.f15 + b.fn15 * (1 / (1 / fc * √(1 / fc))) ≠ 0 := by positivity
  unfold bandInternal
  rw [e, plog_ok hy, Py.ok_bind]
  dsimp only
  rw [pdiv_ok hden, Py.ok_bind, hcs', exp_turb hfp h3 hi, plog_ok (by positivity), Py.ok_bind, Py.pure_eq]
  have e2 : W * (eT * turbShape fp b + eC * cavShape fc b) =
      (eT + eC) * W * (eT * (1 / (eT + eC)) * turbShape fp b + eC * (1 / (eT + eC)) * cavShape fc b) := by field_simp
  rw [e2, dB_mul (mul_pos hsum hW) (by positivity)]
  congr 1; unfold dB; ring

theorem bandStep_ok {L : ℝ} {fp inv3 : ℝ} {cav : Option Cav} {w : ℝ} {b : Band} (hw : 0 < w)
    (hL : bandInternal L fp inv3 cav b = .ok (dB w)) (hD : 0 < Di) (ht : 0 < t_pipe) (h1 : 0 < rho_pipe)
    (h2 : 0 < c_pipe) (h3 : 0 < rho_air) (h4 : 0 < c_air) (hi : 0 < b.inv) (h15 : 0 < b.f15) (s : ℝ) :
    bandStep L fp inv3 cav (-10 - dB (c_pipe * rho_pipe * t_pipe / (c_air * rho_air * Di))) (c_pipe / (π * Di))
      (π * Di / c_pipe * √(π * Di / c_pipe)) (- dB ((Di + 2 * t_pipe + 2) / (Di + 2 * t_pipe))) s b =
    .ok (s + w * liqTransmission Di t_pipe rho_pipe c_pipe rho_air c_air b * (10 : ℝ) ^ (b.A / 10)) := by
  have hπ := Real.pi_pos
  have hq : 0 < c_pipe / (π * Di) * b.inv + b.f15 * (π * Di / c_pipe * √(π * Di / c_pipe)) := by positivity
  unfold bandStep
  rw [hL, Py.ok_bind, plog_ok hq, Py.ok_bind]
  dsimp only
  rw [Py.pure_eq]
  congr 2
  have hT : liqTransmission Di t_pipe rho_pipe c_pipe rho_air c_air b =
      (c_pipe * rho_pipe * t_pipe / (c_air * rho_air * Di))⁻¹ * ((Di + 2 * t_pipe + 2) / (Di + 2 * t_pipe))⁻¹ * 10⁻¹ *
      ((c_pipe / (π * Di) * b.inv + b.f15 * (π * Di / c_pipe * √(π * Di / c_pipe))) *
      (c_pipe / (π * Di) * b.inv + b.f15 * (π * Di / c_pipe * √(π * Di / c_pipe))))⁻¹ := by
    unfold liqTransmission
    generalize c_pipe / (π * Di) * b.inv + b.f15 * (π * Di / c_pipe * √(π * Di / c_pipe)) = q at *
    field_simp
  have hA : 0 < (c_pipe * rho_pipe * t_pipe / (c_air * rho_air * Di))⁻¹ := by positivity
  have hB : 0 < ((Di + 2 * t_pipe + 2) / (Di + 2 * t_pipe))⁻¹ := by positivity
  rw [hT, ← exp_ten, ← exp_dB (x := w * _) (by positivity), ← Real.exp_add]
  congr 1
  have h10 : dB ((10 : ℝ)⁻¹) = -10 := by
    rw [dB_inv]; unfold dB; rw [div_self log10_pos.ne']; ring
  rw [dB_mul hw (by positivity), dB_mul (by positivity) (by positivity), dB_mul (by positivity) (by positivity),
    dB_mul hA hB, dB_inv, dB_inv, h10, dB_inv, dB_mul hq hq]
  unfold dB; ring

theorem spPeakCav_pos {x z fp : ℝ} (hx : 0 < x) (hx1 : x < 1) (hz : 0 < z) (hzx : z < x) (hf : 0 < fp) :
    0 < spPeakCav x z fp := by
  unfold spPeakCav
  have h1 : 0 < 1 - x := by linarith
  have h2 : 0 < 1 - z := by linarith
  positivity

theorem liqTransmission_pos (hD : 0 < Di) (ht : 0 < t_pipe) (h1 : 0 < rho_pipe) (h2 : 0 < c_pipe) (h3 : 0 < rho_air)
    (h4 : 0 < c_air) {b : Band} (hi : 0 < b.inv) (h15 : 0 < b.f15) :
    0 < liqTransmission Di t_pipe rho_pipe c_pipe rho_air c_air b := by
  unfold liqTransmission
  have hπ := Real.pi_pos
  positivity

theorem cavSpectrum_ok {j : LiqJet} {e fp : ℝ} (hx : 0 < j.xF) (hx1 : j.xF < 1) (hz : 0 < j.xFzp1)
    (hzx : j.xFzp1 < j.xF) (hf : 0 < fp) (hs : 0 < j.eta_turb + e) :
    cavSpectrum j e fp = .ok (let fc := spPeakCav j.xF j.xFzp1 fp
      ⟨e, 0.25 * (1 / fc * √(1 / fc)), 1 / (1 / fc * √(1 / fc)), j.eta_turb * (1 / (j.eta_turb + e)),
        e * (1 / (j.eta_turb + e))⟩) := by
  have hfc := spPeakCav_pos hx hx1 hz hzx hf
  have e1 : 6 * fp * ((1 - j.xF) / (1 - j.xFzp1)) * ((1 - j.xF) / (1 - j.xFzp1)) * (j.xFzp1 / j.xF) * (j.xFzp1 / j.xF) *
      √(j.xFzp1 / j.xF) = spPeakCav j.xF j.xFzp1 fp := by unfold spPeakCav; ring
  unfold cavSpectrum
  simp only [pdiv_ok (show 1 - j.xFzp1 ≠ 0 by linarith), Py.ok_bind, pdiv_ok hx.ne',
    psqrt_ok (show 0 ≤ j.xFzp1 / j.xF by positivity), e1, pdiv_ok hfc.ne',
    psqrt_ok (show 0 ≤ 1 / spPeakCav j.xF j.xFzp1 fp by positivity),
    pdiv_ok (show 1 / spPeakCav j.xF j.xFzp1 fp * √(1 / spPeakCav j.xF j.xFzp1 fp) ≠ 0 by positivity),
    pdiv_ok hs.ne', Py.pure_eq]

theorem spLiquid_pos (h : LiqOk m P1 P2 Psat rho c Kv d Di FL Fd t_pipe rho_pipe c_pipe rho_air c_air xFz) {b : Band}
    (hb : b ∈ bands) :
    0 < spLiquid m P1 P2 Psat rho c Kv d Di FL Fd t_pipe rho_pipe c_pipe rho_air c_air xFz An b := by
  obtain ⟨_, hi, h15, hn15, h3⟩ := bands_pos b hb
  have hs : Psat < P1 := h.hPsat.trans h.hP2
  have hz := spInc_pos h.hP1 h.hKv h.hFL h.hFd h.hxFz
  have hU := spU_pos h.hP2 hs h.hrho h.hFL
  have hT := spTurb_pos (An := An) h.hP2 hs h.hrho h.hc h.hFL
  have hp := spPeak_pos h.hP2 hs h.hrho h.hKv h.hd h.hFL h.hFd hz
  have hC := spCav_nonneg h.hP2 h.hPsat h.hFL hz hT
  have htr := liqTransmission_pos h.hDi h.ht_pipe h.hrho_pipe h.hc_pipe h.hrho_air h.hc_air hi h15
  obtain ⟨hx, hx1⟩ := spX_mem h.hP2 h.hPsat
  unfold spLiquid
  dsimp only
  have hts : 0 < turbShape (spPeak P1 P2 Psat rho Kv d FL Fd (spInc P1 Kv FL Fd xFz)) b := by unfold turbShape; positivity
  have hcs : 0 ≤ spCav P1 P2 Psat FL (spInc P1 Kv FL Fd xFz) (spTurb P1 P2 Psat rho c FL An) *
      cavShape (spPeakCav (spX P1 P2 Psat) (spInc P1 Kv FL Fd xFz) (spPeak P1 P2 Psat rho Kv d FL Fd (spInc P1 Kv FL Fd xFz))) b := by
    by_cases hle : spX P1 P2 Psat ≤ spInc P1 Kv FL Fd xFz
    · unfold spCav; rw [if_pos hle, zero_mul]
    · have := spPeakCav_pos hx hx1 hz (not_le.1 hle) hp
      apply mul_nonneg hC
      unfold cavShape; positivity
  have := h.hm; have := h.hrho; have := h.hc; have := h.hDi; have := h.hFL
  have : 0 < spTurb P1 P2 Psat rho c FL An * turbShape (spPeak P1 P2 Psat rho Kv d FL Fd (spInc P1 Kv FL Fd xFz)) b := mul_pos hT hts
  positivity

/-- **The liquid noise prediction.** For every liquid that flows and does not flash the call succeeds, and the level is
that of the sum, over the 33 bands, of the sound powers of the standard: stream power times efficiencies times spectral
shapes (cavitation contributes above the incipient ratio), times the transmission of the pipe wall. -/
theorem C125_liquid (h : LiqOk m P1 P2 Psat rho c Kv d Di FL Fd t_pipe rho_pipe c_pipe rho_air c_air xFz) :
    control_valve_noise_l_2015 m P1 P2 Psat rho c Kv d Di FL Fd t_pipe rho_pipe c_pipe rho_air c_air xFz An =
      .ok (total (spLiquid m P1 P2 Psat rho c Kv d Di FL Fd t_pipe rho_pipe c_pipe rho_air c_air xFz An)) := by
  have hs : Psat < P1 := h.hPsat.trans h.hP2
  have hz := spInc_pos h.hP1 h.hKv h.hFL h.hFd h.hxFz
  have hU := spU_pos h.hP2 hs h.hrho h.hFL
  have hT := spTurb_pos (An := An) h.hP2 hs h.hrho h.hc h.hFL
  have hp := spPeak_pos h.hP2 hs h.hrho h.hKv h.hd h.hFL h.hFd hz
  have hC := spCav_nonneg h.hP2 h.hPsat h.hFL hz hT
  obtain ⟨hx, hx1⟩ := spX_mem h.hP2 h.hPsat
  have hpk := peakTurb_ok (P1 := P1) (P2 := P2) (rho := rho) (d := d) (j := ⟨Fittings.Kv_to_Cv Kv, spX P1 P2 Psat,
      min (P1 - P2) (FL * FL * (P1 - Psat)), spInc P1 Kv FL Fd xFz, 0.0046 * Fd * √(Fittings.Kv_to_Cv Kv * FL),
      spU P1 P2 Psat rho FL, 0.5 * m * spU P1 P2 Psat rho FL * spU P1 P2 Psat rho FL * FL * FL,
      spTurb P1 P2 Psat rho c FL An⟩) hs h.hd h.hFL h.hFd hz h.hKv rfl rfl rfl
  unfold control_valve_noise_l_2015
  rw [liqJet_ok h.hP1 hs h.hP2.le h.hrho h.hc h.hKv h.hFL h.hFd, Py.ok_bind]
  have hpos := fun b hb => spLiquid_pos (An := An) h (b := b) hb
  have hDi := h.hDi; have hm := h.hm; have hr := h.hrho; have hc := h.hc; have hF := h.hFL
  have hW : 0 < 3.2e9 * (0.5 * m * spU P1 P2 Psat rho FL * spU P1 P2 Psat rho FL * FL * FL) * rho * c / (Di * Di) := by positivity
  have hfin : ∀ S : ℝ, 0 < S → (do let l ← plog S; return 10 / log 10 * l : Py ℝ) = .ok (dB S) := by
    intro S hS
    rw [plog_ok hS, Py.ok_bind, Py.pure_eq]; unfold dB; congr 1; ring
  by_cases hle : spX P1 P2 Psat ≤ spInc P1 Kv FL Fd xFz
  · have hcav : liqCav P1 P2 ⟨Fittings.Kv_to_Cv Kv, spX P1 P2 Psat,
      min (P1 - P2) (FL * FL * (P1 - Psat)), spInc P1 Kv FL Fd xFz, 0.0046 * Fd * √(Fittings.Kv_to_Cv Kv * FL),
      spU P1 P2 Psat rho FL, 0.5 * m * spU P1 P2 Psat rho FL * spU P1 P2 Psat rho FL * FL * FL,
      spTurb P1 P2 Psat rho c FL An⟩ = .ok none := by
      unfold liqCav
      dsimp only
      rw [pdiv_ok hz.ne', Py.ok_bind, if_neg (not_lt.2 hle)]; rfl
    rw [hcav, Py.ok_bind]
    unfold liqLpi
    dsimp only
    rw [pdiv_ok (mul_pos hDi hDi).ne', Py.ok_bind, plog10_ok (by positivity), Py.ok_bind, Py.pure_eq, Py.ok_bind, hpk, Py.ok_bind]
    unfold liqCavSpectrum
    dsimp only
    rw [Py.pure_eq, Py.ok_bind, pdiv_ok hp.ne', Py.ok_bind,
      liqPipe_ok hDi h.ht_pipe h.hrho_pipe h.hc_pipe h.hrho_air h.hc_air, Py.ok_bind]
    dsimp only
    rw [fold_sum bands _ (fun b => spLiquid m P1 P2 Psat rho c Kv d Di FL Fd t_pipe rho_pipe c_pipe rho_air c_air xFz An b *
      (10 : ℝ) ^ (b.A / 10)), Py.ok_bind, zero_add, hfin _ (total_pos hpos)]
    · rfl
    · intro b hb s
      obtain ⟨_, hi, h15, hn15, h3⟩ := bands_pos b hb
      have hts : 0 < turbShape (spPeak P1 P2 Psat rho Kv d FL Fd (spInc P1 Kv FL Fd xFz)) b := by unfold turbShape; positivity
      have hb1 := bandInternal_none (W := 3.2e9 * (spTurb P1 P2 Psat rho c FL An *
        (0.5 * m * spU P1 P2 Psat rho FL * spU P1 P2 Psat rho FL * FL * FL)) * rho * c / (Di * Di)) (by positivity) hp h3 hi
      have := bandStep_ok (by positivity) hb1 hDi h.ht_pipe h.hrho_pipe h.hc_pipe h.hrho_air h.hc_air hi h15 s
      refine this.trans ?_
      congr 3
      unfold spLiquid spCav
      dsimp only
      rw [if_pos hle]; ring
  · have hgt := not_le.1 hle
    have hcav : liqCav P1 P2 ⟨Fittings.Kv_to_Cv Kv, spX P1 P2 Psat,
      min (P1 - P2) (FL * FL * (P1 - Psat)), spInc P1 Kv FL Fd xFz, 0.0046 * Fd * √(Fittings.Kv_to_Cv Kv * FL),
      spU P1 P2 Psat rho FL, 0.5 * m * spU P1 P2 Psat rho FL * spU P1 P2 Psat rho FL * FL * FL,
      spTurb P1 P2 Psat rho c FL An⟩ =
      .ok (some (spCav P1 P2 Psat FL (spInc P1 Kv FL Fd xFz) (spTurb P1 P2 Psat rho c FL An))) := by
      unfold liqCav
      rw [pdiv_ok hz.ne', Py.ok_bind, if_pos hgt, etaCav_ok h.hP2 h.hPsat hF hz rfl rfl hgt, Py.ok_bind]; rfl
    rw [hcav, Py.ok_bind]
    have hsum : 0 < spTurb P1 P2 Psat rho c FL An + spCav P1 P2 Psat FL (spInc P1 Kv FL Fd xFz) (spTurb P1 P2 Psat rho c FL An) := by
      linarith
    unfold liqLpi
    dsimp only
    rw [pdiv_ok (mul_pos hDi hDi).ne', Py.ok_bind, plog10_ok (by positivity), Py.ok_bind, Py.pure_eq, Py.ok_bind, hpk, Py.ok_bind]
    unfold liqCavSpectrum
    dsimp only
    rw [cavSpectrum_ok hx hx1 hz hgt hp hsum, Py.ok_bind, Py.pure_eq, Py.ok_bind, pdiv_ok hp.ne', Py.ok_bind,
      liqPipe_ok hDi h.ht_pipe h.hrho_pipe h.hc_pipe h.hrho_air h.hc_air, Py.ok_bind]
    dsimp only
    rw [fold_sum bands _ (fun b => spLiquid m P1 P2 Psat rho c Kv d Di FL Fd t_pipe rho_pipe c_pipe rho_air c_air xFz An b *
      (10 : ℝ) ^ (b.A / 10)), Py.ok_bind, zero_add, hfin _ (total_pos hpos)]
    · rfl
    · intro b hb s
      obtain ⟨_, hi, h15, hn15, h3⟩ := bands_pos b hb
      have hts : 0 < turbShape (spPeak P1 P2 Psat rho Kv d FL Fd (spInc P1 Kv FL Fd xFz)) b := by unfold turbShape; positivity
      have hfc := spPeakCav_pos hx hx1 hz hgt hp
      have hcs : 0 < cavShape (spPeakCav (spX P1 P2 Psat) (spInc P1 Kv FL Fd xFz)
        (spPeak P1 P2 Psat rho Kv d FL Fd (spInc P1 Kv FL Fd xFz))) b := by unfold cavShape; positivity
      have hb1 := bandInternal_some (W := 3.2e9 *
        (0.5 * m * spU P1 P2 Psat rho FL * spU P1 P2 Psat rho FL * FL * FL) * rho * c / (Di * Di)) hW hp hfc hT hC h3 hi h15 hn15
      rw [show (spTurb P1 P2 Psat rho c FL An + spCav P1 P2 Psat FL (spInc P1 Kv FL Fd xFz) (spTurb P1 P2 Psat rho c FL An)) *
        (3.2e9 * (0.5 * m * spU P1 P2 Psat rho FL * spU P1 P2 Psat rho FL * FL * FL) * rho * c / (Di * Di)) =
        3.2e9 * ((spTurb P1 P2 Psat rho c FL An + spCav P1 P2 Psat FL (spInc P1 Kv FL Fd xFz) (spTurb P1 P2 Psat rho c FL An)) *
        (0.5 * m * spU P1 P2 Psat rho FL * spU P1 P2 Psat rho FL * FL * FL)) * rho * c / (Di * Di) by ring] at hb1
      have hw := mul_pos hW (add_pos_of_pos_of_nonneg (mul_pos hT hts) (mul_nonneg hC hcs.le))
      have := bandStep_ok hw hb1 hDi h.ht_pipe h.hrho_pipe h.hc_pipe h.hrho_air h.hc_air hi h15 s
      refine this.trans ?_
      congr 3
      unfold spLiquid
      ring

/-- **Scaling.** `k` times the flow, or `k` times the acoustic impedance of the air, raises the level by `10 log10 k`;
a pipe wall `k` times as dense lowers it by as much; the valve correction `An` counts ten decibels per unit. -/
theorem C125_liquid_scaling (h : LiqOk m P1 P2 Psat rho c Kv d Di FL Fd t_pipe rho_pipe c_pipe rho_air c_air xFz)
    {k : ℝ} (hk : 0 < k) (a : ℝ) : ∃ L,
    control_valve_noise_l_2015 m P1 P2 Psat rho c Kv d Di FL Fd t_pipe rho_pipe c_pipe rho_air c_air xFz An = .ok L ∧
    control_valve_noise_l_2015 (k * m) P1 P2 Psat rho c Kv d Di FL Fd t_pipe rho_pipe c_pipe rho_air c_air xFz An =
      .ok (L + 10 * (log k / log 10)) ∧
    control_valve_noise_l_2015 m P1 P2 Psat rho c Kv d Di FL Fd t_pipe rho_pipe c_pipe (k * rho_air) c_air xFz An =
      .ok (L + 10 * (log k / log 10)) ∧
    control_valve_noise_l_2015 m P1 P2 Psat rho c Kv d Di FL Fd t_pipe (k * rho_pipe) c_pipe rho_air c_air xFz An =
      .ok (L - 10 * (log k / log 10)) ∧
    control_valve_noise_l_2015 m P1 P2 Psat rho c Kv d Di FL Fd t_pipe rho_pipe c_pipe rho_air c_air xFz (An + a) =
      .ok (L + 10 * a) := by
  have hpos := fun b hb => spLiquid_pos (An := An) h (b := b) hb
  refine ⟨_, C125_liquid h, ?_, ?_, ?_, ?_⟩
  · rw [C125_liquid { h with hm := mul_pos hk h.hm }]
    congr 1
    refine total_scale hk hpos fun b _ => ?_
    unfold spLiquid; ring
  · rw [C125_liquid { h with hrho_air := mul_pos hk h.hrho_air }]
    congr 1
    refine total_scale hk hpos fun b _ => ?_
    unfold spLiquid liqTransmission; ring
  · rw [C125_liquid { h with hrho_pipe := mul_pos hk h.hrho_pipe }]
    congr 1
    rw [sub_eq_add_neg]
    have := total_scale (w' := spLiquid m P1 P2 Psat rho c Kv d Di FL Fd t_pipe (k * rho_pipe) c_pipe rho_air c_air xFz An)
      (inv_pos.2 hk) hpos fun b _ => ?_
    · rw [this, dB_inv]; rfl
    · unfold spLiquid liqTransmission
      have := h.hrho_pipe; have := h.hc_pipe; have := h.ht_pipe
      rw [show c_air * rho_air * Di / (10 * (c_pipe * (k * rho_pipe) * t_pipe)) =
        k⁻¹ * (c_air * rho_air * Di / (10 * (c_pipe * rho_pipe * t_pipe))) by field_simp]
      ring
  · rw [C125_liquid h]
    congr 1
    rw [← dB_rpow a]
    refine total_scale (by positivity) hpos fun b _ => ?_
    have e : spTurb P1 P2 Psat rho c FL (An + a) = (10 : ℝ) ^ a * spTurb P1 P2 Psat rho c FL An := by
      unfold spTurb; rw [Real.rpow_add (by norm_num)]; ring
    have e2 : ∀ z, spCav P1 P2 Psat FL z ((10 : ℝ) ^ a * spTurb P1 P2 Psat rho c FL An) =
        (10 : ℝ) ^ a * spCav P1 P2 Psat FL z (spTurb P1 P2 Psat rho c FL An) := by
      intro z; unfold spCav; split_ifs <;> ring
    unfold spLiquid
    dsimp only
    rw [e, e2]; ring

/-- **A thicker pipe wall is quieter.** -/
theorem C125_liquid_wall (h : LiqOk m P1 P2 Psat rho c Kv d Di FL Fd t_pipe rho_pipe c_pipe rho_air c_air xFz)
    {t' : ℝ} (ht : t_pipe < t') : ∃ L L',
    control_valve_noise_l_2015 m P1 P2 Psat rho c Kv d Di FL Fd t_pipe rho_pipe c_pipe rho_air c_air xFz An = .ok L ∧
    control_valve_noise_l_2015 m P1 P2 Psat rho c Kv d Di FL Fd t' rho_pipe c_pipe rho_air c_air xFz An = .ok L' ∧
    L' < L := by
  have h' : LiqOk m P1 P2 Psat rho c Kv d Di FL Fd t' rho_pipe c_pipe rho_air c_air xFz := { h with ht_pipe := h.ht_pipe.trans ht }
  refine ⟨_, _, C125_liquid h, C125_liquid h', total_lt (fun b hb => spLiquid_pos h' hb) fun b hb => ?_⟩
  obtain ⟨_, hi, h15, hn15, h3⟩ := bands_pos b hb
  have ht0 := h.ht_pipe; have hD := h.hDi; have := h.hrho_pipe; have := h.hc_pipe; have := h.hrho_air; have := h.hc_air
  have ht' := h'.ht_pipe
  have htr := liqTransmission_pos hD ht0 h.hrho_pipe h.hc_pipe h.hrho_air h.hc_air hi h15
  have hpos := spLiquid_pos (An := An) h hb
  have hlt : liqTransmission Di t' rho_pipe c_pipe rho_air c_air b < liqTransmission Di t_pipe rho_pipe c_pipe rho_air c_air b := by
    unfold liqTransmission
    have hπ := Real.pi_pos
    apply div_lt_div_of_pos_right _ (by positivity)
    rw [div_mul_div_comm, div_mul_div_comm, div_lt_div_iff₀ (by positivity) (by positivity)]
    have key : (Di + 2 * t') * (t_pipe * (Di + 2 * t_pipe + 2)) < (Di + 2 * t_pipe) * (t' * (Di + 2 * t' + 2)) := by
      nlinarith [mul_pos ht0 ht', mul_pos hD ht0, mul_pos hD ht', mul_pos hD hD, mul_pos (sub_pos.2 ht) (mul_pos ht0 ht'),
        mul_pos (sub_pos.2 ht) (mul_pos hD hD), mul_pos (sub_pos.2 ht) (mul_pos hD ht0), mul_pos (sub_pos.2 ht) (mul_pos hD ht'), mul_pos (sub_pos.2 ht) hD]
    have hk : 0 < c_air * rho_air * Di * (10 * (c_pipe * rho_pipe)) := by positivity
    nlinarith [mul_lt_mul_of_pos_left key hk]
  unfold spLiquid at hpos ⊢
  dsimp only at hpos ⊢
  have := (mul_pos_iff_of_pos_right htr).1 hpos
  exact mul_lt_mul_of_pos_left hlt this

/-- **No flow, no level; flashing.** Without a pressure drop the logarithm of zero raises ValueError.  At an inlet
pressure of at least 6 bar, with the estimated incipient ratio, an outlet pressure equal to the vapour pressure raises
ZeroDivisionError and a lower one ValueError: the prediction is not available for flashing liquids. -/
theorem C125_liquid_errors (hP : 6e5 ≤ P1) (hs : Psat < P1) (hr : 0 < rho) (hc : 0 < c) (hK : 0 < Kv) (hD : 0 < Di)
    (hF : 0 < FL) (hFd : 0 < Fd) :
    control_valve_noise_l_2015 m P1 P1 Psat rho c Kv d Di FL Fd t_pipe rho_pipe c_pipe rho_air c_air none An = .error .valueError ∧
    control_valve_noise_l_2015 m P1 Psat Psat rho c Kv d Di FL Fd t_pipe rho_pipe c_pipe rho_air c_air none An =
      .error .zeroDivisionError ∧
    (P2 < Psat → control_valve_noise_l_2015 m P1 P2 Psat rho c Kv d Di FL Fd t_pipe rho_pipe c_pipe rho_air c_air none An =
      .error .valueError) := by
  have hP0 : 0 < P1 := by linarith
  have hz := spInc_pos (xFz := none) hP0 hK hF hFd (by simp)
  have hz1 : spInc P1 Kv FL Fd none < 1 := by
    unfold spInc
    have hC := Kv_pos hK
    have h1 : 1 ≤ √(1 + 3 * Fd * √(Fittings.Kv_to_Cv Kv / (1.17 * FL))) := by
      rw [Real.one_le_sqrt]
      have : 0 ≤ 3 * Fd * √(Fittings.Kv_to_Cv Kv / (1.17 * FL)) := by positivity
      linarith
    have h2 : √(√(√(6e5 / P1))) ≤ 1 := by
      rw [Real.sqrt_le_one, Real.sqrt_le_one, Real.sqrt_le_one, div_le_one hP0]; linarith
    have h3 : 0.9 / √(1 + 3 * Fd * √(Fittings.Kv_to_Cv Kv / (1.17 * FL))) ≤ 0.9 := div_le_self (by norm_num) h1
    simp only [Option.getD_none]
    calc _ ≤ (0.9 : ℝ) * 1 := mul_le_mul h3 h2 (Real.sqrt_nonneg _) (by norm_num)
      _ < 1 := by norm_num
  have hP' : 0 < P1 - Psat := by linarith
  refine ⟨?_, ?_, fun hlt => ?_⟩
  · unfold control_valve_noise_l_2015
    rw [liqJet_ok hP0 hs le_rfl hr hc hK hF hFd, Py.ok_bind]
    unfold liqCav
    have hx0 : spX P1 P1 Psat = 0 := by unfold spX; simp
    have hU : spU P1 P1 Psat rho FL = 0 := by
      unfold spU
      rw [sub_self, min_eq_left (by positivity)]; simp
    dsimp only
    rw [pdiv_ok hz.ne', Py.ok_bind, hx0, if_neg (not_lt.2 hz.le), Py.pure_eq, Py.ok_bind]
    unfold liqLpi
    dsimp only
    rw [pdiv_ok (mul_pos hD hD).ne', Py.ok_bind, hU]
    simp [plog10]
  · unfold control_valve_noise_l_2015
    rw [liqJet_ok hP0 hs hs.le hr hc hK hF hFd, Py.ok_bind]
    unfold liqCav etaCav
    have hx1 : spX P1 Psat Psat = 1 := by unfold spX; exact div_self hP'.ne'
    have hmin : 0 < min (P1 - Psat) (FL * FL * (P1 - Psat)) := lt_min hP' (by positivity)
    dsimp only
    rw [pdiv_ok hz.ne', Py.ok_bind, hx1, if_pos hz1]
    simp only [Py.ok_bind, pdiv_ok hz.ne', pdiv_ok (mul_pos hmin hz).ne', sub_self,
      psqrt_ok (show 0 ≤ (P1 - Psat) / (min (P1 - Psat) (FL * FL * (P1 - Psat)) * spInc P1 Kv FL Fd none) by positivity),
      pdiv_zero, Py.error_bind]
  · unfold control_valve_noise_l_2015
    have h2 : P2 < P1 := hlt.trans hs
    have hPP : 0 < P1 - P2 := by linarith
    rw [liqJet_ok hP0 hs h2.le hr hc hK hF hFd, Py.ok_bind]
    unfold liqCav etaCav
    have hx1 : 1 < spX P1 P2 Psat := by unfold spX; rw [one_lt_div hP']; linarith
    have hmin : 0 < min (P1 - P2) (FL * FL * (P1 - Psat)) := lt_min hPP (by positivity)
    have hb : (1 - spInc P1 Kv FL Fd none) / (1 - spX P1 P2 Psat) < 0 := div_neg_of_pos_of_neg (by linarith) (by linarith)
    dsimp only
    rw [pdiv_ok hz.ne', Py.ok_bind, if_pos (hz1.trans hx1)]
    simp only [Py.ok_bind, pdiv_ok hz.ne', pdiv_ok (mul_pos hmin hz).ne', pdiv_ok (show 1 - spX P1 P2 Psat ≠ 0 by linarith),
      psqrt_ok (show 0 ≤ (P1 - P2) / (min (P1 - P2) (FL * FL * (P1 - Psat)) * spInc P1 Kv FL Fd none) by positivity),
      show psqrt ((1 - spInc P1 Kv FL Fd none) / (1 - spX P1 P2 Psat)) = .error .valueError by unfold psqrt; rw [if_pos hb],
      Py.error_bind]

/-- the worked example of the documentation meets the hypotheses -/
example : LiqOk 40 1e6 6.5e5 2.32e3 997 1400 77.848 0.1 0.1071 0.92 0.42 0.0036 7800 5000 1.293 343 none := by
  constructor <;> first | (norm_num; done) | (intro z h; cases h)

end

end
end Verif.C125
