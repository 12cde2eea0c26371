import Verif.Model.Atmosphere
import Mathlib.Analysis.SpecialFunctions.Pow.Deriv
import Mathlib.Analysis.Calculus.Deriv.MeanValue
import Mathlib.Topology.Order.OrderClosed

/-! C67: the US standard atmosphere 1976. -/

open Real

noncomputable section

namespace Verif.Atmosphere

open Verif.Seq

/-! ### Specification -/

/-- geopotential height of the geometric altitude `Z` -/
def geopotential (Z : ℝ) : ℝ := r0 * Z / (r0 + Z)

/-- the heights at which the lapse rate changes -/
def boundaries : List ℝ := [11000, 20000, 32000, 47000, 51000, 71000, 84852]

/-- the lapse rate in force at a geopotential height, and the temperature it leads to -/
def lapse (H : ℝ) : ℝ :=
  if H ≤ 11000 then -0.0065 else if H ≤ 20000 then 0 else if H ≤ 32000 then 0.001 else if H ≤ 47000 then 0.0028
  else if H ≤ 51000 then 0 else if H ≤ 71000 then -0.0028 else if H ≤ 84852 then -0.002 else 0

/-- the standard temperature: sea level value and lapse rates, each segment written as a line -/
def isaT (H : ℝ) : ℝ :=
  if H ≤ 11000 then 288.15 - 0.0065 * H else if H ≤ 20000 then 216.65 else if H ≤ 32000 then 196.65 + 0.001 * H
  else if H ≤ 47000 then 139.05 + 0.0028 * H else if H ≤ 51000 then 270.65 else if H ≤ 71000 then 413.45 - 0.0028 * H
  else if H ≤ 84852 then 356.65 - 0.002 * H else 186.946

/-! ### Auxiliary -/

/-- the pressure of a layer as a function of the height -/
def layerP (Tb L Pb Hb H : ℝ) : ℝ :=
  if L = 0 then Pb * exp (-g0 * M0 * (H - Hb) / (Rgas * Tb)) else Pb * (Tb / (Tb + L * (H - Hb))) ^ (g0 * M0 / (Rgas * L))

theorem const_pos : 0 < g0 ∧ 0 < M0 ∧ 0 < Rgas ∧ 0 < r0 := by
  refine ⟨?_, ?_, ?_, ?_⟩ <;> norm_num [g0, M0, Rgas, r0]

/-- values in force in the layer containing `H` -/
structure LayerAt (H Tb L Pb Hb : ℝ) : Prop where
  ind : ∃ i, get_ind_from_H H = i ∧ pyGet T_std i = .ok Tb ∧ pyGet T_grad i = .ok L ∧ pyGet P_std i = .ok Pb ∧ pyGet H_std i = .ok Hb
  Tb_pos : 0 < Tb
  Pb_pos : 0 < Pb
  T_eq : Tb + L * (H - Hb) = isaT H
  T_pos : 0 < isaT H
  L_eq : L = lapse H
  below : Hb ∈ (0 : ℝ) :: boundaries ∧ (H ≤ Hb → Hb = 0)

theorem ind_of {H : ℝ} :
    get_ind_from_H H = if H ≤ 11000 then 0 else if H ≤ 20000 then 1 else if H ≤ 32000 then 2 else if H ≤ 47000 then 3
      else if H ≤ 51000 then 4 else if H ≤ 71000 then 5 else if H ≤ 84852 then 6 else 7 := by
  have e1 : (0.0 : ℝ) = 0 := by norm_num
  have e2 : (11E3 : ℝ) = 11000 := by norm_num
  have e3 : (20E3 : ℝ) = 20000 := by norm_num
  have e4 : (32E3 : ℝ) = 32000 := by norm_num
  have e5 : (47E3 : ℝ) = 47000 := by norm_num
  have e6 : (51E3 : ℝ) = 51000 := by norm_num
  have e7 : (71E3 : ℝ) = 71000 := by norm_num
  have e8 : (84852.0 : ℝ) = 84852 := by norm_num
  simp only [get_ind_from_H, H_std, indLoop, e1, e2, e3, e4, e5, e6, e7, e8, ge_iff_le]
  split_ifs <;> first | rfl | (exfalso; linarith)

theorem layer_at (H : ℝ) : ∃ Tb L Pb Hb, LayerAt H Tb L Pb Hb := by
  have hi := ind_of (H := H)
  have hT : isaT H = isaT H := rfl
  have hL : lapse H = lapse H := rfl
  conv_rhs at hT => unfold isaT
  conv_rhs at hL => unfold lapse
  split_ifs at hi hT hL with h1 h2 h3 h4 h5 h6 h7
  · refine ⟨288.15, -6.5E-3, 101325, 0.0, ⟨⟨_, hi, rfl, rfl, rfl, rfl⟩, by norm_num, by norm_num, by rw [hT]; norm_num; ring, by rw [hT]; norm_num; linarith, by rw [hL] <;> norm_num, ?_, ?_⟩⟩
    · norm_num [boundaries]
    · intro; norm_num
  · refine ⟨216.65, 0.0, 22632.06397346291, 11E3, ⟨⟨_, hi, rfl, rfl, rfl, rfl⟩, by norm_num, by norm_num, by rw [hT]; norm_num, by rw [hT]; norm_num, by rw [hL] <;> norm_num, ?_, ?_⟩⟩
    · norm_num [boundaries]
    · intro; norm_num at *; linarith
  · refine ⟨216.65, 1E-3, 5474.8886696777745, 20E3, ⟨⟨_, hi, rfl, rfl, rfl, rfl⟩, by norm_num, by norm_num, by rw [hT]; norm_num; ring, by rw [hT]; norm_num; linarith, by rw [hL] <;> norm_num, ?_, ?_⟩⟩
    · norm_num [boundaries]
    · intro; norm_num at *; linarith
  · refine ⟨228.65, 2.8E-3, 868.0186847552279, 32E3, ⟨⟨_, hi, rfl, rfl, rfl, rfl⟩, by norm_num, by norm_num, by rw [hT]; norm_num; ring, by rw [hT]; norm_num; linarith, by rw [hL] <;> norm_num, ?_, ?_⟩⟩
    · norm_num [boundaries]
    · intro; norm_num at *; linarith
  · refine ⟨270.65, 0.0, 110.90630555496608, 47E3, ⟨⟨_, hi, rfl, rfl, rfl, rfl⟩, by norm_num, by norm_num, by rw [hT]; norm_num, by rw [hT]; norm_num, by rw [hL] <;> norm_num, ?_, ?_⟩⟩
    · norm_num [boundaries]
    · intro; norm_num at *; linarith
  · refine ⟨270.65, -2.8E-3, 66.93887311868738, 51E3, ⟨⟨_, hi, rfl, rfl, rfl, rfl⟩, by norm_num, by norm_num, by rw [hT]; norm_num; ring, by rw [hT]; norm_num; linarith, by rw [hL] <;> norm_num, ?_, ?_⟩⟩
    · norm_num [boundaries]
    · intro; norm_num at *; linarith
  · refine ⟨214.65, -2E-3, 3.956420428040732, 71E3, ⟨⟨_, hi, rfl, rfl, rfl, rfl⟩, by norm_num, by norm_num, by rw [hT]; norm_num; ring, by rw [hT]; norm_num; linarith, by rw [hL] <;> norm_num, ?_, ?_⟩⟩
    · norm_num [boundaries]
    · intro; norm_num at *; linarith
  · refine ⟨186.946, 0.0, 0.3733835899762159, 84852.0, ⟨⟨_, hi, rfl, rfl, rfl, rfl⟩, by norm_num, by norm_num, by rw [hT]; norm_num, by rw [hT]; norm_num, by rw [hL] <;> norm_num, ?_, ?_⟩⟩
    · norm_num [boundaries]
    · intro; norm_num at *; linarith

theorem layerPressure_eq {H Tb L Pb Hb : ℝ} (h : LayerAt H Tb L Pb Hb) :
    layerPressure Tb L Pb (H - Hb) (Tb + L * (H - Hb)) = .ok (layerP Tb L Pb Hb H) := by
  obtain ⟨hg, hM, hR, -⟩ := const_pos
  have hTb := h.Tb_pos
  have hT : 0 < Tb + L * (H - Hb) := by rw [h.T_eq]; exact h.T_pos
  by_cases hL : L = 0
  · simp only [layerPressure, layerP, hL, if_pos (show (0:ℝ) = 0.0 by norm_num), if_true, pdiv_ok (mul_pos hR hTb).ne', Py.ok_bind, Py.pure_eq]
  · have : ¬ L = 0.0 := by norm_num; exact hL
    simp only [layerPressure, layerP, if_neg hL, if_neg this, pdiv_ok hT.ne', pdiv_ok (mul_ne_zero hR.ne' hL), ppow_ok (div_pos hTb hT), Py.ok_bind, Py.pure_eq]

theorem layerP_pos {H Tb L Pb Hb : ℝ} (h : LayerAt H Tb L Pb Hb) : 0 < layerP Tb L Pb Hb H := by
  have hTb := h.Tb_pos; have hPb := h.Pb_pos
  have hT : 0 < Tb + L * (H - Hb) := by rw [h.T_eq]; exact h.T_pos
  unfold layerP; split_ifs <;> positivity

/-- the attributes of the standard atmosphere in the layer it is in -/
theorem atm_eq {Z dT Tb L Pb Hb : ℝ} (hZ : -r0 < Z) (h : LayerAt (geopotential Z) Tb L Pb Hb) (hd : 0 < isaT (geopotential Z) + dT) :
    ∃ a, ATMOSPHERE_1976 Z dT = .ok a ∧ a.H = geopotential Z ∧ a.T = isaT (geopotential Z) + dT ∧ a.P = layerP Tb L Pb Hb (geopotential Z) ∧
      a.rho = a.P * 0.00348367635597379 / a.T ∧ a.g = g0 * (r0 / (r0 + Z)) ^ 2 ∧ a.T_increase = L ∧ a.H_layer = Hb ∧ a.T_layer = Tb ∧ a.P_layer = Pb ∧
      a.v_sonic = √(401.87430086589046 * a.T) ∧ a.mu = 1.458E-6 * a.T * √a.T / (a.T + 110.4) ∧
      a.k = 2.64638E-3 * a.T * √a.T / (a.T + 245.4 * exp (-27.63102111592855 / a.T)) := by
  obtain ⟨i, hi, g1, g2, g3, g4⟩ := h.ind
  have hZ' : 0 < r0 + Z := by linarith
  have hP := layerPressure_eq h
  have hTe := h.T_eq
  unfold geopotential at *
  have hT2 : 0 < Tb + L * (r0 * Z / (r0 + Z) - Hb) + dT := by rw [hTe]; exact hd
  have hs : (0:ℝ) ≤ 401.87430086589046 * (Tb + L * (r0 * Z / (r0 + Z) - Hb) + dT) := by positivity
  have h1 : Tb + L * (r0 * Z / (r0 + Z) - Hb) + dT + 110.4 ≠ 0 := by positivity
  have h2 : Tb + L * (r0 * Z / (r0 + Z) - Hb) + dT + 245.4 * exp (-27.63102111592855 / (Tb + L * (r0 * Z / (r0 + Z) - Hb) + dT)) ≠ 0 := by positivity
  simp only [ATMOSPHERE_1976, pdiv_ok hZ'.ne', Py.ok_bind, hi, g1, g2, g3, g4, atmBuild, hP, density, sonic_velocity, viscosity, thermal_conductivity, gravity, pdiv_ok hT2.ne', psqrt_ok hs,
    psqrt_ok hT2.le, pdiv_ok h1, pdiv_ok h2, Py.pure_eq]
  refine ⟨_, rfl, rfl, ?_, rfl, rfl, ?_, rfl, rfl, rfl, rfl, rfl, rfl, rfl⟩
  · simp only [hTe]
  · simp only; ring

theorem isaT_pos (H : ℝ) : 0 < isaT H := by obtain ⟨_, _, _, _, h⟩ := layer_at H; exact h.T_pos

/-! ### The property -/

/-- C67: the layer in force is the one containing the geopotential height, temperature and lapse rate are the standard ones plus the offset, and below sea level
(above 84852 m) the first (last) layer goes on -/
theorem C67_layer {Z dT : ℝ} (hZ : -r0 < Z) (hd : 0 < isaT (geopotential Z) + dT) :
    ∃ a, ATMOSPHERE_1976 Z dT = .ok a ∧ a.H = geopotential Z ∧ a.T = isaT a.H + dT ∧ a.T_increase = lapse a.H ∧
      (a.H_layer = 0 ∨ a.H_layer ∈ boundaries ∧ a.H_layer < a.H) ∧ (∀ b ∈ boundaries, b < a.H → b ≤ a.H_layer) ∧
      0 < a.P ∧ 0 < a.rho ∧ 0 < a.mu ∧ 0 < a.k ∧ 0 < a.v_sonic ∧ 0 < a.g := by
  obtain ⟨Tb, L, Pb, Hb, h⟩ := layer_at (geopotential Z)
  obtain ⟨a, e, h1, h2, h3, h4, h5, h6, h7, -, -, h8, h9, h10⟩ := atm_eq hZ h hd
  have hT : 0 < a.T := by rw [h2]; exact hd
  have hP : 0 < a.P := by rw [h3]; exact layerP_pos h
  have hg : 0 < a.g := by
    have hZ' : 0 < r0 + Z := by linarith
    have h0 := const_pos.2.2.2
    have h00 := const_pos.1
    rw [h5]; positivity
  refine ⟨a, e, h1, by rw [h2, h1], by rw [h6, h1]; exact h.L_eq, ?_, ?_, hP, by rw [h4]; positivity, by rw [h9]; positivity, by rw [h10]; positivity,
    by rw [h8]; exact sqrt_pos.mpr (by positivity), hg⟩
  · rw [h7, h1]
    obtain ⟨hb, hb'⟩ := h.below
    rcases List.mem_cons.mp hb with hb | hb
    · exact .inl hb
    · by_cases c : geopotential Z ≤ Hb
      · exact .inl (hb' c)
      · exact .inr ⟨hb, not_le.mp c⟩
  · rw [h7, h1]
    obtain ⟨i, hi, -, -, -, g4⟩ := h.ind
    rw [ind_of] at hi
    intro b hb hlt
    simp only [boundaries, List.mem_cons, List.not_mem_nil, or_false] at hb
    split_ifs at hi with c1 c2 c3 c4 c5 c6 c7 <;> subst hi <;>
      (simp [pyGet, H_std] at g4; norm_num at g4; rcases hb with rfl | rfl | rfl | rfl | rfl | rfl | rfl <;> linarith)

/-- C67: the temperature is a continuous function of altitude -/
theorem C67_temperature_continuous : Continuous isaT ∧ ContinuousOn (fun Z => isaT (geopotential Z)) (Set.Ioi (-r0)) := by
  have hc : Continuous isaT := by
    unfold isaT
    refine Continuous.if_le (by fun_prop) ?_ continuous_id continuous_const (by rintro x rfl; norm_num)
    refine Continuous.if_le (by fun_prop) ?_ continuous_id continuous_const (by rintro x rfl; norm_num)
    refine Continuous.if_le (by fun_prop) ?_ continuous_id continuous_const (by rintro x rfl; norm_num)
    refine Continuous.if_le (by fun_prop) ?_ continuous_id continuous_const (by rintro x rfl; norm_num)
    refine Continuous.if_le (by fun_prop) ?_ continuous_id continuous_const (by rintro x rfl; norm_num)
    refine Continuous.if_le (by fun_prop) ?_ continuous_id continuous_const (by rintro x rfl; norm_num)
    exact Continuous.if_le (by fun_prop) (by fun_prop) continuous_id continuous_const (by rintro x rfl; norm_num)
  refine ⟨hc, hc.comp_continuousOn ?_⟩
  unfold geopotential
  refine ContinuousOn.div (by fun_prop) (by fun_prop) fun Z hZ => ?_
  have : -r0 < Z := hZ
  intro h; linarith

theorem geopotential_deriv {Z : ℝ} (hZ : -r0 < Z) : HasDerivAt geopotential ((r0 / (r0 + Z)) ^ 2) Z := by
  have h0 : r0 + Z ≠ 0 := by intro h; linarith
  have := (((hasDerivAt_id' Z).const_mul r0).div ((hasDerivAt_id' Z).const_add r0) h0)
  refine this.congr_deriv ?_
  field_simp
  ring

theorem geopotential_strictMono {Z₁ Z₂ : ℝ} (h : -r0 < Z₁) (h12 : Z₁ < Z₂) : geopotential Z₁ < geopotential Z₂ := by
  have h0 := const_pos.2.2.2
  unfold geopotential
  rw [div_lt_div_iff₀ (by linarith) (by linarith)]
  nlinarith [mul_lt_mul_of_pos_left h12 (mul_pos h0 h0)]

theorem layerP_deriv {Tb L Pb Hb H : ℝ} (hTb : 0 < Tb) (hT : 0 < Tb + L * (H - Hb)) :
    HasDerivAt (layerP Tb L Pb Hb) (-g0 * M0 / Rgas * layerP Tb L Pb Hb H / (Tb + L * (H - Hb))) H := by
  have hR := const_pos.2.2.1
  by_cases hL : L = 0
  · subst hL
    have hf : layerP Tb 0 Pb Hb = fun H => Pb * exp (-g0 * M0 * (H - Hb) / (Rgas * Tb)) := by funext x; simp [layerP]
    rw [hf]
    have := (((((hasDerivAt_id' H).sub_const Hb).const_mul (-g0 * M0)).div_const (Rgas * Tb)).exp).const_mul Pb
    refine this.congr_deriv ?_
    simp only [zero_mul, add_zero, mul_one]
    field_simp
  · have hf : layerP Tb L Pb Hb = fun H => Pb * (Tb / (Tb + L * (H - Hb))) ^ (g0 * M0 / (Rgas * L)) := by funext x; simp [layerP, hL]
    rw [hf]
    have hd : HasDerivAt (fun H => Tb / (Tb + L * (H - Hb))) (-(Tb * L) / (Tb + L * (H - Hb)) ^ 2) H := by
      have := (hasDerivAt_const H Tb).div ((((hasDerivAt_id' H).sub_const Hb).const_mul L).const_add Tb) hT.ne'
      refine this.congr_deriv ?_
      simp
    have hq : 0 < Tb / (Tb + L * (H - Hb)) := div_pos hTb hT
    have := (hd.rpow_const (p := g0 * M0 / (Rgas * L)) (Or.inl hq.ne')).const_mul Pb
    refine this.congr_deriv ?_
    rw [rpow_sub_one hq.ne']
    beta_reduce
    generalize (Tb / (Tb + L * (H - Hb))) ^ (g0 * M0 / (Rgas * L)) = w
    generalize Tb + L * (H - Hb) = T at *
    field_simp

/-- two heights with no boundary between them are in one layer -/
theorem same_layer {H₁ H₂ Tb L Pb Hb : ℝ} (h : LayerAt H₁ Tb L Pb Hb) (h12 : ∀ b ∈ boundaries, H₁ ≤ b ↔ H₂ ≤ b) : LayerAt H₂ Tb L Pb Hb := by
  obtain ⟨Tb', L', Pb', Hb', h'⟩ := layer_at H₂
  have hi : get_ind_from_H H₁ = get_ind_from_H H₂ := by
    have := fun b hb => (h12 b hb)
    simp only [boundaries, List.forall_mem_cons, List.not_mem_nil, false_imp_iff, implies_true, and_true] at this
    obtain ⟨a1, a2, a3, a4, a5, a6, a7⟩ := this
    rw [ind_of, ind_of]
    simp only [a1, a2, a3, a4, a5, a6, a7]
  obtain ⟨i, e, g1, g2, g3, g4⟩ := h.ind
  obtain ⟨j, e', g1', g2', g3', g4'⟩ := h'.ind
  obtain rfl : i = j := by rw [← e, ← e', hi]
  rw [g1] at g1'; rw [g2] at g2'; rw [g3] at g3'; rw [g4] at g4'
  rw [Except.ok.inj g1', Except.ok.inj g2', Except.ok.inj g3', Except.ok.inj g4']
  exact h'

/-- C67: hydrostatic equilibrium. At every altitude that is not a layer boundary, `dP/dZ = -(M0/R) P g / T`, the weight of the air there -/
theorem C67_hydrostatic : ∃ P T g : ℝ → ℝ, (∀ Z, -r0 < Z → ∃ a, ATMOSPHERE_1976 Z = .ok a ∧ a.P = P Z ∧ a.T = T Z ∧ a.g = g Z) ∧
    ∀ Z, -r0 < Z → geopotential Z ∉ boundaries → HasDerivAt P (-(M0 / Rgas) * P Z / T Z * g Z) Z := by
  choose Tb L Pb Hb hl using layer_at
  refine ⟨fun Z => layerP (Tb (geopotential Z)) (L (geopotential Z)) (Pb (geopotential Z)) (Hb (geopotential Z)) (geopotential Z), fun Z => isaT (geopotential Z),
    fun Z => g0 * (r0 / (r0 + Z)) ^ 2, fun Z hZ => ?_, fun Z hZ hb => ?_⟩
  · obtain ⟨a, e, -, h2, h3, -, h5, -⟩ := atm_eq (dT := 0) hZ (hl _) (by simpa using isaT_pos _)
    exact ⟨a, e, h3, by rw [h2, add_zero], h5⟩
  · set H := geopotential Z with hH
    have hd := (layerP_deriv (Pb := Pb H) (hl H).Tb_pos (by rw [(hl H).T_eq]; exact (hl H).T_pos)).comp Z (geopotential_deriv hZ)
    have hcont := (geopotential_deriv hZ).continuousAt
    have hnear : ∀ᶠ Z' in nhds Z, ∀ b ∈ boundaries, H ≤ b ↔ geopotential Z' ≤ b := by
      have : ∀ b ∈ boundaries, ∀ᶠ Z' in nhds Z, H ≤ b ↔ geopotential Z' ≤ b := by
        intro b hbm
        have hne : H ≠ b := fun h => hb (h ▸ hbm)
        rcases lt_or_gt_of_ne hne with c | c
        · filter_upwards [hcont.eventually_lt continuousAt_const c] with Z' hZ'
          exact ⟨fun _ => hZ'.le, fun _ => c.le⟩
        · filter_upwards [continuousAt_const.eventually_lt hcont c] with Z' hZ'
          exact ⟨fun h => absurd h (not_le.mpr c), fun h => absurd h (not_le.mpr hZ')⟩
      simp only [boundaries, List.forall_mem_cons, List.not_mem_nil, false_imp_iff, implies_true, and_true] at this ⊢
      obtain ⟨a1, a2, a3, a4, a5, a6, a7⟩ := this
      filter_upwards [a1, a2, a3, a4, a5, a6, a7] with Z' b1 b2 b3 b4 b5 b6 b7
      exact ⟨b1, b2, b3, b4, b5, b6, b7⟩
    refine (hd.congr_of_eventuallyEq ?_).congr_deriv ?_
    · filter_upwards [hnear] with Z' hZ'
      have h' := same_layer (hl H) hZ'
      have hu := hl (geopotential Z')
      obtain ⟨i, e, g1, g2, g3, g4⟩ := h'.ind
      obtain ⟨j, e', g1', g2', g3', g4'⟩ := hu.ind
      obtain rfl : i = j := by rw [← e, ← e']
      rw [g1] at g1'; rw [g2] at g2'; rw [g3] at g3'; rw [g4] at g4'
      simp only [Function.comp, ← Except.ok.inj g1', ← Except.ok.inj g2', ← Except.ok.inj g3', ← Except.ok.inj g4']
    · rw [(hl H).T_eq]
      ring

/-- C67: the air density used is the ideal gas one, to the printed digits of `M0/R` -/
theorem C67_density {Z dT : ℝ} (hZ : -r0 < Z) (hd : 0 < isaT (geopotential Z) + dT) :
    ∃ a, ATMOSPHERE_1976 Z dT = .ok a ∧ |a.rho - a.P * M0 / (Rgas * a.T)| ≤ 1e-15 * (a.P / a.T) := by
  obtain ⟨Tb, L, Pb, Hb, h⟩ := layer_at (geopotential Z)
  obtain ⟨a, e, h1, h2, h3, h4, -⟩ := atm_eq hZ h hd
  have hT : 0 < a.T := by rw [h2]; exact hd
  have hP : 0 < a.P := by rw [h3]; exact layerP_pos h
  refine ⟨a, e, ?_⟩
  rw [h4, show a.P * 0.00348367635597379 / a.T - a.P * M0 / (Rgas * a.T) = (0.00348367635597379 - M0 / Rgas) * (a.P / a.T) by
    have := const_pos.2.2.1; field_simp, abs_mul, abs_of_pos (div_pos hP hT)]
  refine mul_le_mul_of_nonneg_right ?_ (div_pos hP hT).le
  rw [abs_le]; constructor <;> norm_num [M0, Rgas]

/-- C67: within a layer the pressure strictly falls with altitude -/
theorem C67_pressure_decreasing {Z₁ Z₂ : ℝ} (h1 : -r0 < Z₁) (h12 : Z₁ < Z₂) (hb : ∀ b ∈ boundaries, ¬ (geopotential Z₁ ≤ b ∧ b < geopotential Z₂)) :
    ∃ a₁ a₂, ATMOSPHERE_1976 Z₁ = .ok a₁ ∧ ATMOSPHERE_1976 Z₂ = .ok a₂ ∧ a₂.P < a₁.P := by
  have hH := geopotential_strictMono h1 h12
  obtain ⟨Tb, L, Pb, Hb, h⟩ := layer_at (geopotential Z₁)
  have hall : ∀ H, geopotential Z₁ ≤ H → H ≤ geopotential Z₂ → LayerAt H Tb L Pb Hb := by
    intro H g1 g2
    refine same_layer h fun b hbm => ⟨fun c => ?_, fun c => g1.trans c⟩
    have := hb b hbm
    push Not at this
    exact g2.trans (this c)
  obtain ⟨a, e, -, -, h3, -⟩ := atm_eq (dT := 0) h1 h (by simpa using isaT_pos _)
  obtain ⟨a', e', -, -, h3', -⟩ := atm_eq (dT := 0) (h1.trans h12) (hall _ hH.le le_rfl) (by simpa using isaT_pos _)
  refine ⟨a, a', e, e', ?_⟩
  rw [h3, h3']
  obtain ⟨c1, c2, c3, -⟩ := const_pos
  have hder : ∀ H, geopotential Z₁ ≤ H → H ≤ geopotential Z₂ → HasDerivAt (layerP Tb L Pb Hb) (-g0 * M0 / Rgas * layerP Tb L Pb Hb H / (Tb + L * (H - Hb))) H :=
    fun H g1 g2 => layerP_deriv h.Tb_pos (by rw [(hall H g1 g2).T_eq]; exact (hall H g1 g2).T_pos)
  refine strictAntiOn_of_deriv_neg (convex_Icc (geopotential Z₁) (geopotential Z₂)) (fun H hH' => (hder H hH'.1 hH'.2).continuousAt.continuousWithinAt) ?_
    (Set.left_mem_Icc.mpr hH.le) (Set.right_mem_Icc.mpr hH.le) hH
  intro H hH'
  rw [interior_Icc] at hH'
  rw [(hder H hH'.1.le hH'.2.le).deriv]
  have hl := hall H hH'.1.le hH'.2.le
  have p1 := layerP_pos hl
  have p2 : 0 < Tb + L * (H - Hb) := by rw [hl.T_eq]; exact hl.T_pos
  rw [show -g0 * M0 / Rgas * layerP Tb L Pb Hb H / (Tb + L * (H - Hb)) = -(g0 * M0 / Rgas * layerP Tb L Pb Hb H / (Tb + L * (H - Hb))) by ring]
  exact neg_neg_of_pos (by positivity)

/-- C67: a temperature offset shifts the temperature and leaves pressure, height and gravity alone -/
theorem C67_offset {Z dT : ℝ} (hZ : -r0 < Z) (hd : 0 < isaT (geopotential Z) + dT) :
    ∃ a b, ATMOSPHERE_1976 Z dT = .ok a ∧ ATMOSPHERE_1976 Z = .ok b ∧ a.P = b.P ∧ a.T = b.T + dT ∧ a.H = b.H ∧ a.g = b.g ∧ a.rho * a.T = b.rho * b.T := by
  obtain ⟨Tb, L, Pb, Hb, h⟩ := layer_at (geopotential Z)
  obtain ⟨a, e, h1, h2, h3, h4, h5, -⟩ := atm_eq hZ h hd
  obtain ⟨b, e', h1', h2', h3', h4', h5', -⟩ := atm_eq (dT := 0) hZ h (by simpa using isaT_pos _)
  have hT : a.T ≠ 0 := by rw [h2]; exact hd.ne'
  have hT' : b.T ≠ 0 := by rw [h2', add_zero]; exact (isaT_pos _).ne'
  refine ⟨a, b, e, e', by rw [h3, h3'], by rw [h2, h2', add_zero], by rw [h1, h1'], by rw [h5, h5'], ?_⟩
  rw [h4, h4', div_mul_cancel₀ _ hT, div_mul_cancel₀ _ hT', h3, h3']

/-- sea level, and an altitude in the second layer -/
example : geopotential 0 = 0 ∧ (∃ a, ATMOSPHERE_1976 0 = .ok a ∧ a.T = 288.15) := by
  have h0 : geopotential 0 = 0 := by norm_num [geopotential]
  refine ⟨h0, ?_⟩
  have hT : isaT 0 = 288.15 := by norm_num [isaT]
  obtain ⟨a, e, h1, h2, -⟩ := C67_layer (Z := 0) (dT := 0) (by norm_num [r0]) (by rw [h0, hT]; norm_num)
  exact ⟨a, e, by rw [h2, h1, h0, hT]; norm_num⟩

example : ∀ b ∈ boundaries, ¬ (geopotential 12000 ≤ b ∧ b < geopotential 13000) := by
  norm_num [boundaries, geopotential, r0]

end Verif.Atmosphere
