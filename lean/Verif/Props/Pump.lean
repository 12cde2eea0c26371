import Verif.Model.Pump
import Verif.Lemmas.InterpTable
import Verif.Lemmas.Tactic

/-! # C77: pump and motor helpers; C85: CSA motor efficiencies -/

namespace Verif.Pump
open Real
open Verif.Seq (interp)

theorem hp_pos : 0 < hp := by
  have : (0 : ℚ) < Const.hp := by decide +kernel
  unfold hp; exact_mod_cast this

/-! ### rounding -/

/-- `pyRound` is a nearest integer … -/
theorem pyRound_near (y : ℝ) : |(pyRound y : ℝ) - y| ≤ 1 / 2 := by
  have h1 := Int.floor_le y
  have h2 := Int.lt_floor_add_one y
  unfold pyRound
  rw [abs_le]
  split_ifs <;> push_cast <;> constructor <;> linarith

/-- … and `round4` moves a number by at most half of the fourth decimal. -/
theorem round4_near (x : ℝ) : |round4 x - x| ≤ 0.00005 := by
  have h := pyRound_near (x * 10000)
  have e : round4 x - x = ((pyRound (x * 10000) : ℝ) - x * 10000) / 10000 := by unfold round4; ring
  rw [e, abs_div, abs_of_pos (by norm_num : (0 : ℝ) < 10000), div_le_iff₀ (by norm_num)]
  linarith

theorem pyRound_mono {a b : ℝ} (h : a ≤ b) : pyRound a ≤ pyRound b := by
  have hf : ⌊a⌋ ≤ ⌊b⌋ := Int.floor_mono h
  rcases hf.lt_or_eq with hl | he
  · have : pyRound a ≤ ⌊a⌋ + 1 := by unfold pyRound; split_ifs <;> omega
    have : ⌊b⌋ ≤ pyRound b := by unfold pyRound; split_ifs <;> omega
    omega
  · unfold pyRound
    rw [← he]
    split_ifs <;> first | omega | (exfalso; linarith)

theorem pyRound_int (n : ℤ) : pyRound (n : ℝ) = n := by unfold pyRound; simp

theorem round4_mono {a b : ℝ} (h : a ≤ b) : round4 a ≤ round4 b := by
  unfold round4
  have := pyRound_mono (show a * 10000 ≤ b * 10000 by linarith)
  have : (pyRound (a * 10000) : ℝ) ≤ pyRound (b * 10000) := by exact_mod_cast this
  linarith

/-! ### C77 -/

/-- C77: `current_ideal` accepts one- and three-phase supplies only; the current then carries the stated power. -/
theorem C77_current_ideal (P V PF : ℝ) (phase : ℤ) :
    (phase ≠ 1 → phase ≠ 3 → current_ideal P V phase PF = .error .valueError) ∧
    (V * PF ≠ 0 → (∃ I, current_ideal P V 1 PF = .ok I ∧ I * V * PF = P) ∧ ∃ I, current_ideal P V 3 PF = .ok I ∧ √3 * I * V * PF = P) ∧
    (V * PF = 0 → current_ideal P V 1 PF = .error .zeroDivisionError ∧ current_ideal P V 3 PF = .error .zeroDivisionError) := by
  have h3 : √(3 : ℝ) ≠ 0 := by positivity
  refine ⟨fun h1 h2 => by simp [current_ideal, h1, h2], fun h => ⟨?_, ?_⟩, fun h => ⟨?_, ?_⟩⟩
  · refine ⟨P / (V * PF), by simp [current_ideal, pdiv_ok h], ?_⟩
    rw [mul_assoc, div_mul_cancel₀ _ h]
  · have h' : V * √3 * PF ≠ 0 := by
      have : V * √3 * PF = V * PF * √3 := by ring
      rw [this]; exact mul_ne_zero h h3
    refine ⟨P / (V * √3 * PF), by simp [current_ideal, pdiv_ok h'], ?_⟩
    have : √3 * (P / (V * √3 * PF)) * V * PF = P / (V * √3 * PF) * (V * √3 * PF) := by ring
    rw [this, div_mul_cancel₀ _ h']
  · simp [current_ideal, h]
  · have : V * √3 * PF = 0 := by
      have : V * √3 * PF = V * PF * √3 := by ring
      rw [this, h, zero_mul]
    simp [current_ideal, this]

example : (230 : ℝ) * 0.95 ≠ 0 := by norm_num

/-- C77: `VFD_efficiency` is the fitted surface to four decimals between 3 and 400 hp and above a load of 0.016, and outside that range
the value at the nearest end. -/
theorem C77_VFD_efficiency (surface : ℝ → ℝ → ℝ) (P load : ℝ) :
    (3 * hp ≤ P → P ≤ 400 * hp → 0.016 ≤ load → |VFD_efficiency surface P load - surface load (P / hp)| ≤ 0.00005) ∧
    (P ≤ 3 * hp → VFD_efficiency surface P load = VFD_efficiency surface (3 * hp) load) ∧
    (400 * hp ≤ P → VFD_efficiency surface P load = VFD_efficiency surface (400 * hp) load) ∧
    (load ≤ 0.016 → VFD_efficiency surface P load = VFD_efficiency surface P 0.016) := by
  have hh := hp_pos
  have e3 : 3 * hp / hp = 3 := by field_simp
  have e4 : 400 * hp / hp = 400 := by field_simp
  refine ⟨fun h1 h2 h3 => ?_, fun h => ?_, fun h => ?_, fun h => ?_⟩
  · have a : ¬ P / hp < 3 := by rw [not_lt, le_div_iff₀ hh]; exact h1
    have b : ¬ P / hp > 400 := by rw [not_lt, div_le_iff₀ hh]; exact h2
    simp only [VFD_efficiency, a, b, if_false, not_lt.mpr h3]
    exact round4_near _
  · have a : P / hp ≤ 3 := by rw [div_le_iff₀ hh]; exact h
    have b : (if P / hp < 3 then (3 : ℝ) else if P / hp > 400 then 400 else P / hp) = 3 := by
      split_ifs with q1 q2
      · rfl
      · linarith
      · linarith
    simp only [VFD_efficiency, b, e3]
    norm_num
  · have a : 400 ≤ P / hp := by rw [le_div_iff₀ hh]; exact h
    have b : (if P / hp < 3 then (3 : ℝ) else if P / hp > 400 then 400 else P / hp) = 400 := by
      split_ifs with q1 q2
      · linarith
      · rfl
      · linarith
    simp only [VFD_efficiency, b, e4]
    norm_num
  · have b : (if load < 0.016 then (0.016 : ℝ) else load) = 0.016 := by
      split_ifs with q
      · rfl
      · linarith
    simp only [VFD_efficiency, b, lt_irrefl, if_false]

/-- C77: synchronous speed: 60 cycles-per-second turns per pole pair; no poles is a division by zero. -/
theorem C77_speed_synchronous (f poles : ℝ) :
    (poles ≠ 0 → ∃ n, speed_synchronous f poles = .ok n ∧ n * (poles / 2) = 60 * f) ∧
    speed_synchronous f 0 = .error .zeroDivisionError := by
  refine ⟨fun h => ⟨120 * f / poles, by simp [speed_synchronous, pdiv_ok h], by field_simp; ring⟩, by simp [speed_synchronous]⟩

/-- C77: the specific speed is the speed of the similar pump with unit flow and head: `n √Q = n_s H^{3/4}`; it is unchanged by the affinity
laws `Q ∝ n D³`, `H ∝ n² D²`, and so is the specific diameter. -/
theorem C77_specific_speed {Q H n D a b : ℝ} (hQ : 0 < Q) (hH : 0 < H) (ha : 0 < a) (hb : 0 < b) :
    (∃ s, specific_speed Q H n = .ok s ∧ s * H ^ (3 / 4 : ℝ) = n * √Q) ∧
    specific_speed (Q * (a * b ^ 3)) (H * (a ^ 2 * b ^ 2)) (n * a) = specific_speed Q H n ∧
    (∃ d, specific_diameter Q H D = .ok d ∧ d * √Q = D * H ^ (1 / 4 : ℝ)) ∧
    specific_diameter (Q * (a * b ^ 3)) (H * (a ^ 2 * b ^ 2)) (D * b) = specific_diameter Q H D := by
  have hp : (H ^ (0.75 : ℝ)) ≠ 0 := (rpow_pos_of_pos hH _).ne'
  have hA : 0 < a ^ 2 * b ^ 2 := by positivity
  have hB : 0 < a * b ^ 3 := by positivity
  have hp' : ((H * (a ^ 2 * b ^ 2)) ^ (0.75 : ℝ)) ≠ 0 := (rpow_pos_of_pos (by positivity) _).ne'
  have hs : √(a ^ 2 * b ^ 2) = a * b := by
    rw [show a ^ 2 * b ^ 2 = (a * b) ^ 2 by ring]; exact sqrt_sq (by positivity)
  have h75 : (a ^ 2 * b ^ 2) ^ (0.75 : ℝ) = a * √(a * b ^ 3) := by
    rw [show a ^ 2 * b ^ 2 = (a * b) ^ (2 : ℝ) by norm_num; ring, ← rpow_mul (by positivity), show (2 : ℝ) * 0.75 = 1 + 1 / 2 by norm_num,
      rpow_add (by positivity), rpow_one, ← sqrt_eq_rpow, show a * b ^ 3 = (a * b) * b ^ 2 by ring, sqrt_mul (by positivity : 0 ≤ a * b) (b ^ 2), sqrt_sq hb.le]
    ring
  have hqb : (√H / Q : ℝ) ≥ 0 := by positivity
  refine ⟨⟨n * √Q / H ^ (0.75 : ℝ), by simp [specific_speed, psqrt_ok hQ.le, ppow_ok hH, pdiv_ok hp], ?_⟩, ?_, ⟨D * √(√H / Q), ?_, ?_⟩, ?_⟩
  · rw [show (3 / 4 : ℝ) = 0.75 by norm_num, div_mul_cancel₀ _ hp]
  · simp only [specific_speed, psqrt_ok hQ.le, ppow_ok hH, pdiv_ok hp, psqrt_ok (mul_pos hQ hB).le, ppow_ok (mul_pos hH hA), pdiv_ok hp', Py.ok_bind]
    congr 1
    rw [mul_rpow hH.le hA.le, h75, sqrt_mul hQ.le]
    have : √(a * b ^ 3) ≠ 0 := (sqrt_pos.mpr hB).ne'
    field_simp
  · simp [specific_diameter, psqrt_ok hH.le, pdiv_ok hQ.ne', psqrt_ok hqb]
  · rw [sqrt_div (sqrt_nonneg _), mul_assoc, div_mul_cancel₀ _ (sqrt_pos.mpr hQ).ne', sqrt_eq_rpow, sqrt_eq_rpow, ← rpow_mul hH.le]
    norm_num
  · have e : √(H * (a ^ 2 * b ^ 2)) / (Q * (a * b ^ 3)) = √H / Q / b ^ 2 := by
      rw [sqrt_mul hH.le, hs]; field_simp
    have hQB : Q * (a * b ^ 3) ≠ 0 := by positivity
    have h0 : 0 ≤ √H / Q / b ^ 2 := by positivity
    simp only [specific_diameter, psqrt_ok hH.le, pdiv_ok hQ.ne', psqrt_ok hqb, psqrt_ok (mul_pos hH hA).le, pdiv_ok hQB, e, psqrt_ok h0, Py.ok_bind,
      Py.pure_eq]
    congr 1
    rw [sqrt_div hqb, sqrt_sq hb.le]
    field_simp

theorem under0 {x : ℝ} (h0 : 0 ≤ x) (h1 : x ≤ 0.9218102) :
    0 < 0.015807118828266818 + 4.3158627514876216 * x + (-8.5612097969025438) * x ^ 2 + 8.2040355039147386 * x ^ 3 + (-3.0147603718043068) * x ^ 4 ∧
    0.015807118828266818 + 4.3158627514876216 * x + (-8.5612097969025438) * x ^ 2 + 8.2040355039147386 * x ^ 3 + (-3.0147603718043068) * x ^ 4 ≤ 1 + 1e-9 := by
  have B : ∀ j k : ℕ, 0 ≤ x ^ j * (0.9218102 - x) ^ k := fun j k => mul_nonneg (pow_nonneg h0 j) (pow_nonneg (sub_nonneg.mpr h1) k)
  constructor
  · linarith [B 0 4, B 1 3, B 2 2, B 3 1, B 4 0]
  · linarith [B 0 5, B 1 4, B 2 3, B 3 2, B 4 1, B 5 0]

theorem under1 {x : ℝ} (h0 : 0 ≤ x) (h1 : x ≤ 0.64307597) :
    0 < 0.015560190519232379 + 4.5699731811493152 * x + (-7.6800154569463883) * x ^ 2 + 5.4701698738380813 * x ^ 3 + (-1.3630071852989643) * x ^ 4 ∧
    0.015560190519232379 + 4.5699731811493152 * x + (-7.6800154569463883) * x ^ 2 + 5.4701698738380813 * x ^ 3 + (-1.3630071852989643) * x ^ 4 ≤ 1 + 1e-9 := by
  have B : ∀ j k : ℕ, 0 ≤ x ^ j * (0.64307597 - x) ^ k := fun j k => mul_nonneg (pow_nonneg h0 j) (pow_nonneg (sub_nonneg.mpr h1) k)
  constructor
  · linarith [B 0 4, B 1 3, B 2 2, B 3 1, B 4 0]
  · linarith [B 0 4, B 1 3, B 2 2, B 3 1, B 4 0]

theorem under2 {x : ℝ} (h0 : 0 ≤ x) (h1 : x ≤ 0.61724113) :
    0 < 0.059917274403963446 + 6.356781885851186 * x + (-17.099192527703369) * x ^ 2 + 20.707077651470666 * x ^ 3 + (-9.2215133149377841) * x ^ 4 ∧
    0.059917274403963446 + 6.356781885851186 * x + (-17.099192527703369) * x ^ 2 + 20.707077651470666 * x ^ 3 + (-9.2215133149377841) * x ^ 4 ≤ 1 + 1e-9 := by
  have B : ∀ j k : ℕ, 0 ≤ x ^ j * (0.61724113 - x) ^ k := fun j k => mul_nonneg (pow_nonneg h0 j) (pow_nonneg (sub_nonneg.mpr h1) k)
  constructor
  · linarith [B 0 4, B 1 3, B 2 2, B 3 1, B 4 0]
  · linarith [B 0 5, B 1 4, B 2 3, B 3 2, B 4 1, B 5 0]

theorem under3 {x : ℝ} (h0 : 0 ≤ x) (h1 : x ≤ 0.61569791) :
    0 < 0.29536141765389839 + 4.9918188632064329 * x + (-13.785081664656504) * x ^ 2 + 16.908273659093812 * x ^ 3 + (-7.5816775136809609) * x ^ 4 ∧
    0.29536141765389839 + 4.9918188632064329 * x + (-13.785081664656504) * x ^ 2 + 16.908273659093812 * x ^ 3 + (-7.5816775136809609) * x ^ 4 ≤ 1 + 1e-9 := by
  have B : ∀ j k : ℕ, 0 ≤ x ^ j * (0.61569791 - x) ^ k := fun j k => mul_nonneg (pow_nonneg h0 j) (pow_nonneg (sub_nonneg.mpr h1) k)
  constructor
  · linarith [B 0 4, B 1 3, B 2 2, B 3 1, B 4 0]
  · linarith [B 0 6, B 1 5, B 2 4, B 3 3, B 4 2, B 5 1, B 6 0]

theorem under4 {x : ℝ} (h0 : 0 ≤ x) (h1 : x ≤ 0.6172238) :
    0 < 0.46934299949154384 + 4.0298663805446004 * x + (-11.632822556859477) * x ^ 2 + 14.616967043793032 * x ^ 3 + (-6.6284514347522245) * x ^ 4 ∧
    0.46934299949154384 + 4.0298663805446004 * x + (-11.632822556859477) * x ^ 2 + 14.616967043793032 * x ^ 3 + (-6.6284514347522245) * x ^ 4 ≤ 1 + 1e-9 := by
  have B : ∀ j k : ℕ, 0 ≤ x ^ j * (0.6172238 - x) ^ k := fun j k => mul_nonneg (pow_nonneg h0 j) (pow_nonneg (sub_nonneg.mpr h1) k)
  constructor
  · linarith [B 0 4, B 1 3, B 2 2, B 3 1, B 4 0]
  · linarith [B 0 8, B 1 7, B 2 6, B 3 5, B 4 4, B 5 3, B 6 2, B 7 1, B 8 0]

theorem under5 {x : ℝ} (h0 : 0 ≤ x) (h1 : x ≤ 0.40648294) :
    0 < 0.68235730304242914 + 2.4402956771025748 * x + (-6.8306770996860182) * x ^ 2 + 8.2108432911172713 * x ^ 3 + (-3.5629309804411577) * x ^ 4 ∧
    0.68235730304242914 + 2.4402956771025748 * x + (-6.8306770996860182) * x ^ 2 + 8.2108432911172713 * x ^ 3 + (-3.5629309804411577) * x ^ 4 ≤ 1 + 1e-9 := by
  have B : ∀ j k : ℕ, 0 ≤ x ^ j * (0.40648294 - x) ^ k := fun j k => mul_nonneg (pow_nonneg h0 j) (pow_nonneg (sub_nonneg.mpr h1) k)
  constructor
  · linarith [B 0 4, B 1 3, B 2 2, B 3 1, B 4 0]
  · linarith [B 0 4, B 1 3, B 2 2, B 3 1, B 4 0]

/-- C77: for every motor size and nonnegative load the relative efficiency is positive and at most 1 (to within 1e-9, the digits printed in
the fits); it is exactly 1 above the load at which the fit of its size class reaches 1. -/
theorem C77_underloaded (P : ℝ) {load : ℝ} (h : 0 ≤ load) :
    0 < motor_efficiency_underloaded P load ∧ motor_efficiency_underloaded P load ≤ 1 + 1e-9 ∧
    (0.9218102 < load → motor_efficiency_underloaded P load = 1) := by
  have e : ∃ i < 6, sizeClass (P / hp) = i := by
    refine ⟨_, ?_, rfl⟩
    unfold sizeClass; split_ifs <;> norm_num
  obtain ⟨i, hi, e⟩ := e
  simp only [motor_efficiency_underloaded, e]
  interval_cases i
  all_goals simp only [efficiency_ones, efficiency_lists, List.getD_cons_zero, List.getD_cons_succ]
  all_goals
    split_ifs with q
    · norm_num
    · have q := not_lt.mp q
      first
        | exact ⟨(under0 h q).1, (under0 h q).2, fun w => absurd q (by norm_num at w ⊢; linarith)⟩
        | exact ⟨(under1 h q).1, (under1 h q).2, fun w => absurd q (by norm_num at w ⊢; linarith)⟩
        | exact ⟨(under2 h q).1, (under2 h q).2, fun w => absurd q (by norm_num at w ⊢; linarith)⟩
        | exact ⟨(under3 h q).1, (under3 h q).2, fun w => absurd q (by norm_num at w ⊢; linarith)⟩
        | exact ⟨(under4 h q).1, (under4 h q).2, fun w => absurd q (by norm_num at w ⊢; linarith)⟩
        | exact ⟨(under5 h q).1, (under5 h q).2, fun w => absurd q (by norm_num at w ⊢; linarith)⟩

/-! ### C85 -/

theorem nema_high_full_open_2p_range : ∀ y ∈ nema_high_full_open_2p, 0.74 ≤ y ∧ y ≤ 0.962 := by norm_num [nema_high_full_open_2p]
theorem nema_high_full_open_4p_range : ∀ y ∈ nema_high_full_open_4p, 0.74 ≤ y ∧ y ≤ 0.962 := by norm_num [nema_high_full_open_4p]
theorem nema_high_full_open_6p_range : ∀ y ∈ nema_high_full_open_6p, 0.74 ≤ y ∧ y ≤ 0.962 := by norm_num [nema_high_full_open_6p]
theorem nema_high_full_closed_2p_range : ∀ y ∈ nema_high_full_closed_2p, 0.74 ≤ y ∧ y ≤ 0.962 := by norm_num [nema_high_full_closed_2p]
theorem nema_high_full_closed_4p_range : ∀ y ∈ nema_high_full_closed_4p, 0.74 ≤ y ∧ y ≤ 0.962 := by norm_num [nema_high_full_closed_4p]
theorem nema_high_full_closed_6p_range : ∀ y ∈ nema_high_full_closed_6p, 0.74 ≤ y ∧ y ≤ 0.962 := by norm_num [nema_high_full_closed_6p]
theorem nema_min_full_open_2p_range : ∀ y ∈ nema_min_full_open_2p, 0.74 ≤ y ∧ y ≤ 0.962 := by norm_num [nema_min_full_open_2p]
theorem nema_min_full_open_4p_range : ∀ y ∈ nema_min_full_open_4p, 0.74 ≤ y ∧ y ≤ 0.962 := by norm_num [nema_min_full_open_4p]
theorem nema_min_full_open_6p_range : ∀ y ∈ nema_min_full_open_6p, 0.74 ≤ y ∧ y ≤ 0.962 := by norm_num [nema_min_full_open_6p]
theorem nema_min_full_open_8p_range : ∀ y ∈ nema_min_full_open_8p, 0.74 ≤ y ∧ y ≤ 0.962 := by norm_num [nema_min_full_open_8p]
theorem nema_min_full_closed_2p_range : ∀ y ∈ nema_min_full_closed_2p, 0.74 ≤ y ∧ y ≤ 0.962 := by norm_num [nema_min_full_closed_2p]
theorem nema_min_full_closed_4p_range : ∀ y ∈ nema_min_full_closed_4p, 0.74 ≤ y ∧ y ≤ 0.962 := by norm_num [nema_min_full_closed_4p]
theorem nema_min_full_closed_6p_range : ∀ y ∈ nema_min_full_closed_6p, 0.74 ≤ y ∧ y ≤ 0.962 := by norm_num [nema_min_full_closed_6p]
theorem nema_min_full_closed_8p_range : ∀ y ∈ nema_min_full_closed_8p, 0.74 ≤ y ∧ y ≤ 0.962 := by norm_num [nema_min_full_closed_8p]

/-- C85: for every power, the tabulated pole counts give an efficiency within the tables' range; every other pole count (among them 8 with
high efficiency) leaves the result unassigned and raises UnboundLocalError instead of a documented error. -/
theorem C85_CSA_efficiency (P : ℝ) (closed high : Bool) (poles : ℤ) :
    ((poles = 2 ∨ poles = 4 ∨ poles = 6 ∨ (poles = 8 ∧ high = false)) →
      ∃ e, CSA_motor_efficiency P closed poles high = .ok e ∧ 0.74 ≤ e ∧ e ≤ 0.962) ∧
    (¬ (poles = 2 ∨ poles = 4 ∨ poles = 6 ∨ (poles = 8 ∧ high = false)) →
      CSA_motor_efficiency P closed poles high = .error .unboundLocalError) := by
  have r1 : round4 0.74 = 0.74 := by
    unfold round4
    rw [show (0.74 : ℝ) * 10000 = ((7400 : ℤ) : ℝ) by norm_num, pyRound_int]; norm_num
  have r2 : round4 0.962 = 0.962 := by
    unfold round4
    rw [show (0.962 : ℝ) * 10000 = ((9620 : ℤ) : ℝ) by norm_num, pyRound_int]; norm_num
  have sH : nema_high_P.Pairwise (· < ·) := by rw [← List.isChain_iff_pairwise]; norm_num [nema_high_P]
  have sM : nema_min_P.Pairwise (· < ·) := by rw [← List.isChain_iff_pairwise]; norm_num [nema_min_P]
  have main : ∀ xs ys : List ℝ, xs.Pairwise (· < ·) → xs.length = ys.length → 2 ≤ xs.length → (∀ y ∈ ys, 0.74 ≤ y ∧ y ≤ 0.962) →
      ∃ e, (do let efficiency ← interp (P / hp) xs ys none none false
               return round4 efficiency : Py ℝ) = .ok e ∧ 0.74 ≤ e ∧ e ≤ 0.962 := by
    intro xs ys h1 h2 h3 h4
    obtain ⟨y, hy⟩ := interp_total (P / hp) h1 h2 h3 none none false
    obtain ⟨b1, b2⟩ := interp_bounds (P / hp) h1 h2 h3 h4 hy
    refine ⟨round4 y, by simp only [hy, Py.ok_bind, Py.pure_eq], ?_, ?_⟩
    · rw [← r1]; exact round4_mono b1
    · rw [← r2]; exact round4_mono b2
  refine ⟨fun h => ?_, fun h => ?_⟩
  · cases closed <;> cases high <;> rcases h with rfl | rfl | rfl | ⟨rfl, h⟩
    · exact main nema_min_P nema_min_full_open_2p sM rfl (by simp [nema_min_P]) nema_min_full_open_2p_range
    · exact main nema_min_P nema_min_full_open_4p sM rfl (by simp [nema_min_P]) nema_min_full_open_4p_range
    · exact main nema_min_P nema_min_full_open_6p sM rfl (by simp [nema_min_P]) nema_min_full_open_6p_range
    · exact main nema_min_P nema_min_full_open_8p sM rfl (by simp [nema_min_P]) nema_min_full_open_8p_range
    · exact main nema_high_P nema_high_full_open_2p sH rfl (by simp [nema_high_P]) nema_high_full_open_2p_range
    · exact main nema_high_P nema_high_full_open_4p sH rfl (by simp [nema_high_P]) nema_high_full_open_4p_range
    · exact main nema_high_P nema_high_full_open_6p sH rfl (by simp [nema_high_P]) nema_high_full_open_6p_range
    · exact absurd h (by decide)
    · exact main nema_min_P nema_min_full_closed_2p sM rfl (by simp [nema_min_P]) nema_min_full_closed_2p_range
    · exact main nema_min_P nema_min_full_closed_4p sM rfl (by simp [nema_min_P]) nema_min_full_closed_4p_range
    · exact main nema_min_P nema_min_full_closed_6p sM rfl (by simp [nema_min_P]) nema_min_full_closed_6p_range
    · exact main nema_min_P nema_min_full_closed_8p sM rfl (by simp [nema_min_P]) nema_min_full_closed_8p_range
    · exact main nema_high_P nema_high_full_closed_2p sH rfl (by simp [nema_high_P]) nema_high_full_closed_2p_range
    · exact main nema_high_P nema_high_full_closed_4p sH rfl (by simp [nema_high_P]) nema_high_full_closed_4p_range
    · exact main nema_high_P nema_high_full_closed_6p sH rfl (by simp [nema_high_P]) nema_high_full_closed_6p_range
    · exact absurd h (by decide)
  · simp only [not_or, not_and] at h
    obtain ⟨h2, h4, h6, h8⟩ := h
    cases closed <;> cases high <;> simp only [CSA_motor_efficiency, h2, h4, h6, if_false, if_true, Bool.false_eq_true, Py.error_bind]
    · rw [if_neg (fun q => h8 q rfl)]; rfl
    · rw [if_neg (fun q => h8 q rfl)]; rfl

example : ¬ ((8 : ℤ) = 2 ∨ (8 : ℤ) = 4 ∨ (8 : ℤ) = 6 ∨ ((8 : ℤ) = 8 ∧ true = false)) := by decide

end Verif.Pump
