import Verif.Props.Friction

/-! # C43–C45: transmission factor, one-phase pressure drop helpers, curved pipes -/

namespace Verif.Friction
open Real
open Verif.Spec.Friction (lg)

variable {W : ℝ → ℝ}

/-! ### C43 -/

/-- C43: the two directions, for a positive factor. -/
theorem C43_definition {f : ℝ} (hf : 0 < f) (F : Option ℝ) :
    transmission_factor (some f) F = .ok (2 / √f) ∧ transmission_factor none (some f) = .ok (4 / f ^ 2) := by
  constructor
  · simp only [transmission_factor, psqrt_ok hf.le, Py.ok_bind]
    exact pdiv_ok (by positivity)
  · simp only [transmission_factor]
    rw [pdiv_ok (by positivity), pow_two]

/-- C43: each direction undoes the other. -/
theorem C43_involution {f : ℝ} (hf : 0 < f) :
    (transmission_factor (some f) none >>= fun F => transmission_factor none (some F)) = .ok f ∧
      (transmission_factor none (some f) >>= fun fd => transmission_factor (some fd) none) = .ok f := by
  constructor
  · rw [(C43_definition hf none).1, Py.ok_bind, (C43_definition (by positivity) none).2]
    congr 1
    rw [div_pow, sq_sqrt hf.le]
    field_simp
    norm_num
  · rw [(C43_definition hf none).2, Py.ok_bind, (C43_definition (by positivity) none).1]
    congr 1
    rw [show (4 : ℝ) / f ^ 2 = (2 / f) ^ 2 by rw [div_pow]; norm_num, sqrt_sq (by positivity)]
    field_simp

example : transmission_factor (some 0.0185) none = .ok (2 / √0.0185) := (C43_definition (by norm_num) none).1

/-- C43: with neither argument it raises ValueError; a zero factor divides by zero; a negative one is no real. -/
theorem C43_errors :
    transmission_factor none none = .error .valueError ∧ transmission_factor none (some 0) = .error .zeroDivisionError ∧
      transmission_factor (some 0) none = .error .zeroDivisionError ∧
      ∀ f < 0, transmission_factor (some f) none = .error .valueError := by
  refine ⟨rfl, ?_, ?_, fun f hf => ?_⟩
  · simp [transmission_factor]
  · simp [transmission_factor, psqrt_ok le_rfl]
  · simp only [transmission_factor, psqrt, if_pos hf, Py.error_bind]

/-! ### C44 -/

/-- C44: `one_phase_dP` is `dP_from_K(K_from_f(fd, L, D))` at the mean velocity of the pipe (`m = rho·V·πD²/4`), with the friction
factor of that velocity's Reynolds number. -/
theorem C44_one_phase_dP {m rho mu D rough L : ℝ} {Method : Option String} {dP : ℝ} (hr : rho ≠ 0) (hD : D ≠ 0)
    (h : one_phase_dP W m rho mu D rough L Method = .ok dP) :
    ∃ V Re fd K, m = rho * V * (π * D ^ 2 / 4) ∧ Re = rho * V * D / mu ∧ friction_factor W Re (rough / D) Method true = .ok fd ∧
      Core.K_from_f fd L D = .ok K ∧ dP = Core.dP_from_K K rho V := by
  simp only [one_phase_dP, Core.Reynolds, Py.bind_eq_ok, pdiv_eq_ok, Py.pure_eq, ok_eq_ok] at h
  obtain ⟨V, ⟨hV, rfl⟩, Re, ⟨nu, ⟨-, rfl⟩, hnu, rfl⟩, _, ⟨-, rfl⟩, fd, hfd, K, ⟨-, rfl⟩, rfl⟩ := h
  refine ⟨m / (0.25 * π * (D * D) * rho), _, fd, fd * L / D, ?_, ?_, hfd, pdiv_ok hD, ?_⟩
  · have := pi_pos.ne'; field_simp; ring
  · rw [div_div_eq_mul_div]; ring
  · unfold Core.dP_from_K; ring

/-- C44: and it succeeds, by default, for any positive flow of a fluid in a pipe of relative roughness up to 0.05. -/
theorem C44_one_phase_dP_ok {m rho mu D rough : ℝ} (L : ℝ) (hm : 0 < m) (hr : 0 < rho) (hmu : 0 < mu) (hD : 0 < D) (he : 0 ≤ rough)
    (he' : rough / D ≤ 0.05) : ∃ dP, one_phase_dP W m rho mu D rough L none = .ok dP := by
  have h1 : (0.25 * π * (D * D) * rho) ≠ 0 := by positivity
  have h2 : 0 < m / (0.25 * π * (D * D) * rho) * D / (mu / rho) := by positivity
  obtain ⟨f, -, hf⟩ := C40_default_total (W := W) h2 (div_nonneg he hD.le) he' true
  simp only [one_phase_dP, Core.Reynolds, pdiv_ok h1, pdiv_ok hr.ne', pdiv_ok hD.ne', Py.ok_bind,
    pdiv_ok (show mu / rho ≠ 0 by positivity), hf, Py.pure_eq]
  exact ⟨_, rfl⟩

example : ∃ dP, one_phase_dP W 10 1000 1e-5 0.1 0 1 none = .ok dP :=
  C44_one_phase_dP_ok 1 (by norm_num) (by norm_num) (by norm_num) (by norm_num) (by norm_num) (by norm_num)

/-- C44: the acceleration drop in closed form: the mean density times half the change of squared velocity. -/
theorem C44_acceleration {m Do Di ro ri : ℝ} (ho : ro ≠ 0) (hi : ri ≠ 0) (hDo : Do ≠ 0) (hDi : Di ≠ 0) :
    one_phase_dP_acceleration m Do ro ri (some Di) =
      .ok ((ro + ri) / 2 * ((m / (ro * (π * Do ^ 2 / 4))) ^ 2 - (m / (ri * (π * Di ^ 2 / 4))) ^ 2) / 2) := by
  have hp := pi_pos.ne'
  simp only [one_phase_dP_acceleration, Option.getD_some, pdiv_ok ho, pdiv_ok hi, Py.ok_bind,
    pdiv_ok (show 0.25 * π * Di * Di ≠ 0 by simp [hp, hDi]; norm_num), pdiv_ok (show 0.25 * π * Do * Do ≠ 0 by simp [hp, hDo]; norm_num), Py.pure_eq]
  congr 1
  rw [div_div, div_div]
  rw [show ro * (0.25 * π * Do * Do) = ro * (π * Do ^ 2 / 4) by ring, show ri * (0.25 * π * Di * Di) = ri * (π * Di ^ 2 / 4) by ring]
  ring

/-- C44: exchanging inlet and outlet changes only the sign. -/
theorem C44_acceleration_antisymm {m Do Di ro ri : ℝ} (ho : ro ≠ 0) (hi : ri ≠ 0) (hDo : Do ≠ 0) (hDi : Di ≠ 0) :
    one_phase_dP_acceleration m Di ri ro (some Do) = (one_phase_dP_acceleration m Do ro ri (some Di)).map (- ·) := by
  rw [C44_acceleration ho hi hDo hDi, C44_acceleration hi ho hDi hDo]
  simp only [Except.map]
  congr 1
  ring

/-- C44: without `D_i` the pipe has constant diameter. -/
theorem C44_acceleration_default (m D ro ri : ℝ) :
    one_phase_dP_acceleration m D ro ri none = one_phase_dP_acceleration m D ro ri (some D) := rfl

/-- C44: at constant density the drop is additive along the pipe, whatever the diameters. -/
theorem C44_acceleration_additive {m r D1 D2 D3 a b : ℝ} (hr : r ≠ 0) (h1 : D1 ≠ 0) (h2 : D2 ≠ 0) (h3 : D3 ≠ 0)
    (ha : one_phase_dP_acceleration m D2 r r (some D1) = .ok a) (hb : one_phase_dP_acceleration m D3 r r (some D2) = .ok b) :
    one_phase_dP_acceleration m D3 r r (some D1) = .ok (a + b) := by
  rw [C44_acceleration hr hr h2 h1] at ha
  rw [C44_acceleration hr hr h3 h2] at hb
  cases ha; cases hb
  rw [C44_acceleration hr hr h3 h1]
  congr 1
  ring

/-- C44 (finding): when the density varies, splitting the same pipe in two changes the total, because each call uses its own mean density
(and the printed formula, the difference of `ρV²/2`, uses none). Constant diameter, densities 1, 2, 4. -/
theorem C44_acceleration_not_additive :
    ∃ a b c, one_phase_dP_acceleration (π / 4) 1 2 4 none = .ok a ∧ one_phase_dP_acceleration (π / 4) 1 1 2 none = .ok b ∧
      one_phase_dP_acceleration (π / 4) 1 1 4 none = .ok c ∧ a + b < c := by
  have hp := pi_pos.ne'
  have h1 : ∀ r : ℝ, r ≠ 0 → π / 4 / (r * (π * 1 ^ 2 / 4)) = 1 / r := by intro r hr; field_simp
  refine ⟨_, _, _, C44_acceleration (by norm_num) (by norm_num) one_ne_zero one_ne_zero,
    C44_acceleration (by norm_num) (by norm_num) one_ne_zero one_ne_zero,
    C44_acceleration (by norm_num) (by norm_num) one_ne_zero one_ne_zero, ?_⟩
  rw [h1 2 (by norm_num), h1 4 (by norm_num), h1 1 (by norm_num)]
  norm_num

/-- C44 (finding): nor is it the documented difference of kinetic energies `½ρ_oV_o² - ½ρ_iV_i²`. -/
theorem C44_acceleration_not_documented :
    ∃ a, one_phase_dP_acceleration (π / 4) 1 1 2 none = .ok a ∧
      a ≠ 1 / 2 * 1 * (π / 4 / (1 * (π * 1 ^ 2 / 4))) ^ 2 - 1 / 2 * 2 * (π / 4 / (2 * (π * 1 ^ 2 / 4))) ^ 2 := by
  have hp := pi_pos.ne'
  have h1 : ∀ r : ℝ, r ≠ 0 → π / 4 / (r * (π * 1 ^ 2 / 4)) = 1 / r := by intro r hr; field_simp
  refine ⟨_, C44_acceleration (by norm_num) (by norm_num) one_ne_zero one_ne_zero, ?_⟩
  rw [h1 2 (by norm_num), h1 1 (by norm_num)]
  norm_num

/-- C44: the differential form. -/
theorem C44_dz_acceleration {m D rho dv dP dA : ℝ} (hD : D ≠ 0) (hr : rho ≠ 0) :
    one_phase_dP_dz_acceleration m D rho dv dP dA =
      .ok (-(m / (π * D ^ 2 / 4)) ^ 2 * (dP * dv - dA / (rho * (π * D ^ 2 / 4)))) := by
  have hA : 0.25 * π * D * D = π * D ^ 2 / 4 := by ring
  have hA' : π * D ^ 2 / 4 ≠ 0 := by have := pi_pos.ne'; positivity
  simp only [one_phase_dP_dz_acceleration, hA, pdiv_ok hA', pdiv_ok (mul_ne_zero hr hA'), Py.ok_bind, Py.pure_eq]
  congr 1
  ring

/-- C44: the gravitational drop is additive in length, odd in angle, zero on the level and `rho·g·L` straight up. -/
theorem C44_gravitational (angle rho L L' g : ℝ) :
    one_phase_dP_gravitational angle rho (L + L') g = one_phase_dP_gravitational angle rho L g + one_phase_dP_gravitational angle rho L' g ∧
      one_phase_dP_gravitational (-angle) rho L g = -one_phase_dP_gravitational angle rho L g ∧
      one_phase_dP_gravitational 0 rho L g = 0 ∧ one_phase_dP_gravitational 90 rho L g = rho * g * L := by
  simp only [one_phase_dP_gravitational]
  refine ⟨by ring, ?_, by simp, ?_⟩
  · rw [show -angle * π / 180 = -(angle * π / 180) by ring, sin_neg]; ring
  · rw [show 90 * π / 180 = π / 2 by ring, sin_pi_div_two]; ring

/-! ### C45 -/

/-- C45: the six critical Reynolds numbers. -/
theorem C45_Re_crit {Di Dc : ℝ} (h : 0 < Di) (h' : 0 < Dc) :
    helical_Re_crit Di Dc "Schmidt" = .ok (2300 * (1 + 8.6 * (Di / Dc) ^ (0.45 : ℝ))) ∧
    helical_Re_crit Di Dc "Seth Stahel" = .ok (1900 * (1 + 8 * √(Di / Dc))) ∧
    helical_Re_crit Di Dc "Ito" = .ok (20000 * (Di / Dc) ^ (0.32 : ℝ)) ∧
    helical_Re_crit Di Dc "Kubair Kuloor" = .ok (12730 * (Di / Dc) ^ (0.2 : ℝ)) ∧
    helical_Re_crit Di Dc "Kutateladze Borishanskii" = .ok (2300 + 10500 * (Di / Dc) ^ (0.3 : ℝ)) ∧
    helical_Re_crit Di Dc "Srinivasan" = .ok (2100 * (1 + 12 * √(Di / Dc))) ∧
    ∀ m, m ∉ ["Schmidt", "Seth Stahel", "Ito", "Kubair Kuloor", "Kutateladze Borishanskii", "Srinivasan"] →
      helical_Re_crit Di Dc m = .error .valueError := by
  have hd : 0 < Di / Dc := by positivity
  refine ⟨?_, ?_, ?_, ?_, ?_, ?_, ?_⟩
  case refine_7 =>
    intro m hm
    simp only [List.mem_cons, List.not_mem_nil, or_false, not_or] at hm
    simp only [helical_Re_crit, hm, if_false]
  all_goals
    simp only [helical_Re_crit, String.reduceEq, if_true, if_false, helical_transition_Re_Schmidt, helical_transition_Re_Seth_Stahel,
      helical_transition_Re_Ito, helical_transition_Re_Kubair_Kuloor, helical_transition_Re_Kutateladze_Borishanskii,
      helical_transition_Re_Srinivasan, pdiv_ok h'.ne', ppow_ok hd, psqrt_ok hd.le, Py.ok_bind, Py.pure_eq]
    try norm_num

/-- C45: with range checks, the listed methods are the turbulent ones at and above the critical Reynolds number and the laminar ones below;
without, both. -/
theorem C45_methods {Re Di Dc Rec : ℝ} (hc : helical_Re_crit Di Dc "Schmidt" = .ok Rec) :
    (Rec ≤ Re → friction_factor_curved_methods Re Di Dc true = .ok curved_friction_turbulent_methods_list) ∧
    (Re < Rec → friction_factor_curved_methods Re Di Dc true = .ok curved_friction_laminar_methods_list) ∧
    friction_factor_curved_methods Re Di Dc false = .ok (curved_friction_turbulent_methods_list ++ curved_friction_laminar_methods_list) := by
  refine ⟨fun h => ?_, fun h => ?_, ?_⟩
  · simp [friction_factor_curved_methods, hc, h]
  · simp [friction_factor_curved_methods, hc, not_le.mpr h]
  · simp [friction_factor_curved_methods, hc]

/-- C45: without a method the regime decides: `turbulent_method` at and above the chosen critical Reynolds number, `laminar_method` below. -/
theorem C45_regime {Re Di Dc rough Rec : ℝ} {rm lm tm : String} (hc : helical_Re_crit Di Dc rm = .ok Rec) (d : Bool) :
    (Rec ≤ Re → friction_factor_curved W Re Di Dc rough none rm lm tm d = friction_factor_curved W Re Di Dc rough (some tm) rm lm tm d) ∧
    (Re < Rec → friction_factor_curved W Re Di Dc rough none rm lm tm d = friction_factor_curved W Re Di Dc rough (some lm) rm lm tm d) := by
  constructor <;> intro h
  · simp only [friction_factor_curved, hc, Py.ok_bind, Option.getD_none, Option.getD_some, if_pos (not_lt.mpr h)]
  · simp only [friction_factor_curved, hc, Py.ok_bind, Option.getD_none, Option.getD_some, if_neg (not_not.mpr h)]

/-- C45: `Darcy=False` quarters the result, for every method and input. -/
theorem C45_quarter (Re Di Dc rough : ℝ) (Method : Option String) (rm lm tm : String) :
    friction_factor_curved W Re Di Dc rough Method rm lm tm false =
      (friction_factor_curved W Re Di Dc rough Method rm lm tm true).map (· / 4) := by
  simp only [friction_factor_curved]
  cases helical_Re_crit Di Dc rm with
  | error _ => rfl
  | ok R =>
    simp only [Py.ok_bind]
    cases curvedDarcy W Re Di Dc rough (Method.getD (if ¬ Re < R then tm else lm)) with
    | error _ => rfl
    | ok f => simp only [Py.ok_bind, Py.pure_eq, Except.map, Bool.false_eq_true, if_true, if_false]; congr 1; ring

/-- C45: an unlisted method raises ValueError. -/
theorem C45_unknown {Re Di Dc rough Rec : ℝ} {m rm lm tm : String} (d : Bool) (hc : helical_Re_crit Di Dc rm = .ok Rec)
    (hm : m ∉ curved_friction_turbulent_methods_list ++ curved_friction_laminar_methods_list) :
    friction_factor_curved W Re Di Dc rough (some m) rm lm tm d = .error .valueError := by
  simp only [curved_friction_turbulent_methods_list, curved_friction_laminar_methods_list, List.cons_append, List.nil_append, List.mem_cons,
    List.not_mem_nil, or_false, not_or] at hm
  simp only [friction_factor_curved, hc, Py.ok_bind, Option.getD_some, curvedDarcy, hm, if_false, Py.error_bind]

theorem ok_White {Re Di Dc : ℝ} (hRe : 0 < Re) (hi : 0 < Di) (hc : 0 < Dc) : ∃ f, helical_laminar_fd_White Re Di Dc = .ok f := by
  have h1 : 0 < Di / Dc := by positivity
  obtain ⟨De, hDe⟩ : ∃ De, De = √(Di / Dc) * Re := ⟨_, rfl⟩
  have h0 : 0 < De := by rw [hDe]; positivity
  simp only [helical_laminar_fd_White, Core.Dean, pdiv_ok hc.ne', psqrt_ok h1.le, Py.ok_bind, Py.pure_eq, friction_laminar, pdiv_ok hRe.ne', ← hDe,
    pdiv_ok h0.ne']
  by_cases h : De < 11.6
  · simp only [if_pos h]; exact ⟨_, rfl⟩
  · have h2 : 0 < 11.6 / De := by positivity
    have h3 : 11.6 / De ≤ 1 := by rw [div_le_one h0]; exact not_lt.mp h
    have h4 : (11.6 / De) ^ (0.45 : ℝ) ≤ 1 := rpow_le_one h2.le h3 (by norm_num)
    have h5 : 0 < (11.6 / De) ^ (0.45 : ℝ) := by positivity
    have h6 : (1 - (11.6 / De) ^ (0.45 : ℝ)) ^ (1 / 0.45 : ℝ) < 1 := rpow_lt_one (by linarith) (by linarith) (by norm_num)
    simp only [if_neg h, ppow_ok h2, Py.ok_bind, ppow_ok' (show 0 ≤ 1 - (11.6 / De) ^ (0.45 : ℝ) by linarith) (show (0 : ℝ) ≤ 1 / 0.45 by norm_num),
      pdiv_ok (show 1 - (1 - (11.6 / De) ^ (0.45 : ℝ)) ^ (1 / 0.45 : ℝ) ≠ 0 by linarith)]
    exact ⟨_, rfl⟩

theorem ok_Mori_laminar {Re Di Dc : ℝ} (hRe : 0 < Re) (hi : 0 < Di) (hc : 0 < Dc) :
    ∃ f, helical_laminar_fd_Mori_Nakayama Re Di Dc = .ok f := by
  have h1 : 0 < Di / Dc := by positivity
  obtain ⟨De, hDe⟩ : ∃ De, De = √(Di / Dc) * Re := ⟨_, rfl⟩
  have h0 : 0 < De := by rw [hDe]; positivity
  simp only [helical_laminar_fd_Mori_Nakayama, Core.Dean, pdiv_ok hc.ne', psqrt_ok h1.le, Py.ok_bind, Py.pure_eq, friction_laminar,
    pdiv_ok hRe.ne', ← hDe]
  by_cases h : De < 42.328036
  · simp only [if_pos h]; exact ⟨_, rfl⟩
  · have h2 : 6 < √De := by
      rw [lt_sqrt (by norm_num)]; linarith [not_lt.mp h]
    have h3 : 3.253 / √De < 1 := by rw [div_lt_one (by linarith)]; linarith
    simp only [if_neg h, psqrt_ok h0.le, Py.ok_bind, pdiv_ok (show √De ≠ 0 by linarith), pdiv_ok (show 1 - 3.253 / √De ≠ 0 by linarith)]
    exact ⟨_, rfl⟩

/-- C45: every listed method, laminar or turbulent, returns a value for any positive Re, tube and coil diameter and relative roughness up to
0.05, in either regime. -/
theorem C45_listed {Re Di Dc rough Rec : ℝ} {m rm lm tm : String} (d : Bool) (hRe : 0 < Re) (hi : 0 < Di) (hc : 0 < Dc) (h0 : 0 ≤ rough)
    (h5 : rough / Di ≤ 0.05) (hrm : helical_Re_crit Di Dc rm = .ok Rec)
    (hm : m ∈ curved_friction_turbulent_methods_list ++ curved_friction_laminar_methods_list) :
    ∃ f, friction_factor_curved W Re Di Dc rough (some m) rm lm tm d = .ok f := by
  have h1 : 0 < Di / Dc := by positivity
  have h2 : 0 < Dc / Di := by positivity
  have hD : 0 < √(Di / Dc) * Re := by positivity
  obtain ⟨fd, -, hfd⟩ := C40_default_total (W := W) hRe (div_nonneg h0 hi.le) h5 true
  rw [C40_default] at hfd
  obtain ⟨fw, hw⟩ := ok_White hRe hi hc
  obtain ⟨fm, hmo⟩ := ok_Mori_laminar hRe hi hc
  have key : ∃ f, curvedDarcy W Re Di Dc rough m = .ok f := by
    simp only [curved_friction_turbulent_methods_list, curved_friction_laminar_methods_list, List.cons_append, List.nil_append, List.mem_cons,
      List.not_mem_nil, or_false] at hm
    rcases hm with rfl | rfl | rfl | rfl | rfl | rfl | rfl | rfl | rfl | rfl | rfl <;>
      simp only [curvedDarcy, String.reduceEq, if_true, if_false]
    · simp only [helical_turbulent_fd_Schmidt, pdiv_ok hi.ne', Py.ok_bind, hfd, pdiv_ok hRe.ne', pdiv_ok hc.ne', ppow_ok h1, psqrt_ok hRe.le,
        psqrt_ok (sqrt_nonneg Re), Py.pure_eq]
      split_ifs <;> exact ⟨_, rfl⟩
    · simp only [helical_turbulent_fd_Mori_Nakayama, pdiv_ok hi.ne', pdiv_ok hc.ne', Py.ok_bind, ppow_ok (show 0 < Re * (Di / Dc) * (Di / Dc) by positivity),
        psqrt_ok h2.le, pdiv_ok (show √(Dc / Di) ≠ 0 by positivity), Py.pure_eq]
      exact ⟨_, rfl⟩
    · simp only [helical_turbulent_fd_Prasad, pdiv_ok hi.ne', pdiv_ok hc.ne', Py.ok_bind, hfd, psqrt_ok (show 0 ≤ Re * (Di / Dc) * (Di / Dc) by positivity),
        psqrt_ok (sqrt_nonneg _), Py.pure_eq]
      exact ⟨_, rfl⟩
    · simp only [helical_turbulent_fd_Czop, Core.Dean, pdiv_ok hc.ne', psqrt_ok h1.le, Py.ok_bind, Py.pure_eq, ppow_ok hD]
      exact ⟨_, rfl⟩
    · simp only [helical_turbulent_fd_Guo, pdiv_ok hc.ne', Py.ok_bind, Py.pure_eq, ppow_ok hRe, ppow_ok h1]
      exact ⟨_, rfl⟩
    · simp only [helical_turbulent_fd_Ju, pdiv_ok hi.ne', pdiv_ok hc.ne', Py.ok_bind, hfd, ppow_ok hRe, ppow_ok h1, Py.pure_eq]
      exact ⟨_, rfl⟩
    · simp only [helical_turbulent_fd_Mandal_Nigam, Core.Dean, pdiv_ok hi.ne', pdiv_ok hc.ne', psqrt_ok h1.le, Py.ok_bind, hfd, ppow_ok hD, Py.pure_eq]
      exact ⟨_, rfl⟩
    · simp only [helical_turbulent_fd_Srinivasan, Core.Dean, pdiv_ok hc.ne', psqrt_ok h1.le, Py.ok_bind, Py.pure_eq, ppow_ok hD]
      exact ⟨_, rfl⟩
    · exact ⟨fw, hw⟩
    · exact ⟨fm, hmo⟩
    · simp only [helical_laminar_fd_Schmidt, friction_laminar, pdiv_ok hRe.ne', pdiv_ok hc.ne', Py.ok_bind, ppow_ok h1, ppow_ok hRe, Py.pure_eq]
      exact ⟨_, rfl⟩
  obtain ⟨f, hf⟩ := key
  simp only [friction_factor_curved, hrm, Py.ok_bind, Option.getD_some, hf, Py.pure_eq]
  exact ⟨_, rfl⟩

example : ∃ f, friction_factor_curved W 1E5 0.02 0.5 0 (some "Guo") "Schmidt" "Schmidt laminar" "Schmidt turbulent" true = .ok f :=
  C45_listed true (by norm_num) (by norm_num) (by norm_num) le_rfl (by norm_num) (C45_Re_crit (by norm_num) (by norm_num)).1
    (by simp [curved_friction_turbulent_methods_list])

/-- C45: below a Dean number of 11.6 White's coil factor is the straight pipe's. -/
theorem C45_White_straight {Re Di Dc : ℝ} (hRe : 0 < Re) (hi : 0 < Di) (hc : 0 < Dc) (h : Re * √(Di / Dc) < 11.6) :
    helical_laminar_fd_White Re Di Dc = .ok (64 / Re) := by
  have h1 : 0 < Di / Dc := by positivity
  rw [mul_comm] at h
  simp only [helical_laminar_fd_White, Core.Dean, pdiv_ok hc.ne', psqrt_ok h1.le, Py.ok_bind, Py.pure_eq, friction_laminar, pdiv_ok hRe.ne',
    if_pos h]

end Verif.Friction
