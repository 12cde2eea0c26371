import Verif.Model.Geometry2
import Mathlib.Algebra.BigOperators.Group.List.Basic

/-! C63-C66: helical coils, tube pitches, cooling towers and drilled cylinders. -/

open Real

noncomputable section

namespace Verif.Geometry

/-! ### C63 -/

/-- C63: the three ways of giving two of turns, pitch and height describe the same coil, whichever way the diameters are given, and `H_total` is the height plus
one tube -/
theorem C63_same (Dt N pitch : ℝ) (Do Do_total Di : Option ℝ) (hN : N ≠ 0) (hp : pitch ≠ 0) (hf : Dt ≤ pitch) :
    helicalCoil Dt Do none (some (N * pitch)) (some N) none Do_total Di = helicalCoil Dt Do (some pitch) none (some N) none Do_total Di ∧
    helicalCoil Dt Do (some pitch) (some (N * pitch)) none none Do_total Di = helicalCoil Dt Do (some pitch) none (some N) none Do_total Di ∧
    helicalCoil Dt Do none none (some N) (some (N * pitch + Dt)) Do_total Di = helicalCoil Dt Do (some pitch) none (some N) none Do_total Di ∧
    helicalCoil Dt Do (some pitch) none none (some (N * pitch + Dt)) Do_total Di = helicalCoil Dt Do (some pitch) none (some N) none Do_total Di := by
  have e1 : coilShape Dt none (some (N * pitch)) (some N) = .ok (N, pitch, N * pitch) := by
    simp only [coilShape]
    rw [pdiv_ok hN, Py.ok_bind, mul_div_cancel_left₀ _ hN, if_neg (not_lt.mpr hf), Py.pure_eq]
  have e2 : coilShape Dt (some pitch) (some (N * pitch)) none = .ok (N, pitch, N * pitch) := by
    simp only [coilShape]
    rw [pdiv_ok hp, Py.ok_bind, mul_div_cancel_right₀ _ hp, if_neg (not_lt.mpr hf), Py.pure_eq]
  have e3 : ∀ H, coilShape Dt (some pitch) H (some N) = .ok (N, pitch, N * pitch) := fun H => by simp only [coilShape]
  simp only [helicalCoil, add_sub_cancel_right, e1, e2, e3, and_self]

/-- C63: outer diameters to the tube's centre or to its outside -/
theorem C63_outer (Dt Do : ℝ) (pitch H N H_total Di : Option ℝ) :
    helicalCoil Dt none pitch H N H_total (some (Do + Dt)) Di = helicalCoil Dt (some Do) pitch H N H_total none Di := by
  simp only [helicalCoil, add_sub_cancel_right]

/-- C63: what a coil is: the attributes of a feasible coil are those of a tube wound on a cylinder -/
theorem C63_attributes {Dt Do N pitch : ℝ} {Di : Option ℝ} (hDo : 0 < Do) (hD : Dt ≤ Do) (hN : 0 ≤ N) :
    ∃ c, helicalCoil Dt (some Do) (some pitch) none (some N) none none Di = .ok c ∧
      c.N = N ∧ c.pitch = pitch ∧ c.H = N * pitch ∧ c.H_total = c.H + Dt ∧ c.Do_total = Do + Dt ∧
      c.tube_length * cos c.helix_angle = N * (π * Do) ∧ c.tube_length * sin c.helix_angle = c.H ∧
      c.surface_area = π * Dt * c.tube_length ∧ c.total_volume = π / 4 * Dt ^ 2 * c.tube_length ∧
      (∀ d, Di = some d → ∃ i, c.inner = some i ∧ i.inner_surface_area = π * d * c.tube_length ∧ i.inner_volume = π / 4 * d ^ 2 * c.tube_length ∧
        i.inner_volume + i.annulus_volume = c.total_volume ∧ i.inlet_area + i.annulus_area = c.total_inlet_area) := by
  have hp := pi_pos
  have hc : 0 < π * Do := mul_pos hp hDo
  have hs : 0 ≤ (π * Do * N) ^ 2 + (N * pitch) ^ 2 := by positivity
  have hden : (1 : ℝ) + 4 * π ^ 2 * tan (arctan (pitch / (π * Do))) ^ 2 ≠ 0 := by positivity
  have hl : √((π * Do * N) ^ 2 + (N * pitch) ^ 2) = N * (π * Do) * √(1 + (pitch / (π * Do)) ^ 2) := by
    rw [← sqrt_sq (show 0 ≤ N * (π * Do) by positivity), ← sqrt_mul (sq_nonneg _)]
    congr 1
    field_simp
  have hr : 0 < √(1 + (pitch / (π * Do)) ^ 2) := sqrt_pos.mpr (by positivity)
  simp only [helicalCoil, coilShape, Py.ok_bind, coilBuild, if_neg (not_lt.mpr hD), psqrt_ok hs, pdiv_ok hc.ne', pdiv_ok hDo.ne', pdiv_ok hden, Py.pure_eq]
  refine ⟨_, rfl, rfl, rfl, rfl, add_comm _ _, rfl, ?_, ?_, ?_, rfl, ?_⟩
  · simp only [hl, cos_arctan]; field_simp
  · simp only [hl, sin_arctan]; field_simp
  · simp only; ring
  · rintro d rfl
    refine ⟨_, rfl, ?_, rfl, ?_, ?_⟩
    · simp only; ring
    · simp only; ring
    · simp only; ring

/-- C63: colliding turns, tubes thicker than the coil and under-specification raise ValueError -/
theorem C63_rejects (Dt : ℝ) (Do H N pitch : ℝ) (Di : Option ℝ) :
    (N ≠ 0 → H / N < Dt → helicalCoil Dt (some Do) none (some H) (some N) none none Di = .error .valueError) ∧
    (pitch ≠ 0 → pitch < Dt → helicalCoil Dt (some Do) (some pitch) (some H) none none none Di = .error .valueError) ∧
    (Do < Dt → helicalCoil Dt (some Do) (some pitch) none (some N) none none Di = .error .valueError) ∧
    (∀ Do', helicalCoil Dt Do' (some pitch) none none none none Di = .error .valueError ∧ helicalCoil Dt Do' none (some H) none none none Di = .error .valueError ∧
      helicalCoil Dt Do' none none (some N) none none Di = .error .valueError ∧ helicalCoil Dt Do' none none none none none Di = .error .valueError) ∧
    (∀ p h n t, helicalCoil Dt none p h n t none Di = .error .valueError) := by
  refine ⟨fun h0 h1 => ?_, fun h0 h1 => ?_, fun h0 => ?_, fun Do' => ?_, fun p h n t => ?_⟩
  · simp only [helicalCoil, coilShape, pdiv_ok h0, Py.ok_bind, if_pos h1, Py.error_bind]
  · simp only [helicalCoil, coilShape, pdiv_ok h0, Py.ok_bind, if_pos h1, Py.error_bind]
  · simp only [helicalCoil, coilShape, Py.ok_bind, coilBuild, if_pos h0]
  · cases Do' <;> simp only [helicalCoil, coilShape, Py.error_bind, and_self]
  · cases t <;> simp only [helicalCoil]

/-- C63 (finding): turns and pitch together are not checked: colliding turns are accepted, although the same coil given by its height is rejected -/
theorem C63_colliding_accepted : (∃ c, helicalCoil 2 (some 5) (some 1) none (some 10) none none none = .ok c) ∧
    helicalCoil 2 (some 5) none (some 10) (some 10) none none none = .error .valueError := by
  refine ⟨?_, (C63_rejects 2 5 10 10 1 none).1 (by norm_num) (by norm_num)⟩
  obtain ⟨c, hc, -⟩ := C63_attributes (Dt := 2) (Do := 5) (N := 10) (pitch := 1) (Di := none) (by norm_num) (by norm_num) (by norm_num)
  exact ⟨c, hc⟩

example : helicalCoil 1 (some 8) none (some 30) (some 20) none none none = helicalCoil 1 (some 8) (some 1.5) none (some 20) none none none := by
  have := (C63_same 1 20 1.5 (some 8) none none (by norm_num) (by norm_num) (by norm_num)).1
  rwa [show (20 : ℝ) * 1.5 = 30 by norm_num] at this

/-! ### C64 -/

/-- C64: from any two of angle, pitch, parallel and normal pitch of a layout the whole layout is found -/
theorem C64_any_two {t p : ℝ} (ht : 0 < t ∧ t < 90) (hp : 0 < p) :
    ∀ pp pn, pp = p * cos (t * (π / 180)) → pn = p * sin (t * (π / 180)) →
      pitch_angle_solver (some t) (some p) none none = .ok (t, p, pp, pn) ∧
      pitch_angle_solver (some t) none (some pp) none = .ok (t, p, pp, pn) ∧
      pitch_angle_solver (some t) none none (some pn) = .ok (t, p, pp, pn) ∧
      pitch_angle_solver none (some p) (some pp) none = .ok (t, p, pp, pn) ∧
      pitch_angle_solver none (some p) none (some pn) = .ok (t, p, pp, pn) ∧
      pitch_angle_solver none none (some pp) (some pn) = .ok (t, p, pp, pn) := by
  rintro pp pn rfl rfl
  have hpi := pi_pos
  have h0 : 0 < t * (π / 180) := by have := ht.1; positivity
  have h1 : t * (π / 180) < π / 2 := by nlinarith [ht.2]
  have hs : 0 < sin (t * (π / 180)) := sin_pos_of_pos_of_lt_pi h0 (by linarith)
  have hc : 0 < cos (t * (π / 180)) := cos_pos_of_mem_Ioo ⟨by linarith, h1⟩
  have hback : t * (π / 180) * (180 / π) = t := by field_simp
  have ea : pasin (sin (t * (π / 180))) = .ok (t * (π / 180)) := by
    rw [pasin_ok (neg_one_le_sin _) (sin_le_one _), arcsin_sin (by linarith) h1.le]
  have eb : pacos (cos (t * (π / 180))) = .ok (t * (π / 180)) := by
    rw [pacos_ok (neg_one_le_cos _) (cos_le_one _), arccos_cos h0.le (by linarith)]
  have esq : psqrt ((p * sin (t * (π / 180))) ^ 2 + (p * cos (t * (π / 180))) ^ 2) = .ok p := by
    rw [show (p * sin (t * (π / 180))) ^ 2 + (p * cos (t * (π / 180))) ^ 2 = p ^ 2 by linear_combination p ^ 2 * sin_sq_add_cos_sq (t * (π / 180)),
      psqrt_ok (sq_nonneg _), sqrt_sq hp.le]
  simp only [pitch_angle_solver, pdiv_ok hs.ne', pdiv_ok hc.ne', pdiv_ok hp.ne', mul_div_cancel_right₀ _ hs.ne', mul_div_cancel_right₀ _ hc.ne', mul_div_cancel_left₀ _ hp.ne', ea, eb,
    esq, Py.ok_bind, Py.pure_eq, hback, and_self]

/-- C64: fewer than two values raise ValueError -/
theorem C64_underspecified (x : ℝ) :
    pitch_angle_solver none none none none = .error .valueError ∧ pitch_angle_solver (some x) none none none = .error .valueError ∧
    pitch_angle_solver none (some x) none none = .error .valueError ∧ pitch_angle_solver none none (some x) none = .error .valueError ∧
    pitch_angle_solver none none none (some x) = .error .valueError := by
  simp only [pitch_angle_solver, and_self]

example : ∃ pp pn, pitch_angle_solver none none (some pp) (some pn) = .ok (30, 2, pp, pn) :=
  ⟨_, _, (C64_any_two (t := 30) (p := 2) (by norm_num) (by norm_num) _ _ rfl rfl).2.2.2.2.2⟩

/-! ### C65 -/

/-- a hyperboloid through the throat radius with the slope parameter `b`, at the distance `x` from the throat -/
theorem tower_diameter {d x b : ℝ} (hb : 0 < b) : ∃ s, psqrt (x * x + b * b) = .ok s ∧ d * s /ₚ (2 * b) = .ok (d * s / (2 * b)) ∧
    d * s / (2 * b) * 2 = d * √(1 + (x / b) ^ 2) := by
  refine ⟨√(x * x + b * b), psqrt_ok (by nlinarith [sq_nonneg x, sq_nonneg b]), pdiv_ok (by positivity), ?_⟩
  rw [show 1 + (x / b) ^ 2 = (x * x + b * b) / b ^ 2 by field_simp; ring, sqrt_div' _ (sq_nonneg _), sqrt_sq hb.le]
  field_simp

/-- the shape a tower is built to have -/
structure Tower (T : CoolingTower) : Prop where
  bl : 0 < T.b_lower
  bu : 0 < T.b_upper
  throat : 0 < T.D_throat
  lower : T.H_inlet < T.H_throat
  upper : T.H_throat < T.H_outlet
  inlet : T.D_inlet = T.D_throat * √(1 + ((T.H_throat - T.H_inlet) / T.b_lower) ^ 2)
  base : T.D_base = T.D_throat * √(1 + (T.H_throat / T.b_lower) ^ 2)
  outlet : T.D_outlet = T.D_throat * √(1 + ((T.H_outlet - T.H_throat) / T.b_upper) ^ 2)

theorem b_solves {d D x : ℝ} (hd : 0 < d) (hD : d < D) (hx : 0 < x) : 0 < √(D ^ 2 - d ^ 2) ∧ 0 < d * x / √(D ^ 2 - d ^ 2) ∧
    D = d * √(1 + (x / (d * x / √(D ^ 2 - d ^ 2))) ^ 2) := by
  have hp : 0 < D ^ 2 - d ^ 2 := by nlinarith
  have hs := sqrt_pos.mpr hp
  refine ⟨hs, div_pos (mul_pos hd hx) hs, ?_⟩
  have : x / (d * x / √(D ^ 2 - d ^ 2)) = √(D ^ 2 - d ^ 2) / d := by
    generalize √(D ^ 2 - d ^ 2) = c at *
    field_simp
  rw [this, div_pow, sq_sqrt hp.le, show 1 + (D ^ 2 - d ^ 2) / d ^ 2 = (D / d) ^ 2 by field_simp; ring, sqrt_sq (by have := hd.trans hD; positivity)]
  field_simp

theorem diam_eq {d x b : ℝ} (hb : 0 < b) : ∃ s, psqrt (x ^ 2 + b ^ 2) = .ok s ∧ 2 * d * s /ₚ (2 * b) = .ok (d * √(1 + (x / b) ^ 2)) := by
  refine ⟨√(x ^ 2 + b ^ 2), psqrt_ok (by positivity), ?_⟩
  rw [pdiv_ok (by positivity), show 1 + (x / b) ^ 2 = (x ^ 2 + b ^ 2) / b ^ 2 by field_simp; ring, sqrt_div' _ (sq_nonneg _), sqrt_sq hb.le]
  congr 1
  field_simp

theorem tower_inlet {H_inlet D_outlet H_outlet Dt Ht Di : ℝ} (hDt : 0 < Dt) (hi : Dt < Di) (ho : Dt < D_outlet) (h0 : 0 ≤ H_inlet) (h1 : H_inlet < Ht) (h2 : Ht < H_outlet) :
    ∃ T, coolingTower H_inlet D_outlet H_outlet (some Di) none (some Dt) (some Ht) = .ok T ∧ Tower T ∧ T.D_inlet = Di ∧ T.D_throat = Dt ∧ T.D_outlet = D_outlet ∧
      T.H_inlet = H_inlet ∧ T.H_throat = Ht ∧ T.H_outlet = H_outlet := by
  obtain ⟨s1, b1, e1⟩ := b_solves hDt hi (sub_pos.mpr h1)
  obtain ⟨s2, b2, e2⟩ := b_solves hDt ho (sub_pos.mpr h2)
  obtain ⟨s, d1, d2⟩ := diam_eq (d := Dt) (x := Ht) b1
  have p1 : psqrt (Di ^ 2 - Dt ^ 2) = .ok √(Di ^ 2 - Dt ^ 2) := psqrt_ok (sqrt_pos.mp s1).le
  have p2 : psqrt (D_outlet ^ 2 - Dt ^ 2) = .ok √(D_outlet ^ 2 - Dt ^ 2) := psqrt_ok (sqrt_pos.mp s2).le
  simp only [coolingTower, towerThroat, towerLower, Option.getD_some, Py.ok_bind, p1, p2, pdiv_ok s1.ne', pdiv_ok s2.ne', d1, d2, Py.pure_eq]
  exact ⟨_, rfl, ⟨b1, b2, hDt, h1, h2, e1, rfl, e2⟩, rfl, rfl, rfl, rfl, rfl, rfl⟩

/-- C65: a tower given by its inlet diameter: the profile passes through the inlet, the throat, the outlet and the base -/
theorem C65_profile (T : CoolingTower) (hT : Tower T) (h0 : 0 ≤ T.H_inlet) :
    T.diameter T.H_inlet = .ok T.D_inlet ∧ T.diameter T.H_throat = .ok T.D_throat ∧ T.diameter T.H_outlet = .ok T.D_outlet ∧ T.diameter 0 = .ok T.D_base ∧
    (∀ H, ∃ d, T.diameter H = .ok d ∧ T.D_throat ≤ d) ∧
    (∀ H₁ H₂ d₁ d₂, T.diameter H₁ = .ok d₁ → T.diameter H₂ = .ok d₂ → (H₁ ≤ H₂ → H₂ ≤ T.H_throat → d₂ ≤ d₁) ∧ (T.H_throat ≤ H₁ → H₁ ≤ H₂ → d₁ ≤ d₂)) := by
  have hlo : ∀ H, H ≤ T.H_throat → T.diameter H = .ok (T.D_throat * √(1 + ((T.H_throat - H) / T.b_lower) ^ 2)) := by
    intro H hH
    obtain ⟨s, s1, s2, s3⟩ := tower_diameter (d := T.D_throat) (x := T.H_throat - H) hT.bl
    simp only [CoolingTower.diameter, if_pos hH, s1, s2, Py.ok_bind, Py.pure_eq, s3]
  have hhi : ∀ H, T.H_throat ≤ H → T.diameter H = .ok (T.D_throat * √(1 + ((H - T.H_throat) / T.b_upper) ^ 2)) := by
    intro H hH
    rcases hH.lt_or_eq with g | g
    · obtain ⟨s, s1, s2, s3⟩ := tower_diameter (d := T.D_throat) (x := H - T.H_throat) hT.bu
      simp only [CoolingTower.diameter, if_neg (not_le.mpr g), s1, s2, Py.ok_bind, Py.pure_eq, s3]
    · rw [← g, hlo _ le_rfl, sub_self, zero_div, zero_div]
  have hthr : T.diameter T.H_throat = .ok T.D_throat := by
    rw [hlo _ le_rfl, sub_self, zero_div, zero_pow two_ne_zero, add_zero, sqrt_one, mul_one]
  have hmono : ∀ {x y b : ℝ}, 0 < b → 0 ≤ x → x ≤ y → T.D_throat * √(1 + (x / b) ^ 2) ≤ T.D_throat * √(1 + (y / b) ^ 2) := by
    intro x y b hb hx hxy
    refine mul_le_mul_of_nonneg_left (sqrt_le_sqrt ?_) hT.throat.le
    have : (x / b) ^ 2 ≤ (y / b) ^ 2 := pow_le_pow_left₀ (by positivity) (by gcongr) 2
    linarith
  refine ⟨?_, hthr, ?_, ?_, ?_, ?_⟩
  · rw [hlo _ hT.lower.le, ← hT.inlet]
  · rw [hhi _ hT.upper.le, ← hT.outlet]
  · rw [hlo _ (h0.trans hT.lower.le), sub_zero, ← hT.base]
  · intro H
    have h1 : ∀ u : ℝ, T.D_throat ≤ T.D_throat * √(1 + u ^ 2) := fun u =>
      le_mul_of_one_le_right hT.throat.le (le_sqrt_of_sq_le (by nlinarith [sq_nonneg u]))
    rcases le_total H T.H_throat with g | g
    · exact ⟨_, hlo H g, h1 _⟩
    · exact ⟨_, hhi H g, h1 _⟩
  · intro H₁ H₂ d₁ d₂ e₁ e₂
    refine ⟨fun g1 g2 => ?_, fun g1 g2 => ?_⟩
    · rw [hlo _ (g1.trans g2)] at e₁
      rw [hlo _ g2] at e₂
      rw [← Except.ok.inj e₁, ← Except.ok.inj e₂]
      exact hmono hT.bl (by linarith) (by linarith)
    · rw [hhi _ g1] at e₁
      rw [hhi _ (g1.trans g2)] at e₂
      rw [← Except.ok.inj e₁, ← Except.ok.inj e₂]
      exact hmono hT.bu (by linarith) (by linarith)

/-- C65: the constructor builds towers of that shape from the inlet diameter; giving the base diameter it reports instead builds the same tower -/
theorem C65_construct {H_inlet D_outlet H_outlet Dt Ht Di : ℝ} (hDt : 0 < Dt) (hi : Dt < Di) (ho : Dt < D_outlet) (h0 : 0 ≤ H_inlet) (h1 : H_inlet < Ht)
    (h2 : Ht < H_outlet) :
    ∃ T, coolingTower H_inlet D_outlet H_outlet (some Di) none (some Dt) (some Ht) = .ok T ∧ Tower T ∧
      T.D_inlet = Di ∧ T.D_throat = Dt ∧ T.D_outlet = D_outlet ∧ T.H_inlet = H_inlet ∧ T.H_throat = Ht ∧ T.H_outlet = H_outlet ∧
      coolingTower H_inlet D_outlet H_outlet none (some T.D_base) (some Dt) (some Ht) = .ok T := by
  obtain ⟨T, e, hT, t1, t2, t3, t4, t5, t6⟩ := tower_inlet hDt hi ho h0 h1 h2
  refine ⟨T, e, hT, t1, t2, t3, t4, t5, t6, ?_⟩
  obtain ⟨s2, b2, e2⟩ := b_solves hDt ho (sub_pos.mpr h2)
  obtain ⟨s1, b1, e1⟩ := b_solves hDt hi (sub_pos.mpr h1)
  have p1 : psqrt (Di ^ 2 - Dt ^ 2) = .ok √(Di ^ 2 - Dt ^ 2) := psqrt_ok (sqrt_pos.mp s1).le
  have p2 : psqrt (D_outlet ^ 2 - Dt ^ 2) = .ok √(D_outlet ^ 2 - Dt ^ 2) := psqrt_ok (sqrt_pos.mp s2).le
  have hHt : 0 < Ht := by linarith
  -- the lower slope parameter from the base diameter
  have hb : T.D_base ^ 2 - Dt ^ 2 = (Dt * Ht / T.b_lower) ^ 2 := by
    rw [hT.base, t2, t5, mul_pow, sq_sqrt (by positivity)]
    have := hT.bl
    field_simp; ring
  have hbl := hT.bl
  have p3 : psqrt (T.D_base ^ 2 - Dt ^ 2) = .ok (Dt * Ht / T.b_lower) := by
    rw [hb, psqrt_ok (sq_nonneg _), sqrt_sq (by positivity)]
  have p4 : Dt * Ht /ₚ (Dt * Ht / T.b_lower) = .ok T.b_lower := by
    rw [pdiv_ok (by positivity)]; congr 1; field_simp
  obtain ⟨s, d1, d2⟩ := diam_eq (d := Dt) (x := Ht - H_inlet) hbl
  have hTb := hT.inlet
  rw [t2, t4, t5] at hTb
  simp only [coolingTower, towerThroat, towerLower, Option.getD_some, Py.ok_bind, p2, p3, p4, pdiv_ok s2.ne', d1, d2, Py.pure_eq]
  have hbu : T.b_upper = Dt * (H_outlet - Ht) / √(D_outlet ^ 2 - Dt ^ 2) := by
    obtain ⟨s', d1', d2'⟩ := diam_eq (d := Dt) (x := Ht) b1
    simp only [coolingTower, towerThroat, towerLower, Option.getD_some, Py.ok_bind, p1, p2, pdiv_ok s1.ne', pdiv_ok s2.ne', d1', d2', Py.pure_eq] at e
    rw [← Except.ok.inj e]
  rw [← hTb, ← hbu]
  congr 1
  rw [← t2, ← t3, ← t4, ← t5, ← t6]

/-- C65: the defaults: throat at two thirds of the height, throat diameter 0.63 of the inlet; without any lower diameter ValueError -/
theorem C65_defaults (H_inlet D_outlet H_outlet Di : ℝ) :
    coolingTower H_inlet D_outlet H_outlet (some Di) none none none = coolingTower H_inlet D_outlet H_outlet (some Di) none (some (0.63 * Di)) (some (2 / 3 * H_outlet)) ∧
    (∀ t u, coolingTower H_inlet D_outlet H_outlet none none t u = .error .valueError) ∧
    (∀ b u, coolingTower H_inlet D_outlet H_outlet none b none u = .error .valueError) := by
  refine ⟨rfl, fun t u => ?_, fun b u => ?_⟩
  · cases t <;> simp only [coolingTower, towerThroat, towerLower, Py.ok_bind, Py.error_bind]
  · simp only [coolingTower, towerThroat, Py.error_bind]

example : ∃ T, coolingTower 5 90 200 (some 136) none (some 85.7) (some 150) = .ok T ∧ T.diameter 5 = .ok 136 := by
  obtain ⟨T, e, hT, t1, -, -, t4, -, -, -⟩ := C65_construct (H_inlet := 5) (D_outlet := 90) (H_outlet := 200) (Dt := 85.7) (Ht := 150) (Di := 136)
    (by norm_num) (by norm_num) (by norm_num) (by norm_num) (by norm_num) (by norm_num)
  refine ⟨T, e, ?_⟩
  have := (C65_profile T hT (by rw [t4]; norm_num)).1
  rwa [t1, t4] at this

/-! ### C66 -/

/-- C66: volume and area are those of the solid cylinder, less/plus every hole's own contribution -/
theorem C66_additive (Do L : ℝ) (holes : List (ℝ × ℕ)) :
    V_multiple_hole_cylinder Do L holes = V_cylinder Do L - (holes.map fun x => x.2 * V_cylinder x.1 L).sum ∧
    A_multiple_hole_cylinder Do L holes = A_cylinder Do L + (holes.map fun x => x.2 * (π * x.1 * L - 2 * (π * x.1 ^ 2 / 4))).sum := by
  constructor
  · unfold V_multiple_hole_cylinder V_cylinder
    generalize π * Do ^ 2 / 4 * L = s
    induction holes generalizing s with
    | nil => simp
    | cons x xs ih => simp only [List.foldl_cons, List.map_cons, List.sum_cons, ih]; ring
  · unfold A_multiple_hole_cylinder A_cylinder
    generalize π * Do ^ 2 / 4 * 2 + π * Do * L = s
    induction holes generalizing s with
    | nil => simp
    | cons x xs ih => simp only [List.foldl_cons, List.map_cons, List.sum_cons, ih]; ring

/-- C66: the order of the holes does not matter, and grouping equal holes does not matter either -/
theorem C66_order (Do L : ℝ) {h₁ h₂ : List (ℝ × ℕ)} (h : h₁.Perm h₂) :
    V_multiple_hole_cylinder Do L h₁ = V_multiple_hole_cylinder Do L h₂ ∧ A_multiple_hole_cylinder Do L h₁ = A_multiple_hole_cylinder Do L h₂ := by
  rw [(C66_additive Do L h₁).1, (C66_additive Do L h₂).1, (C66_additive Do L h₁).2, (C66_additive Do L h₂).2]
  exact ⟨by rw [(h.map _).sum_eq], by rw [(h.map _).sum_eq]⟩

theorem C66_group (Do L d : ℝ) (m n : ℕ) (rest : List (ℝ × ℕ)) :
    V_multiple_hole_cylinder Do L ((d, m) :: (d, n) :: rest) = V_multiple_hole_cylinder Do L ((d, m + n) :: rest) ∧
    A_multiple_hole_cylinder Do L ((d, m) :: (d, n) :: rest) = A_multiple_hole_cylinder Do L ((d, m + n) :: rest) := by
  simp only [(C66_additive _ _ _).1, (C66_additive _ _ _).2, List.map_cons, List.sum_cons]
  push_cast
  constructor <;> ring

/-- C66: no hole is the solid cylinder, one hole the hollow one -/
theorem C66_hollow (Di Do L : ℝ) :
    V_multiple_hole_cylinder Do L [] = V_cylinder Do L ∧ A_multiple_hole_cylinder Do L [] = A_cylinder Do L ∧
    V_multiple_hole_cylinder Do L [(Di, 1)] = V_hollow_cylinder Di Do L ∧ A_multiple_hole_cylinder Do L [(Di, 1)] = A_hollow_cylinder Di Do L := by
  refine ⟨rfl, rfl, ?_, ?_⟩
  · rw [(C66_additive _ _ _).1]; simp [V_hollow_cylinder, V_cylinder]
  · rw [(C66_additive _ _ _).2]; simp [A_hollow_cylinder, A_cylinder]; ring

end Verif.Geometry
