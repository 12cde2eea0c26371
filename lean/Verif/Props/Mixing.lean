import Verif.Model.Mixing
import Verif.Lemmas.Tactic
import Mathlib.Analysis.SpecialFunctions.Pow.Real

/-! C98: mixing times and mixing quality. -/

open Real

noncomputable section

namespace Verif.Mixing

theorem g_pos : (0:ℝ) < g := by unfold g Const.g; norm_num

/-! ### homogeneity -/

/-- C98: the homogeneity factor is one at 95 %, is additive in the decades of remaining inhomogeneity (mixing twice as long squares the remainder),
rises strictly with the homogeneity, and a homogeneity of 100 % or more raises ValueError -/
theorem C98_homogeneity :
    adjust_homogeneity 0.95 = .ok 1 ∧
    (∀ {a b x y : ℝ}, a < 1 → b < 1 → adjust_homogeneity a = .ok x → adjust_homogeneity b = .ok y → adjust_homogeneity (1 - (1 - a) * (1 - b)) = .ok (x + y)) ∧
    (∀ {a b : ℝ}, a < b → b < 1 → ∃ x y, adjust_homogeneity a = .ok x ∧ adjust_homogeneity b = .ok y ∧ x < y) ∧
    (∀ {a : ℝ}, 1 ≤ a → adjust_homogeneity a = .error .valueError) := by
  have l0 : log 0.05 < 0 := log_neg (by norm_num) (by norm_num)
  have f : ∀ {a : ℝ}, a < 1 → adjust_homogeneity a = .ok (log (1 - a) / log 0.05) := by
    intro a ha
    have : 0 < 1 - a := by linarith
    have n := l0.ne
    unfold adjust_homogeneity; py_eval []
  refine ⟨?_, fun {a b x y} ha hb hx hy => ?_, fun {a b} hab hb => ⟨_, _, f (hab.trans hb), f hb, ?_⟩, fun {a} ha => ?_⟩
  · rw [f (by norm_num), show (1:ℝ) - 0.95 = 0.05 by norm_num, div_self l0.ne]
  · rw [f ha] at hx; rw [f hb] at hy
    have h1 : 0 < 1 - a := by linarith
    have h2 : 0 < 1 - b := by linarith
    rw [f (by nlinarith [mul_pos h1 h2]), ← Except.ok.inj hx, ← Except.ok.inj hy, sub_sub_cancel, log_mul h1.ne' h2.ne', add_div]
  · rw [div_lt_div_right_of_neg l0]
    exact log_lt_log (by linarith) (by linarith)
  · unfold adjust_homogeneity plog
    rw [if_pos (by linarith), Py.error_bind]

/-! ### agitated tanks -/

/-- the dimensionless constant that decides the regime: power number to the third times impeller Reynolds number -/
def regime (P D mu rho : ℝ) : ℝ := (P * g / rho) ^ (1 / 3:ℝ) * (rho / mu) * D ^ (1 / 3:ℝ)

theorem regime_eq {N P D mu rho : ℝ} (hN : 0 < N) (hP : 0 < P) (hD : 0 < D) (hm : 0 < mu) (hr : 0 < rho) :
    (P * g / rho / N ^ 3 / D ^ 5) ^ (1 / 3:ℝ) * (rho / mu * D ^ 2 * N) = regime P D mu rho := by
  have hg := g_pos
  have c3 : ∀ x : ℝ, 0 < x → (x ^ 3) ^ (1 / 3:ℝ) = x := fun x hx => by rw [← rpow_natCast, ← rpow_mul hx.le]; norm_num
  have e : P * g / rho / N ^ 3 / D ^ 5 = P * g / rho * D / (N * D ^ 2) ^ 3 := by field_simp
  rw [e, div_rpow (by positivity) (by positivity), c3 _ (by positivity), mul_rpow (by positivity) hD.le]
  unfold regime
  field_simp

/-- C98: the Fourier number is positive and falls strictly as the regime constant rises, across the change of regime too -/
theorem C98_fourier {x y : ℝ} (hx : 0 < x) (hxy : x < y) : ∃ a b, fourier x = .ok a ∧ fourier y = .ok b ∧ 0 < b ∧ b < a := by
  have hy := hx.trans hxy
  unfold fourier min_regime_constant_for_turbulent
  by_cases h1 : x ≥ 6370
  · rw [if_pos h1, if_pos (h1.trans hxy.le), pdiv_ok hx.ne', pdiv_ok hy.ne']
    exact ⟨_, _, rfl, rfl, by positivity, by gcongr⟩
  · rw [if_neg h1, pdiv_ok hx.ne', Py.ok_bind]
    by_cases h2 : y ≥ 6370
    · rw [if_pos h2, pdiv_ok hy.ne']
      refine ⟨_, _, rfl, rfl, by positivity, ?_⟩
      have h3 : 5.2 / y ≤ 5.2 / 6370 := by gcongr
      have h4 : (183 / 6370) ^ 2 ≤ (183 / x) ^ 2 := by
        have : x ≤ 6370 := (not_le.mp h1).le
        gcongr
      norm_num at *; linarith
    · rw [if_neg h2, pdiv_ok hy.ne', Py.ok_bind]
      refine ⟨_, _, rfl, rfl, by positivity, ?_⟩
      gcongr

theorem agitator_eq {N P T H mu rho : ℝ} {D : Option ℝ} {q : ℝ} (hN : 0 < N) (hP : 0 < P) (hT : 0 < T) (hH : 0 < H) (hm : 0 < mu) (hr : 0 < rho)
    (hD : 0 < impeller T D) (hq : q < 1) :
    ∃ fo m, fourier (regime P (impeller T D) mu rho) = .ok fo ∧ adjust_homogeneity q = .ok m ∧ 0 < fo ∧
      agitator_time_homogeneous N P T H mu rho D q = .ok (rho * T ^ (1.5:ℝ) * √H / mu * fo * m) := by
  have hg := g_pos
  have hreg : 0 < regime P (impeller T D) mu rho := by unfold regime; positivity
  obtain ⟨fo, -, e1, -, -, hfo⟩ := C98_fourier hreg (lt_add_one _)
  obtain ⟨m, -, e2, -⟩ := C98_homogeneity.right.right.left (show q < (q + 1) / 2 by linarith) (by linarith)
  obtain ⟨a, b, h1, h2, h3, h4⟩ := C98_fourier hreg (lt_add_one _)
  have : fo = a := Except.ok.inj (e1.symm.trans h1)
  refine ⟨fo, m, e1, e2, by rw [this]; linarith, ?_⟩
  unfold agitator_time_homogeneous
  have hp : 0 < P * g / rho / N ^ 3 / impeller T D ^ 5 := by positivity
  simp only [pdiv_ok hr.ne', Py.ok_bind, pdiv_ok (pow_pos hN 3).ne', pdiv_ok (pow_pos hD 5).ne', pdiv_ok hm.ne', ppow_ok hp, regime_eq hN hP hD hm hr, e1, e2,
    ppow_ok hT, psqrt_ok hH.le, Py.pure_eq]

/-- C98: the mixing time does not depend on the impeller speed once the power is given (the speed cancels), is strictly shorter at higher power, is longer for a
higher homogeneity, and an impeller diameter that is missing or zero means half the tank diameter -/
theorem C98_agitator {N N' P P' T H mu rho q q' : ℝ} {D : Option ℝ} (hN : 0 < N) (hN' : 0 < N') (hP : 0 < P) (hPP : P < P') (hT : 0 < T) (hH : 0 < H) (hm : 0 < mu)
    (hr : 0 < rho) (hD : 0 < impeller T D) (hq0 : 0 < q) (hqq : q < q') (hq : q' < 1) :
    ∃ t, agitator_time_homogeneous N P T H mu rho D q = .ok t ∧ 0 < t ∧ agitator_time_homogeneous N' P T H mu rho D q = .ok t ∧
      (∃ t', agitator_time_homogeneous N P' T H mu rho D q = .ok t' ∧ t' < t) ∧ (∃ t', agitator_time_homogeneous N P T H mu rho D q' = .ok t' ∧ t < t') ∧
      agitator_time_homogeneous N P T H mu rho none q = agitator_time_homogeneous N P T H mu rho (some (T / 2)) q ∧
      agitator_time_homogeneous N P T H mu rho (some 0) q = agitator_time_homogeneous N P T H mu rho none q := by
  have hq1 := hqq.trans hq
  have hg := g_pos
  obtain ⟨fo, m, e1, e2, h1, e3⟩ := agitator_eq hN hP hT hH hm hr hD hq1
  obtain ⟨fo', m', e1', e2', -, e3'⟩ := agitator_eq hN' hP hT hH hm hr hD hq1
  obtain ⟨fo2, m2, f1, f2, k1, f3⟩ := agitator_eq hN (hP.trans hPP) hT hH hm hr hD hq1
  obtain ⟨fo3, m3, g1, g2, -, g3⟩ := agitator_eq hN hP hT hH hm hr hD hq
  obtain rfl : fo' = fo := Except.ok.inj (e1'.symm.trans e1)
  obtain rfl : m' = m := Except.ok.inj (e2'.symm.trans e2)
  obtain rfl : m2 = m' := Except.ok.inj (f2.symm.trans e2)
  obtain rfl : fo3 = fo' := Except.ok.inj (g1.symm.trans e1)
  have hm0 : 0 < m2 := by
    obtain ⟨x, y, a1, a2, a3⟩ := C98_homogeneity.2.2.1 hq0 hq1
    have : y = m2 := Except.ok.inj (a2.symm.trans e2)
    have l0 : log 0.05 < 0 := log_neg (by norm_num) (by norm_num)
    have n := l0.ne
    have hx : adjust_homogeneity 0 = .ok 0 := by
      unfold adjust_homogeneity
      rw [sub_zero, plog_ok one_pos, Py.ok_bind, plog_ok (by norm_num), Py.ok_bind, pdiv_ok n, log_one, zero_div]
    have : x = 0 := Except.ok.inj (a1.symm.trans hx)
    linarith
  have hlt : regime P (impeller T D) mu rho < regime P' (impeller T D) mu rho := by
    unfold regime
    have : (P * g / rho) ^ (1 / 3:ℝ) < (P' * g / rho) ^ (1 / 3:ℝ) := rpow_lt_rpow (by positivity) (by gcongr) (by norm_num)
    gcongr
  obtain ⟨a, b, a1, a2, a3, a4⟩ := C98_fourier (by unfold regime; positivity) hlt
  obtain rfl : a = fo3 := Except.ok.inj (a1.symm.trans e1)
  obtain rfl : b = fo2 := Except.ok.inj (a2.symm.trans f1)
  obtain ⟨x, y, b1, b2, b3⟩ := C98_homogeneity.2.2.1 hqq hq
  obtain rfl : x = m2 := Except.ok.inj (b1.symm.trans e2)
  obtain rfl : y = m3 := Except.ok.inj (b2.symm.trans g2)
  refine ⟨_, e3, by positivity, e3', ⟨_, f3, by gcongr⟩, ⟨_, g3, by gcongr⟩, ?_, ?_⟩
  · have : impeller T none = impeller T (some (T / 2)) := by
      simp only [impeller, if_neg (half_pos hT).ne']; ring
    simp only [agitator_time_homogeneous, this]
  · have : impeller T (some 0) = impeller T none := by simp [impeller]
    simp only [agitator_time_homogeneous, this]

example : ∃ t, agitator_time_homogeneous 1 957 1.83 1.83 0.018 1020 none 0.9 = .ok t ∧ 0 < t :=
  let ⟨t, h, h', _⟩ := C98_agitator (N := 1) (N' := 2) (P := 957) (P' := 958) (T := 1.83) (H := 1.83) (mu := 0.018) (rho := 1020) (q := 0.9) (q' := 0.95) (D := none)
    (by norm_num) (by norm_num) (by norm_num) (by norm_num) (by norm_num) (by norm_num) (by norm_num) (by norm_num) (by norm_num [impeller]) (by norm_num) (by norm_num)
    (by norm_num)
  ⟨t, h, h'⟩

/-! ### helical ribbons -/

theorem Kp_eq {D h nb pitch width T : ℝ} (hD : 0 < D) (hT : D < T) (hp : 0 < pitch) (hw : 0 < width) (hn : 0 < nb) :
    Kp_helical_ribbon_Rieger D h nb pitch width T =
      .ok (82.8 * h / D * (0.5 * (T - D) / D) ^ (-0.38:ℝ) * (pitch / D) ^ (-0.35:ℝ) * (width / D) ^ (0.2:ℝ) * nb ^ (0.78:ℝ)) := by
  have : 0 < T - D := by linarith
  have h1 : 0 < 0.5 * (T - D) / D := by positivity
  have h2 : 0 < pitch / D := by positivity
  have h3 : 0 < width / D := by positivity
  unfold Kp_helical_ribbon_Rieger; py_eval []

/-- C98: the helical ribbon constant is positive, is the same for geometrically similar mixers, is proportional to the ribbon height, rises strictly with the
number of blades and the blade width, falls strictly with the pitch and the tank diameter; a tank no wider than the ribbon is an error -/
theorem C98_ribbon {D h nb pitch width T : ℝ} (hD : 0 < D) (hh : 0 < h) (hT : D < T) (hp : 0 < pitch) (hw : 0 < width) (hn : 0 < nb) :
    ∃ K, Kp_helical_ribbon_Rieger D h nb pitch width T = .ok K ∧ 0 < K ∧
      (∀ k : ℝ, 0 < k → Kp_helical_ribbon_Rieger (k * D) (k * h) nb (k * pitch) (k * width) (k * T) = .ok K) ∧
      (∀ k : ℝ, Kp_helical_ribbon_Rieger D (k * h) nb pitch width T = .ok (k * K)) ∧
      (∀ nb' > nb, ∃ K', Kp_helical_ribbon_Rieger D h nb' pitch width T = .ok K' ∧ K < K') ∧
      (∀ w' > width, ∃ K', Kp_helical_ribbon_Rieger D h nb pitch w' T = .ok K' ∧ K < K') ∧
      (∀ p' > pitch, ∃ K', Kp_helical_ribbon_Rieger D h nb p' width T = .ok K' ∧ K' < K) ∧
      (∀ T' > T, ∃ K', Kp_helical_ribbon_Rieger D h nb pitch width T' = .ok K' ∧ K' < K) ∧
      Kp_helical_ribbon_Rieger D h nb pitch width D = .error .zeroDivisionError ∧
      (∀ T' < D, Kp_helical_ribbon_Rieger D h nb pitch width T' = .error .complexResult) := by
  have t0 : 0 < T - D := by linarith
  refine ⟨_, Kp_eq hD hT hp hw hn, by positivity, fun k hk => ?_, fun k => ?_, fun x hx => ⟨_, Kp_eq hD hT hp hw (hn.trans hx), ?_⟩,
    fun x hx => ⟨_, Kp_eq hD hT hp (hw.trans hx) hn, ?_⟩, fun x hx => ⟨_, Kp_eq hD hT (hp.trans hx) hw hn, ?_⟩, fun x hx => ⟨_, Kp_eq hD (hT.trans hx) hp hw hn, ?_⟩, ?_,
    fun x hx => ?_⟩
  · rw [Kp_eq (by positivity) (by gcongr) (by positivity) (by positivity) hn, mul_div_mul_left _ _ hk.ne', mul_div_mul_left _ _ hk.ne',
      show 82.8 * (k * h) / (k * D) = 82.8 * h / D by field_simp, show 0.5 * (k * T - k * D) / (k * D) = 0.5 * (T - D) / D by field_simp]
  · rw [Kp_eq hD hT hp hw hn]; congr 1; ring
  · have : nb ^ (0.78:ℝ) < x ^ (0.78:ℝ) := rpow_lt_rpow hn.le hx (by norm_num)
    gcongr
  · have : (width / D) ^ (0.2:ℝ) < (x / D) ^ (0.2:ℝ) := rpow_lt_rpow (by positivity) (by gcongr) (by norm_num)
    gcongr
  · have : (x / D) ^ (-0.35:ℝ) < (pitch / D) ^ (-0.35:ℝ) := rpow_lt_rpow_of_neg (by positivity) (by gcongr) (by norm_num)
    gcongr
  · have hx' : 0 < x - D := by linarith
    have : (0.5 * (x - D) / D) ^ (-0.38:ℝ) < (0.5 * (T - D) / D) ^ (-0.38:ℝ) := rpow_lt_rpow_of_neg (by positivity) (by gcongr) (by norm_num)
    gcongr
  · unfold Kp_helical_ribbon_Rieger
    rw [pdiv_ok hD.ne', Py.ok_bind, pdiv_ok hD.ne', Py.ok_bind]
    simp only [sub_self, mul_zero, zero_div]
    have : ((0:ℝ) ^ₚ (-0.38)) = .error .zeroDivisionError := by unfold ppow; norm_num
    rw [this, Py.error_bind]
  · unfold Kp_helical_ribbon_Rieger
    rw [pdiv_ok hD.ne', Py.ok_bind, pdiv_ok hD.ne', Py.ok_bind]
    have h0 : 0.5 * (x - D) / D < 0 := div_neg_of_neg_of_pos (by linarith) hD
    have : ppow (0.5 * (x - D) / D) (-0.38) = .error .complexResult := by
      unfold ppow
      rw [if_neg (fun h => h0.ne h.1), if_pos]
      refine ⟨h0, fun ⟨k, hk⟩ => ?_⟩
      have h100 : ((k * 100 : ℤ) : ℝ) = ((-38 : ℤ) : ℝ) := by push_cast; rw [hk]; norm_num
      have := Int.cast_injective h100
      omega
    rw [this, Py.error_bind]

example : ∃ K, Kp_helical_ribbon_Rieger 1.9 1.9 2 1.9 0.19 2 = .ok K ∧ 0 < K :=
  let ⟨t, h, h', _⟩ := C98_ribbon (D := 1.9) (h := 1.9) (nb := 2) (pitch := 1.9) (width := 0.19) (T := 2) (by norm_num) (by norm_num) (by norm_num) (by norm_num)
    (by norm_num) (by norm_num)
  ⟨t, h, h'⟩

/-- C98: the blend time of a helical ribbon is positive, inversely proportional to the speed (a fixed number of revolutions) and falls strictly with `Kp` -/
theorem C98_ribbon_time {Kp Kp' N : ℝ} (hK : 0 < Kp) (hKK : Kp < Kp') (hN : 0 < N) :
    ∃ t, time_helical_ribbon_Grenville Kp N = .ok t ∧ 0 < t ∧ (∀ N' > 0, ∃ t', time_helical_ribbon_Grenville Kp N' = .ok t' ∧ N' * t' = N * t) ∧
      (∃ t', time_helical_ribbon_Grenville Kp' N = .ok t' ∧ t' < t) ∧ time_helical_ribbon_Grenville Kp 0 = .error .zeroDivisionError := by
  have f : ∀ {Kp N : ℝ}, 0 < Kp → 0 < N → time_helical_ribbon_Grenville Kp N = .ok (896e3 * Kp ^ (-1.69:ℝ) / N) := by
    intro K N hK hN
    unfold time_helical_ribbon_Grenville; py_eval []
  refine ⟨_, f hK hN, by positivity, fun N' hN' => ⟨_, f hK hN', by field_simp⟩, ⟨_, f (hK.trans hKK) hN, ?_⟩, ?_⟩
  · have : Kp' ^ (-1.69:ℝ) < Kp ^ (-1.69:ℝ) := rpow_lt_rpow_of_neg hK hKK (by norm_num)
    gcongr
  · unfold time_helical_ribbon_Grenville
    rw [ppow_ok hK, Py.ok_bind, pdiv_zero]

example : ∃ t, time_helical_ribbon_Grenville 357.4 (4 / 60) = .ok t ∧ 0 < t :=
  let ⟨t, h, h', _⟩ := C98_ribbon_time (Kp := 357.4) (Kp' := 358) (N := 4 / 60) (by norm_num) (by norm_num) (by norm_num)
  ⟨t, h, h'⟩

/-! ### mixing tees -/

/-- the momentum ratio of a tee -/
def momentum (Q1 Q2 D D2 : ℝ) (n : ℕ) : ℝ := ((n:ℝ) * Q2 * D / (Q1 * D2)) ^ 2

theorem size_tee_eq {Q1 Q2 D D2 L E : ℝ} {n : ℕ} (h1 : 0 < Q1) (h2 : 0 < Q2) (hD : 0 < D) (hD2 : 0 < D2) (hn : 0 < n) (hL : 0 < L)
    (hE : teeExponent n (momentum Q1 Q2 D D2 n) = .ok E) :
    size_tee Q1 Q2 D (some D2) n L = .ok (√(0.32 / momentum Q1 Q2 D D2 n ^ (0.86:ℝ) * L ^ (-E))) := by
  have n0 : (0:ℝ) < n := by exact_mod_cast hn
  have e : (n:ℝ) ^ 2 * (D2 / D) ^ 2 * (Q2 / (π / 4 * D2 ^ 2) / (Q1 / (π / 4 * D ^ 2))) ^ 2 = momentum Q1 Q2 D D2 n := by
    unfold momentum; field_simp
  have b : 0 < momentum Q1 Q2 D D2 n := by unfold momentum; positivity
  have p1 : π / 4 * D ^ 2 ≠ 0 := by positivity
  have p2 : π / 4 * D2 ^ 2 ≠ 0 := by positivity
  have p3 : Q1 / (π / 4 * D ^ 2) ≠ 0 := by positivity
  unfold size_tee teeDiameter
  simp only [pdiv_ok p1, Py.ok_bind, pdiv_ok p2, pdiv_ok hD.ne', pdiv_ok p3, e, hE, ppow_ok b, pdiv_ok (rpow_pos_of_pos b _).ne', ppow_ok hL, Py.pure_eq]
  rw [psqrt_ok (by positivity)]

/-- C98: without an injection diameter the tee uses the optimal one, `D (Q2/Q1)^(2/3)`, which gives the momentum ratio `n² (Q2/Q1)^(2/3)` -/
theorem C98_tee_optimal {Q1 Q2 D L : ℝ} {n : ℕ} (h1 : 0 < Q1) (h2 : 0 < Q2) (hD : 0 < D) :
    size_tee Q1 Q2 D none n L = size_tee Q1 Q2 D (some ((Q2 / Q1) ^ (2 / 3:ℝ) * D)) n L ∧
    momentum Q1 Q2 D ((Q2 / Q1) ^ (2 / 3:ℝ) * D) n = n ^ 2 * (Q2 / Q1) ^ (2 / 3:ℝ) := by
  have r : 0 < Q2 / Q1 := by positivity
  constructor
  · unfold size_tee teeDiameter
    simp only [pdiv_ok h1.ne', Py.ok_bind, ppow_ok r, Py.pure_eq]
  · have e : (Q2 / Q1) ^ 2 = (Q2 / Q1) ^ (2 / 3:ℝ) * (Q2 / Q1) ^ (2 / 3:ℝ) * (Q2 / Q1) ^ (2 / 3:ℝ) := by
      rw [← rpow_add r, ← rpow_add r, ← rpow_natCast]; norm_num
    have p : 0 < (Q2 / Q1) ^ (2 / 3:ℝ) := by positivity
    unfold momentum
    rw [show (n:ℝ) * Q2 * D / (Q1 * ((Q2 / Q1) ^ (2 / 3:ℝ) * D)) = n * (Q2 / Q1) / (Q2 / Q1) ^ (2 / 3:ℝ) by field_simp, div_pow, mul_pow, e]
    field_simp

/-- the exponents of two, three and four jets: continuous at the boundary (the value at the boundary is the constant below it) and rising with the momentum ratio -/
theorem C98_tee_exponent {n : ℕ} (hn : n = 2 ∨ n = 3 ∨ n = 4) {x y : ℝ} (hx : 0 < x) (hxy : x ≤ y) :
    ∃ a b, teeExponent n x = .ok a ∧ teeExponent n y = .ok b ∧ 1 < a ∧ a ≤ b := by
  have hy := hx.trans_le hxy
  have key : ∀ (c e k : ℝ), 0 < c → 0 < e → 1 < k → ∀ (f : ℝ → Py ℝ), (∀ t : ℝ, 0 < t → f t = if t < c then .ok k else .ok (k + 0.95 * log (t / c) ^ e)) →
      ∃ a b, f x = .ok a ∧ f y = .ok b ∧ 1 < a ∧ a ≤ b := by
    intro c e k hc he hk f hf
    rw [hf x hx, hf y hy]
    by_cases h1 : x < c
    · rw [if_pos h1]
      by_cases h2 : y < c
      · rw [if_pos h2]; exact ⟨_, _, rfl, rfl, hk, le_refl _⟩
      · rw [if_neg h2]
        have : 0 ≤ log (y / c) := log_nonneg (by rw [le_div_iff₀ hc]; linarith)
        refine ⟨_, _, rfl, rfl, hk, ?_⟩
        have : 0 ≤ log (y / c) ^ e := rpow_nonneg this _
        linarith
    · rw [if_neg h1, if_neg (by linarith)]
      have l0 : 0 ≤ log (x / c) := log_nonneg (by rw [le_div_iff₀ hc]; linarith)
      have l1 : log (x / c) ≤ log (y / c) := log_le_log (by positivity) (by gcongr)
      have : log (x / c) ^ e ≤ log (y / c) ^ e := rpow_le_rpow l0 l1 he.le
      have : 0 ≤ log (x / c) ^ e := rpow_nonneg l0 _
      exact ⟨_, _, rfl, rfl, by linarith, by linarith⟩
  rcases hn with rfl | rfl | rfl
  · refine key 0.8 1.5 1.44 (by norm_num) (by norm_num) (by norm_num) _ fun t ht => ?_
    simp only [teeExponent, if_neg (show ¬ (2:ℕ) = 1 by decide), if_true]
    split_ifs with h
    · rfl
    · rw [plog_ok (by positivity), Py.ok_bind, ppow_ok' (log_nonneg (by rw [le_div_iff₀ (by norm_num)]; linarith)) (by norm_num)]; rfl
  · refine key 0.8 1.8 1.75 (by norm_num) (by norm_num) (by norm_num) _ fun t ht => ?_
    simp only [teeExponent, if_neg (show ¬ (3:ℕ) = 1 by decide), if_neg (show ¬ (3:ℕ) = 2 by decide), if_true]
    split_ifs with h
    · rfl
    · rw [plog_ok (by positivity), Py.ok_bind, ppow_ok' (log_nonneg (by rw [le_div_iff₀ (by norm_num)]; linarith)) (by norm_num)]; rfl
  · refine key 2 2 1.97 (by norm_num) (by norm_num) (by norm_num) _ fun t ht => ?_
    simp only [teeExponent, if_neg (show ¬ (4:ℕ) = 1 by decide), if_neg (show ¬ (4:ℕ) = 2 by decide), if_neg (show ¬ (4:ℕ) = 3 by decide), if_true]
    split_ifs with h
    · rfl
    · rw [plog_ok (by positivity), Py.ok_bind]
      congr 1
      rw [show (2:ℝ) = ((2:ℕ):ℝ) by norm_num, rpow_natCast]

theorem C98_tee_boundary : teeExponent 2 0.8 = .ok 1.44 ∧ teeExponent 3 0.8 = .ok 1.75 ∧ teeExponent 4 2 = .ok 1.97 ∧
    (∀ B : ℝ, B < 0.8 → teeExponent 2 B = .ok 1.44 ∧ teeExponent 3 B = .ok 1.75) ∧ (∀ B : ℝ, B < 2 → teeExponent 4 B = .ok 1.97) ∧
    (∀ B : ℝ, B < 0.7 → teeExponent 1 B = .ok 1.33) ∧ teeExponent 1 0.7 = .ok (1 / 33) := by
  refine ⟨?_, ?_, ?_, fun B h => ⟨?_, ?_⟩, fun B h => ?_, fun B h => ?_, ?_⟩
  · norm_num [teeExponent, ppow_ok' (le_refl (0:ℝ)), plog_ok]
  · norm_num [teeExponent, ppow_ok' (le_refl (0:ℝ)), plog_ok]
  · norm_num [teeExponent, plog_ok]
  · simp [teeExponent, h]
  · simp [teeExponent, h]
  · simp [teeExponent, h]
  · simp [teeExponent, h]
  · norm_num [teeExponent, plog_ok]

/-- C98: with two to four jets, downstream of the first diameter, the tee's coefficient of variation is positive, depends only on the flow ratio and the diameter
ratio, falls strictly with the distance and falls strictly as the injection nozzle narrows -/
theorem C98_tee {Q1 Q2 D D2 L : ℝ} {n : ℕ} (h1 : 0 < Q1) (h2 : 0 < Q2) (hD : 0 < D) (hD2 : 0 < D2) (hn : n = 2 ∨ n = 3 ∨ n = 4) (hL : 1 ≤ L) :
    ∃ c, size_tee Q1 Q2 D (some D2) n L = .ok c ∧ 0 < c ∧
      (∀ k : ℝ, 0 < k → size_tee (k * Q1) (k * Q2) D (some D2) n L = .ok c ∧ size_tee Q1 Q2 (k * D) (some (k * D2)) n L = .ok c) ∧
      (∀ L' > L, ∃ c', size_tee Q1 Q2 D (some D2) n L' = .ok c' ∧ c' < c) ∧
      (∀ D2' : ℝ, 0 < D2' → D2' < D2 → ∃ c', size_tee Q1 Q2 D (some D2') n L = .ok c' ∧ c' < c) := by
  have n1 : 0 < n := by omega
  have n0 : (0:ℝ) < n := by exact_mod_cast n1
  have b : ∀ {x : ℝ}, 0 < x → 0 < momentum Q1 Q2 D x n := fun hx => by unfold momentum; positivity
  have L0 : 0 < L := by linarith
  obtain ⟨E, -, e1, -, e2, -⟩ := C98_tee_exponent hn (b hD2) (le_refl _)
  have bb := b hD2
  refine ⟨_, size_tee_eq h1 h2 hD hD2 n1 L0 e1, sqrt_pos.mpr (by positivity), fun k hk => ⟨?_, ?_⟩, fun L' hL' => ⟨_, size_tee_eq h1 h2 hD hD2 n1 (L0.trans hL') e1, ?_⟩,
    fun x hx hxD => ?_⟩
  · have : momentum (k * Q1) (k * Q2) D D2 n = momentum Q1 Q2 D D2 n := by unfold momentum; congr 1; field_simp
    rw [size_tee_eq (by positivity) (by positivity) hD hD2 n1 L0 (by rw [this]; exact e1), this]
  · have : momentum Q1 Q2 (k * D) (k * D2) n = momentum Q1 Q2 D D2 n := by unfold momentum; congr 1; field_simp
    rw [size_tee_eq h1 h2 (by positivity) (by positivity) n1 L0 (by rw [this]; exact e1), this]
  · have L1 : 0 < L' := L0.trans hL'
    apply sqrt_lt_sqrt (by positivity)
    have : L' ^ (-E) < L ^ (-E) := rpow_lt_rpow_of_neg L0 hL' (by linarith)
    gcongr
  · have m : momentum Q1 Q2 D D2 n < momentum Q1 Q2 D x n := by
      unfold momentum
      have : (n:ℝ) * Q2 * D / (Q1 * D2) < n * Q2 * D / (Q1 * x) := by gcongr
      gcongr
    obtain ⟨E0, E', f1, f2, -, f3⟩ := C98_tee_exponent hn bb m.le
    obtain rfl : E0 = E := Except.ok.inj (f1.symm.trans e1)
    refine ⟨_, size_tee_eq h1 h2 hD hx n1 L0 f2, ?_⟩
    have bx := b hx
    apply sqrt_lt_sqrt (by positivity)
    have i1 : 0.32 / momentum Q1 Q2 D x n ^ (0.86:ℝ) < 0.32 / momentum Q1 Q2 D D2 n ^ (0.86:ℝ) := by
      have : momentum Q1 Q2 D D2 n ^ (0.86:ℝ) < momentum Q1 Q2 D x n ^ (0.86:ℝ) := rpow_lt_rpow bb.le m (by norm_num)
      gcongr
    have i2 : L ^ (-E') ≤ L ^ (-E0) := rpow_le_rpow_of_exponent_le hL (by linarith)
    exact mul_lt_mul i1 i2 (by positivity) (by positivity)

example : ∃ c, size_tee 11.7 2.74 0.762 (some 0.3) 3 5 = .ok c ∧ 0 < c :=
  let ⟨t, h, h', _⟩ := C98_tee (Q1 := 11.7) (Q2 := 2.74) (D := 0.762) (D2 := 0.3) (n := 3) (L := 5) (by norm_num) (by norm_num) (by norm_num) (by norm_num)
    (by norm_num) (by norm_num)
  ⟨t, h, h'⟩

/-- C98: any other number of jets raises ValueError -/
theorem C98_tee_jets {Q1 Q2 D D2 L : ℝ} {n : ℕ} (h1 : 0 < Q1) (hD : 0 < D) (hD2 : 0 < D2) (hn : n = 0 ∨ 4 < n) :
    size_tee Q1 Q2 D (some D2) n L = .error .valueError := by
  have p1 : π / 4 * D ^ 2 ≠ 0 := by positivity
  have p2 : π / 4 * D2 ^ 2 ≠ 0 := by positivity
  have p3 : Q1 / (π / 4 * D ^ 2) ≠ 0 := by positivity
  have e : ∀ B, teeExponent n B = .error .valueError := fun B => by
    unfold teeExponent
    rw [if_neg (by omega), if_neg (by omega), if_neg (by omega), if_neg (by omega)]
  unfold size_tee teeDiameter
  simp only [pdiv_ok p1, Py.ok_bind, pdiv_ok p2, pdiv_ok hD.ne', pdiv_ok p3, e, Py.error_bind]

/-- C98: finding: with one jet the exponent drops from 1.33 to 1/33 at a momentum ratio of 0.7, so a narrower nozzle (a stronger jet) predicts worse mixing:
nozzle 1.25 against 1 in a pipe of diameter 1 with equal flows, five diameters downstream -/
theorem C98_tee_finding : ∃ c c', size_tee 1 1 1 (some 1.25) 1 5 = .ok c ∧ size_tee 1 1 1 (some 1) 1 5 = .ok c' ∧ c < c' := by
  have m1 : momentum 1 1 1 1.25 1 = 0.64 := by unfold momentum; norm_num
  have m2 : momentum 1 1 1 1 1 = 1 := by unfold momentum; norm_num
  have e1 : teeExponent 1 (momentum 1 1 1 1.25 1) = .ok 1.33 := by rw [m1]; norm_num [teeExponent]
  have e2 : teeExponent 1 (momentum 1 1 1 1 1) = .ok (1 / 33 + 0.95 * log (1 / 0.7)) := by
    rw [m2]
    unfold teeExponent
    rw [if_pos rfl, if_neg (by norm_num), plog_ok (by norm_num)]; rfl
  refine ⟨_, _, size_tee_eq one_pos one_pos one_pos (by norm_num) one_pos (by norm_num) e1, size_tee_eq one_pos one_pos one_pos one_pos one_pos (by norm_num) e2, ?_⟩
  rw [m1, m2, one_rpow]
  apply sqrt_lt_sqrt (by positivity)
  have l : log (1 / 0.7 : ℝ) ≤ 3 / 7 := by
    have := log_le_sub_one_of_pos (show (0:ℝ) < 1 / 0.7 by norm_num)
    norm_num at *; linarith
  have i1 : (5:ℝ) ^ (-0.5:ℝ) ≤ 5 ^ (-(1 / 33 + 0.95 * log (1 / 0.7)) : ℝ) := rpow_le_rpow_of_exponent_le (by norm_num) (by norm_num at *; linarith)
  have i2 : (0.64:ℝ) ≤ 0.64 ^ (0.86:ℝ) := by
    have := rpow_le_rpow_of_exponent_ge (show (0:ℝ) < 0.64 by norm_num) (by norm_num) (show (0.86:ℝ) ≤ 1 by norm_num)
    rwa [rpow_one] at this
  have i3 : (5:ℝ) ^ (-1.33:ℝ) < 0.5 * 5 ^ (-0.5:ℝ) := by
    have h1 : (5:ℝ) ^ (-1.33:ℝ) ≤ 5 ^ (-1:ℝ) := rpow_le_rpow_of_exponent_le (by norm_num) (by norm_num)
    have h2 : (5:ℝ) ^ (-1:ℝ) = 5 ^ (-0.5:ℝ) * 5 ^ (-0.5:ℝ) := by rw [← rpow_add (by norm_num)]; norm_num
    have h3 : (5:ℝ) ^ (-0.5:ℝ) < 0.5 := by
      have := rpow_lt_rpow_of_neg (show (0:ℝ) < 4 by norm_num) (show (4:ℝ) < 5 by norm_num) (show (-0.5:ℝ) < 0 by norm_num)
      have h4 : (4:ℝ) ^ (-0.5:ℝ) = 0.5 := by
        rw [show (4:ℝ) = 2 ^ (2:ℝ) by norm_num, ← rpow_mul (by norm_num)]; norm_num
      linarith
    have h5 : (0:ℝ) < 5 ^ (-0.5:ℝ) := by positivity
    nlinarith
  have i4 : (0.32:ℝ) / 0.64 ^ (0.86:ℝ) ≤ 0.5 := by
    rw [div_le_iff₀ (by positivity)]; norm_num at *; linarith
  have h5 : (0:ℝ) < 5 ^ (-1.33:ℝ) := by positivity
  have h6 : (0:ℝ) < 5 ^ (-0.5:ℝ) := by positivity
  have h7 : (0.32:ℝ) / 0.64 ^ (0.86:ℝ) * 5 ^ (-1.33:ℝ) ≤ 0.5 * 5 ^ (-1.33:ℝ) := by gcongr
  rw [div_one]
  nlinarith

/-! ### motionless mixers -/

theorem COV_eq {Ki Q1 Q2 L : ℝ} (hK : 0 < Ki) (h1 : 0 < Q1) (h2 : 0 < Q2) : COV_motionless_mixer Ki Q1 Q2 L = .ok (√(Q1 / Q2) * Ki ^ L) := by
  have e : (1 - Q2 / (Q1 + Q2)) / (Q2 / (Q1 + Q2)) = Q1 / Q2 := by field_simp; ring
  have s : Q1 + Q2 ≠ 0 := by positivity
  have c : Q2 / (Q1 + Q2) ≠ 0 := by positivity
  unfold COV_motionless_mixer
  rw [pdiv_ok s, Py.ok_bind, pdiv_ok c, Py.ok_bind, e, psqrt_ok (by positivity), Py.ok_bind, ppow_ok hK, Py.ok_bind, Py.pure_eq]

/-- C98: the unmixed streams start at the coefficient of variation `√(Q1/Q2)`, mixers in series multiply their reductions, and a constant below one makes every
further length mix better; the result depends on the flow ratio only -/
theorem C98_motionless {Ki Q1 Q2 : ℝ} (hK : 0 < Ki) (h1 : 0 < Q1) (h2 : 0 < Q2) :
    COV_motionless_mixer Ki Q1 Q2 0 = .ok √(Q1 / Q2) ∧
    (∀ {L M x : ℝ}, COV_motionless_mixer Ki Q1 Q2 L = .ok x → COV_motionless_mixer Ki Q1 Q2 (L + M) = .ok (x * Ki ^ M)) ∧
    (∀ {L M : ℝ}, Ki < 1 → L < M → ∃ x y, COV_motionless_mixer Ki Q1 Q2 L = .ok x ∧ COV_motionless_mixer Ki Q1 Q2 M = .ok y ∧ 0 < y ∧ y < x) ∧
    (∀ {k L : ℝ}, 0 < k → COV_motionless_mixer Ki (k * Q1) (k * Q2) L = COV_motionless_mixer Ki Q1 Q2 L) := by
  refine ⟨by rw [COV_eq hK h1 h2, rpow_zero, mul_one], fun {L M x} h => ?_, fun {L M} k1 h => ⟨_, _, COV_eq hK h1 h2, COV_eq hK h1 h2, by positivity, ?_⟩, fun {k L} hk => ?_⟩
  · rw [COV_eq hK h1 h2] at *
    rw [← Except.ok.inj h, rpow_add hK, mul_assoc]
  · have : Ki ^ M < Ki ^ L := rpow_lt_rpow_of_exponent_gt hK k1 h
    gcongr
  · rw [COV_eq hK (by positivity) (by positivity), COV_eq hK h1 h2, mul_div_mul_left _ _ hk.ne']

example : COV_motionless_mixer 0.33 11.7 2.74 0 = .ok √(11.7 / 2.74) := (C98_motionless (by norm_num) (by norm_num) (by norm_num)).1

/-- C98: the loss coefficient of a motionless mixer adds up over mixers in series -/
theorem C98_motionless_K {K L M D fd x y : ℝ} (h : K_motionless_mixer K L D fd = .ok x) (h' : K_motionless_mixer K M D fd = .ok y) :
    K_motionless_mixer K (L + M) D fd = .ok (x + y) ∧ D ≠ 0 := by
  have hD : D ≠ 0 := by
    rintro rfl
    simp [K_motionless_mixer] at h
  have f : ∀ L, K_motionless_mixer K L D fd = .ok (L / D * fd * K) := fun L => by unfold K_motionless_mixer; py_eval []
  rw [f] at *
  refine ⟨?_, hD⟩
  rw [← Except.ok.inj h, ← Except.ok.inj h']
  congr 1; ring

example : K_motionless_mixer 150 (0.762 * 5) 0.762 0.01 = .ok (0.762 * 5 / 0.762 * 0.01 * 150) := by
  have : (0.762:ℝ) ≠ 0 := by norm_num
  unfold K_motionless_mixer; py_eval []

/-- C98: every mixer in the table is stored under its own name, reduces the coefficient of variation in laminar and in turbulent flow, and has a larger loss
constant in turbulent flow -/
theorem C98_mixers : (StatixMixers.map Prod.fst).Nodup ∧
    ∀ e ∈ StatixMixers, e.1 = e.2.Name ∧ 0 < e.2.KiL ∧ e.2.KiL < 1 ∧ 0 < e.2.KiT ∧ e.2.KiT < 1 ∧ 0 < e.2.KL ∧ e.2.KL < e.2.KT := by
  decide +kernel

end Verif.Mixing
