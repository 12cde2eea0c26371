import Verif.Model.TwoPhaseRegime
import Verif.Lemmas.TwoPhase
import Verif.Props.Splines

/-! C104: the Mandhane-Gregory-Aziz and Taitel-Dukler flow regime maps. -/

open Real

noncomputable section

namespace Verif.TwoPhase

open Spec.TwoPhase

variable {Vsl Vsg X1 Y1 : ℝ}

/-- The gas velocity where stratified and bubble flow end, for a positive liquid velocity (ft/s, air-water). -/
def slugOnset (V : ℝ) : ℝ :=
  if V ≤ 0.1 then 14 * (V / 0.1) ^ (-0.368 : ℝ) else if V ≤ 0.2 then 14 * (V / 0.1) ^ (-0.415 : ℝ) else if V ≤ 1.15 then 10.5 * (V / 0.2) ^ (-0.816 : ℝ)
  else if V ≤ 4.8 then 2.5 else 2.5 * (V / 4.8) ^ (0.248 : ℝ)

/-- The gas velocity where annular mist begins, below dispersed bubble flow. -/
def mistOnset (V : ℝ) : ℝ :=
  if V ≤ 0.1 then 70 * (V / 0.01) ^ (-0.0675 : ℝ) else if V ≤ 0.3 then 60 * (V / 0.1) ^ (-0.415 : ℝ) else if V ≤ 0.56 then 38 * (V / 0.3) ^ (0.0813 : ℝ)
  else if V ≤ 1 then 40 * (V / 0.56) ^ (0.385 : ℝ) else if V ≤ 2.5 then 50 * V ^ (0.756 : ℝ) else 100 * (V / 2.5) ^ (0.463 : ℝ)

/-- The Mandhane map: `X1` and `Y1` are the fluid property scales of the gas and liquid axes. -/
def mandhane (Vsl Vsg X1 Y1 : ℝ) : String :=
  if 14 * Y1 ≤ Vsl then (if Vsg ≤ 230 * (Vsl / 14) ^ (0.206 : ℝ) * X1 then "dispersed bubble" else "annular mist")
  else if Vsg ≤ slugOnset Vsl * X1 then (if 0.5 / Y1 ≤ Vsl then "elongated bubble" else "stratified")
  else if Vsg ≤ mistOnset Vsl * X1 then (if 0.3 * Y1 < Vsl then "slug" else "wave")
  else "annular mist"

theorem Y1345_eq (h : 0 < Vsl) : Mandhane_Y1345 Vsl = .ok (slugOnset Vsl) := by
  unfold Mandhane_Y1345 slugOnset
  split_ifs <;> first | rfl | (rw [ppow_ok (by positivity)]; rfl)

theorem Y456_eq (h : 0 < Vsl) : Mandhane_Y456 Vsl = .ok (mistOnset Vsl) := by
  unfold Mandhane_Y456 mistOnset
  split_ifs <;> (rw [ppow_ok (by positivity)]; simp only [Py.ok_bind, Py.pure_eq, div_one])

theorem pick_eq (h : 0 < Vsl) (hY : 0 < Y1) : Mandhane_pick Vsl Vsg X1 Y1 = .ok (mandhane Vsl Vsg X1 Y1) := by
  unfold Mandhane_pick mandhane
  by_cases h1 : Vsl < 14 * Y1
  · rw [if_pos h1, if_neg (not_le.2 h1), Y1345_eq h, Y456_eq h, pdiv_ok hY.ne']
    simp only [Py.ok_bind, Py.pure_eq]
    congr 1
    by_cases h2 : Vsg ≤ slugOnset Vsl * X1
    · by_cases h3 : 0.5 / Y1 ≤ Vsl
      · simp only [h2, h3, ge_iff_le, and_self, if_true]
      · simp only [h2, h3, ge_iff_le, and_false, if_false, (not_le.1 h3).le, and_self, if_true]
    · have h2' : slugOnset Vsl * X1 ≤ Vsg := (not_le.1 h2).le
      by_cases h3 : Vsg ≤ mistOnset Vsl * X1
      · by_cases h4 : 0.3 * Y1 < Vsl
        · simp only [h2, h2', h3, h4, ge_iff_le, gt_iff_lt, false_and, true_and, if_false, if_true]
        · simp only [h2, h2', h3, h4, ge_iff_le, gt_iff_lt, false_and, and_false, true_and, if_false, if_true, not_lt.1 h4]
      · simp only [h2, h2', h3, ge_iff_le, gt_iff_lt, false_and, and_false, if_false]
  · rw [if_neg h1, if_pos (not_lt.1 h1), ppow_ok (by positivity)]
    rfl

/-- Foot per second superficial velocities of the phases. -/
def fps (w rho D : ℝ) : ℝ := velocity w rho D / 0.3048

/-- The property scales of the map: 1 for air and water at the reference state. -/
def scaleG (rhol rhog mug sigma : ℝ) : ℝ := (rhog / 1.294292) ^ (0.333 : ℝ) * (rhol / 999.552 * (0.0724 / sigma)) ^ (1 / 4 : ℝ) * (mug / (1 / 1.8e5)) ^ (0.2 : ℝ)
def scaleL (rhol mul sigma : ℝ) : ℝ := (rhol / 999.552 * (0.0724 / sigma)) ^ (1 / 4 : ℝ) * (mul / 1e-3) ^ (0.2 : ℝ)

theorem sqrt_sqrt_eq {a : ℝ} (h : 0 ≤ a) : √(√a) = a ^ (1 / 4 : ℝ) := by
  rw [Real.sqrt_eq_rpow, Real.sqrt_eq_rpow, ← Real.rpow_mul h]; norm_num

variable {m x rhol rhog mul mug sigma D : ℝ}

/-- C104: for flowing liquid and any gas quality below 1 the Mandhane map returns the documented regime. The two velocities come back liquid first (finding: the
documentation lists the gas velocity first). -/
theorem C104_Mandhane (hm : 0 < m) (hx0 : 0 ≤ x) (hx1 : x < 1) (hl : 0 < rhol) (hg : 0 < rhog) (hml : 0 < mul) (hmg : 0 < mug) (hs : 0 < sigma) (hD : 0 < D) :
    Mandhane_Gregory_Aziz_regime m x rhol rhog mul mug sigma D =
      .ok (mandhane (fps (m * (1 - x)) rhol D) (fps (m * x) rhog D) (scaleG rhol rhog mug sigma) (scaleL rhol mul sigma),
        fps (m * (1 - x)) rhol D, fps (m * x) rhog D) := by
  have hy : 0 < 1 - x := by linarith
  have e1 : rhol * 0.0724 / (999.552 * sigma) = rhol / 999.552 * (0.0724 / sigma) := by field_simp
  have e2 : rhol * 0.0724 / 999.552 / sigma = rhol / 999.552 * (0.0724 / sigma) := by field_simp
  have p : 0 < rhol / 999.552 * (0.0724 / sigma) := by positivity
  have q : (0 : ℝ) < fps (m * (1 - x)) rhol D := by
    have := velocity_pos (D := D) (mul_pos hm hy) hl hD; unfold fps; positivity
  have r : 0 < scaleL rhol mul sigma := by unfold scaleL; positivity
  have sG : (rhog / 1.294292) ^ (0.333 : ℝ) * (rhol / 999.552 * (0.0724 / sigma)) ^ (1 / 4 : ℝ) * (mug * 1.8e5) ^ (0.2 : ℝ) = scaleG rhol rhog mug sigma := by
    unfold scaleG; congr 2; ring
  have sL : (rhol / 999.552 * (0.0724 / sigma)) ^ (1 / 4 : ℝ) * (mul * 1e3) ^ (0.2 : ℝ) = scaleL rhol mul sigma := by
    unfold scaleL; congr 2; ring
  unfold Mandhane_Gregory_Aziz_regime
  extract_lets A
  rw [vel1 hl hD, Py.ok_bind, vel1 hg hD, Py.ok_bind]
  extract_lets V W
  rw [ppow_ok (by positivity), Py.ok_bind, pdiv_ok (by positivity), Py.ok_bind, e1, psqrt_ok p.le, Py.ok_bind, psqrt_ok (by positivity), Py.ok_bind,
    ppow_ok (by positivity), Py.ok_bind]
  extract_lets X
  rw [pdiv_ok (by positivity), Py.ok_bind, e2, psqrt_ok p.le, Py.ok_bind, psqrt_ok (by positivity), Py.ok_bind, ppow_ok (by positivity), Py.ok_bind]
  extract_lets Y
  have hX : X = scaleG rhol rhog mug sigma := by rw [← sG, ← sqrt_sqrt_eq p.le]
  have hY : Y = scaleL rhol mul sigma := by rw [← sL, ← sqrt_sqrt_eq p.le]
  have hV : V = fps (m * (1 - x)) rhol D := rfl
  have hW : W = fps (m * x) rhog D := rfl
  rw [hX, hY, hV, hW, pick_eq q r]
  rfl

/-- C104: the result is one of the six names of `Mandhane_Gregory_Aziz_regimes`, and each of them occurs. -/
theorem C104_Mandhane_names : (mandhane Vsl Vsg X1 Y1) ∈ Mandhane_Gregory_Aziz_regimes.map Prod.fst ∧
    ∀ s ∈ Mandhane_Gregory_Aziz_regimes.map Prod.fst, ∃ Vsl > 0, ∃ Vsg > 0, mandhane Vsl Vsg 1 1 = s := by
  constructor
  · unfold mandhane; split_ifs <;> simp [Mandhane_Gregory_Aziz_regimes]
  · simp only [Mandhane_Gregory_Aziz_regimes, List.map, List.forall_mem_cons, List.not_mem_nil, false_imp_iff, implies_true, and_true]
    refine ⟨⟨2, by norm_num, 1, by norm_num, ?_⟩, ⟨0.1, by norm_num, 1, by norm_num, ?_⟩, ⟨2, by norm_num, 10, by norm_num, ?_⟩, ⟨0.1, by norm_num, 20, by norm_num, ?_⟩,
      ⟨0.1, by norm_num, 1000, by norm_num, ?_⟩, ⟨14, by norm_num, 10, by norm_num, ?_⟩⟩
    · norm_num [mandhane, slugOnset]
    · norm_num [mandhane, slugOnset]
    · have : (1 : ℝ) ≤ 2 ^ (0.756 : ℝ) := Real.one_le_rpow (by norm_num) (by norm_num)
      have : (10 : ℝ) ≤ 50 * 2 ^ (189 / 250 : ℝ) := by
        have e : (0.756 : ℝ) = 189 / 250 := by norm_num
        rw [e] at this; linarith
      norm_num [mandhane, slugOnset, mistOnset, this]
    · have h : (20 : ℝ) ≤ 70 * 10 ^ (-(27 / 400) : ℝ) := by
        have : (10 : ℝ) ^ (-1 / 2 : ℝ) ≤ 10 ^ (-(27 / 400) : ℝ) := Real.rpow_le_rpow_of_exponent_le (by norm_num) (by norm_num)
        have e : (10 : ℝ) ^ (-1 / 2 : ℝ) = (√10)⁻¹ := by rw [show (-1 / 2 : ℝ) = -(1 / 2) by norm_num, Real.rpow_neg (by norm_num), Real.sqrt_eq_rpow]
        have s : √(10 : ℝ) ≤ 3.5 := Real.sqrt_le_iff.2 ⟨by norm_num, by norm_num⟩
        have : (3.5 : ℝ)⁻¹ ≤ (√10)⁻¹ := inv_anti₀ (by positivity) s
        norm_num at this
        linarith
      norm_num [mandhane, slugOnset, mistOnset, h]
    · have h : ¬ (1000 : ℝ) ≤ 70 * 10 ^ (-(27 / 400) : ℝ) := by
        have : (10 : ℝ) ^ (-(27 / 400) : ℝ) ≤ 1 := Real.rpow_le_one_of_one_le_of_nonpos (by norm_num) (by norm_num)
        linarith
      norm_num [mandhane, slugOnset, mistOnset, h]
    · norm_num [mandhane]

/-- Order of the regimes met as the gas velocity rises at a fixed liquid velocity. -/
def stage (s : String) : ℕ :=
  if s = "annular mist" then 2 else if s = "slug" ∨ s = "wave" then 1 else 0

/-- C104: raising the gas velocity at a fixed liquid velocity never goes back: bubble or stratified, then slug or wave, then annular mist. -/
theorem C104_Mandhane_order {Vsg' : ℝ} (h : Vsg ≤ Vsg') : stage (mandhane Vsl Vsg X1 Y1) ≤ stage (mandhane Vsl Vsg' X1 Y1) := by
  unfold mandhane
  split_ifs <;> first | (exfalso; linarith) | simp [stage]

/-- C104 (error): with no liquid (`x = 1`) the map divides by zero. -/
theorem C104_Mandhane_gas_only (hm : 0 < m) (hl : 0 < rhol) (hg : 0 < rhog) (hml : 0 < mul) (hmg : 0 < mug) (hs : 0 < sigma) (hD : 0 < D) :
    Mandhane_Gregory_Aziz_regime m 1 rhol rhog mul mug sigma D = .error .zeroDivisionError := by
  have p : 0 < rhol * 0.0724 / (999.552 * sigma) := by positivity
  have p' : 0 < rhol * 0.0724 / 999.552 / sigma := by positivity
  unfold Mandhane_Gregory_Aziz_regime
  extract_lets A
  rw [vel1 hl hD, Py.ok_bind, vel1 hg hD, Py.ok_bind]
  extract_lets V W
  rw [ppow_ok (by positivity), Py.ok_bind, pdiv_ok (by positivity), Py.ok_bind, psqrt_ok p.le, Py.ok_bind, psqrt_ok (by positivity), Py.ok_bind,
    ppow_ok (by positivity), Py.ok_bind]
  extract_lets X
  rw [pdiv_ok (by positivity), Py.ok_bind, psqrt_ok p'.le, Py.ok_bind, psqrt_ok (by positivity), Py.ok_bind, ppow_ok (by positivity), Py.ok_bind]
  extract_lets Y
  have hV : V = 0 := by simp [V, velocity]
  have hY : 0 < Y := by simp only [Y]; positivity
  have : Mandhane_pick V W X Y = .error .zeroDivisionError := by
    unfold Mandhane_pick Mandhane_Y1345
    have a : ppow ((0 : ℝ) / 0.1) (-0.368) = .error .zeroDivisionError := by simp [ppow]; norm_num
    rw [hV, if_pos (by positivity), if_pos (by norm_num), a]
    rfl
  rw [this]; rfl

-- the documented example flow satisfies the hypotheses and the reference point of the scales is air and water
example : scaleL 999.552 1e-3 0.0724 = 1 := by norm_num [scaleL]
example : ∃ v w, Mandhane_Gregory_Aziz_regime 0.6 0.112 915.12 2.67 180e-6 14e-6 0.065 0.05 = .ok (v, w) :=
  ⟨_, _, C104_Mandhane (by norm_num) (by norm_num) (by norm_num) (by norm_num) (by norm_num) (by norm_num) (by norm_num) (by norm_num) (by norm_num)⟩

/-! ### Taitel-Dukler -/

open Splines Translate

theorem splev_total {t c : List ℝ} {k n : ℕ} (hk : Knots t k n) (hc : n ≤ c.length) (x : ℝ) : ∃ v, py_splev x t c k 0 = .ok v := by
  have hlen := hk.len; have henough := hk.enough
  obtain ⟨l, e, l1, l2, l3, -⟩ := span_spec hk x
  simp only [py_splev, Nat.add_sub_cancel, idx_ok (0 : ℝ) (show k < t.length by omega), show t.length - (k + 1) = n by omega,
    idx_ok (0 : ℝ) (show n < t.length by omega), Py.ok_bind, OfNat.zero_ne_ofNat, zero_ne_one, and_false, if_false, ne_eq,
    not_true_eq_false, false_and, e]
  rw [splev_core hk hc x l1 l2 l3]
  exact ⟨_, rfl⟩

theorem knots_XA : Knots Dukler_XA_t 3 5 where
  len := rfl
  enough := by norm_num
  mono := by
    refine monotone_nat_of_le_succ fun n => ?_
    unfold knots
    by_cases h : n < 8
    · interval_cases n <;> norm_num [Dukler_XA_t]
    · have hl : Dukler_XA_t.length = 9 := rfl
      rw [hl, min_eq_right (by omega), min_eq_right (by omega)]
  first := by norm_num [Dukler_XA_t]
  last := by norm_num [Dukler_XA_t]

theorem knots_XC : Knots Dukler_XC_t 3 5 where
  len := rfl
  enough := by norm_num
  mono := by
    refine monotone_nat_of_le_succ fun n => ?_
    unfold knots
    by_cases h : n < 8
    · interval_cases n <;> norm_num [Dukler_XC_t]
    · have hl : Dukler_XC_t.length = 9 := rfl
      rw [hl, min_eq_right (by omega), min_eq_right (by omega)]
  first := by norm_num [Dukler_XC_t]
  last := by norm_num [Dukler_XC_t]

theorem knots_XD : Knots Dukler_XD_t 3 4 where
  len := rfl
  enough := by norm_num
  mono := by
    refine monotone_nat_of_le_succ fun n => ?_
    unfold knots
    by_cases h : n < 7
    · interval_cases n <;> norm_num [Dukler_XD_t]
    · have hl : Dukler_XD_t.length = 8 := rfl
      rw [hl, min_eq_right (by omega), min_eq_right (by omega)]
  first := by norm_num [Dukler_XD_t]
  last := by norm_num [Dukler_XD_t]

theorem curve_total {t c : List ℝ} {n : ℕ} (hk : Knots t 3 n) (hc : n ≤ c.length) {X : ℝ} (hX : 0 < X) :
    ∃ y > 0, Dukler_curve t c X = .ok y := by
  obtain ⟨v, e⟩ := splev_total hk hc (log X / log 10)
  exact ⟨10 ^ v, by positivity, by simp only [Dukler_curve, plog10_ok hX, Py.ok_bind, e, ppow_ok (show (0 : ℝ) < 10 by norm_num)]⟩

/-- The Taitel-Dukler map given the three fitted transition curves: A for `F`, C for `K`, D for `T`, as functions of `X`. -/
def taitelDukler (A C D : ℝ → ℝ) (X T F K : ℝ) : String :=
  if A X ≤ F then (if X ≤ 1.7917 then "annular" else if D X ≤ T then "bubbly" else "intermittent")
  else if C X ≤ K then "stratified wavy" else "stratified smooth"

/-- Decimal logarithm of a cubic spline curve through the decimal logarithm of `X`. -/
def loglog (t c : List ℝ) (n : ℕ) (X : ℝ) : ℝ := 10 ^ ∑ i ∈ Finset.range n, c.getD i 0 * bspline (knots t) 3 i (log X / log 10)

/-- `y` is the fitted curve: positive, and the spline wherever `log₁₀ X` is inside the knots. -/
def Fitted (t c : List ℝ) (n : ℕ) (y : ℝ → ℝ) : Prop :=
  ∀ X > 0, 0 < y X ∧ (t.getD 3 0 ≤ log X / log 10 → log X / log 10 < t.getD n 0 → y X = loglog t c n X)

theorem fitted {t c : List ℝ} {n : ℕ} (hk : Knots t 3 n) (hc : n ≤ c.length) :
    ∃ y, Fitted t c n y ∧ ∀ X > 0, Dukler_curve t c X = .ok (y X) := by
  choose y y0 e using fun (X : Set.Ioi (0 : ℝ)) => curve_total (c := c) hk hc X.2
  refine ⟨fun X => if h : 0 < X then y ⟨X, h⟩ else 0, fun X hX => ?_, fun X hX => by simp only [hX, dite_true, e ⟨X, hX⟩]⟩
  simp only [show (0 : ℝ) < X from hX, dite_true]
  refine ⟨y0 _, fun h1 h2 => ?_⟩
  have := e ⟨X, hX⟩
  simp only [Dukler_curve, plog10_ok hX, Py.ok_bind, C30_splev hk hc 0 h1 h2, ppow_ok (show (0 : ℝ) < 10 by norm_num)] at this
  exact (Except.ok.inj this).symm

variable {ff : ℝ → ℝ → Py ℝ} {f : ℝ → ℝ} {roughness angle grav : ℝ}

/-- C104: for two-phase flow with a lighter gas in a pipe short of vertical the Taitel-Dukler map returns the documented groups `X`, `T`, `F`, `K = F √Re_l` and the regime
read off the three fitted curves. -/
theorem C104_Taitel_Dukler : ∃ A C Dd : ℝ → ℝ, Fitted Dukler_XA_t Dukler_XA_c 5 A ∧ Fitted Dukler_XC_t Dukler_XC_c 5 C ∧ Fitted Dukler_XD_t Dukler_XD_c 4 Dd ∧
    ∀ {ff : ℝ → ℝ → Py ℝ} {f : ℝ → ℝ} {m x rhol rhog mul mug D angle roughness grav : ℝ}, Flow ff f m rhol rhog mul mug D roughness → 0 < x → x < 1 → rhog < rhol →
      0 < grav → 0 < cos (angle * π / 180) →
      ∃ X T F K, X = √(drop f (m * (1 - x)) rhol mul D 1 / drop f (m * x) rhog mug D 1) ∧
        T = √(drop f (m * (1 - x)) rhol mul D 1 / ((rhol - rhog) * grav * cos (angle * π / 180))) ∧
        F = √(rhog / (rhol - rhog)) * velocity (m * x) rhog D / √(D * grav * cos (angle * π / 180)) ∧
        K = F * √(Re (m * (1 - x)) rhol mul D) ∧
        Taitel_Dukler_regime ff m x rhol rhog mul mug D angle roughness grav = .ok (taitelDukler A C Dd X T F K, X, T, F, K) := by
  obtain ⟨A, fA, eA⟩ := fitted (c := Dukler_XA_c) knots_XA (by simp [Dukler_XA_c])
  obtain ⟨C, fC, eC⟩ := fitted (c := Dukler_XC_c) knots_XC (by simp [Dukler_XC_c])
  obtain ⟨Dd, fD, eD⟩ := fitted (c := Dukler_XD_c) knots_XD (by simp [Dukler_XD_c])
  refine ⟨A, C, Dd, fA, fC, fD, ?_⟩
  intro ff f m x rhol rhog mul mug D angle roughness grav h x0 x1 hr hg hc
  obtain ⟨m0, l0, g0, ml0, mg0, D0, val, pos⟩ := h
  have hy : 0 < 1 - x := by linarith
  have wl : 0 < m * (1 - x) := by positivity
  have wg : 0 < m * x := by positivity
  have hd : 0 < rhol - rhog := by linarith
  have ea : π / 180 * angle = angle * π / 180 := by ring
  have pl := drop_pos (L := 1) pos wl l0 ml0 D0 one_pos
  have pg := drop_pos (L := 1) pos wg g0 mg0 D0 one_pos
  have vl := velocity_pos wl l0 D0
  have vg := velocity_pos wg g0 D0
  have Rl := Re_pos wl l0 ml0 D0
  have Rg := Re_pos wg g0 mg0 D0
  have dl : f (Re (m * (1 - x)) rhol mul D) / D * (0.5 * rhol * velocity (m * (1 - x)) rhol D * velocity (m * (1 - x)) rhol D) = drop f (m * (1 - x)) rhol mul D 1 := by
    unfold drop; ring
  have dg : f (Re (m * x) rhog mug D) / D * (0.5 * rhog * velocity (m * x) rhog D * velocity (m * x) rhog D) = drop f (m * x) rhog mug D 1 := by
    unfold drop; ring
  refine ⟨_, _, _, _, rfl, rfl, rfl, rfl, ?_⟩
  have hK : √(rhog * velocity (m * x) rhog D * velocity (m * x) rhog D * velocity (m * (1 - x)) rhol D / ((rhol - rhog) * grav * (mul / rhol) * cos (angle * π / 180))) =
      √(rhog / (rhol - rhog)) * velocity (m * x) rhog D / √(D * grav * cos (angle * π / 180)) * √(Re (m * (1 - x)) rhol mul D) := by
    rw [Real.sqrt_eq_iff_mul_self_eq (by positivity) (by positivity)]
    have s1 := Real.mul_self_sqrt (show 0 ≤ rhog / (rhol - rhog) by positivity)
    have s2 := Real.mul_self_sqrt (show 0 ≤ D * grav * cos (angle * π / 180) by positivity)
    have s3 := Real.mul_self_sqrt Rl.le
    rw [show ∀ a b c d : ℝ, a * b / c * d * (a * b / c * d) = (a * a) * (b * b) / (c * c) * (d * d) by intros; ring, s1, s2, s3]
    unfold Re
    field_simp
  unfold Taitel_Dukler_regime
  extract_lets ang Ar
  have hang : cos ang = cos (angle * π / 180) := by simp only [ang, ea]
  rw [vel1 l0 D0, Py.ok_bind, rey l0 ml0, Py.ok_bind, pdiv_ok D0.ne', Py.ok_bind, val _ Rl, Py.ok_bind, pdiv_ok D0.ne', Py.ok_bind, dl]
  extract_lets P
  rw [vel1 g0 D0, Py.ok_bind, rey g0 mg0, Py.ok_bind, Py.ok_bind, val _ Rg, Py.ok_bind, pdiv_ok D0.ne', Py.ok_bind, dg]
  extract_lets Q
  rw [hang, pdiv_ok pg.ne', Py.ok_bind, psqrt_ok (by positivity), Py.ok_bind, pdiv_ok hd.ne', Py.ok_bind, psqrt_ok (by positivity), Py.ok_bind,
    psqrt_ok (by positivity), Py.ok_bind, pdiv_ok (by positivity), Py.ok_bind, pdiv_ok l0.ne', Py.ok_bind, pdiv_ok (by positivity), Py.ok_bind,
    psqrt_ok (by positivity), Py.ok_bind, pdiv_ok (by positivity), Py.ok_bind, psqrt_ok (by positivity), Py.ok_bind, hK]
  have X0 : 0 < √(P / Q) := by positivity
  have hp : ∀ {X T F K : ℝ}, 0 < X → Taitel_Dukler_pick X T F K = .ok (taitelDukler A C Dd X T F K) := by
    intro X T F K hX
    unfold Taitel_Dukler_pick taitelDukler
    rw [eA X hX, eC X hX, eD X hX]
    simp only [Py.ok_bind, ge_iff_le]
    by_cases a : A X ≤ F
    · by_cases b : X ≤ 1.7917
      · simp only [a, b, and_self, if_true]; rfl
      · simp only [a, b, and_false, if_true, if_false]; rfl
    · simp only [a, false_and, if_false]; rfl
  rw [hp X0]
  rfl

/-- C104: the result is one of the five documented names, and stronger gas flow (`F`) at fixed other groups only leaves the stratified regimes. -/
theorem C104_Taitel_Dukler_names (A C D : ℝ → ℝ) (X T F K : ℝ) :
    taitelDukler A C D X T F K ∈ ["annular", "bubbly", "intermittent", "stratified wavy", "stratified smooth"] ∧
    (∀ F' ≥ F, taitelDukler A C D X T F K ∈ ["annular", "bubbly", "intermittent"] → taitelDukler A C D X T F' K = taitelDukler A C D X T F K) := by
  constructor
  · unfold taitelDukler; split_ifs <;> simp
  · intro F' hF
    unfold taitelDukler
    by_cases h : A X ≤ F
    · rw [if_pos h, if_pos (h.trans hF)]; simp
    · rw [if_neg h]; split_ifs <;> simp

/-- C104 (error): a vertical pipe divides by zero. -/
theorem C104_Taitel_Dukler_vertical (h : Flow ff f m rhol rhog mul mug D roughness) (x0 : 0 < x) (x1 : x < 1) (hr : rhog < rhol) :
    Taitel_Dukler_regime ff m x rhol rhog mul mug D 90 roughness grav = .error .zeroDivisionError := by
  obtain ⟨m0, l0, g0, ml0, mg0, D0, val, pos⟩ := h
  have hy : 0 < 1 - x := by linarith
  have wl : 0 < m * (1 - x) := by positivity
  have wg : 0 < m * x := by positivity
  have hd : 0 < rhol - rhog := by linarith
  have pl := drop_pos (L := 1) pos wl l0 ml0 D0 one_pos
  have pg := drop_pos (L := 1) pos wg g0 mg0 D0 one_pos
  have Rl := Re_pos wl l0 ml0 D0
  have Rg := Re_pos wg g0 mg0 D0
  have dl : f (Re (m * (1 - x)) rhol mul D) / D * (0.5 * rhol * velocity (m * (1 - x)) rhol D * velocity (m * (1 - x)) rhol D) = drop f (m * (1 - x)) rhol mul D 1 := by
    unfold drop; ring
  have dg : f (Re (m * x) rhog mug D) / D * (0.5 * rhog * velocity (m * x) rhog D * velocity (m * x) rhog D) = drop f (m * x) rhog mug D 1 := by
    unfold drop; ring
  unfold Taitel_Dukler_regime
  extract_lets ang Ar
  have hang : cos ang = 0 := by
    simp only [ang]; rw [show π / 180 * 90 = π / 2 by ring, cos_pi_div_two]
  rw [vel1 l0 D0, Py.ok_bind, rey l0 ml0, Py.ok_bind, pdiv_ok D0.ne', Py.ok_bind, val _ Rl, Py.ok_bind, pdiv_ok D0.ne', Py.ok_bind, dl]
  extract_lets P
  rw [vel1 g0 D0, Py.ok_bind, rey g0 mg0, Py.ok_bind, Py.ok_bind, val _ Rg, Py.ok_bind, pdiv_ok D0.ne', Py.ok_bind, dg]
  extract_lets Q
  rw [hang, pdiv_ok pg.ne', Py.ok_bind, psqrt_ok (by positivity), Py.ok_bind, pdiv_ok hd.ne', Py.ok_bind, psqrt_ok (by positivity), Py.ok_bind,
    mul_zero, psqrt_ok le_rfl, Py.ok_bind, Real.sqrt_zero, pdiv_zero, Py.error_bind]

-- a laminar pair of phases: every hypothesis of the Taitel-Dukler theorem holds
example : Flow (fun Re _ => .ok (64 / Re)) (fun Re => 64 / Re) 0.6 915 2.67 180e-6 14e-6 0.05 0 ∧ 0 < cos ((10 : ℝ) * π / 180) :=
  ⟨⟨by norm_num, by norm_num, by norm_num, by norm_num, by norm_num, by norm_num, fun _ _ => rfl, fun _ h => by positivity⟩,
    cos_pos_of_mem_Ioo ⟨by linarith [pi_pos], by linarith [pi_pos]⟩⟩

end Verif.TwoPhase
