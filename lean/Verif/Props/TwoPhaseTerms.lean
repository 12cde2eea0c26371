import Verif.Model.TwoPhaseRegime
import Verif.Lemmas.TwoPhase
import Mathlib.Analysis.Calculus.Deriv.Mul
import Mathlib.Analysis.Calculus.Deriv.Comp
import Mathlib.Analysis.Calculus.Deriv.Inv

/-! C103: the acceleration and gravitational pressure terms of two-phase flow. -/

open Real

noncomputable section

namespace Verif.TwoPhase

open Spec.TwoPhase

/-- Momentum flux per squared mass flux of separated flow: each phase's `x²/(ρ α)`. -/
def momentum (x alpha rhol rhog : ℝ) : ℝ := x ^ 2 / (alpha * rhog) + (1 - x) ^ 2 / ((1 - alpha) * rhol)

/-- A cross section with both phases present. -/
structure Section2 (alpha rhol rhog : ℝ) : Prop where
  pos : 0 < alpha
  lt : alpha < 1
  l : 0 < rhol
  g' : 0 < rhog

variable {m D xi xo xe ai ao ae li gi lo go le ge : ℝ}

theorem acc_eq (hD : 0 < D) (hi : Section2 ai li gi) (ho : Section2 ao lo go) :
    two_phase_dP_acceleration m D xi xo ai ao li gi (some lo) (some go) = .ok (flux m D ^ 2 * (momentum xo ao lo go - momentum xi ai li gi)) := by
  obtain ⟨a, b, c, d⟩ := hi
  obtain ⟨a', b', c', d'⟩ := ho
  have p := pi_pos
  have e1 : π * D * D ≠ 0 := by positivity
  have e2 : li * (1 - ai) ≠ 0 := (mul_pos c (by linarith)).ne'
  have e3 : gi * ai ≠ 0 := by positivity
  have e4 : lo * (1 - ao) ≠ 0 := (mul_pos c' (by linarith)).ne'
  have e5 : go * ao ≠ 0 := by positivity
  simp only [two_phase_dP_acceleration, pdiv_ok e1, Py.ok_bind, Option.getD_some, pdiv_ok e2, pdiv_ok e3, pdiv_ok e4, pdiv_ok e5, Py.pure_eq]
  congr 1
  have : 4 * m / (π * D * D) = flux m D := by unfold flux; field_simp
  rw [this]
  unfold momentum
  ring

/-- C103: the acceleration pressure drop is the mass flux squared times the rise of the momentum term between the ends; outlet densities not given are the inlet's. -/
theorem C103_acceleration (hD : 0 < D) (hi : Section2 ai li gi) :
    (∀ {lo go}, Section2 ao lo go →
      two_phase_dP_acceleration m D xi xo ai ao li gi (some lo) (some go) = .ok (flux m D ^ 2 * (momentum xo ao lo go - momentum xi ai li gi))) ∧
    (∀ {go}, Section2 ao li go →
      two_phase_dP_acceleration m D xi xo ai ao li gi none (some go) = .ok (flux m D ^ 2 * (momentum xo ao li go - momentum xi ai li gi))) ∧
    (∀ {lo}, Section2 ao lo gi →
      two_phase_dP_acceleration m D xi xo ai ao li gi (some lo) none = .ok (flux m D ^ 2 * (momentum xo ao lo gi - momentum xi ai li gi))) ∧
    (Section2 ao li gi →
      two_phase_dP_acceleration m D xi xo ai ao li gi none none = .ok (flux m D ^ 2 * (momentum xo ao li gi - momentum xi ai li gi))) :=
  ⟨fun h => acc_eq hD hi h, fun h => acc_eq hD hi h, fun h => acc_eq hD hi h, fun h => acc_eq hD hi h⟩

/-- C103: it adds up over consecutive stretches, reverses with the direction of travel and vanishes between equal ends. -/
theorem C103_acceleration_path (hD : 0 < D) (hi : Section2 ai li gi) (ho : Section2 ao lo go) (he : Section2 ae le ge) :
    (∃ p q r, two_phase_dP_acceleration m D xi xo ai ao li gi (some lo) (some go) = .ok p ∧
      two_phase_dP_acceleration m D xo xe ao ae lo go (some le) (some ge) = .ok q ∧
      two_phase_dP_acceleration m D xi xe ai ae li gi (some le) (some ge) = .ok r ∧ p + q = r) ∧
    (∃ p q, two_phase_dP_acceleration m D xi xo ai ao li gi (some lo) (some go) = .ok p ∧
      two_phase_dP_acceleration m D xo xi ao ai lo go (some li) (some gi) = .ok q ∧ p = -q) ∧
    two_phase_dP_acceleration m D xi xi ai ai li gi none none = .ok 0 := by
  refine ⟨⟨_, _, _, acc_eq hD hi ho, acc_eq hD ho he, acc_eq hD hi he, by ring⟩, ⟨_, _, acc_eq hD hi ho, acc_eq hD ho hi, by ring⟩, ?_⟩
  rw [(C103_acceleration hD hi).2.2.2 hi]
  congr 1; ring

/-- The homogeneous void fraction of an interior quality. -/
theorem homogeneous_section {x rhol rhog a : ℝ} (h0 : 0 < x) (h1 : x < 1) (hl : 0 < rhol) (hg : 0 < rhog) (ha : Voidage.homogeneous x rhol rhog = .ok a) :
    Section2 a rhol rhog ∧ momentum x a rhol rhog = 1 / rhoH x rhol rhog := by
  have hy : 0 < 1 - x := by linarith
  have e : Voidage.homogeneous x rhol rhog = .ok (x * rhol / (x * rhol + (1 - x) * rhog)) := by
    simp only [Voidage.homogeneous, if_neg h1.ne, if_neg h0.ne', pdiv_ok h0.ne', pdiv_ok hl.ne', Py.ok_bind]
    rw [pdiv_ok (by positivity)]
    congr 1
    field_simp
  obtain rfl := Except.ok.inj (e.symm.trans ha)
  have s : 0 < x * rhol + (1 - x) * rhog := by positivity
  refine ⟨⟨by positivity, ?_, hl, hg⟩, ?_⟩
  · rw [div_lt_one s]; nlinarith [mul_pos hy hg]
  · have : 1 - x * rhol / (x * rhol + (1 - x) * rhog) = (1 - x) * rhog / (x * rhol + (1 - x) * rhog) := by field_simp; ring
    unfold momentum rhoH
    rw [this, one_div, inv_inv]
    field_simp
    ring

/-- C103: with homogeneous void fractions the drop is `G²` times the growth of the mixture's specific volume; so it is positive when a flow whose gas is the lighter phase evaporates. -/
theorem C103_acceleration_homogeneous (hD : 0 < D) (xi0 : 0 < xi) (xi1 : xi < 1) (xo0 : 0 < xo) (xo1 : xo < 1) (hli : 0 < li) (hgi : 0 < gi) (hlo : 0 < lo)
    (hgo : 0 < go) (hai : Voidage.homogeneous xi li gi = .ok ai) (hao : Voidage.homogeneous xo lo go = .ok ao) :
    two_phase_dP_acceleration m D xi xo ai ao li gi (some lo) (some go) = .ok (flux m D ^ 2 * (1 / rhoH xo lo go - 1 / rhoH xi li gi)) ∧
    (li = lo → gi = go → gi < li → xi < xo → 0 < m →
      ∃ p > 0, two_phase_dP_acceleration m D xi xo ai ao li gi none none = .ok p) := by
  obtain ⟨si, ei⟩ := homogeneous_section xi0 xi1 hli hgi hai
  obtain ⟨so, eo⟩ := homogeneous_section xo0 xo1 hlo hgo hao
  refine ⟨by rw [acc_eq hD si so, ei, eo], ?_⟩
  rintro rfl rfl hlt hx hm
  refine ⟨_, ?_, (C103_acceleration hD si).2.2.2 so⟩
  rw [ei, eo]
  have : 0 < flux m D := by unfold flux; have := pi_pos; positivity
  refine mul_pos (by positivity) ?_
  unfold rhoH
  rw [one_div, inv_inv, one_div, inv_inv]
  have : xo / gi + (1 - xo) / li - (xi / gi + (1 - xi) / li) = (xo - xi) * (li - gi) / (gi * li) := by field_simp; ring
  rw [this]
  exact div_pos (mul_pos (by linarith) (by linarith)) (by positivity)

/-- C103 (finding): a single-phase end (void fraction 0 or 1) is refused with ZeroDivisionError although the absent phase carries no momentum. -/
theorem C103_acceleration_single_phase (hD : 0 < D) (hl : 0 < li) (hg : 0 < gi) :
    two_phase_dP_acceleration m D 0 xo 0 ao li gi none none = .error .zeroDivisionError ∧
    two_phase_dP_acceleration m D 1 xo 1 ao li gi none none = .error .zeroDivisionError := by
  have e1 : π * D * D ≠ 0 := by have := pi_pos; positivity
  constructor
  · simp only [two_phase_dP_acceleration, pdiv_ok e1, Py.ok_bind, sub_zero, mul_one, pdiv_ok hl.ne', mul_zero, pdiv_zero, Py.error_bind]
  · simp only [two_phase_dP_acceleration, pdiv_ok e1, Py.ok_bind, sub_self, mul_zero, pdiv_zero, Py.error_bind]

/-- C103: the differential acceleration term is minus `1/A` times the rate of change along the pipe of the momentum flow `m² v/A` of the homogeneous mixture, when pressure,
quality, specific volumes and flow area vary along it. -/
theorem C103_dz_acceleration {m z p' xp lp gp A' : ℝ} {P x vl vg D : ℝ → ℝ} (hD : 0 < D z) (hx0 : 0 < x (P z)) (hx1 : x (P z) < 1)
    (hl : 0 < vl (P z)) (hg : 0 < vg (P z)) (hP : HasDerivAt P p' z) (hx : HasDerivAt x xp (P z)) (hvl : HasDerivAt vl lp (P z)) (hvg : HasDerivAt vg gp (P z))
    (hA : HasDerivAt (fun z => π / 4 * D z ^ 2) A' z) :
    ∃ r dM, two_phase_dP_dz_acceleration m (D z) (x (P z)) (1 / vl (P z)) (1 / vg (P z)) lp gp xp p' A' = .ok r ∧
      HasDerivAt (fun z => m ^ 2 * (x (P z) * vg (P z) + (1 - x (P z)) * vl (P z)) / (π / 4 * D z ^ 2)) dM z ∧
      r = -(1 / (π / 4 * D z ^ 2)) * dM := by
  have p := pi_pos
  have hy : 0 < 1 - x (P z) := by linarith
  have a0 : 0 < 0.25 * π * D z * D z := by positivity
  have hM := (((hx.comp z hP).mul (hvg.comp z hP)).add (((hx.comp z hP).const_sub 1).mul (hvl.comp z hP))).const_mul (m ^ 2) |>.div hA (by positivity)
  have e : Voidage.homogeneous (x (P z)) (1 / vl (P z)) (1 / vg (P z)) = .ok (x (P z) * vg (P z) / (x (P z) * vg (P z) + (1 - x (P z)) * vl (P z))) := by
    simp only [Voidage.homogeneous, if_neg hx1.ne, if_neg hx0.ne', pdiv_ok hx0.ne', Py.ok_bind]
    rw [pdiv_ok (by positivity), Py.ok_bind, pdiv_ok (by positivity)]
    congr 1
    field_simp
  have s : 0 < x (P z) * vg (P z) + (1 - x (P z)) * vl (P z) := by positivity
  have er : 1 / vl (P z) * (1 - x (P z) * vg (P z) / (x (P z) * vg (P z) + (1 - x (P z)) * vl (P z))) +
      1 / vg (P z) * (x (P z) * vg (P z) / (x (P z) * vg (P z) + (1 - x (P z)) * vl (P z))) = 1 / (x (P z) * vg (P z) + (1 - x (P z)) * vl (P z)) := by
    field_simp
    ring
  refine ⟨_, _, ?_, hM, rfl⟩
  · simp only [two_phase_dP_dz_acceleration, pdiv_ok a0.ne', Py.ok_bind, pdiv_ok (one_div_pos.2 hg).ne', pdiv_ok (one_div_pos.2 hl).ne', e, er]
    rw [pdiv_ok (by positivity), Py.ok_bind, Py.pure_eq]
    congr 1
    simp only [Function.comp_apply, Pi.add_apply, Pi.mul_apply]
    field_simp
    ring

variable {angle z a b c d e h grav : ℝ}

/-- Density of a cross section with void fraction `alpha`. -/
def rhoM (alpha rhol rhog : ℝ) : ℝ := (1 - alpha) * rhol + alpha * rhog

/-- C103: the gravitational drop is `g` times the height gained times the mean of the end densities; end values not given are the inlet's. -/
theorem C103_gravity (α rhol rhog : ℝ) (αo lo go : Option ℝ) :
    two_phase_dP_gravitational angle z α rhol rhog αo lo go grav =
      grav * (z * sin (angle * π / 180)) * ((rhoM α rhol rhog + rhoM (αo.getD α) (lo.getD rhol) (go.getD rhog)) / 2) ∧
    two_phase_dP_dz_gravitational angle α rhol rhog grav = grav * sin (angle * π / 180) * rhoM α rhol rhog := by
  have : π / 180 * angle = angle * π / 180 := by ring
  simp only [two_phase_dP_gravitational, two_phase_dP_dz_gravitational, rhoM, this]
  constructor <;> ring

/-- C103: consequences: length times the mean of the differential terms at the ends, proportional to the length, odd in the angle, zero for a horizontal pipe, and
`± ρ g z` for a vertical one. -/
theorem C103_gravity_laws (α rhol rhog αo lo go : ℝ) :
    two_phase_dP_gravitational angle z α rhol rhog (some αo) (some lo) (some go) grav =
      z * ((two_phase_dP_dz_gravitational angle α rhol rhog grav + two_phase_dP_dz_gravitational angle αo lo go grav) / 2) ∧
    two_phase_dP_gravitational angle z α rhol rhog none none none grav = z * two_phase_dP_dz_gravitational angle α rhol rhog grav ∧
    two_phase_dP_gravitational (-angle) z α rhol rhog (some αo) (some lo) (some go) grav =
      -two_phase_dP_gravitational angle z α rhol rhog (some αo) (some lo) (some go) grav ∧
    two_phase_dP_gravitational 0 z α rhol rhog (some αo) (some lo) (some go) grav = 0 ∧
    two_phase_dP_gravitational 90 z α rhol rhog none none none grav = grav * z * rhoM α rhol rhog ∧
    two_phase_dP_gravitational 90 z 0 rhol rhog none none none grav = grav * z * rhol ∧
    two_phase_dP_gravitational 90 z 1 rhol rhog none none none grav = grav * z * rhog := by
  have h90 : sin ((90 : ℝ) * π / 180) = 1 := by rw [show (90 : ℝ) * π / 180 = π / 2 by ring, sin_pi_div_two]
  have hd : ∀ angle α rhol rhog : ℝ, two_phase_dP_dz_gravitational angle α rhol rhog grav = grav * sin (angle * π / 180) * rhoM α rhol rhog :=
    fun angle α rhol rhog => (C103_gravity (z := 0) α rhol rhog none none none).2
  simp only [(C103_gravity _ _ _ _ _ _).1, hd, h90, Option.getD_some, Option.getD_none, zero_mul, zero_div, sin_zero,
    neg_mul, neg_div, sin_neg, rhoM]
  refine ⟨by ring, by ring, by ring, by ring, by ring, by ring, by ring⟩

-- a concrete evaporating flow, 20 % to 40 % quality
example : Section2 0.9 800 (2 : ℝ) := ⟨by norm_num, by norm_num, by norm_num, by norm_num⟩
example : ∃ p > 0, ∃ ai ao, Voidage.homogeneous 0.2 800 2 = .ok ai ∧ Voidage.homogeneous 0.4 800 2 = .ok ao ∧
    two_phase_dP_acceleration 1 0.05 0.2 0.4 ai ao 800 2 none none = .ok p := by
  have h : ∀ x : ℝ, 0 < x → x < 1 → ∃ a, Voidage.homogeneous x 800 2 = .ok a := by
    intro x h0 h1
    simp only [Voidage.homogeneous, if_neg h1.ne, if_neg h0.ne', pdiv_ok h0.ne', Py.ok_bind, pdiv_ok (show (800 : ℝ) ≠ 0 by norm_num)]
    have : 0 < 1 - x := by linarith
    rw [pdiv_ok (by positivity)]
    exact ⟨_, rfl⟩
  obtain ⟨ai, hi⟩ := h 0.2 (by norm_num) (by norm_num)
  obtain ⟨ao, ho⟩ := h 0.4 (by norm_num) (by norm_num)
  obtain ⟨p, p0, e⟩ := (C103_acceleration_homogeneous (m := 1) (D := 0.05) (by norm_num) (by norm_num) (by norm_num) (by norm_num) (by norm_num) (by norm_num)
    (by norm_num) (by norm_num) (by norm_num) hi ho).2 rfl rfl (by norm_num) (by norm_num) (by norm_num)
  exact ⟨p, p0, ai, ao, hi, ho, e⟩

end Verif.TwoPhase
