import Verif.Model.JetPump
import Verif.Lemmas.Tactic
import Mathlib.Tactic

/-! C106: liquid jet pumps (`fluids/jet_pump.py`). -/

open Real

noncomputable section

namespace Verif.JetPump

/-! ### specification: the conservation laws of a jet pump -/

/-- The area of a circle of diameter `d`. -/
def area (d : ℝ) : ℝ := π / 4 * d ^ 2

/-- The Bernoulli balance between the two supplies, which share the pressure at the nozzle exit: the motive stream leaves the nozzle at `Qp/An`, the suction stream enters
through the annulus at `Qs/(Am - An)`. -/
def Balance (rhop rhos Kp Ks dn dm Qp Qs P1 P2 : ℝ) : Prop :=
  P1 - (1 + Kp) * (rhop * (Qp / area dn) ^ 2 / 2) = P2 - (1 + Ks) * (rhos * (Qs / (area dm - area dn)) ^ 2 / 2)

/-- The conservation laws: with `P3` the pressure at the nozzle exit and `P4` at the end of the mixing tube, energy along both supplies, momentum over the mixing tube, energy
over the diffuser. -/
def Conservation (rhop rhos Kp Ks Km Kd dn dm dd Qp Qs P1 P2 P5 : ℝ) : Prop :=
  ∃ P3 P4 : ℝ,
    P1 = P3 + (1 + Kp) * (rhop * (Qp / area dn) ^ 2 / 2) ∧
    P2 = P3 + (1 + Ks) * (rhos * (Qs / (area dm - area dn)) ^ 2 / 2) ∧
    (P4 - P3) * area dm = rhop * Qp * (Qp / area dn) + rhos * Qs * (Qs / (area dm - area dn)) - (rhop * Qp + rhos * Qs) * ((Qp + Qs) / area dm)
      - Km * ((rhop * Qp + rhos * Qs) / (Qp + Qs) * ((Qp + Qs) / area dm) ^ 2 / 2) * area dm ∧
    P5 + (rhop * Qp + rhos * Qs) / (Qp + Qs) * ((Qp + Qs) / area dd) ^ 2 / 2 = P4 + (1 - Kd) * ((rhop * Qp + rhos * Qs) / (Qp + Qs) * ((Qp + Qs) / area dm) ^ 2 / 2)

/-- Numerator and denominator of the documented pressure ratio (module docstring), `sgn = 1` as documented. -/
def docNum (C M R α Km Kd Ks : ℝ) : ℝ :=
  2 * R + 2 * C * M ^ 2 * R ^ 2 / (1 - R) - R ^ 2 * (1 + C * M) * (1 + M) * (1 + Km + Kd + α ^ 2) - C * M ^ 2 * R ^ 2 / (1 - R) ^ 2 * (1 + Ks)

def docDen (C M R α Km Kd Ks Kp j : ℝ) : ℝ :=
  (1 + Kp) - 2 * R - 2 * C * M ^ 2 * R ^ 2 / (1 - R) + R ^ 2 * (1 + C * M) * (1 + M) * (1 + Km + Kd + α ^ 2) + (1 - j) * (C * M ^ 2 / ((1 - R) / R) ^ 2) * (1 + Ks)

/-! ### the two supplies -/

lemma area_pos {d : ℝ} (h : 0 < d) : 0 < area d := by unfold area; positivity

lemma area_lt {a b : ℝ} (ha : 0 < a) (h : a < b) : area a < area b := by
  unfold area
  have : a ^ 2 < b ^ 2 := by nlinarith
  have := pi_pos
  nlinarith

section supplies
variable {rhop rhos Kp Ks dn dm Qp Qs P1 P2 : ℝ}

lemma nozzle_dP_eq (hp : rhop ≠ 0) (hn : 0 < dn) (hm : dn < dm) (hq : Qp ≠ 0) :
    nozzle_dP rhop rhos Kp Ks dn dm Qp Qs = .ok ((1 + Kp) * (rhop * (Qp / area dn) ^ 2 / 2) - (1 + Ks) * (rhos * (Qs / (area dm - area dn)) ^ 2 / 2)) := by
  have hA := area_pos hn
  have hB := area_pos (hn.trans hm)
  have hAB := area_lt hn hm
  unfold nozzle_dP
  rw [pdiv_ok hp, Py.ok_bind, pdiv_ok hq, Py.ok_bind]
  have e1 : π / 4 * dn * dn = area dn := by unfold area; ring
  have e2 : π / 4 * dm * dm = area dm := by unfold area; ring
  simp only [e1, e2]
  generalize area dn = A at *
  generalize area dm = B at *
  have h3 : 1 - A / B ≠ 0 := by
    rw [sub_ne_zero, ne_comm, Ne, div_eq_one_iff_eq hB.ne']; exact hAB.ne
  have h4 : B - A ≠ 0 := (sub_pos.2 hAB).ne'
  rw [pdiv_ok hB.ne', Py.ok_bind, pdiv_ok hA.ne', Py.ok_bind, pdiv_ok h3, Py.ok_bind]
  refine congrArg Except.ok ?_
  have e3 : Qs / Qp * (A / B) / (1 - A / B) = Qs / Qp * A / (B - A) := by
    rw [div_eq_div_iff h3 h4]; field_simp
  rw [e3]
  field_simp

/-- C106: with exactly the motive pressure, or exactly the suction pressure missing, the pressure returned makes the two supplies balance, and it is the only one that does.
The nozzle is narrower than the mixing tube, the motive flow and density are not zero. -/
theorem C106_supply_pressure (S : Solvers) (hp : rhop ≠ 0) (hn : 0 < dn) (hm : dn < dm) (hq : Qp ≠ 0) (p x : ℝ) :
    (liquid_jet_pump_ancillary S rhop rhos Kp Ks (some dn) (some dm) (some Qp) (some Qs) none (some p) = .ok (some x) ↔ Balance rhop rhos Kp Ks dn dm Qp Qs x p) ∧
    (liquid_jet_pump_ancillary S rhop rhos Kp Ks (some dn) (some dm) (some Qp) (some Qs) (some p) none = .ok (some x) ↔ Balance rhop rhos Kp Ks dn dm Qp Qs p x) := by
  simp only [liquid_jet_pump_ancillary, ancillary_P1, ancillary_P2, nozzle_dP_eq hp hn hm hq, Py.ok_bind, Balance]
  constructor
  · constructor
    · intro h
      have h := Option.some.inj (Except.ok.inj h)
      linarith
    · intro h
      refine congrArg (fun t => Except.ok (some t)) ?_
      linarith
  · constructor
    · intro h
      have h := Option.some.inj (Except.ok.inj h)
      linarith
    · intro h
      refine congrArg (fun t => Except.ok (some t)) ?_
      linarith

example (S : Solvers) : ∃ x, liquid_jet_pump_ancillary S 998 1098 0.11 0.1 (some 0.02) (some 0.04) (some 0.01) (some 0.005) none (some 133600) = .ok (some x) :=
  ⟨_, ((C106_supply_pressure S (rhop := 998) (rhos := 1098) (Kp := 0.11) (Ks := 0.1) (dn := 0.02) (dm := 0.04) (Qp := 0.01) (Qs := 0.005) (by norm_num) (by norm_num) (by norm_num) (by norm_num)
    133600 (133600 - (1 + 0.1) * (1098 * (0.005 / (area 0.04 - area 0.02)) ^ 2 / 2) + (1 + 0.11) * (998 * (0.01 / area 0.02) ^ 2 / 2))).1).2 (by unfold Balance; ring)⟩

/-- The kinetic head left for the suction stream: `P2 - P1 + (1 + Kp) rhop Vn²/2`. -/
def suctionHead (rhop Kp dn Qp P1 P2 : ℝ) : ℝ := P2 - P1 + (1 + Kp) * (rhop * (Qp / area dn) ^ 2 / 2)

/-- C106: with the suction flow missing, the result is the only suction flow that is not negative and balances the supplies; it is NaN exactly when no flow does (the motive
pressure is too high for the nozzle). -/
theorem C106_suction_flow (S : Solvers) (hp : 0 < rhop) (hs : 0 < rhos) (hKs : -1 < Ks) (hn : 0 < dn) (hm : dn < dm) :
    (∀ q : ℝ, liquid_jet_pump_ancillary S rhop rhos Kp Ks (some dn) (some dm) (some Qp) none (some P1) (some P2) = .ok (some q) ↔
      0 ≤ q ∧ Balance rhop rhos Kp Ks dn dm Qp q P1 P2) ∧
    (liquid_jet_pump_ancillary S rhop rhos Kp Ks (some dn) (some dm) (some Qp) none (some P1) (some P2) = .ok none ↔
      ∀ q : ℝ, ¬ Balance rhop rhos Kp Ks dn dm Qp q P1 P2) := by
  have hA := area_pos hn
  have hB := area_pos (hn.trans hm)
  have hAB := sub_pos.2 (area_lt hn hm)
  have hK : 0 < Ks + 1 := by linarith
  have hden : 0 < rhos / rhop * rhop * (Ks + 1) := by positivity
  have e1 : π / 4 * dn * dn = area dn := by unfold area; ring
  have e2 : π / 4 * dm * dm = area dm := by unfold area; ring
  -- the radicand
  set y : ℝ := (-2 * area dn ^ 2 * P1 + 2 * area dn ^ 2 * P2 + Kp * Qp ^ 2 * rhop + Qp ^ 2 * rhop) / (rhos / rhop * rhop * (Ks + 1)) with hy
  have key : liquid_jet_pump_ancillary S rhop rhos Kp Ks (some dn) (some dm) (some Qp) none (some P1) (some P2)
      = if y < 0 then .ok none else .ok (some (Real.sqrt y * (area dm - area dn) / area dn)) := by
    simp only [liquid_jet_pump_ancillary, ancillary_Qs, e1, e2]
    rw [pdiv_ok hp.ne', Py.ok_bind, pdiv_ok hB.ne', Py.ok_bind, pdiv_ok hden.ne', Py.ok_bind]
    rw [← hy]
    by_cases h : y < 0
    · rw [if_pos h, if_pos h]; rfl
    · rw [if_neg h, if_neg h, pdiv_ok hA.ne']; rfl
  have bal : ∀ q : ℝ, Balance rhop rhos Kp Ks dn dm Qp q P1 P2 ↔ (q * area dn / (area dm - area dn)) ^ 2 = y := by
    intro q
    rw [hy, Balance]
    generalize area dn = A at *
    generalize area dm - area dn = D at *
    generalize area dm - A = D at *
    rw [eq_div_iff hden.ne']
    simp only [div_pow, mul_pow]
    constructor
    · intro h
      field_simp at h ⊢
      linarith
    · intro h
      field_simp at h ⊢
      linarith
  have sq : ∀ q : ℝ, 0 ≤ y → (0 ≤ q ∧ (q * area dn / (area dm - area dn)) ^ 2 = y ↔ Real.sqrt y * (area dm - area dn) / area dn = q) := by
    intro q hy0
    constructor
    · rintro ⟨h0, h1⟩
      rw [← h1, Real.sqrt_sq (by positivity)]
      field_simp
    · intro h
      have h0 : 0 ≤ q := by rw [← h]; positivity
      refine ⟨h0, ?_⟩
      rw [← h, show Real.sqrt y * (area dm - area dn) / area dn * area dn / (area dm - area dn) = Real.sqrt y by field_simp, Real.sq_sqrt hy0]
  constructor
  · intro q
    rw [key, bal]
    by_cases h : y < 0
    · rw [if_pos h]
      constructor
      · intro h1; cases h1
      · rintro ⟨-, h1⟩
        exact absurd (h1 ▸ sq_nonneg _) (not_le.2 h)
    · rw [if_neg h, sq q (not_lt.1 h)]
      constructor
      · intro h1; exact Option.some.inj (Except.ok.inj h1)
      · rintro rfl; rfl
  · rw [key]
    by_cases h : y < 0
    · rw [if_pos h]
      refine ⟨fun _ q hq => ?_, fun _ => rfl⟩
      rw [bal] at hq
      exact absurd (hq ▸ sq_nonneg _) (not_le.2 h)
    · rw [if_neg h]
      constructor
      · intro h1; cases h1
      · intro h1
        exact absurd ((bal _).2 ((sq _ (not_lt.1 h)).2 rfl).2) (h1 _)

/-- C106: with the motive flow missing, a result is the only motive flow that is not negative and balances the supplies; when none does the call raises ValueError (for the
suction flow the same situation gives NaN). -/
theorem C106_motive_flow (S : Solvers) (hp : 0 < rhop) (hKp : -1 < Kp) (hn : 0 < dn) (hm : dn < dm) :
    (∀ q : ℝ, liquid_jet_pump_ancillary S rhop rhos Kp Ks (some dn) (some dm) none (some Qs) (some P1) (some P2) = .ok (some q) ↔
      0 ≤ q ∧ Balance rhop rhos Kp Ks dn dm q Qs P1 P2) ∧
    (liquid_jet_pump_ancillary S rhop rhos Kp Ks (some dn) (some dm) none (some Qs) (some P1) (some P2) = .error .valueError ↔
      ∀ q : ℝ, ¬ Balance rhop rhos Kp Ks dn dm q Qs P1 P2) := by
  have hA := area_pos hn
  have hB := area_pos (hn.trans hm)
  have hAB := sub_pos.2 (area_lt hn hm)
  have hK : 0 < Kp + 1 := by linarith
  have hden : 0 < rhop * (Kp + 1) := by positivity
  have e1 : π / 4 * dn * dn = area dn := by unfold area; ring
  have e2 : π / 4 * dm * dm = area dm := by unfold area; ring
  set y : ℝ := (2 * area dm ^ 2 * P1 - 2 * area dm ^ 2 * P2 - 4 * area dm * area dn * P1 + 4 * area dm * area dn * P2 + 2 * area dn ^ 2 * P1 - 2 * area dn ^ 2 * P2 + rhos / rhop * Ks * Qs ^ 2 * rhop + rhos / rhop * Qs ^ 2 * rhop) / (rhop * (Kp + 1)) with hy
  have key : liquid_jet_pump_ancillary S rhop rhos Kp Ks (some dn) (some dm) none (some Qs) (some P1) (some P2)
      = if y < 0 then .error .valueError else .ok (some (area dn * Real.sqrt y / (area dm - area dn))) := by
    simp only [liquid_jet_pump_ancillary, ancillary_Qp, e1, e2]
    rw [pdiv_ok hp.ne', Py.ok_bind, pdiv_ok hB.ne', Py.ok_bind, pdiv_ok hden.ne', Py.ok_bind]
    rw [← hy]
    by_cases h : y < 0
    · rw [if_pos h, psqrt, if_pos h]; rfl
    · rw [if_neg h, psqrt_ok (not_lt.1 h), Py.ok_bind, pdiv_ok hAB.ne']; rfl
  have bal : ∀ q : ℝ, Balance rhop rhos Kp Ks dn dm q Qs P1 P2 ↔ (q * (area dm - area dn) / area dn) ^ 2 = y := by
    intro q
    rw [hy, Balance]
    generalize area dn = A at *
    obtain ⟨D, hD⟩ : ∃ D, area dm = A + D := ⟨area dm - A, by ring⟩
    rw [hD] at hAB ⊢
    simp only [add_sub_cancel_left] at hAB ⊢
    rw [eq_div_iff hden.ne']
    simp only [div_pow, mul_pow]
    constructor
    · intro h
      field_simp at h ⊢
      linarith
    · intro h
      field_simp at h ⊢
      linarith
  have sq : ∀ q : ℝ, 0 ≤ y → (0 ≤ q ∧ (q * (area dm - area dn) / area dn) ^ 2 = y ↔ area dn * Real.sqrt y / (area dm - area dn) = q) := by
    intro q hy0
    constructor
    · rintro ⟨h0, h1⟩
      rw [← h1, Real.sqrt_sq (by positivity)]
      field_simp
    · intro h
      have h0 : 0 ≤ q := by rw [← h]; positivity
      refine ⟨h0, ?_⟩
      rw [← h, show area dn * Real.sqrt y / (area dm - area dn) * (area dm - area dn) / area dn = Real.sqrt y by field_simp, Real.sq_sqrt hy0]
  constructor
  · intro q
    rw [key, bal]
    by_cases h : y < 0
    · rw [if_pos h]
      constructor
      · intro h1; cases h1
      · rintro ⟨-, h1⟩
        exact absurd (h1 ▸ sq_nonneg _) (not_le.2 h)
    · rw [if_neg h, sq q (not_lt.1 h)]
      constructor
      · intro h1; exact Option.some.inj (Except.ok.inj h1)
      · rintro rfl; rfl
  · rw [key]
    by_cases h : y < 0
    · rw [if_pos h]
      refine ⟨fun _ q hq => ?_, fun _ => rfl⟩
      rw [bal] at hq
      exact absurd (hq ▸ sq_nonneg _) (not_le.2 h)
    · rw [if_neg h]
      constructor
      · intro h1; cases h1
      · intro h1
        exact absurd ((bal _).2 ((sq _ (not_lt.1 h)).2 rfl).2) (h1 _)

example (S : Solvers) : ∃ q, liquid_jet_pump_ancillary S 1000 1000 0 0 (some 0.02) (some 0.04) none (some 0) (some 200000) (some 100000) = .ok (some q) := by
  refine ⟨Real.sqrt 200 * area 0.02, ((C106_motive_flow S (by norm_num) (by norm_num) (by norm_num) (by norm_num)).1 _).2 ⟨by have := area_pos (d := 0.02) (by norm_num); positivity, ?_⟩⟩
  have := area_pos (d := 0.02) (by norm_num)
  rw [Balance, show Real.sqrt 200 * area 0.02 / area 0.02 = Real.sqrt 200 by field_simp, Real.sq_sqrt (by norm_num)]
  norm_num

/-- C106: with a diameter missing, an exact root found by the bounded solver (or by the secant solver when that one raises, for the mixing tube) gives a diameter for which the supplies balance. -/
theorem C106_diameters (S : Solvers) (hp : rhop ≠ 0) (hq : Qp ≠ 0)
    (hb : ∀ f a b x, S.brenth f a b = .ok x → f x = .ok 0) (hs : ∀ f a x, S.secant f a = .ok x → f x = .ok 0) (d : ℝ) :
    (∀ dm, 0 < d → d < dm → liquid_jet_pump_ancillary S rhop rhos Kp Ks none (some dm) (some Qp) (some Qs) (some P1) (some P2) = .ok (some d) →
      Balance rhop rhos Kp Ks d dm Qp Qs P1 P2) ∧
    (∀ dn, 0 < dn → dn < d → liquid_jet_pump_ancillary S rhop rhos Kp Ks (some dn) none (some Qp) (some Qs) (some P1) (some P2) = .ok (some d) →
      Balance rhop rhos Kp Ks dn d Qp Qs P1 P2) := by
  constructor
  · intro dm h0 h1 h
    simp only [liquid_jet_pump_ancillary, ancillary_d_nozzle, pdiv_ok hp, pdiv_ok hq, Py.ok_bind] at h
    generalize hr : S.brenth _ _ _ = r at h
    cases r with
    | error e => cases h
    | ok x =>
      obtain rfl : x = d := Option.some.inj (Except.ok.inj h)
      have := hb _ _ _ _ hr
      simp only [ancillary_P1, nozzle_dP_eq hp h0 h1 hq, Py.ok_bind, Py.pure_eq, Except.ok.injEq] at this
      unfold Balance; linarith
  · intro dn h0 h1 h
    simp only [liquid_jet_pump_ancillary, ancillary_d_mixing, pdiv_ok hp, pdiv_ok hq, Py.ok_bind] at h
    have fin : ∀ e : Py ℝ, (do let p : ℝ ← ancillary_P1 rhop rhos Kp Ks dn d Qp Qs P2; return P1 - p) = (.ok 0 : Py ℝ) → Balance rhop rhos Kp Ks dn d Qp Qs P1 P2 := by
      intro _ this
      simp only [ancillary_P1, nozzle_dP_eq hp h0 h1 hq, Py.ok_bind, Py.pure_eq, Except.ok.injEq] at this
      unfold Balance; linarith
    generalize hr : S.brenth _ _ _ = r at h
    cases r with
    | error e =>
      simp only at h
      generalize hr2 : S.secant _ _ = r2 at h
      cases r2 with
      | error e => cases h
      | ok x =>
        obtain rfl : x = d := Option.some.inj (Except.ok.inj h)
        exact fin (.ok 0) (hs _ _ _ hr2)
    | ok x =>
      obtain rfl : x = d := Option.some.inj (Except.ok.inj h)
      exact fin (.ok 0) (hb _ _ _ _ hr)

/-- C106: the documented range of the search: a bounded solver that stays within its bounds returns a diameter between 1e-9 m and twenty times the other one. The secant solver, used for the mixing tube when the bounded one raises, starts from twice the nozzle diameter. -/
theorem C106_search_range (S : Solvers) (hp : rhop ≠ 0) (hq : Qp ≠ 0) (d : ℝ) :
    (∀ dm, (∀ f a b x, S.brenth f a b = .ok x → a ≤ x ∧ x ≤ b) → liquid_jet_pump_ancillary S rhop rhos Kp Ks none (some dm) (some Qp) (some Qs) (some P1) (some P2) = .ok (some d) →
      1e-9 ≤ d ∧ d ≤ 20 * dm) ∧
    (∀ dn, (∀ f a b x, S.brenth f a b = .ok x → a ≤ x ∧ x ≤ b) → (∀ f a x, S.secant f a ≠ .ok x) →
      liquid_jet_pump_ancillary S rhop rhos Kp Ks (some dn) none (some Qp) (some Qs) (some P1) (some P2) = .ok (some d) → 1e-9 ≤ d ∧ d ≤ 20 * dn) ∧
    (∀ dn, (∀ f a b x, S.brenth f a b ≠ .ok x) → (∀ f a, S.secant f a = .ok a) →
      liquid_jet_pump_ancillary S rhop rhos Kp Ks (some dn) none (some Qp) (some Qs) (some P1) (some P2) = .ok (some (2 * dn))) := by
  refine ⟨fun dm hb h => ?_, fun dn hb hs h => ?_, fun dn hb hs => ?_⟩
  · simp only [liquid_jet_pump_ancillary, ancillary_d_nozzle, pdiv_ok hp, pdiv_ok hq, Py.ok_bind] at h
    generalize hr : S.brenth _ _ _ = r at h
    cases r with
    | error e => cases h
    | ok x =>
      obtain rfl : x = d := Option.some.inj (Except.ok.inj h)
      have := hb _ _ _ _ hr
      exact ⟨this.1, by linarith [this.2]⟩
  · simp only [liquid_jet_pump_ancillary, ancillary_d_mixing, pdiv_ok hp, pdiv_ok hq, Py.ok_bind] at h
    generalize hr : S.brenth _ _ _ = r at h
    cases r with
    | error e =>
      simp only at h
      generalize hr2 : S.secant _ _ = r2 at h
      cases r2 with
      | error e => cases h
      | ok x => exact absurd hr2 (hs _ _ _)
    | ok x =>
      obtain rfl : x = d := Option.some.inj (Except.ok.inj h)
      have := hb _ _ _ _ hr
      exact ⟨this.1, by linarith [this.2]⟩
  · simp only [liquid_jet_pump_ancillary, ancillary_d_mixing, pdiv_ok hp, pdiv_ok hq, Py.ok_bind, hs]
    generalize hr : S.brenth _ _ _ = r
    cases r with
    | error e => simp only [mul_comm]; rfl
    | ok x => exact absurd hr (hb _ _ _ _)

/-- C106: unless exactly one of the six values is missing the call raises ValueError. -/
theorem C106_supply_count (S : Solvers) (a b c d e f : Option ℝ) (h : ([a, b, c, d, e, f].filter fun i => i.isNone).length ≠ 1) :
    liquid_jet_pump_ancillary S rhop rhos Kp Ks a b c d e f = .error .valueError := by
  cases a <;> cases b <;> cases c <;> cases d <;> cases e <;> cases f <;> first | rfl | (exact absurd rfl h)

end supplies

/-! ### the pressure ratio -/

section ratio
variable {rhop rhos Kp Ks Km Kd dn dm dd Qp Qs P1 P2 P5 : ℝ}

lemma ratio_R (hn : 0 < dn) (hm : dn < dm) : 0 < dn ^ 2 / dm ^ 2 ∧ dn ^ 2 / dm ^ 2 < 1 := by
  have h2 : 0 < dm := hn.trans hm
  refine ⟨by positivity, ?_⟩
  rw [div_lt_one (by positivity)]
  nlinarith

/-- The pressure ratio as computed: `j = 1` unless the nozzle is retracted. -/
lemma pressure_ratio_N_eq (hp : rhop ≠ 0) (hn : 0 < dn) (hm : dn < dm) (hd : dd ≠ 0) (hq : Qp ≠ 0) (b : Bool) :
    pressure_ratio_N rhop rhos Km Kd Ks Kp dn dm dd Qp Qs b =
      pdiv (docNum (rhos / rhop) (Qs / Qp) (dn ^ 2 / dm ^ 2) (dm ^ 2 / dd ^ 2) Km Kd Ks)
        (docDen (rhos / rhop) (Qs / Qp) (dn ^ 2 / dm ^ 2) (dm ^ 2 / dd ^ 2) Km Kd Ks Kp (if b then 0 else 1)
          - 2 * (if b then 1 else 0) * Ks * (rhos / rhop) * (Qs / Qp * (dn ^ 2 / dm ^ 2) / (1 - dn ^ 2 / dm ^ 2)) ^ 2) := by
  obtain ⟨h1, h2⟩ := ratio_R hn hm
  have h3 : 0 < 1 - dn ^ 2 / dm ^ 2 := by linarith
  have hm0 : dm ≠ 0 := (hn.trans hm).ne'
  unfold pressure_ratio_N
  rw [pdiv_ok hp, Py.ok_bind, pdiv_ok (pow_ne_zero 2 hm0), Py.ok_bind, pdiv_ok (pow_ne_zero 2 hd), Py.ok_bind, pdiv_ok hq, Py.ok_bind]
  generalize dn ^ 2 / dm ^ 2 = R at *
  generalize dm ^ 2 / dd ^ 2 = α at *
  generalize Qs / Qp = M at *
  generalize rhos / rhop = C at *
  dsimp only
  rw [pdiv_ok h3.ne', Py.ok_bind, pdiv_ok (pow_ne_zero 2 h3.ne'), Py.ok_bind, pdiv_ok h1.ne', Py.ok_bind, pdiv_ok (pow_ne_zero 2 (div_ne_zero h3.ne' h1.ne')), Py.ok_bind]
  congr 1
  · unfold docNum; ring
  · unfold docDen
    have e : C * (M * M) / ((1 - R) / R) ^ 2 = C * (M * R / (1 - R)) ^ 2 := by field_simp
    have e' : C * M ^ 2 / ((1 - R) / R) ^ 2 = C * (M * R / (1 - R)) ^ 2 := by field_simp
    rw [e, e']
    cases b <;> simp <;> ring

/-- C106: the pressure ratio is the documented quotient when the nozzle reaches into the mixing tube, when the suction loss coefficient is zero, or without suction flow. -/
theorem C106_ratio_documented (hp : rhop ≠ 0) (hn : 0 < dn) (hm : dn < dm) (hd : dd ≠ 0) (hq : Qp ≠ 0) (b : Bool) (h : b = false ∨ Ks = 0 ∨ Qs = 0)
    (hden : docDen (rhos / rhop) (Qs / Qp) (dn ^ 2 / dm ^ 2) (dm ^ 2 / dd ^ 2) Km Kd Ks Kp (if b then 0 else 1) ≠ 0) :
    pressure_ratio_N rhop rhos Km Kd Ks Kp dn dm dd Qp Qs b = .ok (docNum (rhos / rhop) (Qs / Qp) (dn ^ 2 / dm ^ 2) (dm ^ 2 / dd ^ 2) Km Kd Ks /
      docDen (rhos / rhop) (Qs / Qp) (dn ^ 2 / dm ^ 2) (dm ^ 2 / dd ^ 2) Km Kd Ks Kp (if b then 0 else 1)) := by
  rw [pressure_ratio_N_eq hp hn hm hd hq]
  have e : 2 * (if b then (1 : ℝ) else 0) * Ks * (rhos / rhop) * (Qs / Qp * (dn ^ 2 / dm ^ 2) / (1 - dn ^ 2 / dm ^ 2)) ^ 2 = 0 := by
    rcases h with rfl | rfl | rfl <;> simp
  rw [e, sub_zero, pdiv_ok hden]

/-- C106, the case the documentation does not describe: with the nozzle retracted (the default) and a suction loss coefficient, the denominator has `1 - Ks` where the
documentation has `1 + Ks`, and the pressure ratio is never the documented one. -/
theorem C106_ratio_retracted (hp : rhop ≠ 0) (hs : rhos ≠ 0) (hn : 0 < dn) (hm : dn < dm) (hd : dd ≠ 0) (hq : Qp ≠ 0) (hQ : Qs ≠ 0) (hK : Ks ≠ 0)
    (hnum : docNum (rhos / rhop) (Qs / Qp) (dn ^ 2 / dm ^ 2) (dm ^ 2 / dd ^ 2) Km Kd Ks ≠ 0)
    (hden : docDen (rhos / rhop) (Qs / Qp) (dn ^ 2 / dm ^ 2) (dm ^ 2 / dd ^ 2) Km Kd Ks Kp 0 ≠ 0) :
    pressure_ratio_N rhop rhos Km Kd Ks Kp dn dm dd Qp Qs true ≠ .ok (docNum (rhos / rhop) (Qs / Qp) (dn ^ 2 / dm ^ 2) (dm ^ 2 / dd ^ 2) Km Kd Ks /
      docDen (rhos / rhop) (Qs / Qp) (dn ^ 2 / dm ^ 2) (dm ^ 2 / dd ^ 2) Km Kd Ks Kp 0) := by
  obtain ⟨h1, h2⟩ := ratio_R hn hm
  have h3 : 0 < 1 - dn ^ 2 / dm ^ 2 := by linarith
  rw [pressure_ratio_N_eq hp hn hm hd hq]
  simp only [if_true, mul_one]
  have hne : 2 * Ks * (rhos / rhop) * (Qs / Qp * (dn ^ 2 / dm ^ 2) / (1 - dn ^ 2 / dm ^ 2)) ^ 2 ≠ 0 :=
    mul_ne_zero (mul_ne_zero (mul_ne_zero two_ne_zero hK) (div_ne_zero hs hp))
      (pow_ne_zero 2 (div_ne_zero (mul_ne_zero (div_ne_zero hQ hq) h1.ne') h3.ne'))
  generalize 2 * Ks * (rhos / rhop) * (Qs / Qp * (dn ^ 2 / dm ^ 2) / (1 - dn ^ 2 / dm ^ 2)) ^ 2 = E at *
  generalize docNum (rhos / rhop) (Qs / Qp) (dn ^ 2 / dm ^ 2) (dm ^ 2 / dd ^ 2) Km Kd Ks = A at *
  generalize docDen (rhos / rhop) (Qs / Qp) (dn ^ 2 / dm ^ 2) (dm ^ 2 / dd ^ 2) Km Kd Ks Kp 0 = B at *
  intro h
  by_cases hB : B - E = 0
  · rw [hB, pdiv_zero] at h; cases h
  · rw [pdiv_ok hB] at h
    have h := Except.ok.inj h
    rw [div_eq_div_iff hB hden] at h
    have : A * E = 0 := by linarith
    rcases mul_eq_zero.1 this with h | h
    · exact hnum h
    · exact hne h

/-- The case is met with everyday numbers. -/
example : pressure_ratio_N 1000 1000 0 0 (1 / 10) 0 1 2 2 1 1 true = .ok (1 / 21) := by
  rw [pressure_ratio_N_eq (by norm_num) (by norm_num) (by norm_num) (by norm_num) (by norm_num), pdiv_ok]
  · refine congrArg Except.ok ?_
    simp only [docNum, docDen]; norm_num
  · simp only [docNum, docDen]; norm_num

/-- C106: with one of the three pressures missing, the dictionary keeps the given pressures and satisfies `(P5 - P2) = N (P1 - P5)`, and it is the only such completion. -/
theorem C106_ratio_solution (b : Bool) (N : ℝ) (hN : pressure_ratio_N rhop rhos Km Kd Ks Kp dn dm dd Qp Qs b = .ok N) (x y z u v w : ℝ) :
    (N ≠ 0 → (liquid_jet_pump_pressure_ratio rhop rhos Km Kd Ks Kp dn dm dd Qp Qs none (some y) (some z) b = .ok (.inr (u, v, w)) ↔ v = y ∧ w = z ∧ w - v = N * (u - w))) ∧
    (liquid_jet_pump_pressure_ratio rhop rhos Km Kd Ks Kp dn dm dd Qp Qs (some x) none (some z) b = .ok (.inr (u, v, w)) ↔ u = x ∧ w = z ∧ w - v = N * (u - w)) ∧
    (N ≠ -1 → (liquid_jet_pump_pressure_ratio rhop rhos Km Kd Ks Kp dn dm dd Qp Qs (some x) (some y) none b = .ok (.inr (u, v, w)) ↔ u = x ∧ v = y ∧ w - v = N * (u - w))) ∧
    (x ≠ z → liquid_jet_pump_pressure_ratio rhop rhos Km Kd Ks Kp dn dm dd Qp Qs (some x) (some y) (some z) b = .ok (.inl (N - (z - y) / (x - z)))) := by
  simp only [liquid_jet_pump_pressure_ratio, hN, Py.ok_bind, pressure_ratio_solution, pressure_ratio_residual]
  refine ⟨fun h0 => ?_, ?_, fun h1 => ?_, fun h2 => ?_⟩
  · rw [pdiv_ok h0, Py.ok_bind]
    constructor
    · intro h
      have h := Sum.inr.inj (Except.ok.inj h)
      simp only [Prod.mk.injEq] at h
      obtain ⟨rfl, rfl, rfl⟩ := h
      refine ⟨rfl, rfl, ?_⟩
      field_simp; ring
    · rintro ⟨rfl, rfl, h⟩
      have : (-v + w * N + w) / N = u := by rw [div_eq_iff h0]; linarith
      rw [this]; rfl
  · constructor
    · intro h
      have h := Sum.inr.inj (Except.ok.inj h)
      simp only [Prod.mk.injEq] at h
      obtain ⟨rfl, rfl, rfl⟩ := h
      refine ⟨rfl, rfl, by ring⟩
    · rintro ⟨rfl, rfl, h⟩
      have : -u * N + w * N + w = v := by linarith
      rw [this]; rfl
  · have h1' : N + 1 ≠ 0 := fun h => h1 (by linarith)
    rw [pdiv_ok h1', Py.ok_bind]
    constructor
    · intro h
      have h := Sum.inr.inj (Except.ok.inj h)
      simp only [Prod.mk.injEq] at h
      obtain ⟨rfl, rfl, rfl⟩ := h
      refine ⟨rfl, rfl, ?_⟩
      field_simp; ring
    · rintro ⟨rfl, rfl, h⟩
      have : (u * N + v) / (N + 1) = w := by rw [div_eq_iff h1']; linarith
      rw [this]; rfl
  · rw [pdiv_ok (sub_ne_zero.2 h2)]; rfl

/-! ### conservation -/

/-- The documented numerator is the rise `P5 - P2` in units of the nozzle velocity head, when the conservation laws hold. -/
lemma conservation_iff (hp : 0 < rhop) (hn : 0 < dn) (hm : dn < dm) (hd : 0 < dd) (hq : 0 < Qp) (hqs : Qp + Qs ≠ 0) :
    Conservation rhop rhos Kp Ks Km Kd dn dm dd Qp Qs P1 P2 P5 ↔ Balance rhop rhos Kp Ks dn dm Qp Qs P1 P2 ∧
      P5 - P2 = docNum (rhos / rhop) (Qs / Qp) (dn ^ 2 / dm ^ 2) (dm ^ 2 / dd ^ 2) Km Kd Ks * (rhop * (Qp / area dn) ^ 2 / 2) := by
  have hA := area_pos hn
  have hB := area_pos (hn.trans hm)
  have hD := area_pos hd
  have hAB := sub_pos.2 (area_lt hn hm)
  have e1 : dn ^ 2 / dm ^ 2 = area dn / area dm := by unfold area; have := pi_pos; field_simp
  have e2 : dm ^ 2 / dd ^ 2 = area dm / area dd := by unfold area; have := pi_pos; field_simp
  rw [e1, e2]
  unfold Conservation Balance
  generalize area dn = A at *
  generalize area dd = D at *
  obtain ⟨E, hE⟩ : ∃ E, area dm = A + E := ⟨area dm - A, by ring⟩
  rw [hE] at hB hAB ⊢
  simp only [add_sub_cancel_left] at hAB ⊢
  have e3 : 1 - A / (A + E) = E / (A + E) := by field_simp; ring
  -- velocity heads
  have k2 : (rhop * Qp + rhos * Qs) / (Qp + Qs) * ((Qp + Qs) / (A + E)) ^ 2 / 2
      = (A / (A + E)) ^ 2 * (1 + rhos / rhop * (Qs / Qp)) * (1 + Qs / Qp) * (rhop * (Qp / A) ^ 2 / 2) := by field_simp
  have k3 : (rhop * Qp + rhos * Qs) / (Qp + Qs) * ((Qp + Qs) / D) ^ 2 / 2
      = (A / (A + E)) ^ 2 * (1 + rhos / rhop * (Qs / Qp)) * (1 + Qs / Qp) * ((A + E) / D) ^ 2 * (rhop * (Qp / A) ^ 2 / 2) := by field_simp
  have k4 : rhos * (Qs / E) ^ 2 / 2 = rhos / rhop * (Qs / Qp) ^ 2 * (A / (A + E)) ^ 2 / (E / (A + E)) ^ 2 * (rhop * (Qp / A) ^ 2 / 2) := by field_simp
  have k5 : rhop * Qp * (Qp / A) + rhos * Qs * (Qs / E) - (rhop * Qp + rhos * Qs) * ((Qp + Qs) / (A + E))
      = (2 * (A / (A + E)) + 2 * (rhos / rhop) * (Qs / Qp) ^ 2 * (A / (A + E)) ^ 2 / (E / (A + E))
        - 2 * ((A / (A + E)) ^ 2 * (1 + rhos / rhop * (Qs / Qp)) * (1 + Qs / Qp))) * (rhop * (Qp / A) ^ 2 / 2) * (A + E) := by field_simp
  rw [k2, k3, k4, k5]
  simp only [docNum, e3]
  generalize rhop * (Qp / A) ^ 2 / 2 = q
  generalize rhos / rhop * (Qs / Qp) ^ 2 * (A / (A + E)) ^ 2 / (E / (A + E)) ^ 2 = s
  generalize (A / (A + E)) ^ 2 * (1 + rhos / rhop * (Qs / Qp)) * (1 + Qs / Qp) = t
  generalize 2 * (rhos / rhop) * (Qs / Qp) ^ 2 * (A / (A + E)) ^ 2 / (E / (A + E)) = m
  generalize A / (A + E) = R
  generalize ((A + E) / D) ^ 2 = α
  constructor
  · rintro ⟨P3, P4, h1, h2, h3, h4⟩
    have h5 : P4 - P3 = (2 * R + m - 2 * t) * q - Km * (t * q) := by
      refine mul_right_cancel₀ hB.ne' ?_
      linarith
    exact ⟨by linarith, by linear_combination h4 + h5 - h2⟩
  · rintro ⟨h1, h2⟩
    refine ⟨P1 - (1 + Kp) * q, P1 - (1 + Kp) * q + ((2 * R + m - 2 * t) * q - Km * (t * q)), by ring, by linarith, by ring, ?_⟩
    linear_combination h2 - h1

/-- C106: with the nozzle inside the mixing tube, the discharge pressure computed from supplies in balance satisfies the conservation laws (energy in the nozzle and in the suction
annulus, momentum in the mixing tube, energy in the diffuser). -/
theorem C106_conservation (hp : 0 < rhop) (hn : 0 < dn) (hm : dn < dm) (hd : 0 < dd) (hq : 0 < Qp) (hqs : Qp + Qs ≠ 0)
    (hb : Balance rhop rhos Kp Ks dn dm Qp Qs P1 P2) (u v w : ℝ)
    (h : liquid_jet_pump_pressure_ratio rhop rhos Km Kd Ks Kp dn dm dd Qp Qs (some P1) (some P2) none false = .ok (.inr (u, v, w))) :
    u = P1 ∧ v = P2 ∧ Conservation rhop rhos Kp Ks Km Kd dn dm dd Qp Qs P1 P2 w := by
  have hA := area_pos hn
  have hAB := sub_pos.2 (area_lt hn hm)
  have hN := pressure_ratio_N_eq (rhos := rhos) (Km := Km) (Kd := Kd) (Ks := Ks) (Kp := Kp) (Qs := Qs) hp.ne' hn hm hd.ne' hq.ne' false
  -- the sum of numerator and denominator
  have hsum : docNum (rhos / rhop) (Qs / Qp) (dn ^ 2 / dm ^ 2) (dm ^ 2 / dd ^ 2) Km Kd Ks
      + docDen (rhos / rhop) (Qs / Qp) (dn ^ 2 / dm ^ 2) (dm ^ 2 / dd ^ 2) Km Kd Ks Kp 1
      = (1 + Kp) - rhos / rhop * (Qs / Qp) ^ 2 * (dn ^ 2 / dm ^ 2) ^ 2 / (1 - dn ^ 2 / dm ^ 2) ^ 2 * (1 + Ks) := by
    unfold docNum docDen; ring
  have hbal : P1 - P2 = ((1 + Kp) - rhos / rhop * (Qs / Qp) ^ 2 * (dn ^ 2 / dm ^ 2) ^ 2 / (1 - dn ^ 2 / dm ^ 2) ^ 2 * (1 + Ks)) * (rhop * (Qp / area dn) ^ 2 / 2) := by
    have e1 : dn ^ 2 / dm ^ 2 = area dn / area dm := by unfold area; have := pi_pos; field_simp
    have hB := area_pos (hn.trans hm)
    rw [e1]
    unfold Balance at hb
    generalize area dn = A at *
    obtain ⟨E, hE⟩ : ∃ E, area dm = A + E := ⟨area dm - A, by ring⟩
    rw [hE] at hB hAB hb ⊢
    simp only [add_sub_cancel_left] at hAB hb
    have e3 : 1 - A / (A + E) = E / (A + E) := by field_simp; ring
    have k4 : rhos * (Qs / E) ^ 2 / 2 = rhos / rhop * (Qs / Qp) ^ 2 * (A / (A + E)) ^ 2 / (E / (A + E)) ^ 2 * (rhop * (Qp / A) ^ 2 / 2) := by field_simp
    rw [k4] at hb
    rw [e3]
    linear_combination hb
  rw [conservation_iff hp hn hm hd hq hqs]
  simp only [Bool.false_eq_true, if_false, mul_zero, zero_mul, sub_zero] at hN
  rw [← hsum] at hbal
  generalize docNum (rhos / rhop) (Qs / Qp) (dn ^ 2 / dm ^ 2) (dm ^ 2 / dd ^ 2) Km Kd Ks = a at *
  generalize docDen (rhos / rhop) (Qs / Qp) (dn ^ 2 / dm ^ 2) (dm ^ 2 / dd ^ 2) Km Kd Ks Kp 1 = b at *
  generalize rhop * (Qp / area dn) ^ 2 / 2 = q at *
  by_cases hb0 : b = 0
  · rw [hb0, pdiv_zero] at hN
    simp only [liquid_jet_pump_pressure_ratio, hN] at h
    cases h
  · rw [pdiv_ok hb0] at hN
    have h1 : a / b ≠ -1 := by
      intro h1
      simp only [liquid_jet_pump_pressure_ratio, hN, Py.ok_bind, pressure_ratio_solution, h1, neg_add_cancel, pdiv_zero] at h
      cases h
    obtain ⟨rfl, rfl, h2⟩ := ((C106_ratio_solution false _ hN P1 P2 0 u v w).2.2.1 h1).1 h
    refine ⟨rfl, rfl, hb, ?_⟩
    rw [div_mul_eq_mul_div, eq_div_iff hb0] at h2
    have h3 : a + b ≠ 0 := fun h3 => h1 (by rw [div_eq_iff hb0]; linarith)
    refine mul_right_cancel₀ h3 ?_
    linear_combination h2 + a * hbal

/-- C106: the conservation laws bound the efficiency: with loss coefficients that are not negative, the power given to the suction stream is at most the power taken from the motive
stream. The difference is the mixing loss of both streams, the friction losses and the kinetic energy leaving the diffuser. -/
theorem C106_power (hp : 0 < rhop) (hs : 0 < rhos) (hn : 0 < dn) (hm : dn < dm) (hd : 0 < dd) (hq : 0 < Qp) (hQ : 0 ≤ Qs)
    (h1 : 0 ≤ Kp) (h2 : 0 ≤ Ks) (h3 : 0 ≤ Km) (h4 : 0 ≤ Kd) (h : Conservation rhop rhos Kp Ks Km Kd dn dm dd Qp Qs P1 P2 P5) :
    Qs * (P5 - P2) ≤ Qp * (P1 - P5) := by
  have hA := area_pos hn
  have hB := area_pos (hn.trans hm)
  have hD := area_pos hd
  have hAB := sub_pos.2 (area_lt hn hm)
  obtain ⟨P3, P4, e1, e2, e3, e4⟩ := h
  generalize area dn = A at *
  generalize area dm = B at *
  generalize area dd = D at *
  have hQd : 0 < Qp + Qs := by linarith
  set Vn := Qp / A with hVn
  set V3 := Qs / (B - A) with hV3
  set V4 := (Qp + Qs) / B with hV4
  set V5 := (Qp + Qs) / D with hV5
  set m := rhop * Qp + rhos * Qs with hm'
  have hm0 : 0 < m := by positivity
  have c4 : m / (Qp + Qs) * V4 ^ 2 / 2 * (Qp + Qs) = m * V4 ^ 2 / 2 := by field_simp
  have c5 : m / (Qp + Qs) * V5 ^ 2 / 2 * (Qp + Qs) = m * V5 ^ 2 / 2 := by field_simp
  have cB : V4 * B = Qp + Qs := by rw [hV4]; field_simp
  clear_value Vn V3 V4 V5
  have key : Qp * (P1 - P5) - Qs * (P5 - P2) = rhop * Qp / 2 * (Vn - V4) ^ 2 + rhos * Qs / 2 * (V3 - V4) ^ 2
      + (Kp * (rhop * Qp * Vn ^ 2 / 2) + Ks * (rhos * Qs * V3 ^ 2 / 2) + (Km + Kd) * (m * V4 ^ 2 / 2) + m * V5 ^ 2 / 2) := by
    have e3' : (P4 - P3) * (Qp + Qs) = V4 * (rhop * Qp * Vn + rhos * Qs * V3 - m * V4) - Km * (m * V4 ^ 2 / 2) := by
      have := congrArg (fun t => V4 * t) e3
      rw [← c4]
      rw [← cB] at *
      linear_combination this
    have e4' : P5 * (Qp + Qs) + m * V5 ^ 2 / 2 = P4 * (Qp + Qs) + (1 - Kd) * (m * V4 ^ 2 / 2) := by
      rw [← c4, ← c5]; linear_combination (Qp + Qs) * e4
    rw [e1, e2]
    have : m = rhop * Qp + rhos * Qs := hm'
    clear_value m
    subst this
    linear_combination -e3' - e4'
  have : 0 ≤ rhop * Qp / 2 * (Vn - V4) ^ 2 + rhos * Qs / 2 * (V3 - V4) ^ 2
      + (Kp * (rhop * Qp * Vn ^ 2 / 2) + Ks * (rhos * Qs * V3 ^ 2 / 2) + (Km + Kd) * (m * V4 ^ 2 / 2) + m * V5 ^ 2 / 2) := by positivity
  linarith

end ratio

/-! ### the complete pump -/

section pump
variable (S : Solvers) (sys : SystemSolver) (F : Fixed) (d_diffuser : Option ℝ) (given : Var → Option ℝ) (factors : List (ℝ × ℝ))

/-- The diffuser diameter the documentation promises: the one given, else a thousand mixing tube diameters, else a thousand nozzle diameters, else 1000 m. -/
def IsDiffuser (d : ℝ) : Prop :=
  (∀ x, d_diffuser = some x → d = x) ∧ (d_diffuser = none → ∀ x, given .d_mixing = some x → d = 1000 * x) ∧
  (d_diffuser = none → given .d_mixing = none → ∀ x, given .d_nozzle = some x → d = 1000 * x) ∧
  (d_diffuser = none → given .d_mixing = none → given .d_nozzle = none → d = 1000)

lemma diffuser_spec : IsDiffuser d_diffuser given (diffuser d_diffuser (given .d_mixing) (given .d_nozzle)) := by
  unfold IsDiffuser diffuser
  generalize given .d_mixing = a
  generalize given .d_nozzle = b
  have e : (1e3 : ℝ) = 1000 := by norm_num
  rw [e]
  cases d_diffuser <;> cases a <;> cases b <;> simp [mul_comm]

/-- What the dictionary's derived entries mean. -/
structure Consistent (sol : Solution) : Prop where
  N : sol.N = (sol.vals .P5 - sol.vals .P2) / (sol.vals .P1 - sol.vals .P5)
  M : sol.M = sol.vals .Qs / sol.vals .Qp
  R : sol.R = (sol.vals .d_nozzle / sol.vals .d_mixing) ^ 2
  alpha : sol.alpha = (sol.vals .d_mixing / sol.d_diffuser) ^ 2
  efficiency : sol.efficiency = sol.vals .Qs * (sol.vals .P5 - sol.vals .P2) / (sol.vals .Qp * (sol.vals .P1 - sol.vals .P5))

lemma ne_of_pdiv {a b c : ℝ} (h : pdiv a b = .ok c) : b ≠ 0 ∧ c = a / b := by
  by_cases hb : b = 0
  · rw [hb, pdiv_zero] at h; cases h
  · rw [pdiv_ok hb] at h; exact ⟨hb, (Except.ok.inj h).symm⟩

/-- The objective, when it does not raise. -/
lemma obj_err_ok {F : Fixed} {dd : ℝ} {x : Var → ℝ} {e : ℝ × ℝ} {sol : Solution} (h : obj_err F dd x = .ok (e, sol)) :
    sol.vals = x ∧ sol.d_diffuser = dd ∧ Consistent sol ∧
    ∃ N0 : ℝ, pressure_ratio_N F.rhop F.rhos F.Km F.Kd F.Ks F.Kp (x .d_nozzle) (x .d_mixing) dd (x .Qp) (x .Qs) F.retracted = .ok N0 ∧
      e = (penalised (N0 - sol.N) sol.efficiency,
        penalised (F.rhop / 2 * (x .Qp / area (x .d_nozzle)) ^ 2 * ((1 + F.Kp) - F.rhos / F.rhop * (1 + F.Ks) * (sol.M * sol.R / (1 - sol.R)) ^ 2) - (x .P1 - x .P2)) sol.efficiency) := by
  unfold obj_err at h
  obtain ⟨C, hC, h⟩ := Py.bind_eq_ok.1 h
  obtain ⟨al, hal, h⟩ := Py.bind_eq_ok.1 h
  obtain ⟨R, hR, h⟩ := Py.bind_eq_ok.1 h
  obtain ⟨M, hM, h⟩ := Py.bind_eq_ok.1 h
  obtain ⟨N0, hN0, h⟩ := Py.bind_eq_ok.1 h
  obtain ⟨e1, he1, h⟩ := Py.bind_eq_ok.1 h
  obtain ⟨v, hv, h⟩ := Py.bind_eq_ok.1 h
  obtain ⟨w, hw, h⟩ := Py.bind_eq_ok.1 h
  obtain ⟨N, hN, h⟩ := Py.bind_eq_ok.1 h
  unfold pressure_ratio_residual at he1
  rw [hN, Py.ok_bind] at he1
  obtain rfl := Except.ok.inj he1
  obtain ⟨hC0, rfl⟩ := ne_of_pdiv hC
  obtain ⟨hal0, rfl⟩ := ne_of_pdiv hal
  obtain ⟨hR0, rfl⟩ := ne_of_pdiv hR
  obtain ⟨hM0, rfl⟩ := ne_of_pdiv hM
  obtain ⟨hv0, rfl⟩ := ne_of_pdiv hv
  obtain ⟨hw0, rfl⟩ := ne_of_pdiv hw
  obtain ⟨hN0', rfl⟩ := ne_of_pdiv hN
  have h := Except.ok.inj h
  simp only [Prod.mk.injEq] at h
  obtain ⟨rfl, rfl⟩ := h
  refine ⟨rfl, rfl, ⟨rfl, rfl, ?_, ?_, ?_⟩, N0, hN0, rfl⟩
  · simp only [div_pow]
  · simp only [div_pow]
  · simp only; rw [div_mul_div_comm]

/-- The variables that are missing, in the order of the signature. -/
def missing : List Var := solution_vars.filter fun i => (given i).isNone

lemma mem_missing {i : Var} : i ∈ missing given ↔ given i = none := by
  unfold missing solution_vars
  cases i <;> simp [List.mem_filter]

lemma missing_nodup : (missing given).Nodup := (by decide : solution_vars.Nodup).filter _

/-- C106: unless exactly two of the seven variables are missing the call raises ValueError. -/
theorem C106_count (h : (missing given).length ≠ 2) : liquid_jet_pump S sys F d_diffuser given factors = .error .valueError := by
  unfold missing at h
  unfold liquid_jet_pump
  rcases hl : solution_vars.filter fun i => (given i).isNone with _ | ⟨a, _ | ⟨b, _ | ⟨c, l⟩⟩⟩
  · rfl
  · rfl
  · rw [hl] at h; exact absurd rfl h
  · rfl

example : missing (fun _ => some 1) = [] := rfl

lemma solve_P5_ok {dd : ℝ} {u : Var} {sol : Solution} (h : solve_P5 S F dd given u = .ok (some sol)) :
    ∃ (a p N : ℝ), liquid_jet_pump_ancillary S F.rhop F.rhos F.Kp F.Ks (given .d_nozzle) (given .d_mixing) (given .Qp) (given .Qs) (given .P1) (given .P2) = .ok (some a) ∧
      (∀ x : Var → ℝ, x = (fun i => if i = u then a else (given i).getD 0) →
        pressure_ratio_N F.rhop F.rhos F.Km F.Kd F.Ks F.Kp (x .d_nozzle) (x .d_mixing) dd (x .Qp) (x .Qs) F.retracted = .ok N ∧
        pressure_ratio_solution N (some (x .P1)) (some (x .P2)) none = .ok (x .P1, x .P2, p)) ∧
      ∃ e, obj_err F dd (assign given u .P5 a p) = .ok (e, sol) := by
  unfold solve_P5 at h
  obtain ⟨a, ha, h⟩ := Py.bind_eq_ok.1 h
  cases a with
  | none => cases h
  | some a =>
    simp only at h
    obtain ⟨N, hN, h⟩ := Py.bind_eq_ok.1 h
    obtain ⟨⟨p1, p2, p⟩, hp, h⟩ := Py.bind_eq_ok.1 h
    obtain ⟨⟨e, sol'⟩, he, h⟩ := Py.bind_eq_ok.1 h
    obtain rfl := Option.some.inj (Except.ok.inj h)
    refine ⟨a, p, N, ha, ?_, e, he⟩
    rintro x rfl
    refine ⟨hN, ?_⟩
    simp only [pressure_ratio_solution] at hp ⊢
    obtain ⟨q, hq, h⟩ := Py.bind_eq_ok.1 hp
    have h := Except.ok.inj h
    simp only [Prod.mk.injEq] at h
    obtain ⟨-, -, rfl⟩ := h
    rw [hq]; rfl

lemma first_success_ok {α β : Type} {f : α → Py β} {l : List α} {b : β} (h : first_success f l = .ok b) : ∃ a ∈ l, f a = .ok b := by
  induction l with
  | nil => cases h
  | cons a l ih =>
    unfold first_success at h
    cases hf : f a with
    | ok c =>
      rw [hf] at h
      exact ⟨a, List.mem_cons_self .., by rw [hf]; exact h⟩
    | error e =>
      rw [hf] at h
      obtain ⟨a', ha', h'⟩ := ih h
      exact ⟨a', List.mem_cons_of_mem _ ha', h'⟩

lemma first_success_error {α β : Type} {f : α → Py β} {l : List α} {e : PyErr} (h : first_success f l = .error e) : e = .valueError ∧ ∀ a ∈ l, ∃ e', f a = .error e' := by
  induction l with
  | nil => exact ⟨(Except.error.inj h).symm, fun a ha => absurd ha List.not_mem_nil⟩
  | cons a l ih =>
    unfold first_success at h
    cases hf : f a with
    | ok c => rw [hf] at h; cases h
    | error e' =>
      rw [hf] at h
      obtain ⟨h1, h2⟩ := ih h
      refine ⟨h1, fun b hb => ?_⟩
      rcases List.mem_cons.1 hb with rfl | hb
      · exact ⟨e', hf⟩
      · exact h2 b hb

/-- The two ways a dictionary is returned. -/
lemma returned {sol : Solution} (h : liquid_jet_pump S sys F d_diffuser given factors = .ok (some sol)) :
    ∃ (u v : Var) (a b : ℝ) (e : ℝ × ℝ), missing given = [u, v] ∧
      obj_err F (diffuser d_diffuser (given .d_mixing) (given .d_nozzle)) (assign given u v a b) = .ok (e, sol) ∧
      (v = .P5 → solve_P5 S F (diffuser d_diffuser (given .d_mixing) (given .d_nozzle)) given u = .ok (some sol)) ∧
      (v ≠ .P5 → |e.1| + |e.2| ≤ 1e-5) := by
  unfold liquid_jet_pump at h
  rcases hl : solution_vars.filter fun i => (given i).isNone with _ | ⟨u, _ | ⟨v, _ | ⟨c, l⟩⟩⟩
  · rw [hl] at h; cases h
  · rw [hl] at h; cases h
  · rw [hl] at h
    simp only at h
    by_cases h0 : F.rhop = 0
    · rw [if_pos h0] at h; cases h
    rw [if_neg h0] at h
    by_cases h5 : v = .P5
    · rw [if_pos h5] at h
      obtain ⟨a, p, N, -, -, e, he⟩ := solve_P5_ok S F given h
      exact ⟨u, v, a, p, e, hl, h5 ▸ he, fun _ => h, fun h' => absurd h5 h'⟩
    · rw [if_neg h5] at h
      generalize hr : first_success _ _ = r at h
      cases r with
      | error e => cases h
      | ok s =>
        obtain rfl : s = sol := Option.some.inj (Except.ok.inj h)
        obtain ⟨k, -, hk⟩ := first_success_ok hr
        unfold solve_with_newton at hk
        obtain ⟨y, -, hk⟩ := Py.bind_eq_ok.1 hk
        obtain ⟨⟨e, s'⟩, he, hk⟩ := Py.bind_eq_ok.1 hk
        by_cases ht : |e.1| + |e.2| > 1e-5
        · rw [if_pos ht] at hk; cases hk
        · rw [if_neg ht] at hk
          obtain rfl := Except.ok.inj hk
          exact ⟨u, v, y.1, y.2, e, hl, he, fun h' => absurd h' h5, fun _ => not_lt.1 ht⟩
  · rw [hl] at h; cases h

/-- C106: the dictionary returned keeps every given variable, has values that are not negative for the two missing ones, and its derived entries (pressure ratio, flow ratio, area
ratios, efficiency, diffuser) are those of its own values, whichever way it was found. -/
theorem C106_returned {sol : Solution} (h : liquid_jet_pump S sys F d_diffuser given factors = .ok (some sol)) :
    (∀ i x, given i = some x → sol.vals i = x) ∧ (∀ i, given i = none → 0 ≤ sol.vals i) ∧ Consistent sol ∧ IsDiffuser d_diffuser given sol.d_diffuser := by
  obtain ⟨u, v, a, b, e, hm, ho, -, -⟩ := returned S sys F d_diffuser given factors h
  obtain ⟨h1, h2, h3, -⟩ := obj_err_ok ho
  have hu : given u = none := (mem_missing given).1 (by rw [hm]; simp)
  have hv : given v = none := (mem_missing given).1 (by rw [hm]; simp)
  refine ⟨fun i x hi => ?_, fun i hi => ?_, h3, ?_⟩
  · rw [h1]
    have hiv : i ≠ v := by rintro rfl; rw [hv] at hi; cases hi
    have hiu : i ≠ u := by rintro rfl; rw [hu] at hi; cases hi
    simp only [assign, if_neg hiv, if_neg hiu, hi, Option.getD_some]
  · have := (mem_missing given).2 hi
    rw [hm] at this
    simp only [List.mem_cons, List.not_mem_nil, or_false] at this
    rw [h1]
    unfold assign
    rcases this with rfl | rfl
    · by_cases hiv : i = v
      · rw [if_pos hiv]; exact abs_nonneg _
      · rw [if_neg hiv, if_pos rfl]; exact abs_nonneg _
    · rw [if_pos rfl]; exact abs_nonneg _
  · rw [h2]; exact diffuser_spec d_diffuser given

lemma penalised_abs (e f : ℝ) : |penalised e f| = |e| + (if f < 0 then |f| else 0) := by
  unfold penalised
  split_ifs with h1 h2
  · rw [abs_of_neg (a := e - |f|) (by have := abs_nonneg f; linarith), abs_of_neg h2]; ring
  · rw [abs_of_nonneg (a := e + |f|) (by have := abs_nonneg f; linarith [not_lt.1 h2]), abs_of_nonneg (not_lt.1 h2)]
  · ring

/-- C106: when the discharge pressure is known, a returned dictionary meets both equations within 1e-5: the residuals of the pressure ratio and (in Pa) of the supply balance sum to at
most that, and the efficiency is above -5e-6. The solver and the random restarts are arbitrary. -/
theorem C106_tolerance {sol : Solution} (h5 : given .P5 ≠ none) (h : liquid_jet_pump S sys F d_diffuser given factors = .ok (some sol)) :
    ∃ N0 : ℝ, pressure_ratio_N F.rhop F.rhos F.Km F.Kd F.Ks F.Kp (sol.vals .d_nozzle) (sol.vals .d_mixing) sol.d_diffuser (sol.vals .Qp) (sol.vals .Qs) F.retracted = .ok N0 ∧
      |N0 - sol.N| + |F.rhop / 2 * (sol.vals .Qp / area (sol.vals .d_nozzle)) ^ 2 * ((1 + F.Kp) - F.rhos / F.rhop * (1 + F.Ks) * (sol.M * sol.R / (1 - sol.R)) ^ 2)
        - (sol.vals .P1 - sol.vals .P2)| ≤ 1e-5 ∧ -5e-6 ≤ sol.efficiency := by
  obtain ⟨u, v, a, b, e, hm, ho, -, ht⟩ := returned S sys F d_diffuser given factors h
  obtain ⟨h1, h2, h3, N0, hN0, rfl⟩ := obj_err_ok ho
  have hv : v ≠ .P5 := by
    rintro rfl
    exact h5 ((mem_missing given).1 (by rw [hm]; simp))
  have ht := ht hv
  rw [h1, h2]
  refine ⟨N0, hN0, ?_⟩
  simp only [penalised_abs] at ht
  by_cases hs : sol.efficiency < 0
  · rw [if_pos hs, abs_of_neg hs] at ht
    refine ⟨by linarith, ?_⟩
    have i1 := abs_nonneg (N0 - sol.N)
    have i2 := abs_nonneg (F.rhop / 2 * (assign given u v a b .Qp / area (assign given u v a b .d_nozzle)) ^ 2 * ((1 + F.Kp) - F.rhos / F.rhop * (1 + F.Ks) * (sol.M * sol.R / (1 - sol.R)) ^ 2)
        - (assign given u v a b .P1 - assign given u v a b .P2))
    norm_num at ht ⊢
    linarith
  · rw [if_neg hs] at ht
    refine ⟨by linarith, ?_⟩
    have := not_lt.1 hs
    norm_num
    linarith

/-- C106: when the discharge pressure is known, every failure is a ValueError (a motive density that is not zero, two variables missing): no other exception of the attempts comes out. -/
theorem C106_failure {e : PyErr} (h5 : given .P5 ≠ none) (h0 : F.rhop ≠ 0)
    (h : liquid_jet_pump S sys F d_diffuser given factors = .error e) : e = .valueError := by
  unfold liquid_jet_pump at h
  rcases hl : solution_vars.filter fun i => (given i).isNone with _ | ⟨u, _ | ⟨v, _ | ⟨c, l⟩⟩⟩
  · rw [hl] at h; exact (Except.error.inj h).symm
  · rw [hl] at h; exact (Except.error.inj h).symm
  · rw [hl] at h
    simp only [if_neg h0] at h
    have hv : v ≠ .P5 := by
      rintro rfl
      exact h5 ((mem_missing given).1 (by unfold missing; rw [hl]; simp))
    rw [if_neg hv] at h
    generalize hr : first_success _ _ = r at h
    cases r with
    | error e' =>
      obtain rfl : e' = e := Except.error.inj h
      exact (first_success_error hr).1
    | ok s => cases h
  · rw [hl] at h; exact (Except.error.inj h).symm

/-- C106: when the discharge pressure and one of the flows or supply pressures are missing and the nozzle reaches into the mixing tube, the values solved for satisfy the conservation laws;
the dictionary has their absolute values. -/
theorem C106_discharge {sol : Solution} (h : liquid_jet_pump S sys F d_diffuser given factors = .ok (some sol)) (h5 : given .P5 = none) (hr : F.retracted = false)
    (hp : 0 < F.rhop) (hs : 0 < F.rhos) (hKp : -1 < F.Kp) (hKs : -1 < F.Ks) (dn dm : ℝ) (hdn : given .d_nozzle = some dn) (hdm : given .d_mixing = some dm) (hn : 0 < dn) (hm : dn < dm)
    (hd : 0 < sol.d_diffuser) (hQp : ∀ q, given .Qp = some q → 0 < q) (hQs : ∀ q, given .Qs = some q → 0 ≤ q) :
    ∃ x : Var → ℝ, (∀ i y, given i = some y → x i = y) ∧ (∀ i, given i = none → sol.vals i = |x i|) ∧
      Conservation F.rhop F.rhos F.Kp F.Ks F.Km F.Kd dn dm sol.d_diffuser (x .Qp) (x .Qs) (x .P1) (x .P2) (x .P5) := by
  obtain ⟨u, v, a', b', e', hmi, ho', hP, -⟩ := returned S sys F d_diffuser given factors h
  have hdd := (obj_err_ok ho').2.1
  rw [hdd] at hd ⊢
  generalize diffuser d_diffuser (given .d_mixing) (given .d_nozzle) = dd at *
  have h5m := (mem_missing given).2 h5
  have hsorted : v = .P5 := by
    unfold missing solution_vars at hmi
    have hc : (given .P5).isNone = true := by rw [h5]; rfl
    have : [u, v] = ([Var.d_nozzle, .d_mixing, .Qp, .Qs, .P1, .P2].filter fun i => (given i).isNone) ++ [.P5] := by
      rw [← hmi, show [Var.d_nozzle, .d_mixing, .Qp, .Qs, .P1, .P2, .P5] = [Var.d_nozzle, .d_mixing, .Qp, .Qs, .P1, .P2] ++ [.P5] from rfl, List.filter_append]
      congr 1
      simp [hc]
    have := congrArg List.getLast? this
    simpa using this
  subst hsorted
  obtain ⟨a, p, N, ha, hx, e, ho⟩ := solve_P5_ok S F given (hP rfl)
  obtain ⟨h1, h2, h3, -⟩ := obj_err_ok ho
  have hu : given u = none := (mem_missing given).1 (by rw [hmi]; simp)
  have hu5 : u ≠ .P5 := by
    have := missing_nodup given
    rw [hmi] at this
    simpa using this
  have hall : ∀ i, given i = none → i = u ∨ i = .P5 := by
    intro i hi
    have := (mem_missing given).2 hi
    rw [hmi] at this
    simpa using this
  obtain ⟨hN, hsol⟩ := hx _ rfl
  have key : ∀ (Qp Qs P1 P2 : ℝ), pressure_ratio_N F.rhop F.rhos F.Km F.Kd F.Ks F.Kp dn dm dd Qp Qs F.retracted = .ok N →
      pressure_ratio_solution N (some P1) (some P2) none = .ok (P1, P2, p) → 0 ≤ Qp → 0 ≤ Qs → Balance F.rhop F.rhos F.Kp F.Ks dn dm Qp Qs P1 P2 →
      Conservation F.rhop F.rhos F.Kp F.Ks F.Km F.Kd dn dm dd Qp Qs P1 P2 p := by
    intro Qp Qs P1 P2 hN hsol hQp hQs hb
    have hQ0 : Qp ≠ 0 := by
      rintro rfl
      unfold pressure_ratio_N at hN
      obtain ⟨_, -, hN⟩ := Py.bind_eq_ok.1 hN
      obtain ⟨_, -, hN⟩ := Py.bind_eq_ok.1 hN
      obtain ⟨_, -, hN⟩ := Py.bind_eq_ok.1 hN
      rw [pdiv_zero] at hN
      cases hN
    have hQ1 : 0 < Qp := lt_of_le_of_ne hQp (Ne.symm hQ0)
    refine (C106_conservation hp hn hm hd hQ1 (by linarith) hb P1 P2 p ?_).2.2
    rw [hr] at hN
    simp only [liquid_jet_pump_pressure_ratio, hN, Py.ok_bind, hsol]
    rfl
  have hval : ∀ i, i ≠ u → i ≠ .P5 → ∃ y, given i = some y := by
    intro i h1 h2
    cases hg : given i with
    | some y => exact ⟨y, rfl⟩
    | none => rcases hall i hg with h | h <;> contradiction
  refine ⟨fun i => if i = .P5 then p else if i = u then a else (given i).getD 0, fun i y hi => ?_, fun i hi => ?_, ?_⟩
  · have hiv : i ≠ .P5 := by rintro rfl; rw [h5] at hi; cases hi
    have hiu : i ≠ u := by rintro rfl; rw [hu] at hi; cases hi
    simp only [if_neg hiv, if_neg hiu, hi, Option.getD_some]
  · rw [h1]
    unfold assign
    rcases hall i hi with rfl | rfl
    · simp only [if_neg hu5, if_true]
    · simp only [if_true]
  · have hun : u ≠ .d_nozzle := by rintro rfl; rw [hdn] at hu; cases hu
    have hum : u ≠ .d_mixing := by rintro rfl; rw [hdm] at hu; cases hu
    rw [hdn, hdm] at ha
    simp only [hdn, hdm, if_neg (Ne.symm hun), if_neg (Ne.symm hum), Option.getD_some] at hN hsol
    cases u with
    | d_nozzle => exact absurd rfl hun
    | d_mixing => exact absurd rfl hum
    | P5 => exact absurd rfl hu5
    | Qp =>
      obtain ⟨qs, e1⟩ := hval .Qs (by decide) (by decide)
      obtain ⟨p1, e2⟩ := hval .P1 (by decide) (by decide)
      obtain ⟨p2, e3⟩ := hval .P2 (by decide) (by decide)
      simp only [reduceCtorEq, if_false, if_true, e1, e2, e3, Option.getD_some, hu] at ha hN hsol ⊢
      obtain ⟨q0, hb⟩ := ((C106_motive_flow S hp hKp hn hm).1 a).1 ha
      exact key _ _ _ _ hN hsol q0 (hQs _ e1) hb
    | Qs =>
      obtain ⟨qp, e1⟩ := hval .Qp (by decide) (by decide)
      obtain ⟨p1, e2⟩ := hval .P1 (by decide) (by decide)
      obtain ⟨p2, e3⟩ := hval .P2 (by decide) (by decide)
      simp only [reduceCtorEq, if_false, if_true, e1, e2, e3, Option.getD_some, hu] at ha hN hsol ⊢
      obtain ⟨q0, hb⟩ := ((C106_suction_flow S hp hs hKs hn hm).1 a).1 ha
      exact key _ _ _ _ hN hsol (hQp _ e1).le q0 hb
    | P1 =>
      obtain ⟨qp, e1⟩ := hval .Qp (by decide) (by decide)
      obtain ⟨qs, e2⟩ := hval .Qs (by decide) (by decide)
      obtain ⟨p2, e3⟩ := hval .P2 (by decide) (by decide)
      simp only [reduceCtorEq, if_false, if_true, e1, e2, e3, Option.getD_some, hu] at ha hN hsol ⊢
      exact key _ _ _ _ hN hsol (hQp _ e1).le (hQs _ e2) (((C106_supply_pressure S hp.ne' hn hm (hQp _ e1).ne' p2 a).1).1 ha)
    | P2 =>
      obtain ⟨qp, e1⟩ := hval .Qp (by decide) (by decide)
      obtain ⟨qs, e2⟩ := hval .Qs (by decide) (by decide)
      obtain ⟨p1, e3⟩ := hval .P1 (by decide) (by decide)
      simp only [reduceCtorEq, if_false, if_true, e1, e2, e3, Option.getD_some, hu] at ha hN hsol ⊢
      exact key _ _ _ _ hN hsol (hQp _ e1).le (hQs _ e2) (((C106_supply_pressure S hp.ne' hn hm (hQp _ e1).ne' p1 a).2).1 ha)

/-! ### both paths are met -/

/-- A pump of unit density without losses, diameters 1, 2 and 2, nozzle velocity 1 and equal flows. -/
def demo : Fixed := { rhop := 1, rhos := 1, Kp := 0, Ks := 0, Km := 0, Kd := 0, retracted := false }

def demoVals : Var → ℝ
  | .d_nozzle => 1 | .d_mixing => 2 | .Qp => π / 4 | .Qs => π / 4 | .P1 => 13 / 9 | .P2 => 1 | .P5 => 37 / 36

lemma demo_N : pressure_ratio_N 1 1 0 0 0 0 1 2 2 (π / 4) (π / 4) false = .ok (1 / 15) := by
  have h := pi_pos
  rw [pressure_ratio_N_eq (by norm_num) (by norm_num) (by norm_num) (by norm_num) (by positivity), div_self (by positivity), pdiv_ok]
  · refine congrArg Except.ok ?_
    simp only [docNum, docDen]; norm_num
  · simp only [docNum, docDen]; norm_num

lemma demo_obj : ∃ sol, obj_err demo 2 demoVals = .ok ((0, 0), sol) := by
  have h : (π / 4 : ℝ) ≠ 0 := by have := pi_pos; positivity
  refine ⟨{ vals := demoVals, d_diffuser := 2, N := 1 / 15, M := 1, R := 1 / 4, alpha := 1, efficiency := 1 / 15 }, ?_⟩
  have h1 : (1 : ℝ) - 1 / 4 ≠ 0 := by norm_num
  unfold obj_err
  simp only [demo, demoVals, demo_N, Py.ok_bind, pressure_ratio_residual]
  rw [pdiv_ok one_ne_zero, Py.ok_bind, pdiv_ok (by norm_num), Py.ok_bind, pdiv_ok (by norm_num), Py.ok_bind, pdiv_ok h, Py.ok_bind, div_self h,
    show (1 : ℝ) ^ 2 / 2 ^ 2 = 1 / 4 by norm_num, show π / 4 * (1 : ℝ) ^ 2 = π / 4 by ring]
  rw [pdiv_ok (a := 37 / 36 - 1) (by norm_num), Py.ok_bind]
  simp only [Py.pure_eq, Py.ok_bind]
  rw [pdiv_ok h, Py.ok_bind, div_self h, pdiv_ok h1, Py.ok_bind]
  have e : ((37 : ℝ) / 36 - 1) / (13 / 9 - 37 / 36) = 1 / 15 := by norm_num
  rw [e]
  simp only [penalised, Except.ok.injEq, Prod.mk.injEq]
  norm_num

lemma demo_assign {u v : Var} {a b : ℝ} (ha : |a| = demoVals u) (hb : |b| = demoVals v) :
    assign (fun i => if i = u ∨ i = v then none else some (demoVals i)) u v a b = demoVals := by
  funext i
  unfold assign
  by_cases hv : i = v
  · rw [if_pos hv, hb, hv]
  · rw [if_neg hv]
    by_cases hu : i = u
    · rw [if_pos hu, ha, hu]
    · simp only [if_neg hu, hu, hv, or_self, if_false, Option.getD_some]

/-- With `P1` and `P2` missing and a solver that finds the solution. -/
example : ∃ sol, liquid_jet_pump S (fun _ _ => .ok (13 / 9, 1)) demo (some 2) (fun i => if i = .P1 ∨ i = .P2 then none else some (demoVals i)) [] = .ok (some sol) := by
  obtain ⟨sol, hsol⟩ := demo_obj
  refine ⟨sol, ?_⟩
  have hm : (solution_vars.filter fun i => (if i = Var.P1 ∨ i = Var.P2 then none else some (demoVals i) : Option ℝ).isNone) = [.P1, .P2] := by
    simp [solution_vars]
  unfold liquid_jet_pump
  rw [hm]
  have h0 : demo.rhop ≠ 0 := one_ne_zero
  simp only [if_neg h0, reduceCtorEq, if_false, first_success, solve_with_newton, Py.ok_bind, diffuser]
  rw [demo_assign (by norm_num [demoVals]) (by norm_num [demoVals]), hsol, Py.ok_bind]
  have : ¬ (|(0 : ℝ)| + |(0 : ℝ)| > 1e-5) := by norm_num
  simp only [if_neg this]
  rfl

/-- With `P1` and `P5` missing. -/
example : ∃ sol, liquid_jet_pump S sys demo (some 2) (fun i => if i = .P1 ∨ i = .P5 then none else some (demoVals i)) [] = .ok (some sol) := by
  obtain ⟨sol, hsol⟩ := demo_obj
  refine ⟨sol, ?_⟩
  have hm : (solution_vars.filter fun i => (if i = Var.P1 ∨ i = Var.P5 then none else some (demoVals i) : Option ℝ).isNone) = [.P1, .P5] := by
    simp [solution_vars]
  have hpi := pi_pos
  unfold liquid_jet_pump
  rw [hm]
  have h0 : demo.rhop ≠ 0 := one_ne_zero
  simp only [if_neg h0, if_true, diffuser]
  have ha : liquid_jet_pump_ancillary S 1 1 0 0 (some 1) (some 2) (some (π / 4)) (some (π / 4)) none (some 1) = .ok (some (13 / 9)) := by
    refine ((C106_supply_pressure S one_ne_zero one_pos one_lt_two (by positivity) 1 (13 / 9)).1).2 ?_
    unfold Balance area
    have e : π / 4 / (π / 4 * (2 : ℝ) ^ 2 - π / 4 * 1 ^ 2) = 1 / 3 := by field_simp; norm_num
    rw [e, one_pow, mul_one, div_self (by positivity)]
    norm_num
  unfold solve_P5
  simp only [demo, demoVals, reduceCtorEq, or_false, false_or, or_self, if_true, if_false, ha, Py.ok_bind, Option.getD_some]
  rw [demo_N, Py.ok_bind]
  simp only [pressure_ratio_solution]
  rw [pdiv_ok (by norm_num), Py.ok_bind, Py.pure_eq, Py.ok_bind]
  have hq := demo_assign (u := .P1) (v := .P5) (a := 13 / 9) (b := (13 / 9 * (1 / 15) + 1) / (1 / 15 + 1)) (by norm_num [demoVals]) (by norm_num [demoVals])
  change (do let r ← obj_err demo 2 (assign (fun i => if i = Var.P1 ∨ i = Var.P5 then none else some (demoVals i)) .P1 .P5 (13 / 9) ((13 / 9 * (1 / 15) + 1) / (1 / 15 + 1))); return some r.2) = _
  rw [hq, hsol]; rfl

end pump

end Verif.JetPump
