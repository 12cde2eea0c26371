import Verif.Model.PackedBed
import Verif.Lemmas.Tactic
import Mathlib.Analysis.SpecialFunctions.Pow.Continuity

/-! C94, C95: pressure drop of packed beds and their voidage. -/

open Real Filter Topology

noncomputable section

namespace Verif.PackedBed

/-! ### Specification -/

/-- a pressure drop function of particle diameter, voidage, superficial velocity, density, viscosity and bed length -/
abbrev Correlation := ℝ → ℝ → ℝ → ℝ → ℝ → ℝ → Py ℝ

/-- a physical bed with flow -/
structure Bed (dp ε vs rho mu L : ℝ) : Prop where
  dp : 0 < dp
  lo : 0 < ε
  hi : ε < 1
  vs : 0 < vs
  rho : 0 < rho
  mu : 0 < mu
  L : 0 < L

/-- the Kozeny-Carman group: pressure drop of creeping flow without its numerical factor -/
def kozeny (dp ε vs mu L : ℝ) : ℝ := mu * vs * L * (1 - ε) ^ 2 / (dp ^ 2 * ε ^ 3)

/-- the modified Reynolds number -/
def Rem (dp ε vs rho mu : ℝ) : ℝ := dp * rho * vs / (mu * (1 - ε))

/-- the laws a pressure drop obeys in every physical bed: it exists and is positive, is proportional to the length, rises strictly with the
velocity, never falls with the viscosity, and falls strictly with the voidage -/
structure Laws (f : Correlation) : Prop where
  pos : ∀ {dp ε vs rho mu L}, Bed dp ε vs rho mu L → ∃ P, f dp ε vs rho mu L = .ok P ∧ 0 < P
  length : ∀ {dp ε vs rho mu L k P}, Bed dp ε vs rho mu L → 0 < k → f dp ε vs rho mu L = .ok P → f dp ε vs rho mu (k * L) = .ok (k * P)
  velocity : ∀ {dp ε vs vs' rho mu L P P'}, Bed dp ε vs rho mu L → vs < vs' → f dp ε vs rho mu L = .ok P → f dp ε vs' rho mu L = .ok P' → P < P'
  viscosity : ∀ {dp ε vs rho mu mu' L P P'}, Bed dp ε vs rho mu L → mu ≤ mu' → f dp ε vs rho mu L = .ok P → f dp ε vs rho mu' L = .ok P' → P ≤ P'
  voidage : ∀ {dp ε ε' vs rho mu L P P'}, Bed dp ε vs rho mu L → ε < ε' → ε' < 1 → f dp ε vs rho mu L = .ok P → f dp ε' vs rho mu L = .ok P' → P' < P

/-- Darcy's law at small velocity with the numerical factor `A` -/
def Darcy (f : Correlation) (A : ℝ) : Prop :=
  ∀ {dp ε rho mu L}, Bed dp ε 1 rho mu L → ∀ P : ℝ → ℝ, (∀ vs, 0 < vs → f dp ε vs rho mu L = .ok (P vs)) →
    Tendsto (fun vs => P vs / vs) (𝓝[>] 0) (𝓝 (A * (mu * L * (1 - ε) ^ 2 / (dp ^ 2 * ε ^ 3))))

section
variable {dp ε vs rho mu L : ℝ}

theorem Bed.h (b : Bed dp ε vs rho mu L) : 0 < 1 - ε := by linarith [b.hi]

theorem Bed.rem (b : Bed dp ε vs rho mu L) : 0 < Rem dp ε vs rho mu := by
  have := b.h; have := b.dp; have := b.rho; have := b.vs; have := b.mu
  unfold Rem; positivity

theorem Bed.koz (b : Bed dp ε vs rho mu L) : 0 < kozeny dp ε vs mu L := by
  have := b.h; have := b.dp; have := b.rho; have := b.vs; have := b.mu; have := b.L; have := b.lo
  unfold kozeny; positivity

theorem kozeny_rpow (b : Bed dp ε vs rho mu L) (n : ℝ) :
    kozeny dp ε vs mu L * Rem dp ε vs rho mu ^ n =
      vs ^ (1 + n) * mu ^ (1 - n) * (1 - ε) ^ (2 - n) * (L * (dp * rho) ^ n / (dp ^ 2 * ε ^ 3)) := by
  have h := b.h; have hd := b.dp; have hr := b.rho; have hv := b.vs; have hm := b.mu; have := b.L; have := b.lo
  unfold kozeny Rem
  rw [div_rpow (by positivity) (by positivity), mul_rpow (by positivity) hv.le, mul_rpow hm.le h.le, rpow_add hv, rpow_one, rpow_sub hm, rpow_one,
    rpow_sub h, show ((1 - ε) ^ (2:ℝ)) = (1 - ε) ^ 2 by exact_mod_cast rpow_natCast (1 - ε) 2]
  have := rpow_pos_of_pos hm n; have := rpow_pos_of_pos h n
  field_simp
end

/-- every correlation of the form Kozeny-Carman group times `A + C*Rem^n` obeys the laws -/
theorem family {f : Correlation} {A C n : ℝ} (hA : 0 ≤ A) (hC : 0 ≤ C) (hAC : 0 < A + C) (hn : 0 ≤ n) (hn1 : n ≤ 1)
    (hf : ∀ {dp ε vs rho mu L}, Bed dp ε vs rho mu L → f dp ε vs rho mu L = .ok (kozeny dp ε vs mu L * (A + C * Rem dp ε vs rho mu ^ n))) : Laws f := by
  have strict : ∀ {a b c d : ℝ}, a < c → b < d → A * a + C * b < A * c + C * d := by
    intro a b c d h1 h2
    rcases hA.lt_or_eq with h | h
    · have := mul_lt_mul_of_pos_left h1 h
      have := mul_le_mul_of_nonneg_left h2.le hC
      linarith
    · have hC' : 0 < C := by linarith
      have := mul_lt_mul_of_pos_left h2 hC'
      have := mul_le_mul_of_nonneg_left h1.le hA
      linarith
  have split : ∀ {dp ε vs rho mu L}, Bed dp ε vs rho mu L → kozeny dp ε vs mu L * (A + C * Rem dp ε vs rho mu ^ n) =
      A * kozeny dp ε vs mu L + C * (kozeny dp ε vs mu L * Rem dp ε vs rho mu ^ n) := fun _ => by ring
  refine ⟨fun b => ⟨_, hf b, ?_⟩, fun {dp ε vs rho mu L k P} b hk h => ?_, fun {dp ε vs vs' rho mu L P P'} b hv h h' => ?_,
    fun {dp ε vs rho mu mu' L P P'} b hm h h' => ?_, fun {dp ε ε' vs rho mu L P P'} b he h1 h h' => ?_⟩
  · have := rpow_pos_of_pos b.rem n
    refine mul_pos b.koz ?_
    rcases hA.lt_or_eq with h | h
    · positivity
    · have hC' : 0 < C := by linarith
      positivity
  · rw [hf b] at h
    rw [hf ⟨b.dp, b.lo, b.hi, b.vs, b.rho, b.mu, mul_pos hk b.L⟩, ← Except.ok.inj h]
    congr 1; unfold kozeny; ring
  · have b' : Bed dp ε vs' rho mu L := ⟨b.dp, b.lo, b.hi, b.vs.trans hv, b.rho, b.mu, b.L⟩
    rw [hf b, split b] at h; rw [hf b', split b'] at h'
    rw [← Except.ok.inj h, ← Except.ok.inj h']
    have h0 := b.h; have := b.dp; have := b.rho; have := b.vs; have := b.mu; have := b.L; have := b.lo
    apply strict
    · unfold kozeny; gcongr
    · rw [kozeny_rpow b, kozeny_rpow b']
      have : vs ^ (1 + n) < vs' ^ (1 + n) := rpow_lt_rpow b.vs.le hv (by linarith)
      have := rpow_pos_of_pos b.mu (1 - n); have := rpow_pos_of_pos h0 (2 - n); have := rpow_pos_of_pos (mul_pos b.dp b.rho) n
      gcongr
  · have b' : Bed dp ε vs rho mu' L := ⟨b.dp, b.lo, b.hi, b.vs, b.rho, b.mu.trans_le hm, b.L⟩
    rw [hf b, split b] at h; rw [hf b', split b'] at h'
    rw [← Except.ok.inj h, ← Except.ok.inj h']
    have h0 := b.h; have := b.dp; have := b.rho; have := b.vs; have := b.mu; have := b.L; have := b.lo
    have e1 : kozeny dp ε vs mu L ≤ kozeny dp ε vs mu' L := by unfold kozeny; gcongr
    have e2 : kozeny dp ε vs mu L * Rem dp ε vs rho mu ^ n ≤ kozeny dp ε vs mu' L * Rem dp ε vs rho mu' ^ n := by
      rw [kozeny_rpow b, kozeny_rpow b']
      have : mu ^ (1 - n) ≤ mu' ^ (1 - n) := rpow_le_rpow b.mu.le hm (by linarith)
      have := rpow_pos_of_pos b.vs (1 + n); have := rpow_pos_of_pos h0 (2 - n); have := rpow_pos_of_pos (mul_pos b.dp b.rho) n
      gcongr
    have := mul_le_mul_of_nonneg_left e1 hA
    have := mul_le_mul_of_nonneg_left e2 hC
    linarith
  · have b' : Bed dp ε' vs rho mu L := ⟨b.dp, b.lo.trans he, h1, b.vs, b.rho, b.mu, b.L⟩
    rw [hf b, split b] at h; rw [hf b', split b'] at h'
    rw [← Except.ok.inj h, ← Except.ok.inj h']
    have h0 := b.h; have h0' := b'.h; have := b.dp; have := b.rho; have := b.vs; have := b.mu; have := b.L; have := b.lo
    have hh : 1 - ε' < 1 - ε := by linarith
    apply strict
    · unfold kozeny
      rw [div_lt_div_iff₀ (by have := b'.lo; positivity) (by positivity)]
      have e1 : (1 - ε') ^ 2 < (1 - ε) ^ 2 := by gcongr
      have e2 : ε ^ 3 ≤ ε' ^ 3 := by gcongr
      calc mu * vs * L * (1 - ε') ^ 2 * (dp ^ 2 * ε ^ 3) < mu * vs * L * (1 - ε) ^ 2 * (dp ^ 2 * ε ^ 3) := by gcongr
        _ ≤ mu * vs * L * (1 - ε) ^ 2 * (dp ^ 2 * ε' ^ 3) := by gcongr
    · rw [kozeny_rpow b, kozeny_rpow b']
      have e1 : (1 - ε') ^ (2 - n) < (1 - ε) ^ (2 - n) := rpow_lt_rpow h0'.le hh (by linarith)
      have p1 := rpow_pos_of_pos b.mu (1 - n); have p2 := rpow_pos_of_pos b.vs (1 + n); have p3 := rpow_pos_of_pos (mul_pos b.dp b.rho) n
      have p4 := rpow_pos_of_pos h0 (2 - n)
      have e2 : L * (dp * rho) ^ n / (dp ^ 2 * ε' ^ 3) ≤ L * (dp * rho) ^ n / (dp ^ 2 * ε ^ 3) := by gcongr
      calc vs ^ (1 + n) * mu ^ (1 - n) * (1 - ε') ^ (2 - n) * (L * (dp * rho) ^ n / (dp ^ 2 * ε' ^ 3))
          ≤ vs ^ (1 + n) * mu ^ (1 - n) * (1 - ε') ^ (2 - n) * (L * (dp * rho) ^ n / (dp ^ 2 * ε ^ 3)) := by gcongr
        _ < vs ^ (1 + n) * mu ^ (1 - n) * (1 - ε) ^ (2 - n) * (L * (dp * rho) ^ n / (dp ^ 2 * ε ^ 3)) := by gcongr

theorem family_darcy {f : Correlation} {A C n : ℝ} (hn : 0 < n)
    (hf : ∀ {dp ε vs rho mu L}, Bed dp ε vs rho mu L → f dp ε vs rho mu L = .ok (kozeny dp ε vs mu L * (A + C * Rem dp ε vs rho mu ^ n))) : Darcy f A := by
  intro dp ε rho mu L b P hP
  have hc : Tendsto (fun vs : ℝ => (mu * L * (1 - ε) ^ 2 / (dp ^ 2 * ε ^ 3)) * (A + C * (dp * rho * vs / (mu * (1 - ε))) ^ n)) (𝓝[>] 0)
      (𝓝 ((mu * L * (1 - ε) ^ 2 / (dp ^ 2 * ε ^ 3)) * (A + C * (dp * rho * 0 / (mu * (1 - ε))) ^ n))) := by
    apply Tendsto.mono_left _ nhdsWithin_le_nhds
    apply Continuous.tendsto
    have : Continuous fun vs : ℝ => (dp * rho * vs / (mu * (1 - ε))) ^ n := Continuous.rpow_const (by fun_prop) fun _ => Or.inr hn.le
    fun_prop
  rw [mul_zero, zero_div, zero_rpow hn.ne', mul_zero, add_zero, mul_comm _ A] at hc
  refine hc.congr' ?_
  filter_upwards [self_mem_nhdsWithin] with vs hvs
  have hvs : 0 < vs := hvs
  have b' : Bed dp ε vs rho mu L := ⟨b.dp, b.lo, b.hi, hvs, b.rho, b.mu, b.L⟩
  have h := hP vs hvs
  rw [hf b'] at h
  rw [← Except.ok.inj h]
  unfold kozeny Rem
  field_simp

section
variable {dp ε vs rho mu L : ℝ}

theorem Ergun_eq (b : Bed dp ε vs rho mu L) : Ergun dp ε vs rho mu L = .ok (kozeny dp ε vs mu L * (150 + 1.75 * Rem dp ε vs rho mu ^ (1:ℝ))) := by
  have := b.h; have := b.dp; have := b.rho; have := b.vs; have := b.mu; have := b.L; have := b.lo
  unfold Ergun; py_eval []; unfold kozeny Rem; rw [rpow_one]; field_simp

theorem Kuo_Nydegger_eq (b : Bed dp ε vs rho mu L) : Kuo_Nydegger dp ε vs rho mu L = .ok (kozeny dp ε vs mu L * (276.23 + 5.05 * Rem dp ε vs rho mu ^ (0.87:ℝ))) := by
  have := b.h; have := b.dp; have := b.rho; have := b.vs; have := b.mu; have := b.L; have := b.lo
  unfold Kuo_Nydegger; py_eval []; unfold kozeny Rem; rw [div_div]; generalize (dp * rho * vs / (mu * (1 - ε))) ^ (0.87:ℝ) = x; field_simp

theorem Tallmadge_eq (b : Bed dp ε vs rho mu L) : Tallmadge dp ε vs rho mu L = .ok (kozeny dp ε vs mu L * (150 + 4.2 * Rem dp ε vs rho mu ^ (5 / 6:ℝ))) := by
  have := b.h; have := b.dp; have := b.rho; have := b.vs; have := b.mu; have := b.L; have := b.lo
  unfold Tallmadge; py_eval []; unfold kozeny Rem; rw [div_div]; generalize (dp * rho * vs / (mu * (1 - ε))) ^ (5 / 6:ℝ) = x; field_simp

theorem Jones_Krier_eq (b : Bed dp ε vs rho mu L) : Jones_Krier dp ε vs rho mu L = .ok (kozeny dp ε vs mu L * (150 + 3.89 * Rem dp ε vs rho mu ^ (0.87:ℝ))) := by
  have := b.h; have := b.dp; have := b.rho; have := b.vs; have := b.mu; have := b.L; have := b.lo
  unfold Jones_Krier; py_eval []; unfold kozeny Rem; rw [div_div]; generalize (dp * rho * vs / (mu * (1 - ε))) ^ (0.87:ℝ) = x; field_simp

theorem Carman_eq (b : Bed dp ε vs rho mu L) : Carman dp ε vs rho mu L = .ok (kozeny dp ε vs mu L * (180 + 2.871 * Rem dp ε vs rho mu ^ (0.9:ℝ))) := by
  have := b.h; have := b.dp; have := b.rho; have := b.vs; have := b.mu; have := b.L; have := b.lo
  unfold Carman; py_eval []; unfold kozeny Rem; rw [div_div]; generalize (dp * rho * vs / (mu * (1 - ε))) ^ (0.9:ℝ) = x; field_simp

theorem Brauer_eq (b : Bed dp ε vs rho mu L) : Brauer dp ε vs rho mu L = .ok (kozeny dp ε vs mu L * (160 + 3.1 * Rem dp ε vs rho mu ^ (0.9:ℝ))) := by
  have := b.h; have := b.dp; have := b.rho; have := b.vs; have := b.mu; have := b.L; have := b.lo
  unfold Brauer; py_eval []; unfold kozeny Rem; rw [div_div]; generalize (dp * rho * vs / (mu * (1 - ε))) ^ (0.9:ℝ) = x; field_simp

theorem KTA_eq (b : Bed dp ε vs rho mu L) : KTA dp ε vs rho mu L = .ok (kozeny dp ε vs mu L * (160 + 3 * Rem dp ε vs rho mu ^ (0.9:ℝ))) := by
  have := b.h; have := b.dp; have := b.rho; have := b.vs; have := b.mu; have := b.L; have := b.lo
  unfold KTA; py_eval []; unfold kozeny Rem; rw [div_div]; generalize (dp * rho * vs / (mu * (1 - ε))) ^ (0.9:ℝ) = x; field_simp

theorem Erdim_eq (b : Bed dp ε vs rho mu L) : Erdim_Akgiray_Demir dp ε vs rho mu L = .ok (kozeny dp ε vs mu L * (160 + 2.81 * Rem dp ε vs rho mu ^ (0.904:ℝ))) := by
  have := b.h; have := b.dp; have := b.rho; have := b.vs; have := b.mu; have := b.L; have := b.lo
  unfold Erdim_Akgiray_Demir; py_eval []; unfold kozeny Rem; rw [mul_comm (1 - ε) mu]; generalize (dp * rho * vs / (mu * (1 - ε))) ^ (0.904:ℝ) = x; field_simp

theorem Hicks_eq (b : Bed dp ε vs rho mu L) : Hicks dp ε vs rho mu L = .ok (kozeny dp ε vs mu L * (0 + 6.8 * Rem dp ε vs rho mu ^ (0.8:ℝ))) := by
  have h0 := b.h; have := b.dp; have := b.rho; have := b.vs; have := b.mu; have := b.L; have := b.lo
  unfold Hicks; py_eval []
  have hR : 0 < dp * rho * vs / mu := by positivity
  have e : Rem dp ε vs rho mu = dp * rho * vs / mu / (1 - ε) := by unfold Rem; rw [div_div]
  rw [e, div_rpow hR.le h0.le]
  have e1 : (dp * rho * vs / mu) ^ (0.8:ℝ) = (dp * rho * vs / mu) / (dp * rho * vs / mu) ^ (0.2:ℝ) := by
    rw [show (0.8:ℝ) = 1 - 0.2 by norm_num, rpow_sub hR, rpow_one]
  have e2 : (1 - ε) ^ (1.2:ℝ) = (1 - ε) ^ 2 / (1 - ε) ^ (0.8:ℝ) := by
    rw [show (1.2:ℝ) = 2 - 0.8 by norm_num, rpow_sub h0]; norm_cast
  rw [e1, e2]
  have := rpow_pos_of_pos hR 0.2; have := rpow_pos_of_pos h0 0.8
  generalize (dp * rho * vs / mu) ^ (0.2:ℝ) = x at *
  generalize (1 - ε) ^ (0.8:ℝ) = y at *
  congr 1; unfold kozeny; field_simp; ring
end

/-! ### C94 -/

theorem C94_Ergun : Laws Ergun ∧ Darcy Ergun 150 := ⟨family (by norm_num) (by norm_num) (by norm_num) (by norm_num) (by norm_num) Ergun_eq, family_darcy (by norm_num) Ergun_eq⟩
theorem C94_Kuo_Nydegger : Laws Kuo_Nydegger ∧ Darcy Kuo_Nydegger 276.23 := ⟨family (by norm_num) (by norm_num) (by norm_num) (by norm_num) (by norm_num) Kuo_Nydegger_eq, family_darcy (by norm_num) Kuo_Nydegger_eq⟩
theorem C94_Tallmadge : Laws Tallmadge ∧ Darcy Tallmadge 150 := ⟨family (by norm_num) (by norm_num) (by norm_num) (by norm_num) (by norm_num) Tallmadge_eq, family_darcy (by norm_num) Tallmadge_eq⟩
theorem C94_Jones_Krier : Laws Jones_Krier ∧ Darcy Jones_Krier 150 := ⟨family (by norm_num) (by norm_num) (by norm_num) (by norm_num) (by norm_num) Jones_Krier_eq, family_darcy (by norm_num) Jones_Krier_eq⟩
theorem C94_Carman : Laws Carman ∧ Darcy Carman 180 := ⟨family (by norm_num) (by norm_num) (by norm_num) (by norm_num) (by norm_num) Carman_eq, family_darcy (by norm_num) Carman_eq⟩
theorem C94_Brauer : Laws Brauer ∧ Darcy Brauer 160 := ⟨family (by norm_num) (by norm_num) (by norm_num) (by norm_num) (by norm_num) Brauer_eq, family_darcy (by norm_num) Brauer_eq⟩
theorem C94_KTA : Laws KTA ∧ Darcy KTA 160 := ⟨family (by norm_num) (by norm_num) (by norm_num) (by norm_num) (by norm_num) KTA_eq, family_darcy (by norm_num) KTA_eq⟩
theorem C94_Erdim_Akgiray_Demir : Laws Erdim_Akgiray_Demir ∧ Darcy Erdim_Akgiray_Demir 160 := ⟨family (by norm_num) (by norm_num) (by norm_num) (by norm_num) (by norm_num) Erdim_eq, family_darcy (by norm_num) Erdim_eq⟩
/-- Hicks has no Darcy regime: its pressure drop over velocity vanishes -/
theorem C94_Hicks : Laws Hicks ∧ Darcy Hicks 0 := ⟨family (by norm_num) (by norm_num) (by norm_num) (by norm_num) (by norm_num) Hicks_eq, family_darcy (by norm_num) Hicks_eq⟩

/-- the published equations of the family, in the Kozeny-Carman group and the modified Reynolds number -/
theorem C94_equations {dp ε vs rho mu L : ℝ} (b : Bed dp ε vs rho mu L) :
    Ergun dp ε vs rho mu L = .ok (kozeny dp ε vs mu L * (150 + 1.75 * Rem dp ε vs rho mu)) ∧
    Kuo_Nydegger dp ε vs rho mu L = .ok (kozeny dp ε vs mu L * (276.23 + 5.05 * Rem dp ε vs rho mu ^ (0.87:ℝ))) ∧
    Tallmadge dp ε vs rho mu L = .ok (kozeny dp ε vs mu L * (150 + 4.2 * Rem dp ε vs rho mu ^ (5 / 6:ℝ))) ∧
    Jones_Krier dp ε vs rho mu L = .ok (kozeny dp ε vs mu L * (150 + 3.89 * Rem dp ε vs rho mu ^ (0.87:ℝ))) ∧
    Carman dp ε vs rho mu L = .ok (kozeny dp ε vs mu L * (180 + 2.871 * Rem dp ε vs rho mu ^ (0.9:ℝ))) ∧
    Brauer dp ε vs rho mu L = .ok (kozeny dp ε vs mu L * (160 + 3.1 * Rem dp ε vs rho mu ^ (0.9:ℝ))) ∧
    KTA dp ε vs rho mu L = .ok (kozeny dp ε vs mu L * (160 + 3 * Rem dp ε vs rho mu ^ (0.9:ℝ))) ∧
    Erdim_Akgiray_Demir dp ε vs rho mu L = .ok (kozeny dp ε vs mu L * (160 + 2.81 * Rem dp ε vs rho mu ^ (0.904:ℝ))) ∧
    Hicks dp ε vs rho mu L = .ok (kozeny dp ε vs mu L * (6.8 * Rem dp ε vs rho mu ^ (0.8:ℝ))) := by
  refine ⟨?_, Kuo_Nydegger_eq b, Tallmadge_eq b, Jones_Krier_eq b, Carman_eq b, Brauer_eq b, KTA_eq b, Erdim_eq b, ?_⟩
  · rw [Ergun_eq b, rpow_one]
  · rw [Hicks_eq b, zero_add]

/-! ### The remaining correlations -/

/-- the laws for the values themselves -/
structure Good (F : ℝ → ℝ → ℝ → ℝ → ℝ → ℝ → ℝ) : Prop where
  pos : ∀ {dp ε vs rho mu L}, Bed dp ε vs rho mu L → 0 < F dp ε vs rho mu L
  length : ∀ {dp ε vs rho mu L k}, Bed dp ε vs rho mu L → 0 < k → F dp ε vs rho mu (k * L) = k * F dp ε vs rho mu L
  velocity : ∀ {dp ε vs vs' rho mu L}, Bed dp ε vs rho mu L → vs < vs' → F dp ε vs rho mu L < F dp ε vs' rho mu L
  viscosity : ∀ {dp ε vs rho mu mu' L}, Bed dp ε vs rho mu L → mu ≤ mu' → F dp ε vs rho mu L ≤ F dp ε vs rho mu' L
  voidage : ∀ {dp ε ε' vs rho mu L}, Bed dp ε vs rho mu L → ε < ε' → ε' < 1 → F dp ε' vs rho mu L < F dp ε vs rho mu L

theorem Good.laws {F : ℝ → ℝ → ℝ → ℝ → ℝ → ℝ → ℝ} {f : Correlation} (g : Good F)
    (h : ∀ {dp ε vs rho mu L}, Bed dp ε vs rho mu L → f dp ε vs rho mu L = .ok (F dp ε vs rho mu L)) : Laws f := by
  refine ⟨fun b => ⟨_, h b, g.pos b⟩, fun b hk e => ?_, fun b hv e e' => ?_, fun b hm e e' => ?_, fun b he h1 e e' => ?_⟩
  · rw [h ⟨b.dp, b.lo, b.hi, b.vs, b.rho, b.mu, mul_pos hk b.L⟩, g.length b hk]
    rw [h b] at e; rw [← Except.ok.inj e]
  · rw [h b] at e; rw [h ⟨b.dp, b.lo, b.hi, b.vs.trans hv, b.rho, b.mu, b.L⟩] at e'
    rw [← Except.ok.inj e, ← Except.ok.inj e']; exact g.velocity b hv
  · rw [h b] at e; rw [h ⟨b.dp, b.lo, b.hi, b.vs, b.rho, b.mu.trans_le hm, b.L⟩] at e'
    rw [← Except.ok.inj e, ← Except.ok.inj e']; exact g.viscosity b hm
  · rw [h b] at e; rw [h ⟨b.dp, b.lo.trans he, h1, b.vs, b.rho, b.mu, b.L⟩] at e'
    rw [← Except.ok.inj e, ← Except.ok.inj e']; exact g.voidage b he h1

theorem Good.add {F G : ℝ → ℝ → ℝ → ℝ → ℝ → ℝ → ℝ} (hF : Good F) (hG : Good G) : Good fun dp ε vs rho mu L => F dp ε vs rho mu L + G dp ε vs rho mu L :=
  ⟨fun b => add_pos (hF.pos b) (hG.pos b), fun b hk => by rw [hF.length b hk, hG.length b hk]; ring,
    fun b hv => add_lt_add (hF.velocity b hv) (hG.velocity b hv), fun b hm => add_le_add (hF.viscosity b hm) (hG.viscosity b hm),
    fun b he h1 => add_lt_add (hF.voidage b he h1) (hG.voidage b he h1)⟩

/-- a weight that depends on the bed only and never rises with the voidage -/
theorem Good.weight {F : ℝ → ℝ → ℝ → ℝ → ℝ → ℝ → ℝ} (hF : Good F) {w : ℝ → ℝ → ℝ} (hw : ∀ dp ε, 0 < dp → 0 < ε → ε < 1 → 0 < w dp ε)
    (ha : ∀ dp ε ε', 0 < dp → 0 < ε → ε ≤ ε' → ε' < 1 → w dp ε' ≤ w dp ε) : Good fun dp ε vs rho mu L => w dp ε * F dp ε vs rho mu L := by
  refine ⟨fun b => mul_pos (hw _ _ b.dp b.lo b.hi) (hF.pos b), fun b hk => by rw [hF.length b hk]; ring,
    fun b hv => mul_lt_mul_of_pos_left (hF.velocity b hv) (hw _ _ b.dp b.lo b.hi),
    fun b hm => mul_le_mul_of_nonneg_left (hF.viscosity b hm) (hw _ _ b.dp b.lo b.hi).le, fun {dp ε ε' vs rho mu L} b he h1 => ?_⟩
  have p := hF.pos ⟨b.dp, b.lo.trans he, h1, b.vs, b.rho, b.mu, b.L⟩
  exact mul_lt_mul_of_le_of_lt_of_nonneg_of_pos (ha _ _ _ b.dp b.lo he.le h1) (hF.voidage b he h1) p.le (hw _ _ b.dp b.lo b.hi)

/-- products of powers -/
theorem Good.mono {w : ℝ → ℝ → ℝ} {a m c d : ℝ} (hw : ∀ dp rho, 0 < dp → 0 < rho → 0 < w dp rho) (ha : 0 < a) (hm : 0 ≤ m) (hc : 0 ≤ c) (hd : 0 < d) :
    Good fun dp ε vs rho mu L => L * w dp rho * vs ^ a * mu ^ m * (1 - ε) ^ c * ε ^ (-d) := by
  refine ⟨fun b => ?_, fun b hk => by ring, fun {dp ε vs vs' rho mu L} b hv => ?_, fun {dp ε vs rho mu mu' L} b hmu => ?_, fun {dp ε ε' vs rho mu L} b he h1 => ?_⟩ <;>
  · have p0 := hw _ _ b.dp b.rho
    have p1 := rpow_pos_of_pos b.vs a; have p2 := rpow_pos_of_pos b.mu m; have p3 := rpow_pos_of_pos b.h c; have p4 := rpow_pos_of_pos b.lo (-d)
    have p5 := b.L
    first
    | positivity
    | (have := rpow_lt_rpow b.vs.le hv ha
       gcongr)
    | (have := rpow_le_rpow b.mu.le hmu hm
       gcongr)
    | (have e1 : (1 - ε') ^ c ≤ (1 - ε) ^ c := rpow_le_rpow (by linarith) (by linarith) hc
       have e2 : ε' ^ (-d) < ε ^ (-d) := rpow_lt_rpow_of_neg b.lo he (by linarith)
       have p6 := rpow_pos_of_pos (by linarith : 0 < 1 - ε') c
       exact mul_lt_mul_of_le_of_lt_of_nonneg_of_pos (by gcongr) e2 (rpow_nonneg (b.lo.trans he).le _) (by positivity))

/-- Idelchik as a sum of powers -/
theorem Idelchik_eq {dp ε vs rho mu L : ℝ} (b : Bed dp ε vs rho mu L) : Idelchik dp ε vs rho mu L = .ok (
    L * (51 / dp ^ 2) * vs ^ (1:ℝ) * mu ^ (1:ℝ) * (1 - ε) ^ (1:ℝ) * ε ^ (-3.7:ℝ) +
    L * (2.295 * (0.45 * dp * rho) ^ (-0.7:ℝ) * rho / dp) * vs ^ (1.3:ℝ) * mu ^ (0.7:ℝ) * (1 - ε) ^ (0.7:ℝ) * ε ^ (-3.85:ℝ) +
    L * (0.2295 * rho / dp) * vs ^ (2:ℝ) * mu ^ (0:ℝ) * (1 - ε) ^ (0:ℝ) * ε ^ (-4.2:ℝ)) := by
  have h0 := b.h; have hdp := b.dp; have hrho := b.rho; have hvs := b.vs; have hmu := b.mu; have hL := b.L; have hlo := b.lo
  have hs : 0 < √ε := sqrt_pos.mpr hlo
  unfold Idelchik; py_eval []
  congr 1
  have hX : 0 < 0.45 * dp * rho := by positivity
  have e : 0.45 / √ε * (rho * vs * dp / (mu * (1 - ε))) = (0.45 * dp * rho) * vs / (mu * (1 - ε) * √ε) := by field_simp
  have e1 : ((0.45 * dp * rho) * vs / (mu * (1 - ε) * √ε)) ^ (-0.7:ℝ) =
      (0.45 * dp * rho) ^ (-0.7:ℝ) * (vs ^ (1.3:ℝ) / vs ^ 2) * mu ^ (0.7:ℝ) * (1 - ε) ^ (0.7:ℝ) * (ε ^ (-3.85:ℝ) / ε ^ (-4.2:ℝ)) := by
    rw [div_rpow (by positivity) (by positivity), mul_rpow hX.le hvs.le, mul_rpow (by positivity) hs.le, mul_rpow hmu.le h0.le, sqrt_eq_rpow, ← rpow_mul hlo.le,
      show (1 / 2 * -0.7 : ℝ) = -(-3.85 - -4.2) by norm_num, rpow_neg hlo.le (-3.85 - -4.2), rpow_sub hlo, rpow_neg hmu.le, rpow_neg h0.le,
      show (-0.7:ℝ) = 1.3 - 2 by norm_num, rpow_sub hvs, show vs ^ (2:ℝ) = vs ^ 2 by exact_mod_cast rpow_natCast vs 2]
    have := rpow_pos_of_pos hmu 0.7; have := rpow_pos_of_pos h0 0.7; have := rpow_pos_of_pos hlo (-3.85); have := rpow_pos_of_pos hlo (-4.2)
    field_simp
  have e2 : √ε * ε ^ (-4.2:ℝ) = ε ^ (-3.7:ℝ) := by
    rw [sqrt_eq_rpow, ← rpow_add hlo]; norm_num
  rw [e, e1, rpow_one, rpow_one, rpow_one, rpow_zero, rpow_zero, show vs ^ (2:ℝ) = vs ^ 2 by exact_mod_cast rpow_natCast vs 2, ← e2]
  have p := rpow_pos_of_pos hlo (-4.2)
  generalize ε ^ (-4.2:ℝ) = z at *
  generalize ε ^ (-3.85:ℝ) = z' at *
  generalize (0.45 * dp * rho) ^ (-0.7:ℝ) = y at *
  generalize vs ^ (1.3:ℝ) = v at *
  generalize mu ^ (0.7:ℝ) = u at *
  generalize (1 - ε) ^ (0.7:ℝ) = t at *
  clear e e1 e2
  generalize √ε = r at *
  field_simp
  ring

theorem C94_Idelchik : Laws Idelchik := by
  have g := ((Good.mono (w := fun dp _ => 51 / dp ^ 2) (a := 1) (m := 1) (c := 1) (d := 3.7) (fun _ _ _ _ => by positivity) (by norm_num) (by norm_num) (by norm_num) (by norm_num)).add
    (Good.mono (w := fun dp rho => 2.295 * (0.45 * dp * rho) ^ (-0.7:ℝ) * rho / dp) (a := 1.3) (m := 0.7) (c := 0.7) (d := 3.85) (fun _ _ _ _ => by positivity)
      (by norm_num) (by norm_num) (by norm_num) (by norm_num))).add
    (Good.mono (w := fun dp rho => 0.2295 * rho / dp) (a := 2) (m := 0) (c := 0) (d := 4.2) (fun _ _ _ _ => by positivity) (by norm_num) (by norm_num) (by norm_num) (by norm_num))
  exact g.laws fun b => Idelchik_eq b

/-- wall correction factors of Harrison, Brunner and Hecker for a column of diameter `Dt` -/
theorem Harrison_eq {dp ε vs rho mu L Dt : ℝ} (b : Bed dp ε vs rho mu L) (hD : 0 < Dt) : Harrison_Brunner_Hecker dp ε vs rho mu L (some Dt) =
    .ok (kozeny dp ε vs mu L * (119.8 * (1 + π * dp / (6 * (1 - ε) * Dt)) ^ 2 +
      4.63 * (1 - π ^ 2 * dp / (24 * Dt) * (1 - dp / (2 * Dt))) * Rem dp ε vs rho mu ^ (5 / 6:ℝ))) := by
  have := b.h; have := b.dp; have := b.rho; have := b.vs; have := b.mu; have := b.L; have := b.lo
  unfold Harrison_Brunner_Hecker wallFactors; py_eval []; unfold kozeny Rem; rw [div_div (dp * rho * vs)]
  congr 1
  generalize (dp * rho * vs / (mu * (1 - ε))) ^ (5 / 6:ℝ) = x; field_simp

theorem Harrison_none_eq {dp ε vs rho mu L : ℝ} (b : Bed dp ε vs rho mu L) : Harrison_Brunner_Hecker dp ε vs rho mu L none =
    .ok (kozeny dp ε vs mu L * (119.8 + 4.63 * Rem dp ε vs rho mu ^ (5 / 6:ℝ))) := by
  have := b.h; have := b.dp; have := b.rho; have := b.vs; have := b.mu; have := b.L; have := b.lo
  unfold Harrison_Brunner_Hecker wallFactors; py_eval []; unfold kozeny Rem; rw [div_div]
  generalize (dp * rho * vs / (mu * (1 - ε))) ^ (5 / 6:ℝ) = x; field_simp

theorem wallB {dp Dt : ℝ} (hd : 0 < dp) (hD : 0 < Dt) : 0 < 1 - π ^ 2 * dp / (24 * Dt) * (1 - dp / (2 * Dt)) := by
  have e : π ^ 2 * dp / (24 * Dt) * (1 - dp / (2 * Dt)) = π ^ 2 / 24 * ((dp / Dt) * (1 - dp / Dt / 2)) := by field_simp
  rw [e]
  generalize dp / Dt = x
  have h1 : x * (1 - x / 2) ≤ 1 / 2 := by nlinarith [sq_nonneg (x - 1)]
  have h2 : π ^ 2 / 24 ≤ 1 := by nlinarith [pi_le_four, pi_pos]
  have h3 : 0 < π ^ 2 / 24 := by positivity
  nlinarith

/-- with or without the column diameter, at every column diameter -/
theorem C94_Harrison_Brunner_Hecker : Laws (fun dp ε vs rho mu L => Harrison_Brunner_Hecker dp ε vs rho mu L none) ∧
    Darcy (fun dp ε vs rho mu L => Harrison_Brunner_Hecker dp ε vs rho mu L none) 119.8 ∧
    ∀ Dt, 0 < Dt → Laws fun dp ε vs rho mu L => Harrison_Brunner_Hecker dp ε vs rho mu L (some Dt) := by
  refine ⟨family (by norm_num) (by norm_num) (by norm_num) (by norm_num) (by norm_num) Harrison_none_eq, family_darcy (by norm_num) Harrison_none_eq, fun Dt hD => ?_⟩
  have g1 : Good fun dp ε vs rho mu L => ((1 - ε) + π * dp / (6 * Dt)) ^ 2 * (L * (119.8 / dp ^ 2) * vs ^ (1:ℝ) * mu ^ (1:ℝ) * (1 - ε) ^ (0:ℝ) * ε ^ (-3:ℝ)) :=
    (Good.mono (w := fun dp _ => 119.8 / dp ^ 2) (a := 1) (m := 1) (c := 0) (d := 3) (fun _ _ _ _ => by positivity) (by norm_num) (by norm_num) (by norm_num) (by norm_num)).weight
      (w := fun dp ε => ((1 - ε) + π * dp / (6 * Dt)) ^ 2)
      (fun dp ε h1 h2 h3 => by have : 0 < 1 - ε := by linarith
                               have := pi_pos; positivity)
      (fun dp ε ε' h1 h2 h3 h4 => by
        have : 0 < 1 - ε' := by linarith
        have := pi_pos
        have hc : 0 < π * dp / (6 * Dt) := by positivity
        apply pow_le_pow_left₀ (by linarith); linarith)
  have g2 : Good fun dp ε vs rho mu L => (4.63 * (1 - π ^ 2 * dp / (24 * Dt) * (1 - dp / (2 * Dt)))) *
      (L * ((dp * rho) ^ (5 / 6:ℝ) / dp ^ 2) * vs ^ (1 + 5 / 6:ℝ) * mu ^ (1 - 5 / 6:ℝ) * (1 - ε) ^ (2 - 5 / 6:ℝ) * ε ^ (-3:ℝ)) :=
    (Good.mono (w := fun dp rho => (dp * rho) ^ (5 / 6:ℝ) / dp ^ 2) (a := 1 + 5 / 6) (m := 1 - 5 / 6) (c := 2 - 5 / 6) (d := 3)
      (fun _ _ _ _ => by positivity) (by norm_num) (by norm_num) (by norm_num) (by norm_num)).weight
      (w := fun dp _ => 4.63 * (1 - π ^ 2 * dp / (24 * Dt) * (1 - dp / (2 * Dt))))
      (fun dp ε h1 _ _ => mul_pos (by norm_num) (wallB h1 hD)) (fun _ _ _ _ _ _ _ => le_rfl)
  refine (g1.add g2).laws fun {dp ε vs rho mu L} b => ?_
  have h0 := b.h; have := b.dp; have := b.rho; have := b.vs; have := b.mu; have := b.L; have hlo := b.lo
  rw [Harrison_eq b hD]
  congr 1
  have e3 : ε ^ (-3:ℝ) = 1 / ε ^ 3 := by rw [rpow_neg hlo.le]; norm_cast; rw [one_div]
  have e := kozeny_rpow b (5 / 6)
  rw [mul_add, show ∀ w x y z : ℝ, w * (x * y * z) = x * y * (w * z) by intros; ring, e, rpow_one, rpow_one, rpow_zero, e3]
  unfold kozeny
  congr 1
  · field_simp
  · ring

/-- Montillet, Akkari and Comiti as a weighted sum of powers -/
theorem Montillet_eq {dp ε vs rho mu L : ℝ} (b : Bed dp ε vs rho mu L) {Dt : Option ℝ} {T : ℝ} (hT : diameterTerm dp Dt = .ok T) :
    Montillet_Akkari_Comiti dp ε vs rho mu L Dt = .ok (((if ε < 0.4 then 0.061 else 0.05) * T) * (
      L * (1000 / dp ^ 2) * vs ^ (1:ℝ) * mu ^ (1:ℝ) * (1 - ε) ^ (1:ℝ) * ε ^ (-3:ℝ) +
      L * (60 * rho / dp * (rho * dp) ^ (-(1 / 2):ℝ)) * vs ^ (3 / 2:ℝ) * mu ^ (1 / 2:ℝ) * (1 - ε) ^ (1:ℝ) * ε ^ (-3:ℝ) +
      L * (12 * rho / dp) * vs ^ (2:ℝ) * mu ^ (0:ℝ) * (1 - ε) ^ (1:ℝ) * ε ^ (-3:ℝ))) := by
  have h0 := b.h; have hdp := b.dp; have hrho := b.rho; have hvs := b.vs; have hmu := b.mu; have hL := b.L; have hlo := b.lo
  have hR : 0 < rho * vs * dp / mu := by positivity
  have hs : 0 < √(rho * vs * dp / mu) := sqrt_pos.mpr hR
  unfold Montillet_Akkari_Comiti; py_eval [hT]
  congr 1
  have e3 : ε ^ (-3:ℝ) = 1 / ε ^ 3 := by rw [rpow_neg hlo.le]; norm_cast; rw [one_div]
  have e1 : (rho * dp) ^ (-(1 / 2):ℝ) = 1 / √(rho * dp) := by rw [rpow_neg (by positivity), ← sqrt_eq_rpow, one_div]
  have e2 : vs ^ (3 / 2:ℝ) = vs * √vs := by rw [show (3 / 2:ℝ) = 1 + 1 / 2 by norm_num, rpow_add hvs, rpow_one, sqrt_eq_rpow]
  have e4 : √(rho * vs * dp / mu) = √(rho * dp) * √vs / √mu := by
    rw [show rho * vs * dp / mu = (rho * dp) * vs / mu by ring, sqrt_div (by positivity), sqrt_mul (by positivity)]
  rw [e1, e2, e3, e4, rpow_one, rpow_one, rpow_one, rpow_zero, ← sqrt_eq_rpow, show vs ^ (2:ℝ) = vs ^ 2 by exact_mod_cast rpow_natCast vs 2]
  have q1 := sqrt_pos.mpr hvs; have q2 := sqrt_pos.mpr hmu; have q3 := sqrt_pos.mpr (mul_pos hrho hdp)
  have q4 := mul_self_sqrt hvs.le
  clear hs hR
  generalize (if ε < 0.4 then (0.061:ℝ) else 0.05) = a
  generalize √vs = sv at *
  generalize √mu = sm at *
  generalize √(rho * dp) = sr at *
  subst q4
  field_simp

theorem diameterTerm_pos {dp Dt : ℝ} (hd : 0 < dp) (hD : 0 < Dt) : ∃ T, diameterTerm dp (some Dt) = .ok T ∧ 0 < T := by
  simp only [diameterTerm]
  rw [pdiv_ok hd.ne', Py.ok_bind]
  have : 0 < Dt / dp := by positivity
  by_cases h : Dt / dp > 50
  · rw [if_pos h]; exact ⟨_, rfl, by norm_num⟩
  · rw [if_neg h, ppow_ok this]; exact ⟨_, rfl, rpow_pos_of_pos this _⟩

theorem C94_Montillet_Akkari_Comiti (Dt : Option ℝ) (hD : ∀ d, Dt = some d → 0 < d) : Laws fun dp ε vs rho mu L => Montillet_Akkari_Comiti dp ε vs rho mu L Dt := by
  have ht : ∀ dp, 0 < dp → ∃ T, diameterTerm dp Dt = .ok T ∧ 0 < T := by
    intro dp hdp
    rcases Dt with - | d
    · exact ⟨2.2, rfl, by norm_num⟩
    · exact diameterTerm_pos hdp (hD d rfl)
  choose! T hT hTp using ht
  have g := (((Good.mono (w := fun dp _ => 1000 / dp ^ 2) (a := 1) (m := 1) (c := 1) (d := 3) (fun _ _ _ _ => by positivity) (by norm_num) (by norm_num) (by norm_num) (by norm_num)).add
    (Good.mono (w := fun dp rho => 60 * rho / dp * (rho * dp) ^ (-(1 / 2):ℝ)) (a := 3 / 2) (m := 1 / 2) (c := 1) (d := 3) (fun _ _ _ _ => by positivity)
      (by norm_num) (by norm_num) (by norm_num) (by norm_num))).add
    (Good.mono (w := fun dp rho => 12 * rho / dp) (a := 2) (m := 0) (c := 1) (d := 3) (fun _ _ _ _ => by positivity) (by norm_num) (by norm_num) (by norm_num) (by norm_num))).weight
    (w := fun dp ε => (if ε < 0.4 then 0.061 else 0.05) * T dp)
    (fun dp ε h _ _ => mul_pos (by split_ifs <;> norm_num) (hTp dp h))
    (fun dp ε ε' h _ he _ => mul_le_mul_of_nonneg_right (by
      split_ifs with h1 h2
      · exact le_rfl
      · linarith
      · norm_num
      · exact le_rfl) (hTp dp h).le)
  exact g.laws fun b => Montillet_eq b (hT _ b.dp)

/-- Guo, Sun and coworkers: the laws hold when the column is less than about 3.4 particles wide (and without a column diameter) -/
theorem Guo_Sun_eq {dp ε vs rho mu L : ℝ} (b : Bed dp ε vs rho mu L) {Dt : Option ℝ} {r : ℝ} (hr : wallRatio dp Dt = .ok r) :
    Guo_Sun dp ε vs rho mu L Dt = .ok (kozeny dp ε vs mu L * (180 + (9.5374 * r - 2.8054) * Rem dp ε vs rho mu ^ (0.97:ℝ))) := by
  have := b.h; have := b.dp; have := b.rho; have := b.vs; have := b.mu; have := b.L; have := b.lo
  unfold Guo_Sun; py_eval [hr]; unfold kozeny Rem
  generalize (dp * rho * vs / (mu * (1 - ε))) ^ (0.97:ℝ) = x; congr 1; field_simp

theorem C94_Guo_Sun : Laws (fun dp ε vs rho mu L => Guo_Sun dp ε vs rho mu L none) ∧
    ∀ {dp ε vs vs' rho mu L Dt P P'}, Bed dp ε vs rho mu L → 0 < Dt → Dt * 2.8054 ≤ 9.5374 * dp → vs < vs' →
      Guo_Sun dp ε vs rho mu L (some Dt) = .ok P → Guo_Sun dp ε vs' rho mu L (some Dt) = .ok P' → 0 < P ∧ P < P' := by
  refine ⟨family (A := 180) (C := 9.5374 * 3.5 - 2.8054) (n := 0.97) (by norm_num) (by norm_num) (by norm_num) (by norm_num) (by norm_num) (fun b => Guo_Sun_eq b rfl),
    fun {dp ε vs vs' rho mu L Dt P P'} b hD hr hv h h' => ?_⟩
  have b' : Bed dp ε vs' rho mu L := ⟨b.dp, b.lo, b.hi, b.vs.trans hv, b.rho, b.mu, b.L⟩
  have hw : wallRatio dp (some Dt) = .ok (dp / Dt) := pdiv_ok hD.ne'
  rw [Guo_Sun_eq b hw] at h; rw [Guo_Sun_eq b' hw] at h'
  rw [← Except.ok.inj h, ← Except.ok.inj h']
  have hC : 0 ≤ 9.5374 * (dp / Dt) - 2.8054 := by
    rw [sub_nonneg, ← mul_div_assoc, le_div_iff₀ hD]; linarith
  have h0 := b.h; have := b.dp; have := b.rho; have := b.vs; have := b.mu; have := b.L; have hlo := b.lo
  have hR : Rem dp ε vs rho mu ≤ Rem dp ε vs' rho mu := by unfold Rem; gcongr
  have hRp := rpow_le_rpow b.rem.le hR (by norm_num : (0:ℝ) ≤ 0.97)
  have hk : kozeny dp ε vs mu L < kozeny dp ε vs' mu L := by unfold kozeny; gcongr
  have p := rpow_pos_of_pos b.rem 0.97
  have hm := mul_le_mul_of_nonneg_left hRp hC
  have hp : 0 < 180 + (9.5374 * (dp / Dt) - 2.8054) * Rem dp ε vs rho mu ^ (0.97:ℝ) := by positivity
  exact ⟨mul_pos b.koz hp, mul_lt_mul hk (by linarith) hp (b.koz.trans hk).le⟩

/-- finding: in every wider column the pressure drop of Guo and Sun turns negative at high velocity -/
theorem C94_Guo_Sun_negative {dp ε rho mu L Dt : ℝ} (b : Bed dp ε 1 rho mu L) (hD : 0 < Dt) (hr : 9.5374 * dp < Dt * 2.8054) :
    ∃ v0, ∀ vs > v0, ∃ P, Guo_Sun dp ε vs rho mu L (some Dt) = .ok P ∧ P < 0 := by
  have hC : 0 < 2.8054 - 9.5374 * (dp / Dt) := by
    rw [sub_pos, ← mul_div_assoc, div_lt_iff₀ hD]; linarith
  set c : ℝ := 2.8054 - 9.5374 * (dp / Dt) with hc
  have hk : 0 < dp * rho / (mu * (1 - ε)) := by have := b.h; have := b.dp; have := b.rho; have := b.mu; positivity
  set v0 : ℝ := (180 / c) ^ (1 / 0.97:ℝ) / (dp * rho / (mu * (1 - ε))) with hv0
  have hv0p : 0 < v0 := by positivity
  refine ⟨v0, fun vs hvs => ?_⟩
  have b' : Bed dp ε vs rho mu L := ⟨b.dp, b.lo, b.hi, hv0p.trans hvs, b.rho, b.mu, b.L⟩
  refine ⟨_, Guo_Sun_eq b' (pdiv_ok hD.ne' : wallRatio dp (some Dt) = _), mul_neg_of_pos_of_neg b'.koz ?_⟩
  have hRem : (180 / c) ^ (1 / 0.97:ℝ) < Rem dp ε vs rho mu := by
    rw [gt_iff_lt, hv0, div_lt_iff₀ hk] at hvs
    rw [show Rem dp ε vs rho mu = vs * (dp * rho / (mu * (1 - ε))) by unfold Rem; ring]; exact hvs
  have h2 := rpow_lt_rpow (by positivity) hRem (by norm_num : (0:ℝ) < 0.97)
  rw [← rpow_mul (by positivity), show (1 / 0.97 * 0.97 : ℝ) = 1 by norm_num, rpow_one, div_lt_iff₀ hC] at h2
  rw [show 9.5374 * (dp / Dt) - 2.8054 = -c by rw [hc]; ring]
  linarith

/-- Fahien and Schriver: a blend of a laminar and a turbulent law -/
theorem Fahien_eq {dp ε vs rho mu L : ℝ} (b : Bed dp ε vs rho mu L) : Fahien_Schriver dp ε vs rho mu L = .ok (kozeny dp ε vs mu L *
    (exp (-(ε ^ 2 * (1 - ε) / 12.6 * Rem dp ε vs rho mu)) * (136 / (1 - ε) ^ (0.38:ℝ)) + (1 - exp (-(ε ^ 2 * (1 - ε) / 12.6 * Rem dp ε vs rho mu))) *
      (1.87 * ε ^ (0.75:ℝ) / (1 - ε) ^ (0.26:ℝ) * Rem dp ε vs rho mu + 29 / ((1 - ε) ^ (1.45:ℝ) * ε ^ 2)))) := by
  have h0 := b.h; have := b.dp; have := b.rho; have := b.vs; have := b.mu; have := b.L; have := b.lo
  unfold Fahien_Schriver; py_eval []
  congr 1
  have e1 : dp * rho * vs / ((1 - ε) * mu) = Rem dp ε vs rho mu := by unfold Rem; rw [mul_comm (1 - ε)]
  have e2 : -(ε * ε) * (1 - ε) * (1 / 12.6) * Rem dp ε vs rho mu = -(ε ^ 2 * (1 - ε) / 12.6 * Rem dp ε vs rho mu) := by ring
  rw [e1, e2]
  generalize exp (-(ε ^ 2 * (1 - ε) / 12.6 * Rem dp ε vs rho mu)) = q
  have p1 := rpow_pos_of_pos h0 0.38; have p2 := rpow_pos_of_pos h0 1.45; have p3 := rpow_pos_of_pos h0 0.26
  generalize (1 - ε) ^ (0.38:ℝ) = x1 at *
  generalize (1 - ε) ^ (1.45:ℝ) = x2 at *
  generalize (1 - ε) ^ (0.26:ℝ) = x3 at *
  generalize ε ^ (0.75:ℝ) = x4 at *
  clear e1 e2
  unfold kozeny Rem; field_simp

theorem fahien_le {ε : ℝ} (h0 : 0 < ε) (h1 : ε < 1) : 136 / (1 - ε) ^ (0.38:ℝ) ≤ 29 / ((1 - ε) ^ (1.45:ℝ) * ε ^ 2) := by
  have h : 0 < 1 - ε := by linarith
  have p1 := rpow_pos_of_pos h 0.38; have p2 := rpow_pos_of_pos h 1.45
  rw [div_le_div_iff₀ p1 (by positivity), show (1.45:ℝ) = 0.38 + 1.07 by norm_num, rpow_add h]
  have e : (1 - ε) ^ (1.07:ℝ) ≤ 1 - ε := by
    calc (1 - ε) ^ (1.07:ℝ) ≤ (1 - ε) ^ (1:ℝ) := rpow_le_rpow_of_exponent_ge h (by linarith) (by norm_num)
      _ = 1 - ε := rpow_one _
  have e2 : (1 - ε) ^ (1.07:ℝ) * ε ^ 2 ≤ 4 / 27 := by
    calc (1 - ε) ^ (1.07:ℝ) * ε ^ 2 ≤ (1 - ε) * ε ^ 2 := by gcongr
      _ ≤ 4 / 27 := by nlinarith [mul_nonneg (by linarith : 0 ≤ ε + 1 / 3) (sq_nonneg (ε - 2 / 3))]
  nlinarith

theorem C94_Fahien_Schriver :
    (∀ {dp ε vs rho mu L}, Bed dp ε vs rho mu L → ∃ P, Fahien_Schriver dp ε vs rho mu L = .ok P ∧ 0 < P) ∧
    (∀ {dp ε vs rho mu L k P}, Bed dp ε vs rho mu L → 0 < k → Fahien_Schriver dp ε vs rho mu L = .ok P → Fahien_Schriver dp ε vs rho mu (k * L) = .ok (k * P)) ∧
    (∀ {dp ε vs vs' rho mu L P P'}, Bed dp ε vs rho mu L → vs < vs' → Fahien_Schriver dp ε vs rho mu L = .ok P → Fahien_Schriver dp ε vs' rho mu L = .ok P' → P < P') := by
  have key : ∀ {dp ε vs rho mu L}, Bed dp ε vs rho mu L → 0 < 136 / (1 - ε) ^ (0.38:ℝ) := fun b => by
    have := rpow_pos_of_pos b.h 0.38; positivity
  have form : ∀ q a x d : ℝ, q * a + (1 - q) * (x + d) = a + (1 - q) * (x + (d - a)) := fun q a x d => by ring
  have ex : ∀ {dp ε vs rho mu L}, Bed dp ε vs rho mu L → 0 ≤ 1 - exp (-(ε ^ 2 * (1 - ε) / 12.6 * Rem dp ε vs rho mu)) := fun b => by
    have := b.h; have := b.rem; have := b.lo
    rw [sub_nonneg, exp_le_one_iff, neg_nonpos]; positivity
  refine ⟨fun {dp ε vs rho mu L} b => ⟨_, Fahien_eq b, mul_pos b.koz ?_⟩, fun {dp ε vs rho mu L k P} b hk h => ?_, fun {dp ε vs vs' rho mu L P P'} b hv h h' => ?_⟩
  · rw [form]
    have h1 := key b; have h2 := fahien_le b.lo b.hi; have h3 := ex b
    have h4 := rpow_pos_of_pos b.lo 0.75; have h5 := rpow_pos_of_pos b.h 0.26; have h6 := b.rem
    have h7 := sub_nonneg.mpr h2
    positivity
  · rw [Fahien_eq b] at h
    rw [Fahien_eq ⟨b.dp, b.lo, b.hi, b.vs, b.rho, b.mu, mul_pos hk b.L⟩, ← Except.ok.inj h]
    congr 1; unfold kozeny; ring
  · have b' : Bed dp ε vs' rho mu L := ⟨b.dp, b.lo, b.hi, b.vs.trans hv, b.rho, b.mu, b.L⟩
    rw [Fahien_eq b] at h; rw [Fahien_eq b'] at h'
    rw [← Except.ok.inj h, ← Except.ok.inj h', form, form]
    have h1 := key b; have h2 := sub_nonneg.mpr (fahien_le b.lo b.hi); have h3 := ex b; have h3' := ex b'
    have h4 := rpow_pos_of_pos b.lo 0.75; have h5 := rpow_pos_of_pos b.h 0.26; have h6 := b.rem; have h6' := b'.rem
    have h0 := b.h; have := b.dp; have := b.rho; have := b.vs; have := b.mu; have := b.L; have hlo := b.lo
    have hR : Rem dp ε vs rho mu ≤ Rem dp ε vs' rho mu := by unfold Rem; gcongr
    have hk : kozeny dp ε vs mu L < kozeny dp ε vs' mu L := by unfold kozeny; gcongr
    have he : 1 - exp (-(ε ^ 2 * (1 - ε) / 12.6 * Rem dp ε vs rho mu)) ≤ 1 - exp (-(ε ^ 2 * (1 - ε) / 12.6 * Rem dp ε vs' rho mu)) := by
      have : ε ^ 2 * (1 - ε) / 12.6 * Rem dp ε vs rho mu ≤ ε ^ 2 * (1 - ε) / 12.6 * Rem dp ε vs' rho mu := mul_le_mul_of_nonneg_left hR (by positivity)
      have := exp_le_exp.mpr (neg_le_neg this)
      linarith
    refine mul_lt_mul hk ?_ (by positivity) b'.koz.le
    have hf : 1.87 * ε ^ (0.75:ℝ) / (1 - ε) ^ (0.26:ℝ) * Rem dp ε vs rho mu ≤ 1.87 * ε ^ (0.75:ℝ) / (1 - ε) ^ (0.26:ℝ) * Rem dp ε vs' rho mu :=
      mul_le_mul_of_nonneg_left hR (by positivity)
    have := mul_le_mul he (add_le_add hf (le_refl (29 / ((1 - ε) ^ (1.45:ℝ) * ε ^ 2) - 136 / (1 - ε) ^ (0.38:ℝ)))) (by positivity) h3'
    linarith

/-- finding: at zero velocity most correlations divide by a zero Reynolds number; only Erdim (and, with it, the default) gives zero -/
theorem C94_zero_velocity {dp ε rho mu L : ℝ} (b : Bed dp ε 1 rho mu L) (Dt : Option ℝ) :
    Ergun dp ε 0 rho mu L = .error .zeroDivisionError ∧ Kuo_Nydegger dp ε 0 rho mu L = .error .zeroDivisionError ∧
    Tallmadge dp ε 0 rho mu L = .error .zeroDivisionError ∧ Jones_Krier dp ε 0 rho mu L = .error .zeroDivisionError ∧
    Carman dp ε 0 rho mu L = .error .zeroDivisionError ∧ Brauer dp ε 0 rho mu L = .error .zeroDivisionError ∧ KTA dp ε 0 rho mu L = .error .zeroDivisionError ∧
    Hicks dp ε 0 rho mu L = .error .zeroDivisionError ∧ Fahien_Schriver dp ε 0 rho mu L = .error .zeroDivisionError ∧
    Idelchik dp ε 0 rho mu L = .error .zeroDivisionError ∧
    Erdim_Akgiray_Demir dp ε 0 rho mu L = .ok 0 ∧ dP_packed_bed dp ε 0 rho mu L none none none = .ok 0 := by
  have h0 := b.h; have hd := b.dp; have hr := b.rho; have hm := b.mu; have hL := b.L; have hlo := b.lo
  have hs : 0 < √ε := sqrt_pos.mpr hlo
  have z : ∀ y : ℝ, 0 < y → ((0:ℝ) ^ₚ y) = .ok 0 := fun y hy => by rw [ppow_ok' le_rfl hy.le, zero_rpow hy.ne']
  have z1 := z 0.87 (by norm_num); have z2 := z (5 / 6) (by norm_num); have z3 := z 0.9 (by norm_num); have z4 := z 0.2 (by norm_num); have z5 := z 0.904 (by norm_num)
  have e : Erdim_Akgiray_Demir dp ε 0 rho mu L = .ok 0 := by
    unfold Erdim_Akgiray_Demir; py_eval []; simp only [mul_zero, zero_mul, zero_div, z1, z2, z3, z4, z5, Py.ok_bind, pdiv_zero, Py.error_bind]
  refine ⟨?_, ?_, ?_, ?_, ?_, ?_, ?_, ?_, ?_, ?_, e, e⟩
  · unfold Ergun; py_eval []; simp only [mul_zero, zero_mul, zero_div, z1, z2, z3, z4, z5, Py.ok_bind, pdiv_zero, Py.error_bind]
  · unfold Kuo_Nydegger; py_eval []; simp only [mul_zero, zero_mul, zero_div, z1, z2, z3, z4, z5, Py.ok_bind, pdiv_zero, Py.error_bind]
  · unfold Tallmadge; py_eval []; simp only [mul_zero, zero_mul, zero_div, z1, z2, z3, z4, z5, Py.ok_bind, pdiv_zero, Py.error_bind]
  · unfold Jones_Krier; py_eval []; simp only [mul_zero, zero_mul, zero_div, z1, z2, z3, z4, z5, Py.ok_bind, pdiv_zero, Py.error_bind]
  · unfold Carman; py_eval []; simp only [mul_zero, zero_mul, zero_div, z1, z2, z3, z4, z5, Py.ok_bind, pdiv_zero, Py.error_bind]
  · unfold Brauer; py_eval []; simp only [mul_zero, zero_mul, zero_div, z1, z2, z3, z4, z5, Py.ok_bind, pdiv_zero, Py.error_bind]
  · unfold KTA; py_eval []; simp only [mul_zero, zero_mul, zero_div, z1, z2, z3, z4, z5, Py.ok_bind, pdiv_zero, Py.error_bind]
  · unfold Hicks; py_eval []; simp only [mul_zero, zero_mul, zero_div, z1, z2, z3, z4, z5, Py.ok_bind, pdiv_zero, Py.error_bind]
  · unfold Fahien_Schriver; py_eval []; simp only [mul_zero, zero_mul, zero_div, z1, z2, z3, z4, z5, Py.ok_bind, pdiv_zero, Py.error_bind]
  · unfold Idelchik; py_eval []; simp only [mul_zero, zero_mul, zero_div, z1, z2, z3, z4, z5, Py.ok_bind, pdiv_zero, Py.error_bind]

/-! ### C95: selection and voidage -/

/-- the names listed are exactly those the function accepts: all of them with a column diameter; without, the three that use it are left out -/
theorem C95_methods (Dt : Option ℝ) (m : String) :
    m ∈ dP_packed_bed_methods Dt ↔
      m ∈ ["Erdim, Akgiray & Demir", "Idelchik", "Fahien & Schriver", "KTA", "Brauer", "Hicks", "Carman", "Jones & Krier", "Kuo & Nydegger", "Tallmadge", "Ergun"] ∨
      Dt.isSome ∧ m ∈ ["Harrison, Brunner & Hecker", "Montillet, Akkari & Comiti", "Guo, Sun, Zhang, Ding & Liu"] := by
  unfold dP_packed_bed_methods
  rcases Dt with - | d <;> simp [List.mem_append, or_comm, or_assoc, or_left_comm]

/-- every listed name selects the correlation of that name -/
theorem C95_named (dp ε vs rho mu L : ℝ) (Dt : Option ℝ) :
    let g := fun m => dP_packed_bed dp ε vs rho mu L Dt none (some m)
    g "Ergun" = Ergun dp ε vs rho mu L ∧ g "Tallmadge" = Tallmadge dp ε vs rho mu L ∧ g "Kuo & Nydegger" = Kuo_Nydegger dp ε vs rho mu L ∧
    g "Jones & Krier" = Jones_Krier dp ε vs rho mu L ∧ g "Carman" = Carman dp ε vs rho mu L ∧ g "Hicks" = Hicks dp ε vs rho mu L ∧
    g "Brauer" = Brauer dp ε vs rho mu L ∧ g "KTA" = KTA dp ε vs rho mu L ∧ g "Erdim, Akgiray & Demir" = Erdim_Akgiray_Demir dp ε vs rho mu L ∧
    g "Fahien & Schriver" = Fahien_Schriver dp ε vs rho mu L ∧ g "Idelchik" = Idelchik dp ε vs rho mu L ∧
    g "Harrison, Brunner & Hecker" = Harrison_Brunner_Hecker dp ε vs rho mu L Dt ∧ g "Montillet, Akkari & Comiti" = Montillet_Akkari_Comiti dp ε vs rho mu L Dt ∧
    g "Guo, Sun, Zhang, Ding & Liu" = Guo_Sun dp ε vs rho mu L Dt := by
  refine ⟨?_, ?_, ?_, ?_, ?_, ?_, ?_, ?_, ?_, ?_, ?_, ?_, ?_, ?_⟩ <;> simp only [dP_packed_bed, dispatch, String.reduceEq, if_true, if_false]

/-- any other name raises ValueError -/
theorem C95_unrecognised (dp ε vs rho mu L : ℝ) (Dt s : Option ℝ) {m : String} (h : m ∉ dP_packed_bed_methods (some 1)) :
    dP_packed_bed dp ε vs rho mu L Dt s (some m) = .error .valueError := by
  simp only [dP_packed_bed_methods, Option.isSome_some, if_true, List.mem_append, List.mem_cons, List.not_mem_nil, or_false, not_or] at h
  obtain ⟨⟨h1, h2, h3⟩, h4, h5, h6, h7, h8, h9, h10, h11, h12, h13, h14⟩ := h
  simp only [dP_packed_bed, dispatch, h1, h2, h3, h4, h5, h6, h7, h8, h9, h10, h11, h12, h13, h14, if_false]

/-- by default the first listed method is used; the sphericity scales the diameter -/
theorem C95_default (dp ε vs rho mu L : ℝ) (Dt : Option ℝ) (s : ℝ) (m : Option String) :
    (dP_packed_bed_methods Dt).head? = some (if Dt.isSome then "Harrison, Brunner & Hecker" else "Erdim, Akgiray & Demir") ∧
    dP_packed_bed dp ε vs rho mu L Dt none none = dP_packed_bed dp ε vs rho mu L Dt none (dP_packed_bed_methods Dt).head? ∧
    dP_packed_bed dp ε vs rho mu L Dt (some s) m = dP_packed_bed (dp * s) ε vs rho mu L Dt none m := by
  rcases Dt with - | d <;> exact ⟨rfl, rfl, rfl⟩

/-- the voidages fall as the column widens and stay above their limit for wide columns, and approach it -/
theorem C95_voidage {Dp Dt Dt' s : ℝ} (hp : 0 < Dp) (ht : 0 < Dt) (hs : 0 < s) (hlt : Dt < Dt') :
    (∃ e e', voidage_Benyahia_Oneil_spherical Dp Dt = .ok e ∧ voidage_Benyahia_Oneil_spherical Dp Dt' = .ok e' ∧ e' < e ∧ 0.39 < e') ∧
    (∃ e e', voidage_Benyahia_Oneil_cylindrical Dp Dt s = .ok e ∧ voidage_Benyahia_Oneil_cylindrical Dp Dt' s = .ok e' ∧ e' < e ∧ 0.373 < e') ∧
    (∃ e e', voidage_Benyahia_Oneil Dp Dt s = .ok e ∧ voidage_Benyahia_Oneil Dp Dt' s = .ok e' ∧ e' < e ∧ 0.1504 + 0.2024 / s < e') := by
  have ht' : 0 < Dt' := ht.trans hlt
  have hr : Dt / Dp < Dt' / Dp := by gcongr
  have h1 : 0 < Dt / Dp := by positivity
  have h2 : 0 < Dt' / Dp := by positivity
  have key : ∀ c k : ℝ, 0 < c → 0 < k → k / ((Dt' / Dp + c) * (Dt' / Dp + c)) < k / ((Dt / Dp + c) * (Dt / Dp + c)) ∧ 0 < k / ((Dt' / Dp + c) * (Dt' / Dp + c)) := by
    intro c k hc hk
    refine ⟨?_, by positivity⟩
    gcongr
  refine ⟨?_, ?_, ?_⟩
  · obtain ⟨k1, k2⟩ := key 1.140 1.740 (by norm_num) (by norm_num)
    refine ⟨_, _, by unfold voidage_Benyahia_Oneil_spherical; py_eval []; rfl, by unfold voidage_Benyahia_Oneil_spherical; py_eval []; rfl, ?_, ?_⟩ <;> linarith
  · obtain ⟨k1, k2⟩ := key 0.611 1.703 (by norm_num) (by norm_num)
    refine ⟨_, _, by unfold voidage_Benyahia_Oneil_cylindrical; py_eval []; rfl, by unfold voidage_Benyahia_Oneil_cylindrical; py_eval []; rfl, ?_, ?_⟩ <;> linarith
  · obtain ⟨k1, k2⟩ := key 0.1226 1.0814 (by norm_num) (by norm_num)
    refine ⟨_, _, by unfold voidage_Benyahia_Oneil; py_eval []; rfl, by unfold voidage_Benyahia_Oneil; py_eval []; rfl, ?_, ?_⟩ <;> linarith

/-- the equations themselves -/
theorem C95_voidage_equations {Dp Dt s : ℝ} (hp : 0 < Dp) (ht : 0 < Dt) (hs : 0 < s) :
    voidage_Benyahia_Oneil_spherical Dp Dt = .ok (0.39 + 1.74 / (Dt / Dp + 1.14) ^ 2) ∧
    voidage_Benyahia_Oneil_cylindrical Dp Dt s = .ok (0.373 + 1.703 / (Dt / Dp + 0.611) ^ 2) ∧
    voidage_Benyahia_Oneil Dp Dt s = .ok (0.1504 + 0.2024 / s + 1.0814 / (Dt / Dp + 0.1226) ^ 2) := by
  have h1 : 0 < Dt / Dp := by positivity
  refine ⟨?_, ?_, ?_⟩
  · unfold voidage_Benyahia_Oneil_spherical; py_eval []; congr 1; norm_num; ring
  · unfold voidage_Benyahia_Oneil_cylindrical; py_eval []; congr 1; norm_num; ring
  · unfold voidage_Benyahia_Oneil; py_eval []; congr 1; norm_num; ring

/-- a bed of 0.8 mm particles -/
example : Bed 8e-4 0.4 1e-3 1000 1e-3 0.5 := ⟨by norm_num, by norm_num, by norm_num, by norm_num, by norm_num, by norm_num, by norm_num⟩

end Verif.PackedBed
