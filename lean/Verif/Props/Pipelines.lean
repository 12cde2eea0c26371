import Verif.Model.Compressible
import Verif.Lemmas.Tactic
import Verif.Spec.Compressible

/-! # C07: the nine gas pipeline equations -/

namespace Verif
open Real Compressible Spec

private theorem sqrt_add_back {P1 P2 x : ℝ} (h : 0 ≤ P1) (hx : x = P1 ^ 2 - P2 ^ 2) :
    (.ok (√(x + P2 ^ 2)) : Py ℝ) = .ok P1 := by
  rw [hx]; simp [sqrt_sq h]
private theorem sqrt_sub_back {P1 P2 x : ℝ} (h : 0 ≤ P2) (hx : -x = P1 ^ 2 - P2 ^ 2) :
    psqrt (x + P1 ^ 2) = .ok P2 := by
  have : x + P1 ^ 2 = P2 ^ 2 := by linarith
  rw [psqrt_ok (by rw [this]; positivity), this]; simp [sqrt_sq h]

local macro "rejects" f:ident : tactic => `(tactic|
  (intro L D P1 P2 Q h
   rcases L with _ | L <;> rcases D with _ | D <;> rcases P1 with _ | P1 <;> rcases P2 with _ | P2 <;>
     rcases Q with _ | Q <;> simp [missing] at h <;> simp [$f:ident]))

local macro "powerlaw" f:ident g:ident h9:ident hP1:ident hd:ident hc:ident : tactic => `(tactic|
  (simp only [SolvesAll, SolvesLP, $f:ident, $g:ident, $hd:ident, $hc:ident]
   py_eval [← exp_add, ← exp_sub, ← exp_mul, neg_mul]
   refine ⟨⟨exp_pos _, ?_, ?_, ?_, ?_⟩, ?_⟩
   · first | trivial | (congr 2 <;> ring)
   · first | trivial | (congr 2 <;> ring)
   · rw [sqrt_add_back $hP1]
     rw [$hd:ident]; congr 1 <;> ring
   · rw [sqrt_sub_back $h9]
     rw [$hd:ident, neg_neg]; congr 1 <;> ring
   · first | trivial | (congr 2 <;> ring)))

theorem C07_Panhandle_A (SG Tavg Ts Ps Zavg E L D P1 P2 : ℝ) (h1 : 0 < SG) (h2 : 0 < Tavg) (h3 : 0 < Ts) (h4 : 0 < Ps)
    (h5 : 0 < Zavg) (h6 : 0 < E) (h7 : 0 < L) (h8 : 0 < D) (h9 : 0 ≤ P2) (h10 : P2 < P1) :
    SolvesAll (Panhandle_A SG Tavg Ts Ps Zavg E) (panhandleA SG Tavg Ts Ps Zavg E L D P1 P2) L D P1 P2 ∧
    RejectsOtherPatterns (Panhandle_A SG Tavg Ts Ps Zavg E) := by
  refine ⟨?_, by rejects Panhandle_A⟩
  have hP1 : 0 ≤ P1 := by linarith
  obtain ⟨d, hd⟩ := exists_exp (x := P1 ^ 2 - P2 ^ 2) (by nlinarith)
  obtain ⟨c, hc⟩ := exists_exp (x := 158.0205328706957220332831680508433862787) (by norm_num)
  obtain ⟨SG, rfl⟩ := exists_exp h1
  obtain ⟨Tavg, rfl⟩ := exists_exp h2
  obtain ⟨Ts, rfl⟩ := exists_exp h3
  obtain ⟨Ps, rfl⟩ := exists_exp h4
  obtain ⟨Zavg, rfl⟩ := exists_exp h5
  obtain ⟨E, rfl⟩ := exists_exp h6
  obtain ⟨L, rfl⟩ := exists_exp h7
  obtain ⟨D, rfl⟩ := exists_exp h8
  powerlaw Panhandle_A panhandleA h9 hP1 hd hc

theorem C07_Panhandle_B (SG Tavg Ts Ps Zavg E L D P1 P2 : ℝ) (h1 : 0 < SG) (h2 : 0 < Tavg) (h3 : 0 < Ts) (h4 : 0 < Ps)
    (h5 : 0 < Zavg) (h6 : 0 < E) (h7 : 0 < L) (h8 : 0 < D) (h9 : 0 ≤ P2) (h10 : P2 < P1) :
    SolvesAll (Panhandle_B SG Tavg Ts Ps Zavg E) (panhandleB SG Tavg Ts Ps Zavg E L D P1 P2) L D P1 P2 ∧
    RejectsOtherPatterns (Panhandle_B SG Tavg Ts Ps Zavg E) := by
  refine ⟨?_, by rejects Panhandle_B⟩
  have hP1 : 0 ≤ P1 := by linarith
  obtain ⟨d, hd⟩ := exists_exp (x := P1 ^ 2 - P2 ^ 2) (by nlinarith)
  obtain ⟨c, hc⟩ := exists_exp (x := 152.8811634298055458624385985866624419060) (by norm_num)
  obtain ⟨SG, rfl⟩ := exists_exp h1
  obtain ⟨Tavg, rfl⟩ := exists_exp h2
  obtain ⟨Ts, rfl⟩ := exists_exp h3
  obtain ⟨Ps, rfl⟩ := exists_exp h4
  obtain ⟨Zavg, rfl⟩ := exists_exp h5
  obtain ⟨E, rfl⟩ := exists_exp h6
  obtain ⟨L, rfl⟩ := exists_exp h7
  obtain ⟨D, rfl⟩ := exists_exp h8
  powerlaw Panhandle_B panhandleB h9 hP1 hd hc

theorem C07_Weymouth (SG Tavg Ts Ps Zavg E L D P1 P2 : ℝ) (h1 : 0 < SG) (h2 : 0 < Tavg) (h3 : 0 < Ts) (h4 : 0 < Ps)
    (h5 : 0 < Zavg) (h6 : 0 < E) (h7 : 0 < L) (h8 : 0 < D) (h9 : 0 ≤ P2) (h10 : P2 < P1) :
    SolvesAll (Weymouth SG Tavg Ts Ps Zavg E) (weymouth SG Tavg Ts Ps Zavg E L D P1 P2) L D P1 P2 ∧
    RejectsOtherPatterns (Weymouth SG Tavg Ts Ps Zavg E) := by
  refine ⟨?_, by rejects Weymouth⟩
  have hP1 : 0 ≤ P1 := by linarith
  obtain ⟨d, hd⟩ := exists_exp (x := P1 ^ 2 - P2 ^ 2) (by nlinarith)
  obtain ⟨c, hc⟩ := exists_exp (x := 137.3295809942512546732179684618143090992) (by norm_num)
  obtain ⟨SG, rfl⟩ := exists_exp h1
  obtain ⟨Tavg, rfl⟩ := exists_exp h2
  obtain ⟨Ts, rfl⟩ := exists_exp h3
  obtain ⟨Ps, rfl⟩ := exists_exp h4
  obtain ⟨Zavg, rfl⟩ := exists_exp h5
  obtain ⟨E, rfl⟩ := exists_exp h6
  obtain ⟨L, rfl⟩ := exists_exp h7
  obtain ⟨D, rfl⟩ := exists_exp h8
  powerlaw Weymouth weymouth h9 hP1 hd hc

theorem C07_Fritzsche (SG Tavg Ts Ps Zavg E L D P1 P2 : ℝ) (h1 : 0 < SG) (h2 : 0 < Tavg) (h3 : 0 < Ts) (h4 : 0 < Ps)
    (h5 : 0 < Zavg) (h6 : 0 < E) (h7 : 0 < L) (h8 : 0 < D) (h9 : 0 ≤ P2) (h10 : P2 < P1) :
    SolvesAll (Fritzsche SG Tavg Ts Ps Zavg E) (fritzsche SG Tavg Ts Ps Zavg E L D P1 P2) L D P1 P2 ∧
    RejectsOtherPatterns (Fritzsche SG Tavg Ts Ps Zavg E) := by
  refine ⟨?_, by rejects Fritzsche⟩
  have hP1 : 0 ≤ P1 := by linarith
  obtain ⟨d, hd⟩ := exists_exp (x := P1 ^ 2 - P2 ^ 2) (by nlinarith)
  obtain ⟨c, hc⟩ := exists_exp (x := 93.50009798751128188757518688244137811221) (by norm_num)
  obtain ⟨SG, rfl⟩ := exists_exp h1
  obtain ⟨Tavg, rfl⟩ := exists_exp h2
  obtain ⟨Ts, rfl⟩ := exists_exp h3
  obtain ⟨Ps, rfl⟩ := exists_exp h4
  obtain ⟨Zavg, rfl⟩ := exists_exp h5
  obtain ⟨E, rfl⟩ := exists_exp h6
  obtain ⟨L, rfl⟩ := exists_exp h7
  obtain ⟨D, rfl⟩ := exists_exp h8
  powerlaw Fritzsche fritzsche h9 hP1 hd hc

theorem C07_Muller (SG Tavg mu Ts Ps Zavg E L D P1 P2 : ℝ) (h1 : 0 < SG) (h2 : 0 < Tavg) (h11 : 0 < mu) (h3 : 0 < Ts) (h4 : 0 < Ps)
    (h5 : 0 < Zavg) (h6 : 0 < E) (h7 : 0 < L) (h8 : 0 < D) (h9 : 0 ≤ P2) (h10 : P2 < P1) :
    SolvesAll (Muller SG Tavg mu Ts Ps Zavg E) (muller SG Tavg mu Ts Ps Zavg E L D P1 P2) L D P1 P2 ∧
    RejectsOtherPatterns (Muller SG Tavg mu Ts Ps Zavg E) := by
  refine ⟨?_, by rejects Muller⟩
  have hP1 : 0 ≤ P1 := by linarith
  obtain ⟨d, hd⟩ := exists_exp (x := P1 ^ 2 - P2 ^ 2) (by nlinarith)
  obtain ⟨c, hc⟩ := exists_exp (x := 15.77439908642077352939746374951659525108) (by norm_num)
  obtain ⟨SG, rfl⟩ := exists_exp h1
  obtain ⟨Tavg, rfl⟩ := exists_exp h2
  obtain ⟨mu, rfl⟩ := exists_exp h11
  obtain ⟨Ts, rfl⟩ := exists_exp h3
  obtain ⟨Ps, rfl⟩ := exists_exp h4
  obtain ⟨Zavg, rfl⟩ := exists_exp h5
  obtain ⟨E, rfl⟩ := exists_exp h6
  obtain ⟨L, rfl⟩ := exists_exp h7
  obtain ⟨D, rfl⟩ := exists_exp h8
  powerlaw Muller muller h9 hP1 hd hc

theorem C07_IGT (SG Tavg mu Ts Ps Zavg E L D P1 P2 : ℝ) (h1 : 0 < SG) (h2 : 0 < Tavg) (h11 : 0 < mu) (h3 : 0 < Ts) (h4 : 0 < Ps)
    (h5 : 0 < Zavg) (h6 : 0 < E) (h7 : 0 < L) (h8 : 0 < D) (h9 : 0 ≤ P2) (h10 : P2 < P1) :
    SolvesAll (IGT SG Tavg mu Ts Ps Zavg E) (igt SG Tavg mu Ts Ps Zavg E L D P1 P2) L D P1 P2 ∧
    RejectsOtherPatterns (IGT SG Tavg mu Ts Ps Zavg E) := by
  refine ⟨?_, by rejects IGT⟩
  have hP1 : 0 ≤ P1 := by linarith
  obtain ⟨d, hd⟩ := exists_exp (x := P1 ^ 2 - P2 ^ 2) (by nlinarith)
  obtain ⟨c, hc⟩ := exists_exp (x := 24.62412451461407054875301709443930350550) (by norm_num)
  obtain ⟨SG, rfl⟩ := exists_exp h1
  obtain ⟨Tavg, rfl⟩ := exists_exp h2
  obtain ⟨mu, rfl⟩ := exists_exp h11
  obtain ⟨Ts, rfl⟩ := exists_exp h3
  obtain ⟨Ps, rfl⟩ := exists_exp h4
  obtain ⟨Zavg, rfl⟩ := exists_exp h5
  obtain ⟨E, rfl⟩ := exists_exp h6
  obtain ⟨L, rfl⟩ := exists_exp h7
  obtain ⟨D, rfl⟩ := exists_exp h8
  powerlaw IGT igt h9 hP1 hd hc

private theorem rpow_five_half_sq {D : ℝ} (h : 0 < D) : (D ^ (2.5 : ℝ)) ^ 2 = D ^ 5 := by
  rw [← rpow_natCast, ← rpow_mul h.le, ← rpow_natCast]; norm_num

/-- the squared Spitzglass flow, cleared of denominators -/
private theorem spitz_key {c5 c3 c4 E Ts Ps L SG T Z D Δ : ℝ} (hc3 : 0 < c3) (hc4 : 0 < c4) (h1 : 0 < SG)
    (h2 : 0 < T) (h4 : 0 < Ps) (h5 : 0 < Z) (h7 : 0 < L) (h8 : 0 < D) (hΔ : 0 ≤ Δ) :
    (c5 * E * (Ts / Ps) * (Δ / (L * SG * T * Z * (1 + c4 / D + c3 * D))) ^ (0.5 : ℝ) * D ^ (2.5 : ℝ)) ^ 2
      * (Ps ^ 2 * L * SG * T * Z * (D ^ 2 * c3 + D + c4)) = D ^ 6 * E ^ 2 * Ts ^ 2 * c5 ^ 2 * Δ := by
  have e : ((Δ / (L * SG * T * Z * (1 + c4 / D + c3 * D))) ^ (0.5 : ℝ)) ^ 2
      = Δ / (L * SG * T * Z * (1 + c4 / D + c3 * D)) := by
    rw [← rpow_natCast, ← rpow_mul (by positivity)]; norm_num
  have e2 : 1 + c4 / D + c3 * D = (D ^ 2 * c3 + D + c4) / D := by field_simp; ring
  rw [mul_pow, mul_pow, e, rpow_five_half_sq h8, e2]
  have : 0 < D ^ 2 * c3 + D + c4 := by positivity
  field_simp

private theorem spitz_unique {c3 c4 D D' : ℝ} (hc3 : 0 < c3) (hc4 : 0 < c4) (h : 0 < D) (h' : 0 < D')
    (he : D ^ 6 * (D' ^ 2 * c3 + D' + c4) = D' ^ 6 * (D ^ 2 * c3 + D + c4)) : D' = D := by
  have key : ∀ a b : ℝ, 0 < a → a < b → a ^ 6 * (b ^ 2 * c3 + b + c4) < b ^ 6 * (a ^ 2 * c3 + a + c4) := by
    intro a b ha hab
    have hb : 0 < b := ha.trans hab
    have h4 : a ^ 4 < b ^ 4 := pow_lt_pow_left₀ hab ha.le (by norm_num)
    have h5 : a ^ 5 < b ^ 5 := pow_lt_pow_left₀ hab ha.le (by norm_num)
    have h6 : a ^ 6 < b ^ 6 := pow_lt_pow_left₀ hab ha.le (by norm_num)
    have e1 : a ^ 4 * (a ^ 2 * b ^ 2 * c3) < b ^ 4 * (a ^ 2 * b ^ 2 * c3) := by
      apply mul_lt_mul_of_pos_right h4; positivity
    have e2 : a ^ 5 * (a * b) < b ^ 5 * (a * b) := by apply mul_lt_mul_of_pos_right h5; positivity
    have e3 : a ^ 6 * c4 < b ^ 6 * c4 := by apply mul_lt_mul_of_pos_right h6; positivity
    nlinarith
  rcases lt_trichotomy D D' with hlt | heq | hlt
  · exact absurd he (key D D' h hlt).ne
  · exact heq.symm
  · exact absurd he.symm (key D' D h' hlt).ne

private theorem spitz_D {c3 c4 D D' K M : ℝ} (hc3 : 0 < c3) (hc4 : 0 < c4) (h : 0 < D) (h' : 0 < D') (hK : 0 < K)
    (hM : 0 < M) (e : K * (D ^ 2 * c3 + D + c4) = D ^ 6 * M) (e' : K * (D' ^ 2 * c3 + D' + c4) = D' ^ 6 * M) :
    D' = D := by
  apply spitz_unique hc3 hc4 h h'
  apply mul_left_cancel₀ (mul_pos hK hM).ne'
  linear_combination (-(K * (D' ^ 2 * c3 + D' + c4))) * e + (K * (D ^ 2 * c3 + D + c4)) * e'

private theorem spitz_high_Q {SG Tavg Ts Ps Zavg E L D P1 P2 : ℝ} (h1 : 0 < SG) (h2 : 0 < Tavg) (h4 : 0 < Ps)
    (h5 : 0 < Zavg) (h7 : 0 < L) (h8 : 0 < D) (hΔ : 0 < P1 ^ 2 - P2 ^ 2) :
    Spitzglass_high_Q SG Tavg Ts Ps Zavg E L D P1 P2 = .ok (spitzglassHigh SG Tavg Ts Ps Zavg E L D P1 P2) := by
  simp only [Spitzglass_high_Q, spitzglassHigh]
  generalize P1 ^ 2 - P2 ^ 2 = Δ at *
  py_eval [sqrt_eq_rpow]
  congr 1
  rw [show (1 / 2 : ℝ) = 0.5 by norm_num, show L * SG * Zavg * Tavg = L * SG * Tavg * Zavg by ring]
  ring


private theorem spitz_high_key {SG Tavg Ts Ps Zavg E L D P1 P2 : ℝ} (h1 : 0 < SG) (h2 : 0 < Tavg) (h4 : 0 < Ps)
    (h5 : 0 < Zavg) (h7 : 0 < L) (h8 : 0 < D) (hΔ : 0 < P1 ^ 2 - P2 ^ 2) :
    (spitzglassHigh SG Tavg Ts Ps Zavg E L D P1 P2) ^ 2 * (Ps ^ 2 * L * SG * Tavg * Zavg
      * (D ^ 2 * 1.181102362204724409448818897637795275591 + D + 0.09144)) = D ^ 6 * E ^ 2 * Ts ^ 2 * 125.1060 ^ 2 * (P1 ^ 2 - P2 ^ 2) :=
  spitz_key (by norm_num) (by norm_num) h1 h2 h4 h5 h7 h8 hΔ.le

theorem C07_Spitzglass_high (secant) (SG Tavg Ts Ps Zavg E L D P1 P2 : ℝ) (h1 : 0 < SG) (h2 : 0 < Tavg) (h3 : 0 < Ts)
    (h4 : 0 < Ps) (h5 : 0 < Zavg) (h6 : 0 < E) (h7 : 0 < L) (h8 : 0 < D) (h9 : 0 ≤ P2) (h10 : P2 < P1) :
    SolvesLP (Spitzglass_high secant SG Tavg Ts Ps Zavg E) (spitzglassHigh SG Tavg Ts Ps Zavg E L D P1 P2) L D P1 P2 ∧
    (ExactSolver secant → ∀ D', 0 < D' → Spitzglass_high secant SG Tavg Ts Ps Zavg E (some L) none (some P1) (some P2)
      (some (spitzglassHigh SG Tavg Ts Ps Zavg E L D P1 P2)) = .ok D' → D' = D) ∧
    RejectsOtherPatterns (Spitzglass_high secant SG Tavg Ts Ps Zavg E) := by
  have hP1 : 0 ≤ P1 := by linarith
  have hΔ : 0 < P1 ^ 2 - P2 ^ 2 := by nlinarith
  have hQ : 0 < spitzglassHigh SG Tavg Ts Ps Zavg E L D P1 P2 := by
    simp only [spitzglassHigh]
    generalize P1 ^ 2 - P2 ^ 2 = Δ at *
    positivity
  refine ⟨⟨hQ, spitz_high_Q h1 h2 h4 h5 h7 h8 hΔ, ?_, ?_, ?_⟩, ?_, by rejects Spitzglass_high⟩
  all_goals
    have hk1 := spitz_high_key (E := E) (Ts := Ts) h1 h2 h4 h5 h7 h8 hΔ
    generalize hq : spitzglassHigh SG Tavg Ts Ps Zavg E L D P1 P2 = Q at *
    simp only [Spitzglass_high]
  · py_eval []
    congr 1
    rw [div_eq_iff (by positivity)]
    linear_combination -hk1
  · py_eval []
    rw [show ∀ x y : ℝ, x = y ^ 2 → 0 ≤ y → (.ok (√x) : Py ℝ) = .ok y from fun x y h1 h2 => by rw [h1, sqrt_sq h2]]
    · rw [div_eq_iff (by positivity)]
      linear_combination hk1
    · exact hP1
  · py_eval []
    rw [show ∀ x y : ℝ, x = y ^ 2 → 0 ≤ y → psqrt x = .ok y from fun x y h1 h2 => by
      rw [h1, psqrt_ok (sq_nonneg y), sqrt_sq h2]]
    · rw [div_eq_iff (by positivity)]
      linear_combination -hk1
    · exact h9
  · intro hs D' hD' h
    have := hs _ _ _ h
    rw [spitz_high_Q h1 h2 h4 h5 h7 hD' hΔ] at this
    simp only [Py.ok_bind, Py.pure_eq, Except.ok.injEq, sub_eq_zero] at this
    have hk2 := spitz_high_key (E := E) (Ts := Ts) h1 h2 h4 h5 h7 hD' hΔ
    rw [← this] at hk2
    apply spitz_D (c3 := 1.181102362204724409448818897637795275591) (c4 := 0.09144)
      (K := Q ^ 2 * (Ps ^ 2 * L * SG * Tavg * Zavg)) (M := E ^ 2 * Ts ^ 2 * 125.1060 ^ 2 * (P1 ^ 2 - P2 ^ 2))
      (by norm_num) (by norm_num) h8 hD' (by positivity)
    · generalize P1 ^ 2 - P2 ^ 2 = Δ at *
      positivity
    · linear_combination hk1
    · linear_combination hk2

private theorem spitz_low_Q {SG Tavg Ts Ps Zavg E L D P1 P2 : ℝ} (h1 : 0 < SG) (h2 : 0 < Tavg) (h4 : 0 < Ps)
    (h5 : 0 < Zavg) (h7 : 0 < L) (h8 : 0 < D) (hΔ : 0 < 2 * (P1 - P2) * (Ps + 1210)) :
    Spitzglass_low_Q SG Tavg Ts Ps Zavg E L D P1 P2 = .ok (spitzglassLow SG Tavg Ts Ps Zavg E L D P1 P2) := by
  simp only [Spitzglass_low_Q, spitzglassLow]
  rw [mul_comm 2 (P1 - P2)] at *
  generalize (P1 - P2) * 2 * (Ps + 1210) = Δ at *
  py_eval [sqrt_eq_rpow]
  congr 1
  rw [show (1 / 2 : ℝ) = 0.5 by norm_num]
  ring

private theorem spitz_low_key {SG Tavg Ts Ps Zavg E L D P1 P2 : ℝ} (h1 : 0 < SG) (h2 : 0 < Tavg) (h4 : 0 < Ps)
    (h5 : 0 < Zavg) (h7 : 0 < L) (h8 : 0 < D) (hΔ : 0 < 2 * (P1 - P2) * (Ps + 1210)) :
    (spitzglassLow SG Tavg Ts Ps Zavg E L D P1 P2) ^ 2 * (Ps ^ 2 * L * SG * Tavg * Zavg
      * (D ^ 2 * 1.181102362204724409448818897637795275591 + D + 0.09144)) = D ^ 6 * E ^ 2 * Ts ^ 2 * 125.1060 ^ 2 * (2 * (P1 - P2) * (Ps + 1210)) :=
  spitz_key (by norm_num) (by norm_num) h1 h2 h4 h5 h7 h8 hΔ.le

theorem C07_Spitzglass_low (secant) (SG Tavg Ts Ps Zavg E L D P1 P2 : ℝ) (h1 : 0 < SG) (h2 : 0 < Tavg) (h3 : 0 < Ts)
    (h4 : 0 < Ps) (h5 : 0 < Zavg) (h6 : 0 < E) (h7 : 0 < L) (h8 : 0 < D) (h9 : 0 ≤ P2) (h10 : P2 < P1) :
    SolvesLP (Spitzglass_low secant SG Tavg Ts Ps Zavg E) (spitzglassLow SG Tavg Ts Ps Zavg E L D P1 P2) L D P1 P2 ∧
    (ExactSolver secant → ∀ D', 0 < D' → Spitzglass_low secant SG Tavg Ts Ps Zavg E (some L) none (some P1) (some P2)
      (some (spitzglassLow SG Tavg Ts Ps Zavg E L D P1 P2)) = .ok D' → D' = D) ∧
    RejectsOtherPatterns (Spitzglass_low secant SG Tavg Ts Ps Zavg E) := by
  have hP1 : 0 ≤ P1 := by linarith
  have hΔ : 0 < 2 * (P1 - P2) * (Ps + 1210) := by
    have : 0 < P1 - P2 := by linarith
    positivity
  have hQ : 0 < spitzglassLow SG Tavg Ts Ps Zavg E L D P1 P2 := by
    simp only [spitzglassLow]
    generalize 2 * (P1 - P2) * (Ps + 1210) = Δ at *
    positivity
  refine ⟨⟨hQ, spitz_low_Q h1 h2 h4 h5 h7 h8 hΔ, ?_, ?_, ?_⟩, ?_, by rejects Spitzglass_low⟩
  all_goals
    have hk1 := spitz_low_key (E := E) (Ts := Ts) h1 h2 h4 h5 h7 h8 hΔ
    generalize hq : spitzglassLow SG Tavg Ts Ps Zavg E L D P1 P2 = Q at *
    simp only [Spitzglass_low]
  · py_eval []
    congr 1
    rw [div_eq_iff (by positivity)]
    linear_combination -hk1
  · py_eval []
    congr 1
    rw [div_eq_iff (by positivity)]
    linear_combination 0.5 * hk1
  · py_eval []
    congr 1
    rw [div_eq_iff (by positivity)]
    linear_combination -0.5 * hk1
  · intro hs D' hD' h
    have := hs _ _ _ h
    rw [spitz_low_Q h1 h2 h4 h5 h7 hD' hΔ] at this
    simp only [Py.ok_bind, Py.pure_eq, Except.ok.injEq, sub_eq_zero] at this
    have hk2 := spitz_low_key (E := E) (Ts := Ts) h1 h2 h4 h5 h7 hD' hΔ
    rw [← this] at hk2
    apply spitz_D (c3 := 1.181102362204724409448818897637795275591) (c4 := 0.09144)
      (K := Q ^ 2 * (Ps ^ 2 * L * SG * Tavg * Zavg)) (M := E ^ 2 * Ts ^ 2 * 125.1060 ^ 2 * (2 * (P1 - P2) * (Ps + 1210)))
      (by norm_num) (by norm_num) h8 hD' (by positivity)
    · generalize 2 * (P1 - P2) * (Ps + 1210) = Δ at *
      positivity
    · linear_combination hk1
    · linear_combination hk2

private theorem oli_Q {SG Tavg Ts Ps Zavg E L D P1 P2 : ℝ} (h1 : 0 < SG) (h2 : 0 < Tavg) (h4 : 0 < Ps)
    (h7 : 0 < L) (h8 : 0 < D) (hΔ : 0 < P1 ^ 2 - P2 ^ 2) :
    Oliphant_Q SG Tavg Ts Ps Zavg E L D P1 P2 = .ok (oliphant SG Tavg Ts Ps L D P1 P2) := by
  simp only [Oliphant_Q, oliphant]
  generalize P1 ^ 2 - P2 ^ 2 = Δ at *
  py_eval [sqrt_eq_rpow]
  congr 1
  rw [show (1 / 2 : ℝ) = 0.5 by norm_num]
  ring

private theorem oli_key {SG Tavg Ts Ps L D P1 P2 : ℝ} (h1 : 0 < SG) (h2 : 0 < Tavg) (h4 : 0 < Ps)
    (h7 : 0 < L) (hΔ : 0 < P1 ^ 2 - P2 ^ 2) :
    oliphant SG Tavg Ts Ps L D P1 P2 ^ 2 * (Ps ^ 2 * L * SG * Tavg)
      = Ts ^ 2 * 84.587176139918568651410168968141078948974609375000 ^ 2
        * (D ^ 3 * 0.2091519350460528670065940559652517549694 + D ^ (2.5 : ℝ)) ^ 2 * (P1 ^ 2 - P2 ^ 2) := by
  simp only [oliphant]
  generalize P1 ^ 2 - P2 ^ 2 = Δ at *
  have e : ((Δ / (L * SG * Tavg)) ^ (0.5 : ℝ)) ^ 2 = Δ / (L * SG * Tavg) := by
    rw [← rpow_natCast, ← rpow_mul (by positivity)]; norm_num
  rw [mul_pow, e]
  field_simp
  ring

/-- Unlike the other equations, Oliphant ignores the efficiency and compressibility it accepts. -/
theorem C07_Oliphant (secant) (SG Tavg Ts Ps Zavg E L D P1 P2 : ℝ) (h1 : 0 < SG) (h2 : 0 < Tavg) (h3 : 0 < Ts)
    (h4 : 0 < Ps) (h7 : 0 < L) (h8 : 0 < D) (h9 : 0 ≤ P2) (h10 : P2 < P1) :
    SolvesLP (Oliphant secant SG Tavg Ts Ps Zavg E) (oliphant SG Tavg Ts Ps L D P1 P2) L D P1 P2 ∧
    (ExactSolver secant → ∀ D', 0 < D' → Oliphant secant SG Tavg Ts Ps Zavg E (some L) none (some P1) (some P2)
      (some (oliphant SG Tavg Ts Ps L D P1 P2)) = .ok D' → D' = D) ∧
    RejectsOtherPatterns (Oliphant secant SG Tavg Ts Ps Zavg E) := by
  have hP1 : 0 ≤ P1 := by linarith
  have hΔ : 0 < P1 ^ 2 - P2 ^ 2 := by nlinarith
  have hk1 := oli_key (D := D) (Ts := Ts) h1 h2 h4 h7 hΔ
  have hQ : 0 < oliphant SG Tavg Ts Ps L D P1 P2 := by
    simp only [oliphant]
    generalize P1 ^ 2 - P2 ^ 2 = Δ at *
    positivity
  refine ⟨⟨hQ, oli_Q (Zavg := Zavg) (E := E) h1 h2 h4 h7 h8 hΔ, ?_, ?_, ?_⟩, ?_, by rejects Oliphant⟩
  · generalize hq : oliphant SG Tavg Ts Ps L D P1 P2 = Q at *
    simp only [Oliphant]
    py_eval []
    congr 1
    rw [div_eq_iff (by positivity)]
    linear_combination -hk1
  · generalize hq : oliphant SG Tavg Ts Ps L D P1 P2 = Q at *
    simp only [Oliphant]
    py_eval []
    rw [sqrt_add_back hP1]
    rw [div_eq_iff (by positivity)]
    linear_combination hk1
  · generalize hq : oliphant SG Tavg Ts Ps L D P1 P2 = Q at *
    simp only [Oliphant]
    py_eval []
    rw [sqrt_sub_back h9]
    rw [← neg_div, div_eq_iff (by positivity)]
    linear_combination hk1
  · intro hs D' hD' h
    have := hs _ _ _ h
    rw [oli_Q h1 h2 h4 h7 hD' hΔ] at this
    simp only [Py.ok_bind, Py.pure_eq, Except.ok.injEq, sub_eq_zero] at this
    have hmono : ∀ a b : ℝ, 0 < a → a < b → oliphant SG Tavg Ts Ps L a P1 P2 < oliphant SG Tavg Ts Ps L b P1 P2 := by
      intro a b ha hab
      simp only [oliphant]
      have e1 : a ^ (2.5 : ℝ) < b ^ (2.5 : ℝ) := rpow_lt_rpow ha.le hab (by norm_num)
      have e2 : a ^ 3 < b ^ 3 := pow_lt_pow_left₀ hab ha.le (by norm_num)
      generalize P1 ^ 2 - P2 ^ 2 = Δ at *
      gcongr
    rcases lt_trichotomy D D' with hlt | heq | hlt
    · exact absurd this (hmono D D' h8 hlt).ne
    · exact heq.symm
    · exact absurd this (hmono D' D hD' hlt).ne'

/-- the hypotheses are met by an ordinary transmission line (so the flows above are real flows) -/
example : ∃ Q, 0 < Q ∧ Weymouth 0.693 277.15 288.7 101325 1 0.92 (some 160000) (some 0.34) (some 90e5) (some 20e5) none
    = .ok Q :=
  have h := (C07_Weymouth 0.693 277.15 288.7 101325 1 0.92 160000 0.34 90e5 20e5 (by norm_num) (by norm_num)
    (by norm_num) (by norm_num) (by norm_num) (by norm_num) (by norm_num) (by norm_num) (by norm_num) (by norm_num)).1.1
  ⟨_, h.1, h.2.1⟩

/-- an exact solver exists: one that only answers when handed a zero as its starting point -/
example : ∃ s : (ℝ → Py ℝ) → ℝ → Py ℝ, ExactSolver s ∧ s (fun x => .ok (x - 2)) 2 = .ok 2 := by
  classical
  refine ⟨fun g x => if g x = .ok 0 then .ok x else .error .unconvergedError, fun g x0 x h => ?_, by simp⟩
  by_cases hg : g x0 = .ok 0
  · simp [hg] at h; rwa [← h]
  · simp [hg] at h

end Verif
