import Verif.Lemmas.FrictionDefined
import Verif.Spec.Lambert
import Mathlib.Topology.Order.IntermediateValue

/-! # C41: the Colebrook equation, its closed form and its smooth limit -/

namespace Verif.Friction
open Real
open Verif.Spec.Friction (lg)
open Verif.Spec (IsLambertW)

variable {W : ℝ → ℝ} {Re e : ℝ}

/-- Such a function exists, so the hypothesis of the theorems below can be met. -/
theorem exists_lambertW : ∃ W, IsLambertW W := by
  have h : ∀ y : ℝ, 0 ≤ y → ∃ w, 0 ≤ w ∧ w * exp w = y := by
    intro y hy
    have hc : ContinuousOn (fun w : ℝ => w * exp w) (Set.Icc 0 y) := by fun_prop
    have := intermediate_value_Icc hy hc
    obtain ⟨w, hw, hwy⟩ := this (show y ∈ Set.Icc _ _ from ⟨by simpa using hy, le_mul_of_one_le_right hy (one_le_exp hy)⟩)
    exact ⟨w, hw.1, hwy⟩
  choose W hW using h
  classical
  refine ⟨fun y => if hy : 0 ≤ y then W y hy else 0, fun y hy => ?_⟩
  simp only [dif_pos hy]
  exact hW y hy

theorem wexp_lt {a b : ℝ} (ha : 0 ≤ a) (h : a * exp a < b * exp b) (hb : 0 ≤ b) : a < b := by
  by_contra hc
  have hc := not_lt.mp hc
  have : b * exp b ≤ a * exp a := mul_le_mul hc (exp_le_exp.mpr hc) (exp_pos _).le ha
  linarith

/-- the argument of W -/
theorem cb_arg (hRe : 0 < Re) :
    log 10 / 2 * √(1 / 6.3001 * (10 : ℝ) ^ (1 / 9.287 * (e * Re)) * Re * Re)
      = log 10 * Re / 5.02 * exp (log 10 * e * Re / 18.574) := by
  have h1 : (1 / 6.3001 * (10 : ℝ) ^ (1 / 9.287 * (e * Re)) * Re * Re) = (1 / 2.51 * exp (log 10 * e * Re / 18.574) * Re) ^ 2 := by
    have h10 : (10 : ℝ) ^ (1 / 9.287 * (e * Re)) = exp (log 10 * e * Re / 18.574) ^ 2 := by
      rw [rpow_def_of_pos (by norm_num), pow_two, ← exp_add]
      congr 1
      ring
    rw [h10]; ring
  rw [h1, sqrt_sq (by positivity)]
  ring

/-- Where the closed form comes from: the Lambert W value, and the two identities it gives. -/
theorem cb_core (hW : IsLambertW W) (hRe : 0 < Re) (he : 0 ≤ e) (he' : e < 3.7) :
    ∃ w, W (log 10 / 2 * √(1 / 6.3001 * (10 : ℝ) ^ (1 / 9.287 * (e * Re)) * Re * Re)) = w ∧ log 10 * e * Re / 18.574 < w ∧
      5.02 * w / (log 10 * Re) = exp (log 10 * e * Re / 18.574 - w) := by
  have hl := log_ten_pos
  rw [cb_arg hRe]
  obtain ⟨h0, hw⟩ := hW (log 10 * Re / 5.02 * exp (log 10 * e * Re / 18.574)) (by positivity)
  refine ⟨_, rfl, ?_, ?_⟩
  · apply wexp_lt (by positivity) _ h0
    rw [hw]
    apply mul_lt_mul_of_pos_right _ (exp_pos _)
    rw [div_lt_div_iff₀ (by norm_num) (by norm_num)]
    have : 0 < log 10 * Re := by positivity
    nlinarith
  · generalize W (log 10 * Re / 5.02 * exp (log 10 * e * Re / 18.574)) = w at h0 hw ⊢
    rw [exp_sub, eq_div_iff (exp_pos _).ne', mul_comm (5.02 : ℝ) w, div_mul_eq_mul_div, div_eq_iff (by positivity),
      mul_right_comm, hw]
    ring

theorem lg_exp (x : ℝ) : lg (exp x) = x / log 10 := by unfold lg; rw [log_exp]

/-- C41: with an exact Lambert W, for every Re > 0 and 0 ≤ eD < 3.7 the closed form returns a positive factor which solves the
Colebrook equation. -/
theorem C41_solves (hW : IsLambertW W) (hRe : 0 < Re) (he : 0 ≤ e) (he' : e < 3.7) :
    ∃ f, Colebrook_analytical W Re e = .ok f ∧ Spec.Friction.Colebrook Re e f := by
  have hl := log_ten_pos
  obtain ⟨w, hw, hlt, hexp⟩ := cb_core hW hRe he he'
  have hden : 0 < 18.574 * w - log 10 * (e * Re) := by
    rw [div_lt_iff₀ (by norm_num)] at hlt; linarith
  have hd : (log 10 * (e * Re) - 18.574 * w) * (log 10 * (e * Re) - 18.574 * w) ≠ 0 := sq_ne (by linarith)
  have hs : (log 10) ^ 2 * 3.7 ^ 2 * 2.51 ^ 2 / ((log 10 * (e * Re) - 18.574 * w) * (log 10 * (e * Re) - 18.574 * w))
      = (log 10 * 3.7 * 2.51 / (18.574 * w - log 10 * (e * Re))) ^ 2 := by
    rw [div_pow]; congr 1 <;> ring
  have hq : √((log 10) ^ 2 * 3.7 ^ 2 * 2.51 ^ 2 / ((log 10 * (e * Re) - 18.574 * w) * (log 10 * (e * Re) - 18.574 * w)))
      = log 10 * 3.7 * 2.51 / (18.574 * w - log 10 * (e * Re)) := by rw [hs, sqrt_sq (by positivity)]
  refine ⟨(log 10) ^ 2 * 3.7 ^ 2 * 2.51 ^ 2 / ((log 10 * (e * Re) - 18.574 * w) * (log 10 * (e * Re) - 18.574 * w)), ?_, ?_, ?_⟩
  rotate_left 1
  · rw [hs]; positivity
  · rw [hq]
    have h1 : 1 / (log 10 * 3.7 * 2.51 / (18.574 * w - log 10 * (e * Re))) = 2 * (w - log 10 * e * Re / 18.574) / log 10 := by
      rw [one_div_div, div_eq_div_iff (by positivity) hl.ne']; ring
    have h2 : e / 3.7 + 2.51 / (Re * (log 10 * 3.7 * 2.51 / (18.574 * w - log 10 * (e * Re)))) = 5.02 * w / (log 10 * Re) := by
      have := hden.ne'
      rw [← mul_div_assoc, div_div_eq_mul_div]
      field_simp
      ring
    rw [h1, h2, hexp, lg_exp]
    ring
  · simp only [Colebrook_analytical, ppow_ok (show (0 : ℝ) < 10 by norm_num),
      psqrt_ok (show (0 : ℝ) ≤ 1 / 6.3001 * (10 : ℝ) ^ (1 / 9.287 * (e * Re)) * Re * Re by positivity), Py.ok_bind, hw, pdiv_ok hd]

example : ∃ W, IsLambertW W ∧ ∃ f, Colebrook_analytical W 100000 0.001 = .ok f ∧ Spec.Friction.Colebrook 100000 0.001 f := by
  obtain ⟨W, hW⟩ := exists_lambertW
  exact ⟨W, hW, C41_solves hW (by norm_num) (by norm_num) (by norm_num)⟩

/-- in terms of `x = 1/√f` the right side of the equation strictly decreases -/
theorem cb_anti (hRe : 0 < Re) (he : 0 ≤ e) {x y : ℝ} (hx : 0 < x) (hxy : x < y) :
    -2 * lg (e / 3.7 + 2.51 * y / Re) < -2 * lg (e / 3.7 + 2.51 * x / Re) := by
  have h1 : 0 < e / 3.7 + 2.51 * x / Re := by positivity
  have h2 : e / 3.7 + 2.51 * x / Re < e / 3.7 + 2.51 * y / Re := by
    have : 2.51 * x / Re < 2.51 * y / Re := div_lt_div_of_pos_right (by linarith) hRe
    linarith
  have h3 := div_lt_div_of_pos_right (log_lt_log h1 h2) log_ten_pos
  unfold lg
  linarith

theorem cb_inv {f : ℝ} (h : Spec.Friction.Colebrook Re e f) : 0 < 1 / √f ∧ 1 / √f = -2 * lg (e / 3.7 + 2.51 * (1 / √f) / Re) := by
  have h1 : 0 < √f := sqrt_pos.mpr h.1
  refine ⟨by positivity, ?_⟩
  rw [show 2.51 * (1 / √f) / Re = 2.51 / (Re * √f) by rw [mul_one_div, div_div, mul_comm]]
  exact h.2

/-- C41: the equation has at most one positive solution. -/
theorem C41_unique (hRe : 0 < Re) (he : 0 ≤ e) {f g : ℝ} (hf : Spec.Friction.Colebrook Re e f) (hg : Spec.Friction.Colebrook Re e g) :
    f = g := by
  obtain ⟨f0, f1⟩ := cb_inv hf
  obtain ⟨g0, g1⟩ := cb_inv hg
  have key : 1 / √f = 1 / √g := by
    rcases lt_trichotomy (1 / √f) (1 / √g) with h | h | h
    · have := cb_anti hRe he f0 h; rw [← f1, ← g1] at this; linarith
    · exact h
    · have := cb_anti hRe he g0 h; rw [← f1, ← g1] at this; linarith
  have h2 : √f = √g := by simpa using key
  rw [← sq_sqrt hf.1.le, h2, sq_sqrt hg.1.le]

/-- C41: so the closed form is the Colebrook factor: it returns `f` exactly when `f` solves the equation. -/
theorem C41_iff (hW : IsLambertW W) (hRe : 0 < Re) (he : 0 ≤ e) (he' : e < 3.7) (f : ℝ) :
    Colebrook_analytical W Re e = .ok f ↔ Spec.Friction.Colebrook Re e f := by
  obtain ⟨g, hg, hs⟩ := C41_solves hW hRe he he'
  constructor
  · intro h; rw [hg] at h; cases h; exact hs
  · intro h; rw [hg, C41_unique hRe he hs h]

/-- C41: the limits of the domain are the right ones: for eD ≥ 3.7 the equation has no positive solution. -/
theorem C41_no_solution (hRe : 0 < Re) (he : 3.7 ≤ e) (f : ℝ) : ¬ Spec.Friction.Colebrook Re e f := by
  intro h
  obtain ⟨h0, h1⟩ := cb_inv h
  have h2 : 1 < e / 3.7 + 2.51 * (1 / √f) / Re := by
    have : 1 ≤ e / 3.7 := by rw [le_div_iff₀ (by norm_num)]; linarith
    have : 0 < 2.51 * (1 / √f) / Re := by positivity
    linarith
  linarith [lg_pos h2]

/-- C41: every tolerance choice of `Colebrook` which uses the closed form: the default, `tol=0`, and `tol=-1` up to Re = 10. -/
theorem C41_tol (hW : IsLambertW W) (hRe : 0 < Re) (he : 0 ≤ e) (he' : e < 3.7) (solve : (ℝ → Py ℝ) → ℝ → ℝ → Py ℝ) (tol : Option ℝ)
    (ht : tol = none ∨ tol = some 0 ∨ (tol = some (-1) ∧ Re ≤ 10)) :
    ∃ f, Colebrook W solve Re e tol = .ok f ∧ Spec.Friction.Colebrook Re e f := by
  have h := C41_solves hW hRe he he'
  rcases ht with rfl | rfl | ⟨rfl, h10⟩
  · exact h
  · simpa [Colebrook] using h
  · simpa [Colebrook, not_lt.mpr h10] using h

/-- C41: the numerical branch: whatever the solver, if it stops at a zero of the residual the answer solves the equation. -/
theorem C41_numerical (hRe : 0 < Re) (solve : (ℝ → Py ℝ) → ℝ → ℝ → Py ℝ) (t : ℝ) (ht : t ≠ -1) (ht0 : t ≠ 0)
    (hs : ∀ f x0 r, solve f x0 t = .ok r → f r = .ok 0) {f : ℝ} (hf : Colebrook W solve Re e (some t) = .ok f) :
    Spec.Friction.Colebrook Re e f := by
  simp only [Colebrook, if_neg ht, if_neg ht0, Colebrook_numerical, Py.bind_eq_ok, Py.pure_eq] at hf
  obtain ⟨g, -, r, hr, hf⟩ := hf
  have h := hs _ _ _ hr
  cases hf
  simp only [Colebrook_err, Py.bind_eq_ok, psqrt_eq_ok, pdiv_eq_ok, plog10_eq_ok, Py.pure_eq, ok_eq_ok] at h
  obtain ⟨_, ⟨-, rfl⟩, _, ⟨h1, rfl⟩, _, ⟨-, rfl⟩, _, ⟨-, rfl⟩, h2⟩ := h
  refine ⟨?_, ?_⟩
  · by_contra hc
    apply h1
    rw [le_antisymm (not_lt.mp hc) (abs_nonneg r), sqrt_zero]
  · rw [show 2.51 / (Re * √|r|) = 2.51 / Re * (1 / √|r|) by rw [mul_one_div, div_div], show e / 3.7 = e * (1 / 3.7) by ring]
    linarith

/-- C41: the numerical branch starts from `Blasius` where `Clamond` has no real value: smooth pipes up to Re = 2 still get an answer. -/
theorem C41_numerical_start (hRe : 0 < Re) (h2 : Re ≤ 2) (solve : (ℝ → Py ℝ) → ℝ → ℝ → Py ℝ) (t : ℝ) (ht : t ≠ -1) (ht0 : t ≠ 0) :
    Clamond Re 0 false = .error .valueError ∧
    (∀ r, solve (Colebrook_err Re 0) (0.3164 / √√Re) t = .ok r → Colebrook W solve Re 0 (some t) = .ok |r|) ∧
    (∀ er, solve (Colebrook_err Re 0) (0.3164 / √√Re) t = .error er → Colebrook W solve Re 0 (some t) = .error er) := by
  have hc : Clamond Re 0 false = .error .valueError := by
    have h3 : log Re ≤ log 2 := log_le_log hRe h2
    have h4 := log_two_lt_d9
    unfold Clamond
    rw [plog_ok hRe, Py.ok_bind]
    simp only [plog]
    rw [if_pos (by norm_num; linarith), Py.error_bind]
  have e : ∀ {x}, solve (Colebrook_err Re 0) (0.3164 / √√Re) t = x → Colebrook W solve Re 0 (some t) = x >>= fun r => .ok |r| := by
    intro x hx
    have n : √√Re ≠ 0 := by positivity
    simp only [Colebrook, if_neg ht, if_neg ht0, Colebrook_numerical, hc, Blasius, psqrt_ok hRe.le, psqrt_ok (sqrt_nonneg Re), Py.ok_bind, pdiv_ok n, hx, Py.pure_eq]
  exact ⟨hc, fun r h => e h, fun er h => e h⟩

/-- C41: `Prandtl_von_Karman_Nikuradse` solves its equation, which is the Colebrook equation of a smooth pipe, and agrees with
`Colebrook` at eD = 0. -/
theorem C41_smooth (hW : IsLambertW W) (hRe : 0 < Re) :
    ∃ f, Prandtl_von_Karman_Nikuradse W Re = .ok f ∧ 0 < f ∧ 1 / √f = -2 * lg (2.51 / (Re * √f)) ∧
      Colebrook_analytical W Re 0 = .ok f := by
  obtain ⟨f, hf, h0, h1⟩ := C41_solves hW hRe le_rfl (by norm_num)
  have hl := log_ten_pos
  obtain ⟨w, hw, hlt, -⟩ := cb_core hW hRe (le_refl (0 : ℝ)) (by norm_num)
  have ha := cb_arg (e := 0) hRe
  rw [ha] at hw
  simp only [mul_zero, zero_mul, zero_div, exp_zero, mul_one] at hw hlt
  refine ⟨f, ?_, h0, by simpa using h1, hf⟩
  rw [← hf]
  simp only [Prandtl_von_Karman_Nikuradse, Colebrook_analytical, ppow_ok (show (0 : ℝ) < 10 by norm_num), pdiv_ok (show (2.51 : ℝ) ≠ 0 by norm_num),
      psqrt_ok (show (0 : ℝ) ≤ 1 / 6.3001 * (10 : ℝ) ^ (1 / 9.287 * (0 * Re)) * Re * Re by positivity), Py.ok_bind, ha]
  simp only [mul_zero, zero_mul, zero_div, exp_zero, mul_one, zero_sub]
  rw [show log 10 / 2 * Re / 2.51 = log 10 * Re / 5.02 by ring, hw, pdiv_ok (by positivity), pdiv_ok (by
    have : 0 < 18.574 * w := by positivity
    exact (mul_pos_of_neg_of_neg (by linarith) (by linarith)).ne')]
  congr 1
  field_simp
  norm_num

/-- C41: roughness only adds friction: the Colebrook factor exceeds the fully rough (von Karman) factor at every finite Re, and it
exceeds the smooth pipe factor when eD > 0. -/
theorem C41_above_limits (hRe : 0 < Re) (he : 0 < e) {f fr fs : ℝ} (hf : Spec.Friction.Colebrook Re e f) (hfr : 0 < fr)
    (hrough : 1 / √fr = -2 * lg (e / 3.7)) (hs : Spec.Friction.Colebrook Re 0 fs) : fr < f ∧ fs < f := by
  have inv : ∀ {a b : ℝ}, 0 < a → 0 < b → 1 / √b < 1 / √a → a < b := by
    intro a b ha hb h
    have := (one_div_lt_one_div (sqrt_pos.mpr hb) (sqrt_pos.mpr ha)).mp h
    exact (sqrt_lt_sqrt_iff ha.le).mp this
  obtain ⟨f0, f1⟩ := cb_inv hf
  obtain ⟨s0, s1⟩ := cb_inv hs
  constructor
  · apply inv hfr hf.1
    rw [f1, hrough]
    have h1 : 0 < e / 3.7 := by positivity
    have h2 : e / 3.7 < e / 3.7 + 2.51 * (1 / √f) / Re := by linarith [show 0 < 2.51 * (1 / √f) / Re by positivity]
    have h3 := div_lt_div_of_pos_right (log_lt_log h1 h2) log_ten_pos
    unfold lg; linarith
  · apply inv hs.1 hf.1
    by_contra hc
    have hc := not_lt.mp hc
    have h1 : -2 * lg (e / 3.7 + 2.51 * (1 / √f) / Re) < -2 * lg (0 / 3.7 + 2.51 * (1 / √fs) / Re) := by
      have h1 : 0 < 0 / 3.7 + 2.51 * (1 / √fs) / Re := by positivity
      have h2 : 0 / 3.7 + 2.51 * (1 / √fs) / Re < e / 3.7 + 2.51 * (1 / √f) / Re := by
        have a : 2.51 * (1 / √fs) / Re ≤ 2.51 * (1 / √f) / Re := div_le_div_of_nonneg_right (by linarith) hRe.le
        have b : 0 < e / 3.7 := by positivity
        linarith
      have h3 := div_lt_div_of_pos_right (log_lt_log h1 h2) log_ten_pos
      unfold lg; linarith
    rw [← f1, ← s1] at h1
    linarith

/-- C41: friction falls as Re rises. -/
theorem C41_antitone {Re' : ℝ} (hRe : 0 < Re) (hlt : Re < Re') (he : 0 ≤ e) {f f' : ℝ} (hf : Spec.Friction.Colebrook Re e f)
    (hf' : Spec.Friction.Colebrook Re' e f') : f' < f := by
  obtain ⟨f0, f1⟩ := cb_inv hf
  obtain ⟨g0, g1⟩ := cb_inv hf'
  have hRe' : 0 < Re' := hRe.trans hlt
  have key : 1 / √f < 1 / √f' := by
    by_contra hc
    have hc := not_lt.mp hc
    have h1 : 0 < e / 3.7 + 2.51 * (1 / √f') / Re' := by positivity
    have h2 : e / 3.7 + 2.51 * (1 / √f') / Re' < e / 3.7 + 2.51 * (1 / √f) / Re := by
      have a : 2.51 * (1 / √f') / Re' < 2.51 * (1 / √f') / Re := div_lt_div_of_pos_left (by positivity) hRe hlt
      have b : 2.51 * (1 / √f') / Re ≤ 2.51 * (1 / √f) / Re := div_le_div_of_nonneg_right (by linarith) hRe.le
      linarith
    have h3 := div_lt_div_of_pos_right (log_lt_log h1 h2) log_ten_pos
    unfold lg at f1 g1
    linarith
  have := (one_div_lt_one_div (sqrt_pos.mpr hf.1) (sqrt_pos.mpr hf'.1)).mp key
  exact (sqrt_lt_sqrt_iff hf'.1.le).mp this

end Verif.Friction
