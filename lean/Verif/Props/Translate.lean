import Verif.Model.Translate
import Verif.Lemmas.ListIdx
import Verif.Props.Bracketing
import Mathlib.Analysis.SpecialFunctions.ExpDeriv
import Mathlib.Analysis.SpecialFunctions.Exp
import Mathlib.Analysis.Calculus.Deriv.Inv

/-! # C31: bounded/unbounded variable translation -/

namespace Verif.Translate
noncomputable section

/-- Specification: the logistic map from the reals onto the open interval `(lo, hi)` -/
def logistic (lo hi t : ℝ) : ℝ := lo + (hi - lo) / (1 + Real.exp (-t))

/-- box bounds for a problem of `n` variables -/
structure Box (n : ℕ) (low high : List ℝ) : Prop where
  low_len : n ≤ low.length
  high_len : n ≤ high.length
  lt : ∀ i < n, low.getD i 0 < high.getD i 0

theorem one_add_exp_ne (t : ℝ) : 1 + Real.exp t ≠ 0 := by positivity

theorem idx_ok {α : Type _} {l : List α} {i : ℕ} (d : α) (h : i < l.length) : idx l i = .ok (l.getD i d) := by
  rw [List.getD_eq_getElem l d h]
  simp [idx, h]

theorem outof1_ok {n : ℕ} {low high : List ℝ} (hb : Box n low high) {i : ℕ} (hi : i < n) (x : ℝ) :
    outof1 low high i x = .ok (logistic (low.getD i 0) (high.getD i 0) x) := by
  have h1 := hb.low_len; have h2 := hb.high_len
  simp only [outof1, idx_ok (0 : ℝ) (show i < low.length by omega), idx_ok (0 : ℝ) (show i < high.length by omega), Py.ok_bind, trunc_exp,
    pdiv_ok (one_add_exp_ne _)]
  rfl

theorem outof_ok {low high x : List ℝ} (hb : Box x.length low high) :
    translate_outof low high x = .ok ((List.range x.length).map fun i => logistic (low.getD i 0) (high.getD i 0) (x.getD i 0)) :=
  mapM_range_ok _ _ _ fun i hi => outof1_ok hb hi _

theorem logistic_mem {lo hi : ℝ} (h : lo < hi) (t : ℝ) : lo < logistic lo hi t ∧ logistic lo hi t < hi := by
  have hp := Real.exp_pos (-t)
  have h1 : 0 < hi - lo := by linarith
  have h2 : 0 < (hi - lo) / (1 + Real.exp (-t)) := by positivity
  have h3 : (hi - lo) / (1 + Real.exp (-t)) < hi - lo := by
    rw [div_lt_iff₀ (by positivity)]; nlinarith
  unfold logistic
  constructor <;> linarith

/-- C31: every real vector of any length is translated to a point strictly inside the box, by the logistic map. -/
theorem C31_outof {low high x : List ℝ} (hb : Box x.length low high) :
    ∃ y, translate_outof low high x = .ok y ∧ y.length = x.length ∧
      ∀ i < x.length, low.getD i 0 < y.getD i 0 ∧ y.getD i 0 < high.getD i 0 ∧
        y.getD i 0 = logistic (low.getD i 0) (high.getD i 0) (x.getD i 0) := by
  refine ⟨_, outof_ok hb, by simp, fun i hi => ?_⟩
  have : ((List.range x.length).map fun i => logistic (low.getD i 0) (high.getD i 0) (x.getD i 0)).getD i 0 =
      logistic (low.getD i 0) (high.getD i 0) (x.getD i 0) := by
    rw [List.getD_eq_getElem _ _ (by simpa using hi)]; simp
  rw [this]
  obtain ⟨h1, h2⟩ := logistic_mem (hb.lt i hi) (x.getD i 0)
  exact ⟨h1, h2, rfl⟩

theorem into1_ok {n : ℕ} {low high : List ℝ} (hb : Box n low high) {i : ℕ} (hi : i < n) {y : ℝ} (h1 : low.getD i 0 < y)
    (h2 : y < high.getD i 0) : into1 low high i y = .ok (-Real.log ((high.getD i 0 - y) / (y - low.getD i 0))) := by
  have l1 := hb.low_len; have l2 := hb.high_len
  have hp : 0 < (high.getD i 0 - y) / (y - low.getD i 0) := div_pos (by linarith) (by linarith)
  simp only [into1, idx_ok (0 : ℝ) (show i < low.length by omega), idx_ok (0 : ℝ) (show i < high.length by omega), Py.ok_bind,
    pdiv_ok (show y - low.getD i 0 ≠ 0 by intro hh; linarith), trunc_log, if_neg hp.ne', plog_ok hp]
  rfl

/-- C31: translating a point out of the unbounded space and back gives the same point. -/
theorem C31_into_outof {low high x : List ℝ} (hb : Box x.length low high) :
    (translate_outof low high x >>= translate_into low high) = .ok x := by
  obtain ⟨y, hy, hl, hc⟩ := C31_outof hb
  rw [hy, Py.ok_bind, translate_into, hl, mapM_range_ok _ _ (fun i => x.getD i 0)]
  · congr 1
    apply List.ext_getElem (by simp)
    intro i h1 h2
    simp only [List.getElem_map, List.getElem_range]; exact List.getD_eq_getElem _ _ h2
  · intro i hi
    obtain ⟨h1, h2, h3⟩ := hc i hi
    rw [into1_ok hb hi h1 h2, h3]
    congr 1
    have hd : high.getD i 0 - low.getD i 0 ≠ 0 := by have := hb.lt i hi; intro hh; linarith
    have : (high.getD i 0 - logistic (low.getD i 0) (high.getD i 0) (x.getD i 0)) /
        (logistic (low.getD i 0) (high.getD i 0) (x.getD i 0) - low.getD i 0) = Real.exp (-(x.getD i 0)) := by
      have hp := one_add_exp_ne (-(x.getD i 0))
      unfold logistic
      generalize high.getD i 0 = H at *
      generalize low.getD i 0 = L at *
      generalize Real.exp (-(x.getD i 0)) = E at *
      have e1 : H - (L + (H - L) / (1 + E)) = (H - L) * E / (1 + E) := by field_simp; ring
      have e2 : L + (H - L) / (1 + E) - L = (H - L) / (1 + E) := by ring
      rw [e1, e2]
      field_simp
    rw [this, Real.log_exp]; ring

/-- C31: and the other way round for every point strictly inside the box. -/
theorem C31_outof_into {low high y : List ℝ} (hb : Box y.length low high)
    (hy : ∀ i < y.length, low.getD i 0 < y.getD i 0 ∧ y.getD i 0 < high.getD i 0) :
    (translate_into low high y >>= translate_outof low high) = .ok y := by
  have h : translate_into low high y = .ok ((List.range y.length).map fun i =>
      -Real.log ((high.getD i 0 - y.getD i 0) / (y.getD i 0 - low.getD i 0))) :=
    mapM_range_ok _ _ _ fun i hi => into1_ok hb hi (hy i hi).1 (hy i hi).2
  rw [h, Py.ok_bind, translate_outof, List.length_map, List.length_range, mapM_range_ok _ _ (fun i => y.getD i 0)]
  · congr 1
    apply List.ext_getElem (by simp)
    intro i h1 h2
    simp only [List.getElem_map, List.getElem_range]; exact List.getD_eq_getElem _ _ h2
  · intro i hi
    obtain ⟨h1, h2⟩ := hy i hi
    rw [List.getD_eq_getElem ((List.range y.length).map _) _ (by simpa using hi), outof1_ok hb hi]
    simp only [List.getElem_map, List.getElem_range]
    congr 1
    unfold logistic
    rw [neg_neg, Real.exp_log (div_pos (by linarith) (by linarith))]
    generalize high.getD i 0 = H at *
    generalize low.getD i 0 = L at *
    generalize y.getD i 0 = v at *
    have a1 : v - L ≠ 0 := by intro hh; linarith
    have a2 : H - L ≠ 0 := by intro hh; linarith
    have e1 : 1 + (H - v) / (v - L) = (H - L) / (v - L) := by field_simp; ring
    rw [e1]; field_simp; ring

/-- C31: the wrapped function is the original one at the translated point: it only ever sees points strictly inside the box. -/
theorem C31_bound_func {α : Type _} (f g : List ℝ → Py α) {low high x : List ℝ} (hb : Box x.length low high)
    (hfg : ∀ y, y.length = x.length → (∀ i < x.length, low.getD i 0 < y.getD i 0 ∧ y.getD i 0 < high.getD i 0) → f y = g y) :
    bound_func f low high x = bound_func g low high x ∧
    ∃ y, translate_outof low high x = .ok y ∧ bound_func f low high x = f y := by
  obtain ⟨y, hy, hl, hc⟩ := C31_outof hb
  simp only [bound_func, hy, Py.ok_bind]
  exact ⟨hfg y hl fun i hi => ⟨(hc i hi).1, (hc i hi).2.1⟩, y, rfl, rfl⟩

/-- C31: end points. The upper bound translates to a finite number, the lower bound raises `ZeroDivisionError`. -/
theorem C31_endpoints {lo hi : ℝ} (h : lo < hi) :
    translate_into [lo] [hi] [hi] = .ok [7444400719213812 / 10000000000000] ∧
    translate_into [lo] [hi] [lo] = .error .zeroDivisionError := by
  have : hi - lo ≠ 0 := by intro hh; linarith
  constructor
  · simp [translate_into, into1, idx, List.range_succ, pdiv_ok this, trunc_log]; norm_num
  · simp [translate_into, into1, idx, List.range_succ]

theorem logistic_deriv (lo hi t : ℝ) :
    HasDerivAt (logistic lo hi) ((hi - lo) * Real.exp (-t) / ((1 + Real.exp (-t)) * (1 + Real.exp (-t)))) t := by
  have h1 : HasDerivAt (fun t => 1 + Real.exp (-t)) (-Real.exp (-t)) t := by
    simpa using ((hasDerivAt_neg t).exp).const_add 1
  have h2 := ((h1.inv (one_add_exp_ne _)).const_mul (hi - lo)).const_add lo
  have e : logistic lo hi = fun t => lo + (hi - lo) * (1 + Real.exp (-t))⁻¹ := by
    funext s; simp [logistic, div_eq_mul_inv]
  rw [e]
  refine h2.congr_deriv ?_
  rw [neg_neg, pow_two]
  ring

/-- C31: chain rule. If `jac` returns the partial derivatives of `F` at the translated point, then the wrapped Jacobian of
`translate_bound_jac` and of `translate_bound_f_jac` returns the partial derivatives of the wrapped function. -/
theorem C31_jac (F : List ℝ → ℝ) (jac : List ℝ → Py (List ℝ)) {low high x y J : List ℝ} (hb : Box x.length low high)
    (hy : translate_outof low high x = .ok y) (hJ : jac y = .ok J) (hl : J.length = x.length)
    (hd : ∀ i < x.length, HasDerivAt (fun t => F (y.set i t)) (J.getD i 0) (y.getD i 0)) :
    ∃ G, bound_jac jac low high x = .ok G ∧ bound_f_jac (fun z => do let j ← jac z; return (F z, j)) low high x = .ok (F y, G) ∧
      G.length = x.length ∧
      ∀ i < x.length, HasDerivAt (fun t => match bound_func (fun z => .ok (F z)) low high (x.set i t) with | .ok v => v | .error _ => 0)
        (G.getD i 0) (x.getD i 0) := by
  have l1 := hb.low_len; have l2 := hb.high_len
  obtain ⟨y', hy', hyl, hyc⟩ := C31_outof hb
  rw [hy] at hy'; cases hy'
  let G := (List.range x.length).map fun i => (high.getD i 0 - low.getD i 0) * Real.exp (-(x.getD i 0)) * J.getD i 0 /
      ((1 + Real.exp (-(x.getD i 0))) * (1 + Real.exp (-(x.getD i 0))))
  have hG : ∀ i < x.length, G.getD i 0 = (high.getD i 0 - low.getD i 0) * Real.exp (-(x.getD i 0)) * J.getD i 0 /
      ((1 + Real.exp (-(x.getD i 0))) * (1 + Real.exp (-(x.getD i 0)))) := by
    intro i hi
    rw [List.getD_eq_getElem _ _ (by simpa [G] using hi)]; simp [G]
  refine ⟨G, ?_, ?_, by simp [G], ?_⟩
  · simp only [bound_jac, hy, hJ, Py.ok_bind]
    rw [mapM_range_ok _ _ (fun i => (high.getD i 0 - low.getD i 0) * Real.exp (-(x.getD i 0)) * J.getD i 0 /
      ((1 + Real.exp (-(x.getD i 0))) * (1 + Real.exp (-(x.getD i 0)))))]
    · simp only [← hl, List.drop_length, List.append_nil]; simp only [hl]; rfl
    · intro i hi
      have hp : 0 < 1 + Real.exp (-(x.getD i 0)) := by positivity
      simp only [idx_ok (0 : ℝ) (show i < low.length by omega), idx_ok (0 : ℝ) (show i < high.length by omega),
        idx_ok (0 : ℝ) (show i < J.length by omega), Py.ok_bind, trunc_exp, ppow_ok hp, Py.pure_eq]
      congr 1
      rw [Real.rpow_neg hp.le, show (2 : ℝ) = ((2 : ℕ) : ℝ) by norm_num, Real.rpow_natCast]
      field_simp
  · simp only [bound_f_jac, hy, hJ, Py.ok_bind, Py.pure_eq]
    rw [mapM_range_ok _ _ (fun i => (high.getD i 0 - low.getD i 0) * Real.exp (-(x.getD i 0)) * J.getD i 0 /
      ((1 + Real.exp (-(x.getD i 0))) * (1 + Real.exp (-(x.getD i 0)))))]
    · simp only [← hl, List.drop_length, List.append_nil]; simp only [hl]; rfl
    · intro i hi
      have hp : 0 < 1 + Real.exp (-(x.getD i 0)) := by positivity
      simp only [idx_ok (0 : ℝ) (show i < low.length by omega), idx_ok (0 : ℝ) (show i < high.length by omega),
        idx_ok (0 : ℝ) (show i < J.length by omega), Py.ok_bind, trunc_exp]
      exact pdiv_ok (by positivity)
  · intro i hi
    have key : (fun t => match bound_func (fun z => .ok (F z)) low high (x.set i t) with | .ok v => v | .error _ => 0) =
        fun t => F (y.set i (logistic (low.getD i 0) (high.getD i 0) t)) := by
      funext t
      have hb' : Box (x.set i t).length low high := by simpa using hb
      simp only [bound_func, outof_ok hb', Py.ok_bind]
      congr 1
      apply List.ext_getElem (by simp [hyl])
      intro j h1 h2
      have hj : j < x.length := by simpa using h1
      have e := (hyc j hj).2.2
      rw [List.getD_eq_getElem _ _ (by omega)] at e
      simp only [List.getElem_map, List.getElem_range, List.getElem_set]
      by_cases hij : i = j
      · subst hij; rw [List.getD_eq_getElem (x.set i t) _ (by simpa using hi)]; simp
      · rw [if_neg hij, e, List.getD_eq_getElem (x.set i t) _ (by simpa using hj), List.getElem_set_ne hij,
          List.getD_eq_getElem x _ hj]
    rw [key, hG i hi]
    have h1 := hd i hi
    rw [(hyc i hi).2.2] at h1
    have h2 := h1.comp (x.getD i 0) (logistic_deriv (low.getD i 0) (high.getD i 0) (x.getD i 0))
    refine h2.congr_deriv ?_
    ring

example : Box 2 [0, 1] [3, 5] := ⟨by simp, by simp, fun i hi => by interval_cases i <;> norm_num⟩

end
end Verif.Translate
