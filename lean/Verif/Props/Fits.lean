import Verif.Model.Fits
import Verif.Props.Translate
import Verif.Props.PolyUtils
import Mathlib.Topology.Algebra.Polynomial
import Mathlib.MeasureTheory.Integral.IntervalIntegral.FundThmCalculus

/-! # C34: linearly extrapolated fits -/

namespace Verif.Fits
open Verif.PolyEval Verif.PolyUtils Verif.Spec Verif.Translate Polynomial
noncomputable section

/-- Specification: a polynomial on `[a, b]` continued by straight lines -/
def extrapolated (p : ℝ → ℝ) (a b va vb sa sb x : ℝ) : ℝ :=
  if x < a then va + sa * (x - a) else if x > b then vb + sb * (x - b) else p x

theorem three_piece {L M H : ℝ → ℝ} {l m h a b x : ℝ} (hab : a < b) (eL : L a = M a) (eH : H b = M b)
    (hL : x ≤ a → HasDerivAt L l x) (hM : a ≤ x → x ≤ b → HasDerivAt M m x) (hH : b ≤ x → HasDerivAt H h x)
    (jl : x = a → l = m) (jh : x = b → h = m) :
    HasDerivAt (fun t => if t < a then L t else if t > b then H t else M t) (if x < a then l else if x > b then h else m) x := by
  have glue : ∀ (c d : ℝ) (f g k : ℝ → ℝ), x = c → (∀ t ≤ c, b < c ∨ a ≤ t ∨ c = a → True) → HasDerivAt f d x → HasDerivAt g d x →
      (∀ᶠ t in nhdsWithin x (Set.Iic x), k t = f t) → (∀ᶠ t in nhdsWithin x (Set.Ici x), k t = g t) → k x = f x → k x = g x →
      HasDerivAt k d x := by
    intro c d f g k _ _ hf hg e1 e2 e3 e4
    have h1 := (hf.hasDerivWithinAt (s := Set.Iic x)).congr_of_eventuallyEq e1 e3
    have h2 := (hg.hasDerivWithinAt (s := Set.Ici x)).congr_of_eventuallyEq e2 e4
    have h3 := h1.union h2
    rw [Set.Iic_union_Ici] at h3
    exact hasDerivWithinAt_univ.mp h3
  rcases lt_trichotomy x a with hx | hx | hx
  · rw [if_pos hx]
    refine (hL hx.le).congr_of_eventuallyEq ?_
    filter_upwards [Iio_mem_nhds hx] with t ht
    exact if_pos ht
  · subst hx
    rw [if_neg (lt_irrefl x), if_neg (not_lt.mpr hab.le)]
    refine glue x m L M _ rfl (fun _ _ _ => trivial) (jl rfl ▸ hL le_rfl) (hM le_rfl hab.le) ?_ ?_ ?_ ?_
    · filter_upwards [self_mem_nhdsWithin] with t ht
      rcases (Set.mem_Iic.mp ht).lt_or_eq with h | h
      · exact if_pos h
      · subst h; simp [not_lt.mpr hab.le, eL]
    · filter_upwards [self_mem_nhdsWithin, mem_nhdsWithin_of_mem_nhds (Iio_mem_nhds hab)] with t ht ht'
      rw [if_neg (not_lt.mpr ht), if_neg (not_lt.mpr (le_of_lt ht'))]
    · simp [not_lt.mpr hab.le, eL]
    · simp [not_lt.mpr hab.le]
  · rcases lt_trichotomy x b with hb | hb | hb
    · rw [if_neg (not_lt.mpr hx.le), if_neg (not_lt.mpr hb.le)]
      refine (hM hx.le hb.le).congr_of_eventuallyEq ?_
      filter_upwards [Ioo_mem_nhds hx hb] with t ht
      rw [if_neg (not_lt.mpr ht.1.le), if_neg (not_lt.mpr ht.2.le)]
    · subst hb
      rw [if_neg (not_lt.mpr hx.le), if_neg (lt_irrefl x)]
      refine glue x m M H _ rfl (fun _ _ _ => trivial) (hM hx.le le_rfl) (jh rfl ▸ hH le_rfl) ?_ ?_ ?_ ?_
      · filter_upwards [self_mem_nhdsWithin, mem_nhdsWithin_of_mem_nhds (Ioi_mem_nhds hx)] with t ht ht'
        rw [if_neg (not_lt.mpr (le_of_lt ht')), if_neg (not_lt.mpr ht)]
      · filter_upwards [self_mem_nhdsWithin] with t ht
        have hta : ¬ t < a := not_lt.mpr (hx.le.trans ht)
        rcases (Set.mem_Ici.mp ht).lt_or_eq with h | h
        · rw [if_neg hta, if_pos h]
        · subst h; simp [not_lt.mpr hx.le, eH]
      · simp [not_lt.mpr hx.le]
      · simp [not_lt.mpr hx.le, eH]
    · rw [if_neg (not_lt.mpr hx.le), if_pos hb]
      refine (hH hb.le).congr_of_eventuallyEq ?_
      filter_upwards [Ioi_mem_nhds hb] with t ht
      have ht : b < t := ht
      rw [if_neg (not_lt.mpr (hab.le.trans (le_of_lt ht))), if_pos ht]

/-! ### evaluate_linear_fits -/

/-- the `i`-th fit of a table -/
structure FitAt (D : FitData ℝ) (i : ℕ) (lo hi : ℝ) (p dp d2p : List ℝ) (vlo vhi slo shi : ℝ) : Prop where
  low : D.low_limits[i]? = some lo
  lows : D.low_slopes[i]? = some slo
  lowv : D.low_values[i]? = some vlo
  high : D.high_limits[i]? = some hi
  highs : D.high_slopes[i]? = some shi
  highv : D.high_values[i]? = some vhi
  c : D.coeffs[i]? = some p
  dc : D.dcoeffs[i]? = some dp
  d2c : D.d2coeffs[i]? = some d2p

/-- consistent tables: values and slopes are those of the polynomial at the limits, the derivative tables hold its derivatives -/
structure Consistent (lo hi : ℝ) (p dp d2p : List ℝ) (vlo vhi slo shi : ℝ) : Prop where
  lt : lo < hi
  der : polyDesc dp = derivative (polyDesc p)
  der2 : polyDesc d2p = derivative (polyDesc dp)
  vlo_eq : vlo = horner p lo
  vhi_eq : vhi = horner p hi
  slo_eq : slo = horner dp lo
  shi_eq : shi = horner dp hi

/-- a table of `n` fits, all present and consistent -/
def Table (D : FitData ℝ) : Prop :=
  ∀ i < D.low_limits.length, ∃ lo hi p dp d2p vlo vhi slo shi, FitAt D i lo hi p dp d2p vlo vhi slo shi ∧
    Consistent lo hi p dp d2p vlo vhi slo shi

theorem mapM_get {α : Type _} [Nonempty α] (n : ℕ) (f : ℕ → Py α) (h : ∀ i < n, ∃ v, f i = .ok v) :
    ∃ r, (List.range n).mapM f = .ok r ∧ r.length = n ∧ ∀ i < n, ∀ d, f i = .ok (r.getD i d) := by
  choose! g hg using h
  refine ⟨_, mapM_range_ok n f g hg, by simp, fun i hi d => ?_⟩
  rw [hg i hi, List.getD_eq_getElem _ _ (by simpa using hi)]; simp

theorem idx_some {α : Type _} {l : List α} {i : ℕ} {v : α} (h : l[i]? = some v) : idx l i = .ok v := by simp [idx, h]

/-- the value of a Python result, 0 for an error -/
def val (r : Py (List ℝ)) (i : ℕ) : ℝ := match r with | .ok l => l.getD i 0 | .error _ => 0

theorem eval_val {D : FitData ℝ} (hT : Table D) {i : ℕ} (hi : i < D.low_limits.length) {lo hi' : ℝ} {p dp d2p : List ℝ} {vlo vhi slo shi : ℝ}
    (hf : FitAt D i lo hi' p dp d2p vlo vhi slo shi) (x : ℝ) :
    (val (evaluate_linear_fits D x) i = if x < lo then (x - lo) * slo + vlo else if x > hi' then (x - hi') * shi + vhi else horner p x) ∧
    (val (evaluate_linear_fits_d D x) i = if x < lo then slo else if x > hi' then shi else horner dp x) ∧
    (val (evaluate_linear_fits_d2 D x) i = if lo < x ∧ x < hi' then horner d2p x else 0) := by
  have tot : ∀ j < D.low_limits.length, ∃ v1 v2 v3 : ℝ, True := fun _ _ => ⟨0, 0, 0, trivial⟩
  refine ⟨?_, ?_, ?_⟩
  · obtain ⟨r, h1, h2, h3⟩ := mapM_get D.low_limits.length (fun i => do
        let lo ← idx D.low_limits i
        if x < lo then do
          let s ← idx D.low_slopes i
          let v ← idx D.low_values i
          .ok ((x - lo) * s + v)
        else do
          let hi ← idx D.high_limits i
          if x > hi then do
            let s ← idx D.high_slopes i
            let v ← idx D.high_values i
            .ok ((x - hi) * s + v)
          else do
            let c ← idx D.coeffs i
            .ok (c.foldl (fun v c => v * x + c) 0)) (by
        intro j hj
        obtain ⟨lo, hi, p, dp, d2p, vlo, vhi, slo, shi, hf, -⟩ := hT j hj
        simp only [idx_some hf.low, idx_some hf.lows, idx_some hf.lowv, idx_some hf.high, idx_some hf.highs, idx_some hf.highv,
          idx_some hf.c, Py.ok_bind]
        split_ifs <;> exact ⟨_, rfl⟩)
    have h4 := h3 i hi 0
    simp only [idx_some hf.low, idx_some hf.lows, idx_some hf.lowv, idx_some hf.high, idx_some hf.highs, idx_some hf.highv,
          idx_some hf.c, Py.ok_bind] at h4
    simp only [evaluate_linear_fits, h1, val]
    split_ifs at h4 ⊢ <;> exact (Except.ok.inj h4).symm
  · obtain ⟨r, h1, h2, h3⟩ := mapM_get D.low_limits.length (fun i => do
        let lo ← idx D.low_limits i
        if x < lo then idx D.low_slopes i
        else do
          let hi ← idx D.high_limits i
          if x > hi then idx D.high_slopes i
          else do
            let c ← idx D.dcoeffs i
            .ok (c.foldl (fun v c => v * x + c) 0)) (by
        intro j hj
        obtain ⟨lo, hi, p, dp, d2p, vlo, vhi, slo, shi, hf, -⟩ := hT j hj
        simp only [idx_some hf.low, idx_some hf.lows, idx_some hf.high, idx_some hf.highs, idx_some hf.dc, Py.ok_bind]
        split_ifs <;> exact ⟨_, rfl⟩)
    have h4 := h3 i hi 0
    simp only [idx_some hf.low, idx_some hf.lows, idx_some hf.high, idx_some hf.highs, idx_some hf.dc, Py.ok_bind] at h4
    simp only [evaluate_linear_fits_d, h1, val]
    split_ifs at h4 ⊢ <;> exact (Except.ok.inj h4).symm
  · obtain ⟨r, h1, h2, h3⟩ := mapM_get D.low_limits.length (fun i => do
        let lo ← idx D.low_limits i
        if lo < x then do
          let hi ← idx D.high_limits i
          if x < hi then do
            let c ← idx D.d2coeffs i
            .ok (c.foldl (fun v c => v * x + c) 0)
          else .ok 0
        else .ok 0) (by
        intro j hj
        obtain ⟨lo, hi, p, dp, d2p, vlo, vhi, slo, shi, hf, -⟩ := hT j hj
        simp only [idx_some hf.low, idx_some hf.high, idx_some hf.d2c, Py.ok_bind]
        split_ifs <;> exact ⟨_, rfl⟩)
    have h4 := h3 i hi 0
    simp only [idx_some hf.low, idx_some hf.high, idx_some hf.d2c, Py.ok_bind] at h4
    simp only [evaluate_linear_fits_d2, h1, val]
    by_cases c1 : lo < x <;> by_cases c2 : x < hi' <;> simp only [c1, c2, if_true, if_false, and_true, and_false, and_self] at h4 ⊢ <;>
      exact (Except.ok.inj h4).symm

theorem horner_deriv {p dp : List ℝ} (h : polyDesc dp = derivative (polyDesc p)) (x : ℝ) :
    HasDerivAt (fun t => horner p t) (horner dp x) x := by
  have := (polyDesc p).hasDerivAt x
  rw [← h] at this
  simpa only [horner_eq_eval] using this

/-- C34: for a consistent table of any number of fits and every `x`, `evaluate_linear_fits` returns the polynomial inside its limits and its
straight-line continuation outside; the result is differentiable everywhere, `evaluate_linear_fits_d` returning the derivative, and
`evaluate_linear_fits_d2` returns the second derivative everywhere off the two limits. -/
theorem C34_linear_fits {D : FitData ℝ} (hT : Table D) {i : ℕ} (hi : i < D.low_limits.length) {lo hi' : ℝ} {p dp d2p : List ℝ}
    {vlo vhi slo shi : ℝ} (hf : FitAt D i lo hi' p dp d2p vlo vhi slo shi) (hc : Consistent lo hi' p dp d2p vlo vhi slo shi) (x : ℝ) :
    val (evaluate_linear_fits D x) i = extrapolated (fun t => (polyDesc p).eval t) lo hi' vlo vhi slo shi x ∧
    HasDerivAt (fun t => val (evaluate_linear_fits D t) i) (val (evaluate_linear_fits_d D x) i) x ∧
    (x ≠ lo → x ≠ hi' → HasDerivAt (fun t => val (evaluate_linear_fits_d D t) i) (val (evaluate_linear_fits_d2 D x) i) x) := by
  have E := fun t => eval_val hT hi hf t
  have hlt := hc.lt
  refine ⟨?_, ?_, ?_⟩
  · rw [(E x).1, extrapolated]
    simp only [← horner_eq_eval]
    split_ifs <;> ring
  · rw [show (fun t => val (evaluate_linear_fits D t) i) = _ from funext fun t => (E t).1, (E x).2.1]
    apply three_piece (L := fun t => (t - lo) * slo + vlo) (H := fun t => (t - hi') * shi + vhi) (M := fun t => horner p t) hlt
    · simp [hc.vlo_eq]
    · simp [hc.vhi_eq]
    · intro _; simpa using (((hasDerivAt_id x).sub_const lo).mul_const slo).add_const vlo
    · intro _ _; exact horner_deriv hc.der x
    · intro _; simpa using (((hasDerivAt_id x).sub_const hi').mul_const shi).add_const vhi
    · rintro rfl; exact hc.slo_eq
    · rintro rfl; exact hc.shi_eq
  · intro n1 n2
    rw [(E x).2.2]
    rw [show (fun t => val (evaluate_linear_fits_d D t) i) = _ from funext fun t => (E t).2.1]
    rcases lt_or_gt_of_ne n1 with h | h
    · rw [if_neg (by intro hh; linarith [hh.1])]
      refine (hasDerivAt_const x slo).congr_of_eventuallyEq ?_
      filter_upwards [Iio_mem_nhds h] with t ht
      exact if_pos ht
    · rcases lt_or_gt_of_ne n2 with h' | h'
      · rw [if_pos ⟨h, h'⟩]
        refine (horner_deriv hc.der2 x).congr_of_eventuallyEq ?_
        filter_upwards [Ioo_mem_nhds h h'] with t ht
        rw [if_neg (not_lt.mpr ht.1.le), if_neg (not_lt.mpr ht.2.le)]
      · rw [if_neg (by intro hh; linarith [hh.2])]
        refine (hasDerivAt_const x shi).congr_of_eventuallyEq ?_
        filter_upwards [Ioi_mem_nhds h'] with t ht
        have ht : hi' < t := ht
        rw [if_neg (by intro hh; linarith), if_pos ht]

/-- A table meeting the hypotheses: `x^2` between 1 and 2. -/
example : Table ⟨[1], [2], [1], [2], [4], [4], [[1, 0, 0]], [[2, 0]], [[2]]⟩ := by
  intro i hi
  have : i = 0 := by simpa using hi
  subst this
  refine ⟨1, 2, [1, 0, 0], [2, 0], [2], 1, 4, 2, 4, ⟨rfl, rfl, rfl, rfl, rfl, rfl, rfl, rfl, rfl⟩, ⟨by norm_num, ?_, ?_, ?_, ?_, ?_, ?_⟩⟩
  · simp [polyDesc_cons]; rw [one_add_one_eq_two]; rfl
  · simp [polyDesc_cons]
  all_goals norm_num [horner]

/-! ### integrals -/

/-- data of one fit for the integral functions -/
structure FitOk (c : List ℝ) (Tmin Tmax vmin vmax : ℝ) : Prop where
  lt : Tmin < Tmax
  vmin_eq : vmin = horner c Tmin
  vmax_eq : vmax = horner c Tmax

/-- C34: `poly_fit_integral_value` is an antiderivative, at every temperature, of the polynomial continued linearly, for every polynomial,
limits and slopes. -/
theorem C34_integral_value {c : List ℝ} {Tmin Tmax vmin vmax : ℝ} (h : FitOk c Tmin Tmax vmin vmax) (smin smax T : ℝ) :
    HasDerivAt (fun t => poly_fit_integral_value t (polyint c) Tmin Tmax vmin vmax smin smax)
      (extrapolated (fun t => (polyDesc c).eval t) Tmin Tmax vmin vmax smin smax T) T := by
  have e : (fun t => poly_fit_integral_value t (polyint c) Tmin Tmax vmin vmax smin smax) = fun t =>
      if t < Tmin then t * (1/2 * smin * t + (vmin - smin * Tmin)) else if t > Tmax then
        horner (polyint c) Tmax - horner (polyint c) Tmin + Tmin * (1/2 * smin * Tmin + (vmin - smin * Tmin)) +
          (t * (1/2 * smax * t + (vmax - smax * Tmax)) - Tmax * (1/2 * smax * Tmax + (vmax - smax * Tmax)))
      else Tmin * (1/2 * smin * Tmin + (vmin - smin * Tmin)) + (horner (polyint c) t - horner (polyint c) Tmin) := by
    funext t
    simp only [poly_fit_integral_value]
    by_cases h1 : t < Tmin
    · simp only [if_pos h1]
    · by_cases h2 : t > Tmax
      · rw [if_neg h1, if_neg h1, if_pos h2, if_neg (by intro hh; linarith [hh.2])]
      · rw [if_neg h1, if_neg h1, if_neg h2, if_pos ⟨not_lt.mp h1, not_lt.mp h2⟩]
  have quad : ∀ s k t : ℝ, HasDerivAt (fun t => t * (1/2 * s * t + k)) (s * t + k) t := by
    intro s k t
    have h1 := (hasDerivAt_id t).mul (((hasDerivAt_id t).const_mul (1/2 * s)).add_const k)
    refine h1.congr_deriv ?_
    simp only [id]; ring
  rw [e, extrapolated]
  simp only [← horner_eq_eval]
  apply three_piece h.lt
  · simp
  · ring
  · intro _; exact (quad _ _ _).congr_deriv (by ring)
  · intro _ _; exact ((C11_polyint_hasDerivAt c T).sub_const _).const_add _
  · intro _; exact (((quad _ _ _).sub_const _).const_add _).congr_deriv (by ring)
  · rintro rfl; simp [h.vmin_eq]
  · rintro rfl; simp [h.vmax_eq]

/-- C34: the two-limit integral is the difference of the one-limit one, for all limits in any order. -/
theorem C34_integral_difference (ic : List ℝ) {Tmin Tmax : ℝ} (h : Tmin < Tmax) (vmin vmax smin smax T1 T2 : ℝ) :
    fit_integral_linear_extrapolation T1 T2 ic Tmin Tmax vmin vmax smin smax =
      poly_fit_integral_value T2 ic Tmin Tmax vmin vmax smin smax - poly_fit_integral_value T1 ic Tmin Tmax vmin vmax smin smax := by
  have ordered : ∀ T1 T2 : ℝ, T1 ≤ T2 →
      ((if T1 < Tmin then
        min Tmin T2 * (1/2 * smin * min Tmin T2 + (vmin - smin * Tmin)) - T1 * (1/2 * smin * T1 + (vmin - smin * Tmin)) else 0) +
      (if (Tmin ≤ T1 ∧ T1 ≤ Tmax) ∨ (Tmin ≤ T2 ∧ T2 ≤ Tmax) ∨ (T1 ≤ Tmin ∧ T2 ≥ Tmax) then
        horner ic (min Tmax T2) - horner ic (max Tmin T1) else 0) +
      (if T2 > Tmax then T2 * (1/2 * smax * T2 + (vmax - smax * Tmax)) - max Tmax T1 * (1/2 * smax * max Tmax T1 + (vmax - smax * Tmax)) else 0)) =
      poly_fit_integral_value T2 ic Tmin Tmax vmin vmax smin smax - poly_fit_integral_value T1 ic Tmin Tmax vmin vmax smin smax := by
    intro T1 T2 h12
    simp only [poly_fit_integral_value]
    rcases lt_or_ge T1 Tmin with a1 | a1
    · rcases lt_or_ge T2 Tmin with a2 | a2
      · have m : ¬ ((Tmin ≤ T1 ∧ T1 ≤ Tmax) ∨ (Tmin ≤ T2 ∧ T2 ≤ Tmax) ∨ (T1 ≤ Tmin ∧ T2 ≥ Tmax)) := by
          rintro (hh | hh | hh) <;> linarith [hh.1, hh.2]
        have m2 : ¬ T2 > Tmax := by intro hh; linarith
        simp only [if_pos a1, if_pos a2, if_neg m, if_neg m2, min_eq_right a2.le]
        ring
      · have c2 := not_lt.mpr a2
        rcases le_or_gt T2 Tmax with a3 | a3
        · have m : ((Tmin ≤ T1 ∧ T1 ≤ Tmax) ∨ (Tmin ≤ T2 ∧ T2 ≤ Tmax) ∨ (T1 ≤ Tmin ∧ T2 ≥ Tmax)) := Or.inr (Or.inl ⟨a2, a3⟩)
          have m2 : ¬ T2 > Tmax := not_lt.mpr a3
          have m3 : Tmin ≤ T2 ∧ T2 ≤ Tmax := ⟨a2, a3⟩
          simp only [if_pos a1, if_neg c2, if_pos m, if_neg m2, if_pos m3, min_eq_left a2, min_eq_right a3, max_eq_left a1.le]
          ring
        · have m : ((Tmin ≤ T1 ∧ T1 ≤ Tmax) ∨ (Tmin ≤ T2 ∧ T2 ≤ Tmax) ∨ (T1 ≤ Tmin ∧ T2 ≥ Tmax)) := Or.inr (Or.inr ⟨a1.le, a3.le⟩)
          have m3 : ¬ (Tmin ≤ T2 ∧ T2 ≤ Tmax) := fun hh => by linarith [hh.2]
          simp only [if_pos a1, if_neg c2, if_pos m, if_pos a3, if_neg m3, min_eq_left a2, min_eq_left a3.le, max_eq_left a1.le,
            max_eq_left (show T1 ≤ Tmax by linarith)]
          ring
    · have a2 : Tmin ≤ T2 := a1.trans h12
      have c1 := not_lt.mpr a1
      have c2 := not_lt.mpr a2
      rcases le_or_gt T2 Tmax with a3 | a3
      · have m4 : Tmin ≤ T1 ∧ T1 ≤ Tmax := ⟨a1, h12.trans a3⟩
        have m : ((Tmin ≤ T1 ∧ T1 ≤ Tmax) ∨ (Tmin ≤ T2 ∧ T2 ≤ Tmax) ∨ (T1 ≤ Tmin ∧ T2 ≥ Tmax)) := Or.inl m4
        have m2 : ¬ T2 > Tmax := not_lt.mpr a3
        have m3 : Tmin ≤ T2 ∧ T2 ≤ Tmax := ⟨a2, a3⟩
        simp only [if_neg c1, if_neg c2, if_pos m, if_neg m2, if_pos m3, if_pos m4, min_eq_right a3, max_eq_right a1]
        ring
      · have m3 : ¬ (Tmin ≤ T2 ∧ T2 ≤ Tmax) := fun hh => by linarith [hh.2]
        rcases le_or_gt T1 Tmax with a4 | a4
        · have m4 : Tmin ≤ T1 ∧ T1 ≤ Tmax := ⟨a1, a4⟩
          have m : ((Tmin ≤ T1 ∧ T1 ≤ Tmax) ∨ (Tmin ≤ T2 ∧ T2 ≤ Tmax) ∨ (T1 ≤ Tmin ∧ T2 ≥ Tmax)) := Or.inl m4
          simp only [if_neg c1, if_neg c2, if_pos m, if_pos a3, if_neg m3, if_pos m4, min_eq_left a3.le, max_eq_right a1, max_eq_left a4]
          ring
        · have m4 : ¬ (Tmin ≤ T1 ∧ T1 ≤ Tmax) := fun hh => by linarith [hh.2]
          have m : ¬ ((Tmin ≤ T1 ∧ T1 ≤ Tmax) ∨ (Tmin ≤ T2 ∧ T2 ≤ Tmax) ∨ (T1 ≤ Tmin ∧ T2 ≥ Tmax)) := by
            rintro (hh | hh | hh) <;> linarith [hh.1, hh.2]
          simp only [if_neg c1, if_neg c2, if_neg m, if_pos a3, if_neg m3, if_neg m4, max_eq_right a4.le]
          ring
  simp only [fit_integral_linear_extrapolation, decide_eq_true_eq]
  by_cases hf : T1 > T2
  · simp only [if_pos hf]
    rw [ordered T2 T1 (le_of_lt hf)]; ring
  · simp only [if_neg hf]
    exact ordered T1 T2 (not_lt.mp hf)

theorem extrapolated_continuous {c : List ℝ} {Tmin Tmax vmin vmax : ℝ} (h : FitOk c Tmin Tmax vmin vmax) (smin smax : ℝ) :
    Continuous (extrapolated (fun t => (polyDesc c).eval t) Tmin Tmax vmin vmax smin smax) := by
  have h1 : Continuous fun x : ℝ => if x ≤ Tmin then vmin + smin * (x - Tmin) else (polyDesc c).eval x := by
    refine Continuous.if_le (by fun_prop) (polyDesc c).continuous continuous_id continuous_const ?_
    rintro x rfl; simp [h.vmin_eq, horner_eq_eval]
  have h2 : Continuous fun x : ℝ => if Tmax ≤ x then vmax + smax * (x - Tmax) else
      if x ≤ Tmin then vmin + smin * (x - Tmin) else (polyDesc c).eval x := by
    refine Continuous.if_le (by fun_prop) h1 continuous_const continuous_id ?_
    rintro x rfl
    rw [if_neg (not_le.mpr h.lt)]; simp [h.vmax_eq, horner_eq_eval]
  convert h2 using 1
  funext x
  simp only [extrapolated]
  have := h.lt
  rcases lt_trichotomy x Tmin with a | a | a
  · rw [if_pos a, if_neg (by linarith), if_pos a.le]
  · subst a; rw [if_neg (lt_irrefl _), if_neg (by linarith), if_neg (by linarith), if_pos le_rfl]; simp [h.vmin_eq, horner_eq_eval]
  · rw [if_neg (by linarith)]
    rcases lt_trichotomy x Tmax with b | b | b
    · rw [if_neg (by linarith), if_neg (by linarith), if_neg (by linarith)]
    · subst b; rw [if_neg (lt_irrefl _), if_pos le_rfl]; simp [h.vmax_eq, horner_eq_eval]
    · rw [if_pos b, if_pos b.le]

/-- C34: `fit_integral_linear_extrapolation` is the definite integral of the extrapolated polynomial between any two temperatures. -/
theorem C34_integral {c : List ℝ} {Tmin Tmax vmin vmax : ℝ} (h : FitOk c Tmin Tmax vmin vmax) (smin smax T1 T2 : ℝ) :
    fit_integral_linear_extrapolation T1 T2 (polyint c) Tmin Tmax vmin vmax smin smax =
      ∫ t in T1..T2, extrapolated (fun t => (polyDesc c).eval t) Tmin Tmax vmin vmax smin smax t := by
  rw [C34_integral_difference _ h.lt, eq_comm]
  exact intervalIntegral.integral_eq_sub_of_hasDerivAt (fun t _ => C34_integral_value h smin smax t)
    ((extrapolated_continuous h smin smax).intervalIntegrable _ _)

example : FitOk [1, 0, 0] 1 2 1 4 := ⟨by norm_num, by norm_num [horner], by norm_num [horner]⟩

/-! ### integrals of value over temperature -/

/-- the value of a Python result, 0 for an error -/
def val1 (r : Py ℝ) : ℝ := match r with | .ok v => v | .error _ => 0

/-- the three branches of `poly_fit_integral_over_T_value` -/
def overT (c : List ℝ) (k Tmin Tmax vmin vmax smin smax t : ℝ) : ℝ :=
  if t < Tmin then smin * t + (vmin - smin * Tmin) * Real.log t else if t > Tmax then
    (horner c Tmax + k * Real.log Tmax - (horner c Tmin + k * Real.log Tmin)) + (smin * Tmin + (vmin - smin * Tmin) * Real.log Tmin) +
      (-smax * (Tmax - t) + (vmax - Tmax * smax) * Real.log t - (vmax - Tmax * smax) * Real.log Tmax)
  else smin * Tmin + (vmin - smin * Tmin) * Real.log Tmin + (horner c t + k * Real.log t - (horner c Tmin + k * Real.log Tmin))

theorem horner_log_ok (c : List ℝ) (k : ℝ) {t : ℝ} (h : 0 < t) : horner_log c k t = .ok (horner c t + k * Real.log t) := by
  simp [horner_log, plog_ok h, horner]

theorem overT_ok (c : List ℝ) (k : ℝ) {Tmin Tmax : ℝ} (h0 : 0 < Tmin) (h : Tmin < Tmax) (vmin vmax smin smax : ℝ) {t : ℝ} (ht : 0 < t) :
    poly_fit_integral_over_T_value t c k Tmin Tmax vmin vmax smin smax = .ok (overT c k Tmin Tmax vmin vmax smin smax t) := by
  simp only [poly_fit_integral_over_T_value, overT, horner_log_ok c k ht, horner_log_ok c k h0, horner_log_ok c k (h0.trans h), plog_ok ht,
    plog_ok h0, plog_ok (h0.trans h), Py.ok_bind]
  by_cases h1 : t < Tmin
  · simp only [if_pos h1]
  · by_cases h2 : t > Tmax
    · have : ¬ (Tmin ≤ t ∧ t ≤ Tmax) := fun hh => by linarith [hh.2]
      simp only [if_neg h1, if_pos h2, if_neg this]
    · have : Tmin ≤ t ∧ t ≤ Tmax := ⟨not_lt.mp h1, not_lt.mp h2⟩
      simp only [if_neg h1, if_neg h2, if_pos this]

/-- C34: `poly_fit_integral_over_T_value` is an antiderivative of the extrapolated polynomial divided by temperature, at every positive
temperature, and raises `ValueError` at every other one. -/
theorem C34_integral_over_T_value {c : List ℝ} {Tmin Tmax vmin vmax : ℝ} (h : FitOk c Tmin Tmax vmin vmax) (h0 : 0 < Tmin)
    (smin smax T : ℝ) :
    (0 < T → (∃ v, poly_fit_integral_over_T_value T (polyint_over_x c).1 (polyint_over_x c).2 Tmin Tmax vmin vmax smin smax = .ok v) ∧
      HasDerivAt (fun t => val1 (poly_fit_integral_over_T_value t (polyint_over_x c).1 (polyint_over_x c).2 Tmin Tmax vmin vmax smin smax))
      (extrapolated (fun t => (polyDesc c).eval t) Tmin Tmax vmin vmax smin smax T / T) T) ∧
    (T ≤ 0 → poly_fit_integral_over_T_value T (polyint_over_x c).1 (polyint_over_x c).2 Tmin Tmax vmin vmax smin smax =
      .error .valueError) := by
  refine ⟨fun hT => ⟨⟨_, overT_ok _ _ h0 h.lt _ _ _ _ hT⟩, ?_⟩, fun hT => ?_⟩
  · have e : (fun t => val1 (poly_fit_integral_over_T_value t (polyint_over_x c).1 (polyint_over_x c).2 Tmin Tmax vmin vmax smin smax))
        =ᶠ[nhds T] overT (polyint_over_x c).1 (polyint_over_x c).2 Tmin Tmax vmin vmax smin smax := by
      filter_upwards [Ioi_mem_nhds hT] with t ht
      rw [overT_ok _ _ h0 h.lt _ _ _ _ ht]; rfl
    have lin : ∀ s k : ℝ, HasDerivAt (fun t => s * t + k * Real.log t) (s + k / T) T := by
      intro s k
      refine (((hasDerivAt_id T).const_mul s).add ((Real.hasDerivAt_log hT.ne').const_mul k)).congr_deriv ?_
      ring
    refine HasDerivAt.congr_of_eventuallyEq ?_ e
    have hd : (extrapolated (fun t => (polyDesc c).eval t) Tmin Tmax vmin vmax smin smax T / T) =
        if T < Tmin then (smin + (vmin - smin * Tmin) / T) else if T > Tmax then (smax + (vmax - Tmax * smax) / T) else horner c T / T := by
      simp only [extrapolated, ← horner_eq_eval]
      split_ifs
      · field_simp; ring
      · field_simp; ring
      · rfl
    rw [hd]
    unfold overT
    apply three_piece h.lt
    · ring
    · ring
    · intro _; exact lin _ _
    · intro _ _
      exact ((C11_polyint_over_x c T hT).sub_const _).const_add _
    · intro _
      refine HasDerivAt.const_add _ ((HasDerivAt.sub_const _ (?_ : HasDerivAt (fun t => -smax * (Tmax - t) +
        (vmax - Tmax * smax) * Real.log t) _ T)))
      have := (lin smax (vmax - Tmax * smax)).add_const (-smax * Tmax)
      refine this.congr_of_eventuallyEq (Filter.Eventually.of_forall fun t => ?_)
      ring
    · rintro rfl; rw [h.vmin_eq]; field_simp; ring
    · rintro rfl; rw [h.vmax_eq]; field_simp; ring
  · have : T < Tmin := by linarith
    simp [poly_fit_integral_over_T_value, if_pos this, plog, hT]

/-- C34: the two-limit version is the difference of the one-limit one, for all positive limits in any order. -/
theorem C34_integral_over_T_difference (c : List ℝ) (k : ℝ) {Tmin Tmax : ℝ} (h0 : 0 < Tmin) (h : Tmin < Tmax) (vmin vmax smin smax T1 T2 : ℝ)
    (p1 : 0 < T1) (p2 : 0 < T2) :
    ∃ v1 v2, poly_fit_integral_over_T_value T1 c k Tmin Tmax vmin vmax smin smax = .ok v1 ∧
      poly_fit_integral_over_T_value T2 c k Tmin Tmax vmin vmax smin smax = .ok v2 ∧
      fit_integral_over_T_linear_extrapolation T1 T2 c k Tmin Tmax vmin vmax smin smax = .ok (v2 - v1) := by
  refine ⟨_, _, overT_ok c k h0 h vmin vmax smin smax p1, overT_ok c k h0 h vmin vmax smin smax p2, ?_⟩
  have ordered : ∀ T1 T2 : ℝ, 0 < T1 → 0 < T2 → T1 ≤ T2 → ∃ lo mi hi,
      (if T1 < Tmin then do
        let l2 ← plog (min Tmin T2)
        let l1 ← plog T1
        .ok ((smin * min Tmin T2 + (vmin - smin * Tmin) * l2) - (smin * T1 + (vmin - smin * Tmin) * l1))
        else .ok 0 : Py ℝ) = .ok lo ∧
      (if (Tmin ≤ T1 ∧ T1 ≤ Tmax) ∨ (Tmin ≤ T2 ∧ T2 ≤ Tmax) ∨ (T1 ≤ Tmin ∧ T2 ≥ Tmax) then do
        let h2 ← horner_log c k (min Tmax T2)
        let h1 ← horner_log c k (max Tmin T1)
        .ok (h2 - h1)
        else .ok 0 : Py ℝ) = .ok mi ∧
      (if T2 > Tmax then do
        let l2 ← plog T2
        let l1 ← plog (max Tmax T1)
        .ok ((smax * T2 + (vmax - smax * Tmax) * l2) - (smax * max Tmax T1 + (vmax - smax * Tmax) * l1))
        else .ok 0 : Py ℝ) = .ok hi ∧
      lo + mi + hi = overT c k Tmin Tmax vmin vmax smin smax T2 - overT c k Tmin Tmax vmin vmax smin smax T1 := by
    intro T1 T2 p1 p2 h12
    have h3 := h0.trans h
    simp only [overT, plog_ok p1, plog_ok p2, plog_ok (lt_min h0 p2), plog_ok (show 0 < max Tmax T1 from lt_max_of_lt_left h3),
      horner_log_ok c k (lt_min h3 p2), horner_log_ok c k (show 0 < max Tmin T1 from lt_max_of_lt_left h0), Py.ok_bind]
    rcases lt_or_ge T1 Tmin with a1 | a1
    · have n1 : ¬ T1 > Tmax := by intro hh; linarith
      rcases lt_or_ge T2 Tmin with a2 | a2
      · have m : ¬ ((Tmin ≤ T1 ∧ T1 ≤ Tmax) ∨ (Tmin ≤ T2 ∧ T2 ≤ Tmax) ∨ (T1 ≤ Tmin ∧ T2 ≥ Tmax)) := by
          rintro (hh | hh | hh) <;> linarith [hh.1, hh.2]
        have m2 : ¬ T2 > Tmax := by intro hh; linarith
        simp only [if_pos a1, if_pos a2, if_neg m, if_neg m2, min_eq_right a2.le]
        exact ⟨_, _, _, rfl, rfl, rfl, by ring⟩
      · have c2 := not_lt.mpr a2
        rcases le_or_gt T2 Tmax with a3 | a3
        · have m : ((Tmin ≤ T1 ∧ T1 ≤ Tmax) ∨ (Tmin ≤ T2 ∧ T2 ≤ Tmax) ∨ (T1 ≤ Tmin ∧ T2 ≥ Tmax)) := Or.inr (Or.inl ⟨a2, a3⟩)
          have m2 : ¬ T2 > Tmax := not_lt.mpr a3
          simp only [if_pos a1, if_neg c2, if_pos m, if_neg m2, min_eq_left a2, min_eq_right a3, max_eq_left a1.le]
          exact ⟨_, _, _, rfl, rfl, rfl, by ring⟩
        · have m : ((Tmin ≤ T1 ∧ T1 ≤ Tmax) ∨ (Tmin ≤ T2 ∧ T2 ≤ Tmax) ∨ (T1 ≤ Tmin ∧ T2 ≥ Tmax)) := Or.inr (Or.inr ⟨a1.le, a3.le⟩)
          simp only [if_pos a1, if_neg c2, if_pos m, if_pos a3, min_eq_left a2, min_eq_left a3.le, max_eq_left a1.le,
            max_eq_left (show T1 ≤ Tmax by linarith)]
          exact ⟨_, _, _, rfl, rfl, rfl, by ring⟩
    · have a2 : Tmin ≤ T2 := a1.trans h12
      have c1 := not_lt.mpr a1
      have c2 := not_lt.mpr a2
      rcases le_or_gt T2 Tmax with a3 | a3
      · have m4 : Tmin ≤ T1 ∧ T1 ≤ Tmax := ⟨a1, h12.trans a3⟩
        have m : ((Tmin ≤ T1 ∧ T1 ≤ Tmax) ∨ (Tmin ≤ T2 ∧ T2 ≤ Tmax) ∨ (T1 ≤ Tmin ∧ T2 ≥ Tmax)) := Or.inl m4
        have m2 : ¬ T2 > Tmax := not_lt.mpr a3
        have n1 : ¬ T1 > Tmax := not_lt.mpr (h12.trans a3)
        simp only [if_neg c1, if_neg c2, if_pos m, if_neg m2, if_neg n1, min_eq_right a3, max_eq_right a1]
        exact ⟨_, _, _, rfl, rfl, rfl, by ring⟩
      · rcases le_or_gt T1 Tmax with a4 | a4
        · have m4 : Tmin ≤ T1 ∧ T1 ≤ Tmax := ⟨a1, a4⟩
          have m : ((Tmin ≤ T1 ∧ T1 ≤ Tmax) ∨ (Tmin ≤ T2 ∧ T2 ≤ Tmax) ∨ (T1 ≤ Tmin ∧ T2 ≥ Tmax)) := Or.inl m4
          have n1 : ¬ T1 > Tmax := not_lt.mpr a4
          simp only [if_neg c1, if_neg c2, if_pos m, if_pos a3, if_neg n1, min_eq_left a3.le, max_eq_right a1, max_eq_left a4]
          exact ⟨_, _, _, rfl, rfl, rfl, by ring⟩
        · have m : ¬ ((Tmin ≤ T1 ∧ T1 ≤ Tmax) ∨ (Tmin ≤ T2 ∧ T2 ≤ Tmax) ∨ (T1 ≤ Tmin ∧ T2 ≥ Tmax)) := by
            rintro (hh | hh | hh) <;> linarith [hh.1, hh.2]
          have n1 : T1 > Tmax := a4
          simp only [if_neg c1, if_neg c2, if_neg m, if_pos a3, if_pos n1, max_eq_right a4.le]
          exact ⟨_, _, _, rfl, rfl, rfl, by ring⟩
  simp only [fit_integral_over_T_linear_extrapolation, decide_eq_true_eq]
  by_cases hf : T1 > T2
  · obtain ⟨lo, mi, hi, e1, e2, e3, e4⟩ := ordered T2 T1 p2 p1 (le_of_lt hf)
    simp only [if_pos hf, e1, e2, e3, Py.ok_bind, Py.pure_eq, e4]
    congr 1; ring
  · obtain ⟨lo, mi, hi, e1, e2, e3, e4⟩ := ordered T1 T2 p1 p2 (not_lt.mp hf)
    simp only [if_neg hf, e1, e2, e3, Py.ok_bind, Py.pure_eq, e4]

end
end Verif.Fits
