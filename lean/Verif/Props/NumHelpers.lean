import Verif.Model.NumHelpers
import Verif.Props.PolyEval
import Verif.Props.Sequences
import Verif.Props.Bracketing
import Mathlib.Analysis.SpecialFunctions.ExpDeriv
import Mathlib.Topology.Algebra.Polynomial
import Mathlib.Topology.Order.Compact
import Mathlib.Algebra.Order.Chebyshev
import Mathlib.Algebra.Order.Field.Basic

/-! # C132: outliers, signs of polynomials and the Lambert function -/

namespace Verif.NumHelpers
open Verif Verif.PolyEval Set

/-! ### signs of polynomials -/

/-- Specification: the value of the polynomial with the given coefficients, the highest first -/
noncomputable def value (c : List ℝ) (x : ℝ) : ℝ := ∑ i : Fin c.length, c[i] * x ^ (c.length - 1 - i)

theorem horner_value (c : List ℝ) (x : ℝ) : horner c x = value c x := C09_horner_value c x

theorem value_continuous (c : List ℝ) : Continuous (value c) := by
  unfold value
  fun_prop

theorem value_neg (c : List ℝ) (x : ℝ) : value (c.map fun i => -i) x = -value c x := by
  rw [← horner_value, ← horner_value]
  unfold horner
  have : ∀ (l : List ℝ) (a : ℝ), (l.map fun i => -i).foldl (fun tot c => tot * x + c) (-a) = -l.foldl (fun tot c => tot * x + c) a := by
    intro l
    induction l with
    | nil => simp
    | cons b t ih => intro a; rw [List.map_cons, List.foldl_cons, List.foldl_cons, ← ih]; congr 1; ring
  simpa using this c 0

/-- a continuous function that is nonnegative at both ends, and next to each of its zeros, is nonnegative when the zeros are far enough apart -/
theorem nonneg_of_checks {f : ℝ → ℝ} (hf : Continuous f) {a b e : ℝ} (h0 : 0 < e) (ha : 0 ≤ f a) (hb : 0 ≤ f b)
    (hsep : ∀ s ∈ Icc a b, ∀ u ∈ Icc a b, f s = 0 → f u = 0 → s < u → e * |s| < u - s ∧ e * |u| < u - s)
    (hchk : ∀ s ∈ Icc a b, f s = 0 → s ≠ 0 → 0 ≤ f (s * (1 + e)) ∧ 0 ≤ f (s * (1 - e))) : ∀ t ∈ Icc a b, 0 ≤ f t := by
  intro t ht
  by_contra hneg
  push Not at hneg
  -- the last zero before `t` and the first after it
  obtain ⟨s, ⟨⟨hs1, hs2⟩, hs0⟩, hsmax⟩ : ∃ s, IsGreatest (Icc a t ∩ f ⁻¹' {0}) s := by
    refine (isCompact_Icc.inter_right (isClosed_singleton.preimage hf)).exists_isGreatest ?_
    obtain ⟨x, hx, hx0⟩ := intermediate_value_Icc' ht.1 hf.continuousOn (show (0 : ℝ) ∈ Icc (f t) (f a) from ⟨hneg.le, ha⟩)
    exact ⟨x, hx, hx0⟩
  obtain ⟨u, ⟨⟨hu1, hu2⟩, hu0⟩, humin⟩ : ∃ u, IsLeast (Icc t b ∩ f ⁻¹' {0}) u := by
    refine (isCompact_Icc.inter_right (isClosed_singleton.preimage hf)).exists_isLeast ?_
    obtain ⟨x, hx, hx0⟩ := intermediate_value_Icc ht.2 hf.continuousOn (show (0 : ℝ) ∈ Icc (f t) (f b) from ⟨hneg.le, hb⟩)
    exact ⟨x, hx, hx0⟩
  have hs0' : f s = 0 := hs0
  have hu0' : f u = 0 := hu0
  have hst : s < t := lt_of_le_of_ne hs2 (by rintro rfl; linarith)
  have htu : t < u := lt_of_le_of_ne hu1 (by rintro rfl; linarith)
  have hbetween : ∀ p, s < p → p < u → f p < 0 := by
    intro p hp1 hp2
    by_contra hp
    push Not at hp
    rcases le_total p t with hpt | hpt
    · obtain ⟨x, hx, hx0⟩ := intermediate_value_Icc' hpt hf.continuousOn (show (0 : ℝ) ∈ Icc (f t) (f p) from ⟨hneg.le, hp⟩)
      have := hsmax ⟨⟨hs1.trans (hp1.le.trans hx.1), hx.2⟩, hx0⟩
      linarith [hx.1]
    · obtain ⟨x, hx, hx0⟩ := intermediate_value_Icc hpt hf.continuousOn (show (0 : ℝ) ∈ Icc (f t) (f p) from ⟨hneg.le, hp⟩)
      have := humin ⟨⟨hx.1, hx.2.trans (hp2.le.trans hu2)⟩, hx0⟩
      linarith [hx.2]
  have hsI : s ∈ Icc a b := ⟨hs1, by linarith⟩
  have huI : u ∈ Icc a b := ⟨by linarith, hu2⟩
  obtain ⟨h1, h2⟩ := hsep s hsI u huI hs0' hu0' (by linarith)
  by_cases hz : s = 0
  · have hupos : 0 < u := by linarith
    have := (hchk u huI hu0' hupos.ne').2
    rw [abs_of_pos hupos] at h2
    have := hbetween (u * (1 - e)) (by linarith) (by nlinarith)
    linarith
  · rcases lt_or_gt_of_ne hz with hn | hp
    · have := (hchk s hsI hs0' hz).2
      rw [abs_of_neg hn] at h1
      have := hbetween (s * (1 - e)) (by nlinarith) (by linarith)
      linarith
    · have := (hchk s hsI hs0' hz).1
      rw [abs_of_pos hp] at h1
      have := hbetween (s * (1 + e)) (by nlinarith) (by linarith)
      linarith

/-- Specification: zeros on an interval further apart than a relative distance -/
def Separated (f : ℝ → ℝ) (D : Set ℝ) (e : ℝ) : Prop := ∀ s ∈ D, ∀ u ∈ D, f s = 0 → f u = 0 → s < u → e * |s| < u - s ∧ e * |u| < u - s

theorem linspace_ends (a b : ℝ) (n : ℤ) (h : 2 ≤ n) : a ∈ Seq.linspace a b n true ∧ b ∈ Seq.linspace a b n true := by
  unfold Seq.linspace
  rw [if_neg (by omega), if_pos rfl, if_neg (by omega)]
  refine ⟨?_, by simp⟩
  have : ∀ (s : ℝ) (k : ℕ) (l : List ℝ), a ∈ l → a ∈ Seq.appendSteps s k l := by
    intro s k
    induction k with
    | zero => intro l hl; exact hl
    | succ k ih => intro l hl; exact ih _ (by simp [hl])
  exact List.mem_append_left _ (this _ _ _ (by simp))

theorem linspace_mem (a b : ℝ) (hab : a ≤ b) (n : ℤ) (h : 2 ≤ n) : ∀ p ∈ Seq.linspace a b n true, p ∈ Icc a b := by
  obtain ⟨m, rfl⟩ := Int.eq_ofNat_of_zero_le (show 0 ≤ n by omega)
  obtain ⟨hl, hv, -⟩ := C20_linspace a b m (by omega)
  intro p hp
  obtain ⟨i, hi, rfl⟩ := List.mem_iff_getElem.1 hp
  have hm : (1 : ℝ) ≤ (m : ℝ) - 1 := by
    have : (2 : ℝ) ≤ m := by exact_mod_cast h
    linarith
  have hi' : i < m := by rw [← hl]; exact hi
  have him : (i : ℝ) ≤ (m : ℝ) - 1 := by
    have : (i : ℝ) + 1 ≤ m := by exact_mod_cast hi'
    linarith
  have e := hv i hi'
  rw [List.getD_eq_getElem?_getD, List.getElem?_eq_getElem hi, Option.getD_some] at e
  have hd : 0 ≤ (b - a) / ((m : ℝ) - 1) := div_nonneg (by linarith) (by linarith)
  have hd2 : ((m : ℝ) - 1) * ((b - a) / ((m : ℝ) - 1)) = b - a := by field_simp
  rw [e]
  have h3 := mul_nonneg (Nat.cast_nonneg (α := ℝ) i) hd
  have h4 := mul_le_mul_of_nonneg_right him hd
  exact ⟨by linarith, by linarith⟩

theorem positive_ok (roots : List ℂ) (poly : List ℝ) (dom : Option (ℝ × ℝ)) (n : ℤ) (jt e : ℝ) (pts : List ℝ) (hp : samplePoints dom n = .ok pts) :
    (is_poly_positive roots poly dom n jt e = .ok true ∧ (∀ p ∈ pts, 0 ≤ value poly p) ∧
      ∀ root ∈ roots, examined dom jt root → 0 ≤ value poly (root.re * (1 + e)) ∧ 0 ≤ value poly (root.re * (1 - e))) ∨
    (is_poly_positive roots poly dom n jt e = .ok false ∧ ((∃ p ∈ pts, value poly p < 0) ∨
      ∃ root ∈ roots, examined dom jt root ∧ (value poly (root.re * (1 + e)) < 0 ∨ value poly (root.re * (1 - e)) < 0))) := by
  unfold is_poly_positive
  rw [hp, Py.ok_bind]
  simp only [horner_value]
  by_cases h : ∃ p ∈ pts, value poly p < 0
  · rw [if_pos h]; exact Or.inr ⟨rfl, Or.inl h⟩
  · rw [if_neg h]
    push Not at h
    by_cases h2 : ∀ root ∈ roots, examined dom jt root → ¬ value poly (root.re * (1 + e)) < 0 ∧ ¬ value poly (root.re * (1 - e)) < 0
    · refine Or.inl ⟨by simpa [horner_value] using h2, h, fun r hr hx => ?_⟩
      have := h2 r hr hx
      simpa using this
    · refine Or.inr ⟨congrArg Except.ok (decide_eq_false_iff_not.2 (by simpa only [horner_value] using h2)), Or.inr ?_⟩
      push Not at h2
      obtain ⟨r, hr, hx, hh⟩ := h2
      refine ⟨r, hr, hx, ?_⟩
      by_cases h3 : value poly (r.re * (1 + e)) < 0
      · exact Or.inl h3
      · exact Or.inr (hh (not_lt.1 h3))

/-- C132: if `is_poly_positive` answers yes on an interval then the polynomial is nonnegative there, provided the roots given contain the real ones of the interval and these are further apart than the perturbation; if it answers no the polynomial is negative somewhere in the interval or within the perturbation of one of its points. -/
theorem C132_is_poly_positive (roots : List ℂ) (poly : List ℝ) (a b : ℝ) (hab : a ≤ b) (n : ℤ) (hn : 2 ≤ n) (jt e : ℝ) (hj : 0 < jt) (he : 0 < e) :
    (is_poly_positive roots poly (some (a, b)) n jt e = .ok true ∨ is_poly_positive roots poly (some (a, b)) n jt e = .ok false) ∧
    (is_poly_positive roots poly (some (a, b)) n jt e = .ok true → (∀ t ∈ Icc a b, value poly t = 0 → (t : ℂ) ∈ roots) → Separated (value poly) (Icc a b) e →
      ∀ t ∈ Icc a b, 0 ≤ value poly t) ∧
    (is_poly_positive roots poly (some (a, b)) n jt e = .ok false → ∃ r ∈ Icc a b, ∃ t, |t - r| ≤ e * |r| ∧ value poly t < 0) := by
  rcases positive_ok roots poly (some (a, b)) n jt e _ rfl with ⟨h, h1, h2⟩ | ⟨h, h1⟩ <;> rw [h]
  · refine ⟨Or.inl rfl, fun _ hr hs => ?_, fun h => by cases h⟩
    obtain ⟨ha, hb⟩ := linspace_ends a b n hn
    refine nonneg_of_checks (value_continuous poly) he (h1 a ha) (h1 b hb) hs fun s hs h0 hz => ?_
    have := h2 (s : ℂ) (hr s hs h0) ⟨⟨by simpa using hz, by simpa using hj⟩, by simpa using hs⟩
    simpa using this
  · refine ⟨Or.inr rfl, (fun h => by cases h), fun _ => ?_⟩
    rcases h1 with ⟨p, hp, hv⟩ | ⟨r, hr, hx, hv⟩
    · exact ⟨p, linspace_mem a b hab n hn p hp, p, by simpa using mul_nonneg he.le (abs_nonneg p), hv⟩
    · have hd : r.re ∈ Icc a b := by simpa [examined] using hx.2
      have key : ∀ s : ℝ, |s| = 1 → |r.re * (1 + s * e) - r.re| ≤ e * |r.re| := by
        intro s hs
        rw [show r.re * (1 + s * e) - r.re = s * (e * r.re) by ring, abs_mul, hs, abs_mul, abs_of_pos he, one_mul]
      rcases hv with hv | hv
      · exact ⟨_, hd, _, by simpa using key 1 (by simp), hv⟩
      · exact ⟨_, hd, _, by simpa [sub_eq_add_neg] using key (-1) (by simp), hv⟩

/-- C132: the same without an interval: a yes means the polynomial is nonnegative everywhere, provided the roots given contain all real ones, these are smaller than 1e100 and further apart than the perturbation; a no means that it is negative somewhere. -/
theorem C132_is_poly_positive_everywhere (roots : List ℂ) (poly : List ℝ) (n : ℤ) (hn : 4 ≤ n) (jt e : ℝ) (hj : 0 < jt) (he : 0 < e) :
    (is_poly_positive roots poly none n jt e = .ok true ∨ is_poly_positive roots poly none n jt e = .ok false) ∧
    (is_poly_positive roots poly none n jt e = .ok true → (∀ t, value poly t = 0 → (t : ℂ) ∈ roots ∧ |t| < 10 ^ 100) → Separated (value poly) univ e →
      ∀ t, 0 ≤ value poly t) ∧
    (is_poly_positive roots poly none n jt e = .ok false → ∃ t, value poly t < 0) := by
  obtain ⟨m, hm⟩ := Int.eq_ofNat_of_zero_le (show 0 ≤ n / 2 by omega)
  obtain ⟨pts, hpts, hend⟩ : ∃ pts, samplePoints none n = .ok pts ∧ (10 ^ 100 : ℝ) ∈ pts ∧ -(10 ^ 100 : ℝ) ∈ pts := by
    unfold samplePoints
    simp only [hm]
    have hm2 : 2 ≤ m := by omega
    obtain ⟨l, hl, hlen, hv⟩ := C20_logspace (-100) 100 10 (by norm_num) m hm2
    rw [hl, Py.ok_bind]
    have hlast := hv (m - 1) (by omega)
    have hmr : (2 : ℝ) ≤ m := by exact_mod_cast hm2
    have hmem : (10 ^ 100 : ℝ) ∈ l := by
      rw [Nat.cast_sub (by omega), Nat.cast_one, mul_div_cancel₀ _ (by linarith), show (-100 : ℝ) + (100 - -100) = (100 : ℕ) by norm_num, Real.rpow_natCast] at hlast
      rw [← hlast, List.getD_eq_getElem?_getD, List.getElem?_eq_getElem (by omega), Option.getD_some]
      exact List.getElem_mem _
    exact ⟨_, rfl, List.mem_append_left _ hmem, List.mem_append_right _ (List.mem_map.2 ⟨_, hmem, rfl⟩)⟩
  rcases positive_ok roots poly none n jt e pts hpts with ⟨h, h1, h2⟩ | ⟨h, h1⟩ <;> rw [h]
  · refine ⟨Or.inl rfl, fun _ hr hs => ?_, fun h => by cases h⟩
    have hc := value_continuous poly
    have hB := h1 _ hend.1
    have hA := h1 _ hend.2
    have hmid : ∀ t ∈ Icc (-(10 ^ 100 : ℝ)) (10 ^ 100), 0 ≤ value poly t :=
      nonneg_of_checks hc he hA hB (fun s _ u _ => hs s trivial u trivial) fun s hs h0 hz => by
        have := h2 (s : ℂ) (hr s h0).1 ⟨⟨by simpa using hz, by simpa using hj⟩, by simp⟩
        simpa using this
    intro t
    by_contra hneg
    push Not at hneg
    have hout : 10 ^ 100 < |t| := by
      by_contra h
      exact absurd (hmid t (abs_le.1 (not_lt.1 h))) (not_le.2 hneg)
    rcases lt_abs.1 hout with ht | ht
    · obtain ⟨x, hx, hx0⟩ := intermediate_value_Icc' ht.le hc.continuousOn (show (0 : ℝ) ∈ Icc (value poly t) _ from ⟨hneg.le, hB⟩)
      have := (abs_lt.1 (hr x hx0).2).2
      linarith [hx.1]
    · obtain ⟨x, hx, hx0⟩ := intermediate_value_Icc (show t ≤ -(10 ^ 100) by linarith) hc.continuousOn (show (0 : ℝ) ∈ Icc (value poly t) _ from ⟨hneg.le, hA⟩)
      have := (abs_lt.1 (hr x hx0).2).1
      linarith [hx.2]
  · refine ⟨Or.inr rfl, (fun h => by cases h), fun _ => ?_⟩
    rcases h1 with ⟨p, -, hv⟩ | ⟨r, -, -, hv | hv⟩ <;> exact ⟨_, hv⟩

/-- C132: `is_poly_negative` is the same question about the polynomial of opposite sign. -/
theorem C132_is_poly_negative (roots : List ℂ) (poly : List ℝ) (a b : ℝ) (hab : a ≤ b) (n : ℤ) (hn : 2 ≤ n) (jt e : ℝ) (hj : 0 < jt) (he : 0 < e)
    (hy : is_poly_negative roots poly (some (a, b)) n jt e = .ok true) (hr : ∀ t ∈ Icc a b, value poly t = 0 → (t : ℂ) ∈ roots) (hs : Separated (value poly) (Icc a b) e) :
    ∀ t ∈ Icc a b, value poly t ≤ 0 := by
  have := (C132_is_poly_positive roots _ a b hab n hn jt e hj he).2.1 hy (fun t ht h0 => hr t ht (by rw [value_neg] at h0; linarith))
    (fun s hs1 u hu h0 h1 => hs s hs1 u hu (by rw [value_neg] at h0; linarith) (by rw [value_neg] at h1; linarith))
  intro t ht
  have := this t ht
  rw [value_neg] at this
  linarith

/-- C132, finding: `1 - x` is nonnegative on the interval from 0 to 1, yet the answer with the default settings is no, because the point next to its root lies outside. -/
theorem C132_is_poly_positive_end : is_poly_positive [1] [-1, 1] (some (0, 1)) = .ok false ∧ ∀ t ∈ Icc (0 : ℝ) 1, 0 ≤ value [-1, 1] t := by
  have hv : ∀ t, value [-1, 1] t = 1 - t := by intro t; rw [← horner_value]; simp [horner]; ring
  refine ⟨?_, fun t ht => by rw [hv]; linarith [ht.2]⟩
  rcases positive_ok [1] [-1, 1] (some (0, 1)) 10 1e-12 1e-12 _ rfl with ⟨h, h1, h2⟩ | ⟨h, h1⟩
  · have := (h2 1 (by simp) (by norm_num [examined])).1
    rw [hv] at this
    norm_num at this
  · exact h

/-- the hypotheses are met by `x^2 - 3x + 2` on the interval from 0 to 3 -/
example : Separated (value [1, -3, 2]) (Icc 0 3) 1e-12 := by
  have hv : ∀ t, value [1, -3, 2] t = (t - 1) * (t - 2) := by intro t; rw [← horner_value]; simp [horner]; ring
  have hz : ∀ t, value [1, -3, 2] t = 0 → t = 1 ∨ t = 2 := by
    intro t h
    rw [hv] at h
    rcases mul_eq_zero.1 h with h | h
    · left; linarith
    · right; linarith
  intro s _ u _ h1 h2 h
  rcases hz s h1 with rfl | rfl <;> rcases hz u h2 with rfl | rfl <;> first | (norm_num at h; done) | norm_num

/-! ### outliers -/

/-- Specification: the mean of a list -/
noncomputable def avg (l : List ℝ) : ℝ := l.sum / l.length

/-- Specification: the standard deviation of a list about its mean -/
noncomputable def dev (l : List ℝ) : ℝ := Real.sqrt ((l.map fun x => (x - avg l) ^ 2).sum / l.length)

theorem foldl_add_map (g : ℝ → ℝ) (l : List ℝ) : ∀ a, l.foldl (fun tot d => tot + g d) a = a + (l.map g).sum := by
  induction l with
  | nil => simp
  | cons b t ih => intro a; rw [List.foldl_cons, ih, List.map_cons, List.sum_cons]; ring

theorem std_ok (l : List ℝ) (h : l ≠ []) : Seq.std l = .ok (dev l) := by
  have hn : (l.length : ℝ) ≠ 0 := by simpa using h
  have h0 : 0 ≤ (l.map fun x => (x - avg l) ^ 2).sum := List.sum_nonneg (by intro x hx; obtain ⟨y, -, rfl⟩ := List.mem_map.1 hx; positivity)
  unfold Seq.std
  simp only [foldl_add_map (fun d => d), List.map_id', zero_add, pdiv_ok hn, Py.ok_bind]
  rw [show (l.foldl (fun tot d => tot + (d - l.sum / l.length) * (d - l.sum / l.length)) 0) = (l.map fun x => (x - avg l) ^ 2).sum by
    rw [foldl_add_map (fun d => (d - l.sum / l.length) * (d - l.sum / l.length)), zero_add]; unfold avg; simp only [pow_two]]
  exact psqrt_ok (by positivity)

theorem outlier_ok (l : List ℝ) (h : l ≠ []) (c : ℝ) : ∃ r, detect_outlier_normal l c = .ok r ∧ r.Pairwise (· < ·) ∧
    ∀ i, i ∈ r ↔ i < l.length ∧ c * dev l < |l.getD i 0 - avg l| := by
  have hn : (l.length : ℝ) ≠ 0 := by simpa using h
  unfold detect_outlier_normal
  rw [std_ok l h, Py.ok_bind]
  unfold Seq.mean
  rw [pdiv_ok hn, Py.ok_bind]
  refine ⟨_, rfl, List.Pairwise.filter _ List.pairwise_lt_range, fun i => ?_⟩
  rw [List.mem_filter, List.mem_range, lt_abs]
  refine and_congr_right fun _ => ?_
  simp only [decide_eq_true_eq]
  show (_ < avg l - _ ∨ _ > avg l + _) ↔ _
  constructor
  · rintro (h | h)
    · right; linarith
    · left; linarith
  · rintro (h | h)
    · right; linarith
    · left; linarith

/-- C132: the outliers are the positions, in order, of the values further than `cutoff` standard deviations from the mean. There are never more than `n / cutoff ^ 2` of them, and the data without values raise an error.
(Finding: among ten values or fewer the default cutoff never finds one, whatever the values.) -/
theorem C132_outliers (l : List ℝ) :
    (l = [] → ∀ c, detect_outlier_normal l c = .error .zeroDivisionError) ∧
    (l ≠ [] → ∀ c, ∃ r, detect_outlier_normal l c = .ok r ∧ r.Pairwise (· < ·) ∧ (∀ i, i ∈ r ↔ i < l.length ∧ c * dev l < |l.getD i 0 - avg l|) ∧
      (0 ≤ c → (r.length : ℝ) * c ^ 2 ≤ l.length)) ∧
    (l ≠ [] → l.length ≤ 10 → detect_outlier_normal l = .ok []) := by
  have hsum : (l.map fun x => (x - avg l) ^ 2).sum = ∑ i ∈ Finset.range l.length, (l.getD i 0 - avg l) ^ 2 := by
    rw [← Fin.sum_univ_eq_sum_range (fun i => (l.getD i 0 - avg l) ^ 2), ← List.sum_ofFn]
    congr 1
    apply List.ext_getElem <;> simp
  refine ⟨?_, ?_, ?_⟩
  · rintro rfl c
    simp [detect_outlier_normal, Seq.std, pdiv]
  · intro h c
    obtain ⟨r, hr, hp, hi⟩ := outlier_ok l h c
    refine ⟨r, hr, hp, hi, fun hc => ?_⟩
    have hn : 0 < (l.length : ℝ) := by
      have := List.length_pos_of_ne_nil h
      exact_mod_cast this
    have hv : dev l ^ 2 * l.length = ∑ i ∈ Finset.range l.length, (l.getD i 0 - avg l) ^ 2 := by
      unfold dev
      rw [Real.sq_sqrt, div_mul_cancel₀ _ hn.ne', hsum]
      exact div_nonneg (by rw [hsum]; exact Finset.sum_nonneg fun i _ => sq_nonneg _) hn.le
    have hsub : r.toFinset ⊆ Finset.range l.length := fun i h => Finset.mem_range.2 ((hi i).1 (List.mem_toFinset.1 h)).1
    have hcard : r.toFinset.card = r.length := List.toFinset_card_of_nodup (hp.imp fun h => h.ne)
    have hd0 : 0 ≤ dev l := Real.sqrt_nonneg _
    have h1 : ∑ i ∈ r.toFinset, (c * dev l) ^ 2 ≤ ∑ i ∈ r.toFinset, (l.getD i 0 - avg l) ^ 2 := by
      refine Finset.sum_le_sum fun i h => ?_
      rw [← sq_abs (l.getD i 0 - avg l)]
      exact pow_le_pow_left₀ (mul_nonneg hc hd0) ((hi i).1 (List.mem_toFinset.1 h)).2.le 2
    have h2 := Finset.sum_le_sum_of_subset_of_nonneg hsub (f := fun i => (l.getD i 0 - avg l) ^ 2) fun i _ _ => sq_nonneg _
    rw [Finset.sum_const, hcard, nsmul_eq_mul] at h1
    rcases hd0.lt_or_eq with hd | hd
    · have h3 : (r.length * c ^ 2) * dev l ^ 2 ≤ l.length * dev l ^ 2 := by
        calc (r.length * c ^ 2) * dev l ^ 2 = r.length * (c * dev l) ^ 2 := by ring
          _ ≤ _ := h1.trans h2
          _ = _ := by rw [← hv]; ring
      exact le_of_mul_le_mul_right h3 (by positivity)
    · -- no deviation: every value is the mean
      have hz : ∀ i ∈ Finset.range l.length, (l.getD i 0 - avg l) ^ 2 = 0 := by
        refine (Finset.sum_eq_zero_iff_of_nonneg fun i _ => sq_nonneg _).1 ?_
        rw [← hv, ← hd]; ring
      have : r = [] := by
        rw [List.eq_nil_iff_forall_not_mem]
        intro i h
        obtain ⟨h4, h5⟩ := (hi i).1 h
        have h6 := pow_eq_zero_iff (two_ne_zero) |>.1 (hz i (Finset.mem_range.2 h4))
        rw [h6, ← hd] at h5
        simp at h5
      rw [this]; simp [hn.le]
  · intro h h10
    obtain ⟨r, hr, hp, hi⟩ := outlier_ok l h 3
    rw [hr]
    congr 1
    rw [List.eq_nil_iff_forall_not_mem]
    intro i hir
    obtain ⟨h4, h5⟩ := (hi i).1 hir
    have hn : 0 < (l.length : ℝ) := by
      have := List.length_pos_of_ne_nil h
      exact_mod_cast this
    have hv : dev l ^ 2 * l.length = ∑ i ∈ Finset.range l.length, (l.getD i 0 - avg l) ^ 2 := by
      unfold dev
      rw [Real.sq_sqrt, div_mul_cancel₀ _ hn.ne', hsum]
      exact div_nonneg (by rw [hsum]; exact Finset.sum_nonneg fun i _ => sq_nonneg _) hn.le
    have hzero : ∑ j ∈ Finset.range l.length, (l.getD j 0 - avg l) = 0 := by
      rw [Finset.sum_sub_distrib, Finset.sum_const, Finset.card_range, nsmul_eq_mul]
      have : ∑ j ∈ Finset.range l.length, l.getD j 0 = l.sum := by
        rw [← Fin.sum_univ_eq_sum_range (fun i => l.getD i 0), ← List.sum_ofFn]
        congr 1
        apply List.ext_getElem <;> simp
      rw [this]; unfold avg; field_simp; ring
    have hmem := Finset.mem_range.2 h4
    rw [← Finset.add_sum_erase _ _ hmem] at hzero hv
    have hcs := sq_sum_le_card_mul_sum_sq (s := (Finset.range l.length).erase i) (f := fun j => l.getD j 0 - avg l)
    rw [Finset.card_erase_of_mem hmem, Finset.card_range] at hcs
    set d := l.getD i 0 - avg l
    set T := ∑ j ∈ (Finset.range l.length).erase i, (l.getD j 0 - avg l) ^ 2
    have hT : (∑ j ∈ (Finset.range l.length).erase i, (l.getD j 0 - avg l)) = -d := by linarith
    rw [hT, Nat.cast_sub (by omega), Nat.cast_one, neg_sq] at hcs
    have hlen : (l.length : ℝ) ≤ 10 := by exact_mod_cast h10
    have h9 : (3 * dev l) ^ 2 < d ^ 2 := by
      rw [← sq_abs d]
      exact pow_lt_pow_left₀ h5 (mul_nonneg (by norm_num) (Real.sqrt_nonneg _)) two_ne_zero
    have hle : (l.length : ℝ) * d ^ 2 ≤ ((l.length : ℝ) - 1) * (dev l ^ 2 * l.length) := by rw [hv]; linarith
    have hle2 : d ^ 2 ≤ ((l.length : ℝ) - 1) * dev l ^ 2 := by
      refine le_of_mul_le_mul_left ?_ hn
      linarith
    nlinarith [sq_nonneg (dev l)]

/-! ### the Lambert function -/

theorem xexp_deriv (x : ℝ) : HasDerivAt (fun x => x * Real.exp x) ((1 + x) * Real.exp x) x :=
  ((hasDerivAt_id x).mul (Real.hasDerivAt_exp x)).congr_deriv (by simp; ring)

theorem xexp_continuous : Continuous fun x : ℝ => x * Real.exp x := by fun_prop

theorem xexp_mono : StrictMonoOn (fun x : ℝ => x * Real.exp x) (Ici (-1)) := by
  refine strictMonoOn_of_deriv_pos (convex_Ici _) xexp_continuous.continuousOn fun x hx => ?_
  rw [interior_Ici, mem_Ioi] at hx
  rw [(xexp_deriv x).deriv]
  exact mul_pos (by linarith) (Real.exp_pos x)

theorem xexp_anti : StrictAntiOn (fun x : ℝ => x * Real.exp x) (Iic (-1)) := by
  refine strictAntiOn_of_deriv_neg (convex_Iic _) xexp_continuous.continuousOn fun x hx => ?_
  rw [interior_Iic, mem_Iio] at hx
  rw [(xexp_deriv x).deriv]
  exact mul_neg_of_neg_of_pos (by linarith) (Real.exp_pos x)

/-- C132: the principal branch. Between `-1/e` and `700 e^700` any value returned is, to the tolerance, the one number at least `-1` with `w e^w = y`; outside an error is raised. -/
theorem C132_lambertw (y : ℝ) :
    ((y < -Real.exp (-1) ∨ 700 * Real.exp 700 < y) → py_lambertw y = .error .notBoundedError) ∧
    (-Real.exp (-1) ≤ y → y ≤ 700 * Real.exp 700 → (∃! w, -1 ≤ w ∧ w * Real.exp w = y) ∧ ∀ e, py_lambertw y = .error e → e = .unconvergedError) ∧
    (∀ r, py_lambertw y = .ok r → ∃ w, -1 ≤ w ∧ w * Real.exp w = y ∧ |r - w| < 1e-12 + 4.5e-16 * |r|) := by
  have h1 : -1 * Real.exp (-1) = -Real.exp (-1) := by ring
  have hb : -1 * Real.exp (-1) < 700 * Real.exp 700 := xexp_mono (by simp) (by norm_num) (by norm_num)
  have hspec := C26_brenth (fun x => .ok (lambertw_err x y)) (-1) 700 1e-12 4.440892098500626e-16 100 false none none _ _ (by norm_num) (by norm_num) rfl rfl (by simp) (by simp)
  unfold py_lambertw
  rw [if_pos rfl]
  refine ⟨fun h => hspec.1 ?_, fun hl hu => ⟨?_, fun e he => ?_⟩, fun r hr => ?_⟩
  · unfold lambertw_err
    rcases h with h | h
    · exact mul_pos (by linarith) (by linarith)
    · exact mul_pos_of_neg_of_neg (by linarith) (by linarith)
  · obtain ⟨w, hw, hwy⟩ := intermediate_value_Icc (show (-1 : ℝ) ≤ 700 by norm_num) xexp_continuous.continuousOn (show y ∈ Icc _ _ from ⟨by simpa using hl, hu⟩)
    exact ⟨w, ⟨hw.1, hwy⟩, fun v hv => xexp_mono.injOn hv.1 hw.1 (hv.2.trans hwy.symm)⟩
  · rcases (hspec.2 (by unfold lambertw_err; exact mul_nonpos_of_nonpos_of_nonneg (by linarith) (by linarith))).2 e he with h | ⟨x, -, h⟩
    · exact h
    · cases h
  · obtain ⟨-, z, hz, hz0, hd⟩ := C26_brenth_root (fun x => lambertw_err x y) (by unfold lambertw_err; fun_prop) (-1) 700 1e-12 4.440892098500626e-16 100 false (by norm_num) (by norm_num) r hr
    rw [uIcc_of_le (by norm_num)] at hz
    unfold lambertw_err at hz0
    exact ⟨z, hz.1, by linarith, hd.trans_le (by nlinarith [abs_nonneg r])⟩

/-- C132: the lower branch, between `-1/e` and `-700 e^-700`. Other branches raise `ValueError`. -/
theorem C132_lambertw_lower (y : ℝ) :
    ((y < -Real.exp (-1) ∨ -(700 * Real.exp (-700)) < y) → py_lambertw y (-1) = .error .notBoundedError) ∧
    (-Real.exp (-1) ≤ y → y ≤ -(700 * Real.exp (-700)) → (∃! w, w ≤ -1 ∧ w * Real.exp w = y) ∧ ∀ e, py_lambertw y (-1) = .error e → e = .unconvergedError) ∧
    (∀ r, py_lambertw y (-1) = .ok r → ∃ w, w ≤ -1 ∧ w * Real.exp w = y ∧ |r - w| < 1e-12 + 4.5e-16 * |r|) ∧
    (∀ k : ℤ, k ≠ 0 → k ≠ -1 → py_lambertw y k = .error .valueError) := by
  have hb : -1 * Real.exp (-1) < -700 * Real.exp (-700) := xexp_anti (by norm_num) (by simp) (by norm_num)
  have hspec := C26_brenth (fun x => .ok (lambertw_err x y)) (-700) (-1) 1e-12 4.440892098500626e-16 100 false none none _ _ (by norm_num) (by norm_num) rfl rfl (by simp) (by simp)
  refine ⟨fun h => ?_, fun hl hu => ⟨?_, fun e he => ?_⟩, fun r hr => ?_, fun k h0 h1 => ?_⟩
  · unfold py_lambertw
    rw [if_neg (by norm_num), if_pos rfl]
    refine hspec.1 ?_
    unfold lambertw_err
    rcases h with h | h
    · exact mul_pos (by linarith) (by linarith)
    · exact mul_pos_of_neg_of_neg (by linarith) (by linarith)
  · obtain ⟨w, hw, hwy⟩ := intermediate_value_Icc' (show (-700 : ℝ) ≤ -1 by norm_num) xexp_continuous.continuousOn (show y ∈ Icc _ _ from ⟨by simpa using hl, by simpa using hu⟩)
    exact ⟨w, ⟨hw.2, hwy⟩, fun v hv => xexp_anti.injOn hv.1 hw.2 (hv.2.trans hwy.symm)⟩
  · unfold py_lambertw at he
    rw [if_neg (by norm_num), if_pos rfl] at he
    rcases (hspec.2 (by unfold lambertw_err; exact mul_nonpos_of_nonneg_of_nonpos (by linarith) (by linarith))).2 e he with h | ⟨x, -, h⟩
    · exact h
    · cases h
  · unfold py_lambertw at hr
    rw [if_neg (by norm_num), if_pos rfl] at hr
    obtain ⟨-, z, hz, hz0, hd⟩ := C26_brenth_root (fun x => lambertw_err x y) (by unfold lambertw_err; fun_prop) (-700) (-1) 1e-12 4.440892098500626e-16 100 false (by norm_num) (by norm_num) r hr
    rw [uIcc_of_le (by norm_num)] at hz
    unfold lambertw_err at hz0
    exact ⟨z, hz.2, by linarith, hd.trans_le (by nlinarith [abs_nonneg r])⟩
  · unfold py_lambertw
    rw [if_neg h0, if_neg h1]

/-- `y = -1/e` is in both ranges, and the answer there is `-1` exactly -/
example : py_lambertw (-Real.exp (-1)) = .ok (-1) := by
  unfold py_lambertw Solve.brenth lambertw_err
  simp [Solve.given]

end Verif.NumHelpers
