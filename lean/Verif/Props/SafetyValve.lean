import Mathlib.Analysis.Calculus.Deriv.Slope
import Mathlib.Analysis.Complex.ExponentialBounds
import Mathlib.Analysis.Convex.SpecificFunctions.Basic
import Mathlib.Analysis.SpecialFunctions.Log.Deriv
import Mathlib.Analysis.SpecialFunctions.Pow.Deriv
import Verif.Model.SafetyValve
import Verif.Lemmas.InterpTable
import Verif.Lemmas.Tactic
import Verif.Props.Compressible

/-! # C53: API 520 correction factors; C54: API 520 relief areas -/

namespace Verif.Safety
open Real
open Verif.Seq (interp)
open Verif.Compressible

/-! ### C53: the coefficient C -/

/-- the printed expression for C, away from k = 1 -/
noncomputable def Cform (k : ℝ) : ℝ := 0.03948 * √(k * (2 / (k + 1)) ^ ((k + 1) / (k - 1)))

theorem API520_C_eq {k : ℝ} (hk : 0 < k) (h1 : k ≠ 1) : API520_C k = .ok (Cform k) := by
  have h2 : 0 < 2 / (k + 1) := by positivity
  have h3 : 0 ≤ k * (2 / (k + 1)) ^ ((k + 1) / (k - 1)) := by positivity
  simp only [API520_C, h1, ne_eq, not_false_eq_true, if_true, pdiv_ok (by positivity : k + 1 ≠ 0), pdiv_ok (sub_ne_zero.mpr h1), ppow_ok h2,
    psqrt_ok h3, Py.ok_bind, Py.pure_eq, Cform]

theorem exponent_limit : Filter.Tendsto (fun k : ℝ => (2 / (k + 1)) ^ ((k + 1) / (k - 1))) (nhdsWithin 1 {1}ᶜ) (nhds (exp (-1))) := by
  have hd : HasDerivAt (fun k : ℝ => log 2 - log (k + 1)) (-(1 / 2)) 1 := by
    have h1 : HasDerivAt (fun k : ℝ => k + 1) 1 1 := (hasDerivAt_id (1 : ℝ)).add_const 1
    have h2 := (h1.log (by norm_num : (1 : ℝ) + 1 ≠ 0)).const_sub (log 2)
    refine h2.congr_deriv ?_
    norm_num
  have hs := hasDerivAt_iff_tendsto_slope.mp hd
  have hk : Filter.Tendsto (fun k : ℝ => k + 1) (nhdsWithin 1 {1}ᶜ) (nhds 2) := by
    have : Filter.Tendsto (fun k : ℝ => k + 1) (nhds 1) (nhds (1 + 1)) := (continuous_id.add continuous_const).tendsto 1
    rw [show (1 : ℝ) + 1 = 2 by norm_num] at this
    exact this.mono_left nhdsWithin_le_nhds
  have hm := (hk.mul hs).rexp
  rw [show (2 : ℝ) * -(1 / 2) = -1 by norm_num] at hm
  refine hm.congr' ?_
  have hpos : ∀ᶠ k : ℝ in nhdsWithin 1 {1}ᶜ, 0 < k := (eventually_gt_nhds (by norm_num : (0 : ℝ) < 1)).filter_mono nhdsWithin_le_nhds
  filter_upwards [hpos, self_mem_nhdsWithin] with k hk h1
  have h1' : k - 1 ≠ 0 := sub_ne_zero.mpr h1
  rw [rpow_def_of_pos (by positivity : 0 < 2 / (k + 1)), log_div (by norm_num) (by positivity)]
  congr 1
  rw [slope_def_field]
  norm_num
  field_simp

/-- C53: `API520_C` is the printed expression for every `k ≠ 1`; as `k → 1` it tends to `0.03948 √(1/e)`, which the value returned at
`k = 1` equals to 17 decimals. -/
theorem C53_C_continuous :
    (∀ k > 0, k ≠ 1 → ∃ c, API520_C k = .ok c ∧ 0 < c ∧ c ^ 2 = 0.03948 ^ 2 * (k * (2 / (k + 1)) ^ ((k + 1) / (k - 1)))) ∧
    (∃ g : ℝ → ℝ, (∀ k > 0, API520_C k = .ok (g k)) ∧ Filter.Tendsto g (nhdsWithin 1 {1}ᶜ) (nhds (0.03948 * √(1 / exp 1))) ∧
      |g 1 - 0.03948 * √(1 / exp 1)| ≤ 1e-17) := by
  constructor
  · intro k hk h1
    refine ⟨_, API520_C_eq hk h1, ?_, ?_⟩
    · unfold Cform; positivity
    · unfold Cform; rw [mul_pow, sq_sqrt (by positivity)]
  · refine ⟨fun k => if k = 1 then 0.023945830445454768 else Cform k, fun k hk => ?_, ?_, ?_⟩
    · by_cases h1 : k = 1
      · simp [API520_C, h1]
      · simp only [h1, if_false]; exact API520_C_eq hk h1
    · have hk : Filter.Tendsto (fun k : ℝ => k) (nhdsWithin 1 {1}ᶜ) (nhds 1) := Filter.Tendsto.mono_left Filter.tendsto_id nhdsWithin_le_nhds
      have := ((hk.mul exponent_limit).sqrt).const_mul 0.03948
      rw [one_mul, show exp (-1) = 1 / exp 1 by rw [exp_neg, one_div]] at this
      refine this.congr' ?_
      filter_upwards [self_mem_nhdsWithin] with k h1
      have h1 : k ≠ 1 := h1
      simp only [h1, if_false, Cform]
    · simp only [if_true]
      obtain ⟨e1, e2⟩ := abs_sub_le_iff.mp exp_one_near_20
      have he := exp_pos 1
      have hs : 0 ≤ √(1 / exp 1) := sqrt_nonneg _
      have hq : (0.03948 * √(1 / exp 1)) ^ 2 * exp 1 = 0.03948 ^ 2 := by
        rw [mul_pow, sq_sqrt (by positivity)]; field_simp
      have hx : 0 ≤ 0.03948 * √(1 / exp 1) := by positivity
      set x := 0.03948 * √(1 / exp 1)
      rw [abs_le]
      constructor
      · by_contra hh
        have hh : 0.023945830445454778 < x := by norm_num at hh ⊢; linarith
        have : (0.023945830445454778 : ℝ) ^ 2 < x ^ 2 := by gcongr
        nlinarith
      · by_contra hh
        have hh : x < 0.023945830445454758 := by norm_num at hh ⊢; linarith
        have : x ^ 2 < (0.023945830445454758 : ℝ) ^ 2 := by gcongr
        nlinarith

/-! ### C53: Kv -/

/-- C53: `API520_Kv` is in (0, 1], grows with the Reynolds number, and unknown editions are rejected. -/
theorem C53_Kv {Re Re' : ℝ} (h : 0 < Re) (hR : Re ≤ Re') {ed : String} (he : ed = "7E" ∨ ed = "10E") :
    ∃ a b, API520_Kv Re ed = .ok a ∧ API520_Kv Re' ed = .ok b ∧ 0 < a ∧ a ≤ b ∧ b ≤ 1 := by
  have h' : 0 < Re' := h.trans_le hR
  have hs : 0 < √Re := sqrt_pos.mpr h
  have hs' : 0 < √Re' := sqrt_pos.mpr h'
  have hss : √Re ≤ √Re' := sqrt_le_sqrt hR
  rcases he with rfl | rfl
  · have d : ∀ {R : ℝ}, 0 < R → API520_Kv R "7E" = .ok (min 1 (1 / (0.9935 + 2.878 / √R + 342.75 / (R * √R)))) := by
      intro R hR
      have hs : 0 < √R := sqrt_pos.mpr hR
      have hd : 0.9935 + 2.878 / √R + 342.75 / (R * √R) ≠ 0 := by positivity
      simp only [API520_Kv, if_true, psqrt_ok hR.le, pdiv_ok hs.ne', pdiv_ok (mul_pos hR hs).ne', pdiv_ok hd, Py.ok_bind, Py.pure_eq]
      congr 1
      split_ifs with q
      · rw [min_eq_left q.le]
      · rw [min_eq_right (not_lt.mp q)]
    refine ⟨_, _, d h, d h', ?_, ?_, min_le_left _ _⟩
    · exact lt_min one_pos (by positivity)
    · have : 342.75 / (Re' * √Re') ≤ 342.75 / (Re * √Re) := by gcongr
      have : 2.878 / √Re' ≤ 2.878 / √Re := by gcongr
      exact min_le_min le_rfl (by apply one_div_le_one_div_of_le (by positivity); linarith)
  · have d : ∀ {R : ℝ}, 0 < R → API520_Kv R "10E" = .ok (1 / √(170 / R + 1)) := by
      intro R hR
      have hd : √(170 / R + 1) ≠ 0 := by positivity
      simp only [API520_Kv, String.reduceEq, if_true, if_false, pdiv_ok hR.ne', psqrt_ok (by positivity : 0 ≤ 170 / R + 1), pdiv_ok hd, Py.ok_bind]
    refine ⟨_, _, d h, d h', by positivity, ?_, ?_⟩
    · apply one_div_le_one_div_of_le (by positivity)
      apply sqrt_le_sqrt
      gcongr
    · rw [div_le_one (by positivity)]
      rw [show (1 : ℝ) = √1 by simp]
      apply sqrt_le_sqrt
      have : 0 < 170 / Re' := by positivity
      rw [sqrt_one]; linarith

theorem C53_Kv_unknown (Re : ℝ) {ed : String} (h7 : ed ≠ "7E") (h10 : ed ≠ "10E") : API520_Kv Re ed = .error .valueError := by
  simp [API520_Kv, h7, h10]

/-! ### C53: back pressure factors -/

/-- gauge back pressure in percent of the gauge set pressure -/
noncomputable def gauge (Pset Pback : ℝ) : ℝ := (Pback - 101325) / (Pset - 101325) * 100

theorem gauge_mono {Pset b b' : ℝ} (hs : 101325 < Pset) (h : b ≤ b') : gauge Pset b ≤ gauge Pset b' := by
  unfold gauge
  have : 0 < Pset - 101325 := by linarith
  gcongr

theorem Kw_sorted : Kw_x.Pairwise (· < ·) := by rw [← List.isChain_iff_pairwise]; norm_num [Kw_x]
theorem Kw_decr : Kw_y.Pairwise (· ≥ ·) := by rw [← List.isChain_iff_pairwise]; norm_num [Kw_y]
theorem Kw_range : ∀ y ∈ Kw_y, 0.666357 ≤ y ∧ y ≤ 1 := by norm_num [Kw_y]
theorem Kb16_sorted : Kb_16_over_x.Pairwise (· < ·) := by rw [← List.isChain_iff_pairwise]; norm_num [Kb_16_over_x]
theorem Kb16_decr : Kb_16_over_y.Pairwise (· ≥ ·) := by rw [← List.isChain_iff_pairwise]; norm_num [Kb_16_over_y]
theorem Kb16_range : ∀ y ∈ Kb_16_over_y, 0.695076 ≤ y ∧ y ≤ 1 := by norm_num [Kb_16_over_y]
theorem Kb10_sorted : Kb_10_over_x.Pairwise (· < ·) := by rw [← List.isChain_iff_pairwise]; norm_num [Kb_10_over_x]
theorem Kb10_decr : Kb_10_over_y.Pairwise (· ≥ ·) := by rw [← List.isChain_iff_pairwise]; norm_num [Kb_10_over_y]
theorem Kb10_range : ∀ y ∈ Kb_10_over_y, 0.695076 ≤ y ∧ y ≤ 1 := by norm_num [Kb_10_over_y]

theorem W_eq {Pset Pback : ℝ} (hs : 101325 < Pset) :
    API520_W Pset Pback = if gauge Pset Pback < 15 then .ok 1 else interp (gauge Pset Pback) Kw_x Kw_y none none false := by
  have : Pset - 101325 ≠ 0 := by linarith
  simp only [API520_W, atm, pdiv_ok this, Py.ok_bind, gauge]
  rfl

/-- C53: `API520_W` never exceeds 1, never falls below the last tabulated value, does not increase with the back pressure, is 1 up to a
gauge back pressure of 15 % inclusive (no jump there), and is the chord of the table between two tabulated points. -/
theorem C53_W {Pset Pback Pback' : ℝ} (hs : 101325 < Pset) (hb : Pback ≤ Pback') :
    (∃ a b, API520_W Pset Pback = .ok a ∧ API520_W Pset Pback' = .ok b ∧ 0.666357 ≤ b ∧ b ≤ a ∧ a ≤ 1) ∧
    (gauge Pset Pback ≤ 15 → API520_W Pset Pback = .ok 1) := by
  have hl : Kw_x.length = Kw_y.length := rfl
  have hn : 2 ≤ Kw_x.length := by simp [Kw_x]
  have h15 : interp 15 Kw_x Kw_y none none false = .ok 1 := by
    rw [C21_interp_inside 15 Kw_x Kw_y Kw_sorted hl none none false 0 (by simp [Kw_x]) (by norm_num [Kw_x]) (by norm_num [Kw_x])]
    norm_num [Kw_x, Kw_y]
  have hg := gauge_mono hs hb
  obtain ⟨a, ha⟩ := interp_total (gauge Pset Pback) Kw_sorted hl hn none none false
  obtain ⟨b, hb'⟩ := interp_total (gauge Pset Pback') Kw_sorted hl hn none none false
  have ra := interp_bounds _ Kw_sorted hl hn Kw_range ha
  have rb := interp_bounds _ Kw_sorted hl hn Kw_range hb'
  have mono := interp_antitone Kw_sorted Kw_decr hl hn hg ha hb'
  refine ⟨?_, fun h => ?_⟩
  · rw [W_eq hs, W_eq hs]
    by_cases q : gauge Pset Pback < 15
    · rw [if_pos q]
      by_cases q' : gauge Pset Pback' < 15
      · rw [if_pos q']; exact ⟨1, 1, rfl, rfl, by norm_num, le_rfl, le_rfl⟩
      · rw [if_neg q', hb']; exact ⟨1, b, rfl, rfl, rb.1, rb.2, le_rfl⟩
    · rw [if_neg q, if_neg (by linarith), ha, hb']
      exact ⟨a, b, rfl, rfl, rb.1, mono, ra.2⟩
  · rw [W_eq hs]
    rcases h.lt_or_eq with q | q
    · rw [if_pos q]
    · rw [if_neg (by rw [q]; exact lt_irrefl _), q, h15]

example : gauge 2e6 1e6 ≤ 100 := by norm_num [gauge]

theorem B_eq {Pset Pback o : ℝ} (hs : 101325 < Pset) : API520_B Pset Pback o =
    if ¬ (o = 0.1 ∨ o = 0.16 ∨ o = 0.21) then .error .valueError
    else if (o = 0.1 ∧ gauge Pset Pback < 30) ∨ (o = 0.16 ∧ gauge Pset Pback < 38) ∨ (o = 0.21 ∧ gauge Pset Pback ≤ 50) then .ok 1
    else if gauge Pset Pback > 50 then .error .valueError
    else if o = 0.16 then interp (gauge Pset Pback) Kb_16_over_x Kb_16_over_y none none false
    else if o = 0.1 then interp (gauge Pset Pback) Kb_10_over_x Kb_10_over_y none none false
    else .error .unboundLocalError := by
  have : Pset - 101325 ≠ 0 := by linarith
  simp only [API520_B, atm, pdiv_ok this, Py.ok_bind, gauge]
  rfl

theorem B_value {Pset Pback : ℝ} (hs : 101325 < Pset) (h : gauge Pset Pback ≤ 50) :
    API520_B Pset Pback 0.21 = .ok 1 ∧
    API520_B Pset Pback 0.16 = (if gauge Pset Pback < 38 then .ok 1 else interp (gauge Pset Pback) Kb_16_over_x Kb_16_over_y none none false) ∧
    API520_B Pset Pback 0.1 = (if gauge Pset Pback < 30 then .ok 1 else interp (gauge Pset Pback) Kb_10_over_x Kb_10_over_y none none false) := by
  have n1 : ¬ gauge Pset Pback > 50 := not_lt.mpr h
  have c1 : ¬ (0.21 : ℝ) = 0.1 := by norm_num
  have c2 : ¬ (0.21 : ℝ) = 0.16 := by norm_num
  have c3 : ¬ (0.16 : ℝ) = 0.1 := by norm_num
  have c4 : ¬ (0.16 : ℝ) = 0.21 := by norm_num
  have c5 : ¬ (0.1 : ℝ) = 0.16 := by norm_num
  have c6 : ¬ (0.1 : ℝ) = 0.21 := by norm_num
  refine ⟨?_, ?_, ?_⟩
  · rw [B_eq hs]; simp only [h, c1, c2, false_and, true_and, or_true, not_true_eq_false, if_false, if_true]
  · rw [B_eq hs]
    simp only [c3, c4, n1, false_and, true_and, or_true, false_or, or_false, not_true_eq_false, if_false, if_true]
  · rw [B_eq hs]
    simp only [c5, c6, n1, false_and, true_and, or_true, true_or, false_or, or_false, not_true_eq_false, if_false, if_true]

/-- C53: `API520_B` accepts exactly the three overpressures and gauge back pressures up to 50 %; there it never exceeds 1, never falls
below the tables, and does not increase with the back pressure; it is 1 at 21 % overpressure. -/
theorem C53_B {Pset Pback Pback' : ℝ} (hs : 101325 < Pset) (hb : Pback ≤ Pback') (hg50 : gauge Pset Pback' ≤ 50) :
    (∀ o ∈ [(0.1 : ℝ), 0.16, 0.21], ∃ a b, API520_B Pset Pback o = .ok a ∧ API520_B Pset Pback' o = .ok b ∧ 0.695076 ≤ b ∧ b ≤ a ∧ a ≤ 1) ∧
    (∀ o, o ∉ [(0.1 : ℝ), 0.16, 0.21] → API520_B Pset Pback o = .error .valueError) ∧
    (∀ P o, 50 < gauge Pset P → API520_B Pset P o = .error .valueError) := by
  have hg := gauge_mono hs hb
  have h50 := hg.trans hg50
  obtain ⟨v1, v2, v3⟩ := B_value hs h50
  obtain ⟨w1, w2, w3⟩ := B_value hs hg50
  have part : ∀ (xs ys : List ℝ) (t : ℝ), xs.Pairwise (· < ·) → ys.Pairwise (· ≥ ·) → xs.length = ys.length → 2 ≤ xs.length →
      (∀ y ∈ ys, 0.695076 ≤ y ∧ y ≤ 1) →
      ∃ a b, (if gauge Pset Pback < t then (.ok 1 : Py ℝ) else interp (gauge Pset Pback) xs ys none none false) = .ok a ∧
        (if gauge Pset Pback' < t then (.ok 1 : Py ℝ) else interp (gauge Pset Pback') xs ys none none false) = .ok b ∧
        0.695076 ≤ b ∧ b ≤ a ∧ a ≤ 1 := by
    intro xs ys t s d hl hn r
    obtain ⟨a, ha⟩ := interp_total (gauge Pset Pback) s hl hn none none false
    obtain ⟨b, hb'⟩ := interp_total (gauge Pset Pback') s hl hn none none false
    have ra := interp_bounds _ s hl hn r ha
    have rb := interp_bounds _ s hl hn r hb'
    have mono := interp_antitone s d hl hn hg ha hb'
    by_cases q : gauge Pset Pback < t
    · rw [if_pos q]
      by_cases q' : gauge Pset Pback' < t
      · rw [if_pos q']; exact ⟨1, 1, rfl, rfl, by norm_num, le_rfl, le_rfl⟩
      · rw [if_neg q', hb']; exact ⟨1, b, rfl, rfl, rb.1, rb.2, le_rfl⟩
    · rw [if_neg q, if_neg (by linarith), ha, hb']
      exact ⟨a, b, rfl, rfl, rb.1, mono, ra.2⟩
  refine ⟨?_, fun o ho => ?_, fun P o hP => ?_⟩
  · simp only [List.forall_mem_cons, List.not_mem_nil, false_implies, implies_true, and_true]
    refine ⟨?_, ?_, ?_⟩
    · rw [v3, w3]; exact part _ _ _ Kb10_sorted Kb10_decr rfl (by simp [Kb_10_over_x]) Kb10_range
    · rw [v2, w2]; exact part _ _ _ Kb16_sorted Kb16_decr rfl (by simp [Kb_16_over_x]) Kb16_range
    · rw [v1, w1]; exact ⟨1, 1, rfl, rfl, by norm_num, le_rfl, le_rfl⟩
  · have : Pset - 101325 ≠ 0 := by linarith
    simp only [List.mem_cons, List.not_mem_nil, or_false] at ho
    rw [B_eq hs, if_pos ho]
  · rw [B_eq hs]
    by_cases ho : o = 0.1 ∨ o = 0.16 ∨ o = 0.21
    · rw [if_neg (not_not.mpr ho), if_neg (by rintro (⟨-, q⟩ | ⟨-, q⟩ | ⟨-, q⟩) <;> linarith), if_pos hP]
    · rw [if_pos ho]

/-- C53 (finding): `API520_B` does jump where the table takes over: from 1 to 0.998106 at 30 % gauge back pressure (10 % overpressure), and
by more than 0.004 at 38 % (16 % overpressure). -/
theorem C53_B_jump {Pset Pback : ℝ} (hs : 101325 < Pset) :
    (gauge Pset Pback = 30 → API520_B Pset Pback 0.1 = .ok 0.998106) ∧
    (gauge Pset Pback = 38 → ∃ b, API520_B Pset Pback 0.16 = .ok b ∧ b < 0.996) ∧
    (∀ P < Pback, gauge Pset Pback = 30 → API520_B Pset P 0.1 = .ok 1) ∧
    (∀ P < Pback, gauge Pset Pback = 38 → API520_B Pset P 0.16 = .ok 1) := by
  have strict : ∀ P < Pback, gauge Pset P < gauge Pset Pback := by
    intro P hP
    unfold gauge
    have : 0 < Pset - 101325 := by linarith
    gcongr
  refine ⟨fun h => ?_, fun h => ?_, fun P hP h => ?_, fun P hP h => ?_⟩
  · rw [(B_value hs (by linarith)).2.2, if_neg (by linarith), h,
      (C21_interp_outside 30 Kb_10_over_x Kb_10_over_y Kb10_sorted rfl (by simp [Kb_10_over_x]) none none false).1 (by norm_num [Kb_10_over_x])]
    simp [Kb_10_over_y]
  · rw [(B_value hs (by linarith)).2.1, if_neg (by linarith), h,
      C21_interp_inside 38 Kb_16_over_x Kb_16_over_y Kb16_sorted rfl none none false 0 (by simp [Kb_16_over_x]) (by norm_num [Kb_16_over_x])
        (by norm_num [Kb_16_over_x])]
    refine ⟨_, rfl, ?_⟩
    norm_num [Kb_16_over_x, Kb_16_over_y]
  · have := strict P hP
    rw [(B_value hs (by linarith)).2.2, if_pos (by linarith)]
  · have := strict P hP
    rw [(B_value hs (by linarith)).2.1, if_pos (by linarith)]

/-! ### C53: N and F2 -/

/-- C53: `API520_N` is 1 up to 10339 kPa; above, up to the 22057 kPa limit of the standard, it is the printed fraction, which increases with
the pressure and stays within (0.995, 1.2). -/
theorem C53_N {P P' : ℝ} (h : P ≤ P') (h' : P' ≤ 22057e3) :
    (P ≤ 10339e3 → API520_N P = .ok 1) ∧
    (10339e3 < P → ∃ a b, API520_N P = .ok a ∧ API520_N P' = .ok b ∧ 0.995 < a ∧ a ≤ b ∧ b < 1.2 ∧
      a * (0.03324 * (P / 1000) - 1061) = 0.02764 * (P / 1000) - 1000) := by
  constructor
  · intro q
    simp only [API520_N]
    rw [if_pos (by norm_num at q ⊢; linarith)]
  · intro q
    norm_num at q h'
    have v : ∀ x : ℝ, 10339000 < x → x ≤ 22057000 → API520_N x = .ok ((1000 - 0.02764 * (x * 1e-3)) / (1061 - 0.03324 * (x * 1e-3))) := by
      intro x a b
      have hd : 0.03324 * (x * 1e-3) - 1061 ≠ 0 := by norm_num; intro hh; linarith
      simp only [API520_N]
      rw [if_neg (by norm_num; linarith), pdiv_ok hd]
      congr 1
      rw [← neg_div_neg_eq]; congr 1 <;> ring
    have d1 : 0 < 1061 - 0.03324 * (P * 1e-3) := by norm_num; linarith
    have d2 : 0 < 1061 - 0.03324 * (P' * 1e-3) := by norm_num; linarith
    refine ⟨_, _, v P q (by linarith), v P' (by linarith) h', ?_, ?_, ?_, ?_⟩
    · rw [lt_div_iff₀ d1]; norm_num; linarith
    · rw [div_le_div_iff₀ d1 d2]; norm_num; nlinarith
    · rw [div_lt_iff₀ d2]; norm_num; linarith
    · rw [div_mul_eq_mul_div, div_eq_iff d1.ne']; norm_num; ring

/-- C53 (finding): the two branches of `API520_N` do not meet: just above 10339 kPa the factor is below 0.9958. -/
theorem C53_N_jump : ∃ P0 > 10339e3, ∀ P, 10339e3 < P → P ≤ P0 → ∃ a, API520_N P = .ok a ∧ a < 0.9958 := by
  refine ⟨10340e3, by norm_num, fun P h1 h2 => ?_⟩
  obtain ⟨a, b, ha, -, -, -, -, e⟩ := (C53_N (le_refl P) (by norm_num at h2 ⊢; linarith)).2 h1
  refine ⟨a, ha, ?_⟩
  by_contra hh
  norm_num at h1 h2 hh e
  nlinarith

/-- C53: `API520_F2` is defined, positive and at most 1 for every `k > 1` and every `0 < P2 < P1`. -/
theorem C53_F2 {k P1 P2 : ℝ} (hk : 1 < k) (h2 : 0 < P2) (h12 : P2 < P1) :
    ∃ f, API520_F2 k P1 P2 = .ok f ∧ 0 < f ∧ f ≤ 1 ∧
      f ^ 2 = k / (k - 1) * (P2 / P1) ^ (2 / k) * ((1 - (P2 / P1) ^ ((k - 1) / k)) / (1 - P2 / P1)) := by
  have h1 : 0 < P1 := by linarith
  have hk0 : 0 < k := by linarith
  have hk1 : 0 < k - 1 := by linarith
  obtain ⟨r, hr⟩ : ∃ r, r = P2 / P1 := ⟨_, rfl⟩
  have r0 : 0 < r := by rw [hr]; positivity
  have r1 : r < 1 := by rw [hr, div_lt_one h1]; exact h12
  have p1 : r ^ ((k - 1) / k) < 1 := rpow_lt_one r0.le r1 (by positivity)
  have hd : 0 < 1 - r := by linarith
  have hn : 0 < 1 - r ^ ((k - 1) / k) := by linarith
  have hpos : 0 < k / (k - 1) * r ^ (2 / k) * ((1 - r ^ ((k - 1) / k)) / (1 - r)) := by positivity
  refine ⟨√(k / (k - 1) * r ^ (2 / k) * ((1 - r ^ ((k - 1) / k)) / (1 - r))), ?_, sqrt_pos.mpr hpos, ?_, ?_⟩
  · simp only [API520_F2, pdiv_ok h1.ne', ← hr, pdiv_ok hk1.ne', pdiv_ok hk0.ne', ppow_ok r0, pdiv_ok hd.ne', psqrt_ok hpos.le, Py.ok_bind]
  · rw [sqrt_le_one]
    -- with `u = r^(1/k)` this is Bernoulli's inequality
    obtain ⟨u, hu⟩ : ∃ u, u = r ^ (1 / k) := ⟨_, rfl⟩
    have u0 : 0 < u := by rw [hu]; positivity
    have u1 : u < 1 := by rw [hu]; exact rpow_lt_one r0.le r1 (by positivity)
    have e1 : r ^ (2 / k) = u * u := by rw [hu, ← rpow_add r0]; congr 1; ring
    have e2 : r = u ^ k := by rw [hu, ← rpow_mul r0.le, one_div, inv_mul_cancel₀ hk0.ne', rpow_one]
    have e3 : u * r ^ ((k - 1) / k) = r := by
      rw [hu, ← rpow_add r0, show 1 / k + (k - 1) / k = 1 by field_simp; ring, rpow_one]
    have b := one_add_mul_self_le_rpow_one_add (s := u - 1) (by linarith) hk.le
    rw [show 1 + (u - 1) = u by ring, ← e2] at b
    rw [e1, show k / (k - 1) * (u * u) * ((1 - r ^ ((k - 1) / k)) / (1 - r)) = k * u * (u - u * r ^ ((k - 1) / k)) / ((k - 1) * (1 - r)) by
      field_simp, e3, div_le_one (by positivity)]
    have hur : r ≤ u := by rw [← e3]; nlinarith
    nlinarith [mul_nonneg (mul_nonneg hk0.le (sub_nonneg.mpr hur)) (sub_nonneg.mpr u1.le)]
  · rw [sq_sqrt hpos.le, hr]

example : (1 : ℝ) < 1.8 ∧ (0 : ℝ) < 7e5 ∧ (7e5 : ℝ) < 1e6 := by norm_num

/-! ### C54: gases -/

/-- critical relief area in m² (m in kg/s, P1 in Pa), with coefficient `C` -/
noncomputable def gasCritical (m T Z MW C P1 Kd Kb Kc : ℝ) : ℝ := 3600 * m / (C * Kd * Kb * Kc * (P1 / 1000)) * √(T * Z / MW) / 10 ^ 6

/-- subcritical relief area in m² -/
noncomputable def gasSubcritical (m T Z MW F2 P1 P2 Kd Kc : ℝ) : ℝ :=
  17.9 * (3600 * m) / (F2 * Kd * Kc) * √(T * Z / (MW * (P1 / 1000) * (P1 / 1000 - P2 / 1000))) / 10 ^ 6

theorem F2_scale {k P1 P2 : ℝ} (h1 : P1 ≠ 0) : API520_F2 k (P1 / 1000) (P2 / 1000) = API520_F2 k P1 P2 := by
  have e : P2 / 1000 /ₚ (P1 / 1000) = P2 /ₚ P1 := by
    rw [pdiv_ok h1, pdiv_ok (by positivity)]; congr 1; field_simp
  simp only [API520_F2, e]

/-- C54: `API520_A_g` uses the critical equation exactly when the downstream pressure is below the critical pressure, else the subcritical
one, with the coefficients `C` and `F2` of those functions. -/
theorem C54_gas {m T Z MW k P1 P2 Kd Kb Kc : ℝ} (hT : 0 < T) (hZ : 0 < Z) (hM : 0 < MW) (hk : 1 < k) (h2 : 0 < P2) (h12 : P2 < P1)
    (hKd : 0 < Kd) (hKb : 0 < Kb) (hKc : 0 < Kc) :
    ∃ C F2, API520_C k = .ok C ∧ 0 < C ∧ API520_F2 k P1 P2 = .ok F2 ∧ 0 < F2 ∧
      API520_A_g m T Z MW k P1 P2 Kd Kb Kc = .ok (if P2 < P1 * (2 / (k + 1)) ^ (k / (k - 1)) then gasCritical m T Z MW C P1 Kd Kb Kc
        else gasSubcritical m T Z MW F2 P1 P2 Kd Kc) := by
  have h1 : 0 < P1 := by linarith
  have hk0 : 0 < k := by linarith
  obtain ⟨C, hC, C0, -⟩ := C53_C_continuous.1 k hk0 hk.ne'
  obtain ⟨F, hF, F0, -, -⟩ := C53_F2 hk h2 h12
  refine ⟨C, F, hC, C0, hF, F0, ?_⟩
  obtain ⟨b, Pc, hb, -, hPc, hiff⟩ := C06_is_critical_flow (P1 / 1000) (P2 / 1000) k hk0 hk.ne'
  have e1 : P1 * 1e-3 = P1 / 1000 := by norm_num; ring
  have e2 : P2 * 1e-3 = P2 / 1000 := by norm_num; ring
  have hb' : b = true ↔ P2 < P1 * (2 / (k + 1)) ^ (k / (k - 1)) := by
    rw [hiff, hPc]
    constructor <;> intro h <;> linarith
  have d1 : C * Kd * Kb * Kc * (P1 / 1000) ≠ 0 := by positivity
  have d2 : F * Kd * Kc ≠ 0 := by positivity
  have hp : 0 < P1 / 1000 - P2 / 1000 := by linarith
  have d3 : MW * (P1 / 1000) * (P1 / 1000 - P2 / 1000) ≠ 0 := by positivity
  have s1 : 0 ≤ T * Z / MW := by positivity
  have s2 : 0 ≤ T * Z / (MW * (P1 / 1000) * (P1 / 1000 - P2 / 1000)) := by positivity
  simp only [API520_A_g, e1, e2, hb, Py.ok_bind]
  by_cases q : b = true
  · rw [if_pos q, if_pos (hb'.mp q)]
    simp only [hC, Py.ok_bind, pdiv_ok d1, pdiv_ok hM.ne', psqrt_ok s1, Py.pure_eq, gasCritical]
    congr 1; norm_num; ring
  · rw [if_neg q, if_neg (fun h => q (hb'.mpr h))]
    simp only [F2_scale h1.ne', hF, Py.ok_bind, pdiv_ok d2, pdiv_ok d3, psqrt_ok s2, Py.pure_eq, gasSubcritical]
    congr 1; norm_num; ring

/-- C54: the gas area is proportional to the mass flow and inversely proportional to `Kd` and `Kc`, always; to `Kb` when critical; `Kb`
has no influence when subcritical. -/
theorem C54_gas_scaling {m T Z MW k P1 P2 Kd Kb Kc : ℝ} (hT : 0 < T) (hZ : 0 < Z) (hM : 0 < MW) (hk : 1 < k) (h2 : 0 < P2) (h12 : P2 < P1)
    (hKd : 0 < Kd) (hKb : 0 < Kb) (hKc : 0 < Kc) {c : ℝ} (hc : 0 < c) :
    ∃ A, API520_A_g m T Z MW k P1 P2 Kd Kb Kc = .ok A ∧
      API520_A_g (c * m) T Z MW k P1 P2 Kd Kb Kc = .ok (c * A) ∧ API520_A_g m T Z MW k P1 P2 (c * Kd) Kb Kc = .ok (A / c) ∧
      API520_A_g m T Z MW k P1 P2 Kd Kb (c * Kc) = .ok (A / c) ∧
      API520_A_g m T Z MW k P1 P2 Kd (c * Kb) Kc = .ok (if P2 < P1 * (2 / (k + 1)) ^ (k / (k - 1)) then A / c else A) := by
  have h1 : 0 < P1 := by linarith
  obtain ⟨C, F, hC, C0, hF, F0, e⟩ := C54_gas (m := m) hT hZ hM hk h2 h12 hKd hKb hKc
  obtain ⟨C', F', hC', -, hF', -, e1⟩ := C54_gas (m := c * m) hT hZ hM hk h2 h12 hKd hKb hKc
  obtain ⟨C2, F2, hC2, -, hF2, -, e2⟩ := C54_gas (m := m) hT hZ hM hk h2 h12 (mul_pos hc hKd) hKb hKc
  obtain ⟨C3, F3, hC3, -, hF3, -, e3⟩ := C54_gas (m := m) hT hZ hM hk h2 h12 hKd hKb (mul_pos hc hKc)
  obtain ⟨C4, F4, hC4, -, hF4, -, e4⟩ := C54_gas (m := m) hT hZ hM hk h2 h12 hKd (mul_pos hc hKb) hKc
  rw [hC] at hC' hC2 hC3 hC4
  rw [hF] at hF' hF2 hF3 hF4
  obtain rfl := Except.ok.inj hC'; obtain rfl := Except.ok.inj hC2; obtain rfl := Except.ok.inj hC3; obtain rfl := Except.ok.inj hC4
  obtain rfl := Except.ok.inj hF'; obtain rfl := Except.ok.inj hF2; obtain rfl := Except.ok.inj hF3; obtain rfl := Except.ok.inj hF4
  refine ⟨_, e, e1.trans ?_, e2.trans ?_, e3.trans ?_, e4.trans ?_⟩ <;> congr 1 <;> split_ifs <;> simp only [gasCritical, gasSubcritical] <;>
    field_simp

/-- C54: at the critical pressure the two equations (with `Kb = 1`) agree up to the rounding of the printed constants: their ratio is
exactly `17.9 · 0.03948 · √2`, within 0.06 % of 1. -/
theorem C54_gas_boundary {m T Z MW k P1 P2 Kd Kc C F2 : ℝ} (hT : 0 < T) (hZ : 0 < Z) (hM : 0 < MW) (hk : 1 < k) (h2 : 0 < P2) (h12 : P2 < P1)
    (hKd : 0 < Kd) (hKc : 0 < Kc) (hC : API520_C k = .ok C) (hF : API520_F2 k P1 P2 = .ok F2)
    (hcrit : P2 = P1 * (2 / (k + 1)) ^ (k / (k - 1))) :
    gasSubcritical m T Z MW F2 P1 P2 Kd Kc = 17.9 * 0.03948 * √2 * gasCritical m T Z MW C P1 Kd 1 Kc ∧
    |17.9 * 0.03948 * √2 - 1| < 0.0006 := by
  have h1 : 0 < P1 := by linarith
  have hk0 : 0 < k := by linarith
  have hk1 : 0 < k - 1 := by linarith
  have s2 : √(2 : ℝ) ^ 2 = 2 := sq_sqrt (by norm_num)
  have s20 : 0 < √(2 : ℝ) := by positivity
  constructor
  · obtain ⟨C', hC', C0, C2⟩ := C53_C_continuous.1 k hk0 hk.ne'
    obtain ⟨F', hF', F0, -, Fsq⟩ := C53_F2 hk h2 h12
    rw [hC] at hC'; obtain rfl := Except.ok.inj hC'
    rw [hF] at hF'; obtain rfl := Except.ok.inj hF'
    obtain ⟨b, hb⟩ : ∃ b, b = 2 / (k + 1) := ⟨_, rfl⟩
    have b0 : 0 < b := by rw [hb]; positivity
    have hr : P2 / P1 = b ^ (k / (k - 1)) := by rw [hcrit, hb]; field_simp
    have r1 : 0 < 1 - P2 / P1 := by rw [sub_pos, div_lt_one h1]; exact h12
    have f1 : (P2 / P1) ^ ((k - 1) / k) = b := by
      rw [hr, ← rpow_mul b0.le, show k / (k - 1) * ((k - 1) / k) = 1 by field_simp, rpow_one]
    have f2 : (P2 / P1) ^ (2 / k) = b ^ (2 / (k - 1)) := by
      rw [hr, ← rpow_mul b0.le]; congr 1; field_simp
    rw [f1, f2] at Fsq
    obtain ⟨X, hX⟩ : ∃ X, X = b ^ (2 / (k - 1)) := ⟨_, rfl⟩
    have X0 : 0 < X := by rw [hX]; positivity
    have f3 : b ^ ((k + 1) / (k - 1)) = X * b := by
      rw [hX, ← rpow_add_one b0.ne']; congr 1; field_simp; ring
    rw [← hb, f3] at C2
    rw [← hX] at Fsq
    -- the two square roots
    obtain ⟨y, hy⟩ : ∃ y, y = √(1 - P2 / P1) := ⟨_, rfl⟩
    have y0 : 0 < y := by rw [hy]; exact sqrt_pos.mpr r1
    have y2 : y ^ 2 = 1 - P2 / P1 := by rw [hy]; exact sq_sqrt r1.le
    have key : C = 0.03948 * √2 * (F2 * y) := by
      have hsq : C ^ 2 = (0.03948 * √2 * (F2 * y)) ^ 2 := by
        have hy0 : 1 - P2 / P1 ≠ 0 := r1.ne'
        rw [C2, mul_pow, mul_pow, mul_pow, s2, Fsq, y2, mul_assoc (_ * X), div_mul_cancel₀ _ hy0, hb]
        field_simp
        ring
      exact (sq_eq_sq₀ C0.le (by positivity)).mp hsq
    have hs : √(T * Z / (MW * (P1 / 1000) * (P1 / 1000 - P2 / 1000))) = √(T * Z / MW) / ((P1 / 1000) * y) := by
      rw [show T * Z / (MW * (P1 / 1000) * (P1 / 1000 - P2 / 1000)) = (T * Z / MW) / ((P1 / 1000) ^ 2 * (1 - P2 / P1)) by field_simp,
        sqrt_div (by positivity), sqrt_mul (by positivity), sqrt_sq (by positivity), ← hy]
    simp only [gasSubcritical, gasCritical, hs, key]
    field_simp
  · have : 1.4142 < √(2 : ℝ) := by rw [lt_sqrt (by norm_num)]; norm_num
    have : √(2 : ℝ) < 1.4143 := by rw [sqrt_lt' (by norm_num)]; norm_num
    rw [abs_lt]; constructor <;> norm_num at * <;> linarith

/-- C54 (finding): `API520_C` treats `k = 1` specially, but `API520_A_g` cannot use it: the critical-flow test divides by zero first. -/
theorem C54_gas_k_one (m T Z MW P1 P2 Kd Kb Kc : ℝ) : API520_A_g m T Z MW 1 P1 P2 Kd Kb Kc = .error .zeroDivisionError := by
  simp only [API520_A_g, (C06_k_one _ 1 1 _ one_ne_zero).2.2, Py.error_bind]

/-! ### C54: steam and liquids -/

/-- C54: steam: `190.5 m / (P1 Kd Kb Kc KN KSH)` in mm², so linear in the mass flow and inverse in every factor; errors of the factor
functions are passed on. -/
theorem C54_steam (SH7 SH10 : ℝ → ℝ → ℝ) {m T P1 Kd Kb Kc : ℝ} {ed : String} (hP : 0 < P1) (hKd : 0 < Kd) (hKb : 0 < Kb) (hKc : 0 < Kc) :
    (∀ KN KSH, API520_N P1 = .ok KN → API520_SH SH7 SH10 T P1 ed = .ok KSH → KN * KSH ≠ 0 →
      ∃ A, API520_A_steam SH7 SH10 m T P1 Kd Kb Kc ed = .ok A ∧ A * 10 ^ 6 * (P1 / 1000 * Kd * Kb * Kc * KN * KSH) = 190.5 * (3600 * m)) ∧
    (∀ e, API520_SH SH7 SH10 T P1 ed = .error e → P1 ≤ 22057e3 → API520_A_steam SH7 SH10 m T P1 Kd Kb Kc ed = .error e) := by
  constructor
  · intro KN KSH h1 h2 h3
    have d : P1 * 1e-3 * Kd * Kb * Kc * KN * KSH ≠ 0 := by
      rw [mul_assoc]; exact mul_ne_zero (by positivity) h3
    refine ⟨190.5 * (m * 3600) / (P1 * 1e-3 * Kd * Kb * Kc * KN * KSH) * 1e-6, ?_, ?_⟩
    · simp only [API520_A_steam, h1, h2, Py.ok_bind, pdiv_ok d, Py.pure_eq]
    have e : P1 / 1000 * Kd * Kb * Kc * KN * KSH = P1 * 1e-3 * Kd * Kb * Kc * KN * KSH := by
      rw [show (1e-3 : ℝ) = 1 / 1000 by norm_num]; ring
    rw [e]
    have : ∀ a b : ℝ, b ≠ 0 → a / b * 1e-6 * 10 ^ 6 * b = a := by intro a b hb; norm_num; field_simp
    rw [this _ _ d]; ring
  · intro e he hP'
    have : ∃ N, API520_N P1 = .ok N := by
      by_cases q : P1 ≤ 10339e3
      · exact ⟨1, (C53_N (le_refl P1) hP').1 q⟩
      · obtain ⟨a, b, ha, -⟩ := (C53_N (le_refl P1) hP').2 (not_le.mp q)
        exact ⟨a, ha⟩
    obtain ⟨N, hN⟩ := this
    simp only [API520_A_steam, hN, he, Py.ok_bind, Py.error_bind]

/-- C54: the superheat factor is 1 below the superheat tables, and is refused above 649 °C, above the pressure limit of the edition, and for
unknown editions. -/
theorem C54_superheat (SH7 SH10 : ℝ → ℝ → ℝ) (T P : ℝ) (ed : String) :
    (T < 422.15 → P ≤ 20780325 → API520_SH SH7 SH10 T P "7E" = .ok 1) ∧ (T < 478.15 → API520_SH SH7 SH10 T P "10E" = .ok 1) ∧
    (922.15 < T → API520_SH SH7 SH10 T P ed = .error .valueError) ∧ (20780325 < P → API520_SH SH7 SH10 T P "7E" = .error .valueError) ∧
    (22063223.338138755 < P → 478.15 ≤ T → API520_SH SH7 SH10 T P "10E" = .error .valueError) ∧
    (ed ≠ "7E" → ed ≠ "10E" → API520_SH SH7 SH10 T P ed = .error .valueError) := by
  refine ⟨fun h1 h2 => ?_, fun h => ?_, fun h => ?_, fun h => ?_, fun h h' => ?_, fun h h' => ?_⟩
  · have : ¬ T > 922.15 := by norm_num at h1 ⊢; linarith
    simp [API520_SH, this, not_lt.mpr h2, h1]
  · have : ¬ T > 922.15 := by norm_num at h ⊢; linarith
    simp [API520_SH, this, h]
  · simp [API520_SH, h]
  · simp [API520_SH, h]
  · simp only [API520_SH, String.reduceEq, if_true, if_false, not_lt.mpr h', h]; split_ifs <;> rfl
  · simp [API520_SH, h, h']

/-- liquid relief area in m² -/
noncomputable def liquidArea (m rho P1 P2 Kd Kc Kw Kv : ℝ) : ℝ :=
  11.78 * (60000 * (m / rho)) * √(rho / 999.0107539518483 / (P1 / 1000 - P2 / 1000)) / (Kd * Kw * Kc * Kv) / 10 ^ 6

theorem areaLiquid_eq {m rho P1 P2 Kd Kc Kw Kv : ℝ} (hr : 0 < rho) (h12 : P2 < P1) (hK : Kd * Kw * Kc * Kv ≠ 0) :
    areaLiquid m rho P1 P2 Kd Kc Kw Kv = .ok (liquidArea m rho P1 P2 Kd Kc Kw Kv) := by
  have e1 : P1 * 1e-3 = P1 / 1000 := by norm_num; ring
  have e2 : P2 * 1e-3 = P2 / 1000 := by norm_num; ring
  have hp : 0 < P1 / 1000 - P2 / 1000 := by linarith
  have r0 : (0 : ℝ) < 999.0107539518483 := by norm_num
  have hs : 0 ≤ rho / 999.0107539518483 / (P1 / 1000 - P2 / 1000) := by positivity
  simp only [areaLiquid, rho0, e1, e2, pdiv_ok r0.ne', pdiv_ok hr.ne', pdiv_ok hp.ne', psqrt_ok hs, pdiv_ok hK, Py.ok_bind, Py.pure_eq, liquidArea]
  congr 1; norm_num; ring

/-- C54: liquids, with `Kv` given: the printed equation, with `Kw` given or taken from `API520_W` at the set pressure. -/
theorem C54_liquid {m rho P1 P2 o Kd Kc Kv : ℝ} {ed : String} {mu : Option ℝ} (hr : 0 < rho) (h12 : P2 < P1) (ho : 0 < 1 + o) (hKd : 0 < Kd)
    (hKc : 0 < Kc) (hKv : 0 < Kv) :
    (∀ Kw > 0, API520_A_l m rho P1 P2 o Kd Kc (some Kw) (some Kv) ed mu = .ok (liquidArea m rho P1 P2 Kd Kc Kw Kv)) ∧
    (101325 < P1 → ∃ Kw, API520_W ((P1 - 101325) / (1 + o) + 101325) P2 = .ok Kw ∧
      API520_A_l m rho P1 P2 o Kd Kc none (some Kv) ed mu = .ok (liquidArea m rho P1 P2 Kd Kc Kw Kv)) := by
  have r0 : rho0 ≠ 0 := by norm_num [rho0]
  constructor
  · intro Kw hKw
    simp only [API520_A_l, pdiv_ok r0, pdiv_ok hr.ne', pdiv_ok ho.ne', Py.ok_bind]
    exact areaLiquid_eq hr h12 (by positivity)
  · intro hP
    have hs : 101325 < (P1 - 101325) / (1 + o) + 101325 := by
      have : 0 < (P1 - 101325) / (1 + o) := div_pos (by linarith) ho
      linarith
    obtain ⟨⟨a, b, ha, -, l, l', -⟩, -⟩ := C53_W hs (le_refl P2)
    have a0 : 0 < a := lt_of_lt_of_le (by norm_num) (l.trans l')
    refine ⟨a, ha, ?_⟩
    simp only [API520_A_l, pdiv_ok r0, pdiv_ok hr.ne', pdiv_ok ho.ne', Py.ok_bind, atm, ha]
    exact areaLiquid_eq hr h12 (by positivity)

/-- C54: the liquid area is proportional to the mass flow and inversely proportional to each capacity factor. -/
theorem C54_liquid_scaling (m rho P1 P2 Kd Kc Kw Kv c : ℝ) :
    liquidArea (c * m) rho P1 P2 Kd Kc Kw Kv = c * liquidArea m rho P1 P2 Kd Kc Kw Kv ∧
    liquidArea m rho P1 P2 (c * Kd) Kc Kw Kv = liquidArea m rho P1 P2 Kd Kc Kw Kv / c ∧
    liquidArea m rho P1 P2 Kd (c * Kc) Kw Kv = liquidArea m rho P1 P2 Kd Kc Kw Kv / c ∧
    liquidArea m rho P1 P2 Kd Kc (c * Kw) Kv = liquidArea m rho P1 P2 Kd Kc Kw Kv / c ∧
    liquidArea m rho P1 P2 Kd Kc Kw (c * Kv) = liquidArea m rho P1 P2 Kd Kc Kw Kv / c := by
  refine ⟨?_, ?_, ?_, ?_, ?_⟩ <;> unfold liquidArea
  · ring
  all_goals
    rw [div_right_comm, div_right_comm _ _ c, div_div _ _ c, div_right_comm]
    congr 2; ring

/-- C54: liquids, with a viscosity: `Kv` is taken from `API520_Kv` at the Reynolds number of the orifice sized with `Kv = 1`, and the area
is never smaller than that one. -/
theorem C54_liquid_viscous {m rho P1 P2 o Kd Kc Kw mu : ℝ} {ed : String} (hm : 0 < m) (hr : 0 < rho) (h12 : P2 < P1) (ho : 0 < 1 + o)
    (hKd : 0 < Kd) (hKc : 0 < Kc) (hKw : 0 < Kw) (hmu : 0 < mu) (hed : ed = "7E" ∨ ed = "10E") :
    ∃ A0 Kv, A0 = liquidArea m rho P1 P2 Kd Kc Kw 1 ∧ 0 < A0 ∧ API520_Kv (rho * (m / rho / A0) * √(A0 * 4 / π) / mu) ed = .ok Kv ∧
      API520_A_l m rho P1 P2 o Kd Kc (some Kw) none ed (some mu) = .ok (liquidArea m rho P1 P2 Kd Kc Kw Kv) ∧
      A0 ≤ liquidArea m rho P1 P2 Kd Kc Kw Kv := by
  have r0 : rho0 ≠ 0 := by norm_num [rho0]
  have hp := pi_pos
  have hd : 0 < P1 / 1000 - P2 / 1000 := by linarith
  have r1 : (0 : ℝ) < 999.0107539518483 := by norm_num
  obtain ⟨A0, hA⟩ : ∃ A0, A0 = liquidArea m rho P1 P2 Kd Kc Kw 1 := ⟨_, rfl⟩
  have A00 : 0 < A0 := by rw [hA]; unfold liquidArea; positivity
  have e0 := areaLiquid_eq (m := m) (Kd := Kd) (Kc := Kc) (Kw := Kw) (Kv := 1) hr h12 (by positivity)
  rw [← hA] at e0
  have hRe : 0 < rho * (m / rho / A0) * √(A0 * 4 / π) / mu := by positivity
  obtain ⟨Kv, Kv', hKv, -, k0, k1, k2⟩ := C53_Kv hRe le_rfl hed
  have k3 := k1.trans k2
  refine ⟨A0, Kv, hA, A00, hKv, ?_, ?_⟩
  · have q : m / rho * 60000 / 60000 = m / rho := by field_simp
    simp only [API520_A_l, pdiv_ok r0, pdiv_ok hr.ne', pdiv_ok ho.ne', Py.ok_bind, e0, psqrt_ok (by positivity : 0 ≤ A0 * 4 / π), q,
      pdiv_ok A00.ne', pdiv_ok hmu.ne', hKv]
    exact areaLiquid_eq hr h12 (by positivity)
  · have := (C54_liquid_scaling m rho P1 P2 Kd Kc Kw 1 Kv).2.2.2.2
    rw [mul_one, ← hA] at this
    rw [this, le_div_iff₀ k0]
    nlinarith

/-- C54 (finding): without `Kv` and without a viscosity — both documented as optional — `API520_A_l` raises TypeError. -/
theorem C54_liquid_no_Kv {m rho P1 P2 o Kd Kc Kw : ℝ} {ed : String} (hr : 0 < rho) (h12 : P2 < P1) (ho : 0 < 1 + o) :
    API520_A_l m rho P1 P2 o Kd Kc (some Kw) none ed none = .error .typeError := by
  have r0 : (0 : ℝ) < rho0 := by norm_num [rho0]
  have hp : 0 < P1 * 1e-3 - P2 * 1e-3 := by norm_num; linarith
  have hs : 0 ≤ rho / rho0 / (P1 * 1e-3 - P2 * 1e-3) := by positivity
  simp only [API520_A_l, pdiv_ok r0.ne', pdiv_ok hr.ne', pdiv_ok ho.ne', pdiv_ok hp.ne', psqrt_ok hs, Py.ok_bind]

example : ∃ A, API520_A_g 1 350 1 30 1.3 1e6 1e5 0.975 1 1 = .ok A := by
  obtain ⟨C, F, -, -, -, -, e⟩ := C54_gas (m := 1) (T := 350) (Z := 1) (MW := 30) (k := 1.3) (P1 := 1e6) (P2 := 1e5) (Kd := 0.975) (Kb := 1) (Kc := 1)
    (by norm_num) (by norm_num) (by norm_num) (by norm_num) (by norm_num) (by norm_num) (by norm_num) (by norm_num) (by norm_num)
  exact ⟨_, e⟩

end Verif.Safety
