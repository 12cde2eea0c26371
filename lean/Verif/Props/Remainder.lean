import Verif.Props.PsdMean
import Verif.Props.Surface
import Verif.Props.ControlValve
import Verif.Props.FlowMeter
import Verif.Model.Core
import Verif.Spec.Matrix
import Verif.Model.Arrays
import Verif.Model.Spa
import Verif.Props.PolyEval

/-! Properties of the smaller functions beside the ones they belong to: C01, C10, C18, C51, C55, C58, C62, C88, C110 and C123. -/

open Real

noncomputable section

/-! ### C62: the wall of a horizontal cylinder -/

namespace Verif.Geometry

/-- half the width of the liquid at height `y` in a circle of diameter `D` -/
def halfWidth (D y : ℝ) : ℝ := √(y * (D - y))

/-- the wetted wall per unit of length, as the code computes it -/
theorem cylinder_wall_eq {L D h : ℝ} (hD : 0 < D) (h0 : 0 ≤ h) : SA_partial_cylindrical_body L D h = .ok (D * arccos ((D - 2 * min h D) / D) * L) := by
  have e : (if h > D then D else h) = min h D := by
    split_ifs with g
    · exact (min_eq_right (le_of_lt g)).symm
    · exact (min_eq_left (not_lt.mp g)).symm
  have h1 : 0 ≤ min h D := le_min h0 hD.le
  have h2 : min h D ≤ D := min_le_right _ _
  simp only [SA_partial_cylindrical_body, if_neg (not_lt.2 h0), e, pdiv_ok hD.ne', Py.ok_bind]
  rw [show (D - min h D - min h D) / D = (D - 2 * min h D) / D by ring, pacos_ok (by rw [le_div_iff₀ hD]; linarith) (by rw [div_le_iff₀ hD]; linarith)]
  rfl

/-- C62: the wetted wall of a horizontal cylinder is 0 when empty, the whole wall when full, continuous in the depth, and rises at the rate of the two strips at the liquid's edge: twice the length
times the arc element of the wall -/
theorem C62_cylinder_wall {L D : ℝ} (hD : 0 < D) :
    ∃ F : ℝ → ℝ, (∀ h, SA_partial_cylindrical_body L D h = .ok (F h)) ∧ (∀ h ≤ 0, F h = 0) ∧ (∀ h ≥ D, F h = π * D * L) ∧ Continuous F ∧
      ∀ h, 0 < h → h < D → HasDerivAt F (2 * L * √(1 + deriv (halfWidth D) h ^ 2)) h := by
  refine ⟨fun h => D * arccos ((D - 2 * min (max h 0) D) / D) * L, fun h => ?_, fun h hh => ?_, fun h hh => ?_, by fun_prop, fun h h0 h1 => ?_⟩
  · rcases lt_or_ge h 0 with c | c
    · simp only [SA_partial_cylindrical_body, if_pos c, max_eq_right c.le, min_eq_left hD.le]
      rw [mul_zero, sub_zero, div_self hD.ne', arccos_one, mul_zero, zero_mul]
    · simp only [cylinder_wall_eq hD c, max_eq_left c]
  · simp only [max_eq_right hh, min_eq_left hD.le]
    rw [mul_zero, sub_zero, div_self hD.ne', arccos_one, mul_zero, zero_mul]
  · simp only [max_eq_left (hD.le.trans hh), min_eq_right hh]
    rw [show (D - 2 * D) / D = -1 by field_simp; ring, arccos_neg_one]
    ring
  · have hp : 0 < h * (D - h) := mul_pos h0 (by linarith)
    have hw : HasDerivAt (halfWidth D) ((D - 2 * h) / (2 * √(h * (D - h)))) h := by
      have hq : HasDerivAt (fun y => y * (D - y)) (D - 2 * h) h := by
        refine ((hasDerivAt_id' h).mul ((hasDerivAt_id' h).const_sub D)).congr_deriv ?_
        ring
      exact hq.sqrt hp.ne'
    have hs : √(h * (D - h)) ^ 2 = h * (D - h) := sq_sqrt hp.le
    have hs0 : 0 < √(h * (D - h)) := sqrt_pos.2 hp
    have e1 : √(1 + deriv (halfWidth D) h ^ 2) = D / (2 * √(h * (D - h))) := by
      rw [hw.deriv, sqrt_eq_iff_eq_sq (by positivity) (by positivity), div_pow, div_pow, mul_pow, hs]
      have : D - h ≠ 0 := by linarith
      field_simp
      ring
    have hd : HasDerivAt (fun y => (D - 2 * y) / D) (-2 / D) h := by
      refine ((((hasDerivAt_id' h).const_mul 2).const_sub D).div_const D).congr_deriv ?_
      ring
    have hne1 : (D - 2 * h) / D ≠ -1 := fun k => by rw [div_eq_iff hD.ne'] at k; linarith
    have hne2 : (D - 2 * h) / D ≠ 1 := fun k => by rw [div_eq_iff hD.ne'] at k; linarith
    have hF := (((hasDerivAt_arccos hne1 hne2).comp h hd).const_mul D).mul_const L
    refine (hF.congr_of_eventuallyEq ?_).congr_deriv ?_
    · filter_upwards [eventually_gt_nhds h0, eventually_lt_nhds h1] with y y0 y1
      simp only [Function.comp, max_eq_left y0.le, min_eq_left y1.le]
    · have e2 : √(1 - ((D - 2 * h) / D) ^ 2) = 2 * √(h * (D - h)) / D := by
        rw [sqrt_eq_iff_eq_sq ?_ (by positivity), div_pow, div_pow, mul_pow, hs]
        · field_simp; ring
        · rw [div_pow, sub_nonneg, div_le_one (by positivity)]; nlinarith
      rw [e1, e2]
      field_simp

/-- a tank of diameter 2 and length 3 filled to the axis -/
example : SA_partial_cylindrical_body 3 2 1 = .ok (3 * π) := by
  rw [cylinder_wall_eq (by norm_num) (by norm_num)]
  norm_num
  ring

end Verif.Geometry

/-! ### C55: the velocity of approach -/

namespace Verif.FlowMeter

/-- C55: the velocity of approach factor is `1/√(1 - β⁴)`, at least one, the flow coefficient is the discharge coefficient times it; a throat as wide as the pipe divides by zero and a wider one
has no real factor -/
theorem C55_approach {D Do : ℝ} (hD : 0 < D) (h0 : 0 ≤ Do) :
    (Do < D → ∃ v, velocity_of_approach_factor D Do = .ok v ∧ 1 ≤ v ∧ v ^ 2 * (1 - (Do / D) ^ 4) = 1 ∧ ∀ C, flow_coefficient D Do C = .ok (C * v)) ∧
    (Do = D → velocity_of_approach_factor D Do = .error .zeroDivisionError ∧ ∀ C, flow_coefficient D Do C = .error .zeroDivisionError) ∧
    (D < Do → velocity_of_approach_factor D Do = .error .valueError ∧ ∀ C, flow_coefficient D Do C = .error .valueError) := by
  have e4 : Do / D * (Do / D) * (Do / D * (Do / D)) = (Do / D) ^ 4 := by ring
  have hb0 : 0 ≤ Do / D := by positivity
  refine ⟨fun h => ?_, fun h => ?_, fun h => ?_⟩
  · have hb : Do / D < 1 := (div_lt_one hD).2 h
    have h4 : (Do / D) ^ 4 < 1 := pow_lt_one₀ hb0 hb (by norm_num)
    have h4' : 0 ≤ (Do / D) ^ 4 := by positivity
    have hs : 0 < √(1 - (Do / D) ^ 4) := sqrt_pos.2 (by linarith)
    refine ⟨1 / √(1 - (Do / D) ^ 4), ?_, ?_, ?_, fun C => ?_⟩
    · simp only [velocity_of_approach_factor, pdiv_ok hD.ne', Py.ok_bind, e4, psqrt_ok (show (0:ℝ) ≤ 1 - (Do / D) ^ 4 by linarith), pdiv_ok hs.ne']
    · rw [le_div_iff₀ hs, one_mul]; exact sqrt_le_one.2 (by linarith)
    · rw [div_pow, sq_sqrt (by linarith), one_pow, one_div, inv_mul_cancel₀ (by linarith)]
    · simp only [flow_coefficient, pdiv_ok hD.ne', Py.ok_bind, e4, psqrt_ok (show (0:ℝ) ≤ 1 - (Do / D) ^ 4 by linarith), pdiv_ok hs.ne']
      congr 1; ring
  · subst h
    simp only [velocity_of_approach_factor, flow_coefficient, pdiv_ok hD.ne', div_self hD.ne', Py.ok_bind]
    norm_num [psqrt, pdiv]
  · have hb : 1 < Do / D := (one_lt_div hD).2 h
    have h4 : 1 < (Do / D) ^ 4 := one_lt_pow₀ hb (by norm_num)
    simp only [velocity_of_approach_factor, flow_coefficient, pdiv_ok hD.ne', Py.ok_bind, e4, psqrt, if_pos (show 1 - (Do / D) ^ 4 < 0 by linarith)]
    exact ⟨rfl, fun _ => rfl⟩

end Verif.FlowMeter

/-! ### C51: the cavitation index -/

namespace Verif.CV

/-- C51: for a pressure drop, the cavitation index is above one exactly if the outlet is above the vapor pressure, one at the vapor pressure, and falls as the outlet pressure is lowered -/
theorem C51_cavitation_index {P1 Psat : ℝ} (hs : Psat < P1) :
    (∀ P2 < P1, ∃ s, cavitation_index P1 P2 Psat = .ok s ∧ 0 < s ∧ (1 < s ↔ Psat < P2) ∧ (s = 1 ↔ P2 = Psat) ∧ ∀ P2' < P2, ∃ s', cavitation_index P1 P2' Psat = .ok s' ∧ s' < s) ∧
    cavitation_index P1 P1 Psat = .error .zeroDivisionError := by
  refine ⟨fun P2 h => ?_, by simp [cavitation_index, pdiv]⟩
  have hp : 0 < P1 - P2 := by linarith
  refine ⟨(P1 - Psat) / (P1 - P2), by rw [cavitation_index, pdiv_ok hp.ne'], div_pos (by linarith) hp, ?_, ?_, fun P2' h' => ?_⟩
  · rw [lt_div_iff₀ hp]; constructor <;> intro <;> linarith
  · rw [div_eq_one_iff_eq hp.ne']; constructor <;> intro <;> linarith
  · have hp' : 0 < P1 - P2' := by linarith
    exact ⟨_, by rw [cavitation_index, pdiv_ok hp'.ne'], div_lt_div_of_pos_left (by linarith) hp (by linarith)⟩

/-- from 10 bar to 1 bar at a vapor pressure of 0.3 bar -/
example : ∃ s, cavitation_index 10 1 0.3 = .ok s ∧ 1 < s := by
  obtain ⟨s, h1, -, h2, -⟩ := (C51_cavitation_index (P1 := 10) (Psat := 0.3) (by norm_num)).1 1 (by norm_num)
  exact ⟨s, h1, h2.2 (by norm_num)⟩

end Verif.CV

/-! ### C01: groups made of other groups -/

namespace Verif.Core

/-- C01: the Rayleigh number made of the Prandtl and the Grashof number is `gβ|ΔT|L³/(να)`, with the diffusivity given or computed from conductivity, density and heat capacity -/
theorem C01_Rayleigh {L beta T1 T2 nu k rho Cp g : ℝ} (hnu : nu ≠ 0) (hk : k ≠ 0) (hr : rho ≠ 0) (hC : Cp ≠ 0) :
    ∃ alpha Gr Pr, thermal_diffusivity k rho Cp = .ok alpha ∧ alpha * (rho * Cp) = k ∧ Grashof L beta T1 T2 none none (some nu) g = .ok Gr ∧
      Prandtl none none none (some nu) none (some alpha) = .ok Pr ∧ Prandtl (some Cp) (some k) none (some nu) (some rho) none = .ok Pr ∧
      Rayleigh Pr Gr * (nu * alpha) = g * beta * |T2 - T1| * L ^ 3 := by
  have ha : k / (rho * Cp) ≠ 0 := div_ne_zero hk (mul_ne_zero hr hC)
  refine ⟨k / (rho * Cp), _, _, by rw [thermal_diffusivity, pdiv_ok (mul_ne_zero hr hC)], by field_simp, by simp only [Grashof]; rw [pdiv_ok (mul_ne_zero hnu hnu)],
    by simp only [Prandtl]; rw [pdiv_ok ha], ?_, ?_⟩
  · simp only [Prandtl]
    rw [pdiv_ok hk]
    congr 1
    field_simp
  · simp only [Rayleigh]
    field_simp

/-- C01: the speed of sound of an ideal gas satisfies `c² = k R T / M` (molar mass in g/mol), so that the Mach number at that speed is one; a negative product is an error -/
theorem C01_sonic {R T k MW : ℝ} (hM : MW ≠ 0) (h : 0 < k * (R * 1000 / MW) * T) :
    ∃ c, c_ideal_gas R T k MW = .ok c ∧ 0 < c ∧ c ^ 2 * (MW / 1000) = k * R * T ∧ Mach c c = .ok 1 := by
  refine ⟨√(k * (R * 1000 / MW) * T), by simp only [c_ideal_gas, pdiv_ok hM, Py.ok_bind, psqrt_ok h.le], sqrt_pos.2 h, ?_, ?_⟩
  · rw [sq_sqrt h.le]; field_simp
  · rw [Mach, pdiv_ok (sqrt_pos.2 h).ne', div_self (sqrt_pos.2 h).ne']

/-- air at 303 K -/
example : (0:ℝ) < 1.4 * (8.31446261815324 * 1000 / 28.96) * 303 := by norm_num

end Verif.Core

/-! ### C18: submatrices -/

namespace Verif.Arrays
open Verif.Spec

/-- C18: rows and columns picked by an index list: entry `(a, b)` of the result is entry `(s[a], s[b])`, all indices pick the whole matrix, and picking twice is picking once with composed indices -/
theorem C18_subset {K : Type _} [CommRing K] {n : ℕ} {A : List (List K)} (hA : IsMat n n A) (s : List ℕ) (hs : ∀ i ∈ s, i < n) :
    IsMat s.length s.length (subset_matrix A s) ∧
    (∀ a b (ha : a < s.length) (hb : b < s.length), ((subset_matrix A s).getD a []).getD b 0 = (A.getD s[a] []).getD s[b] 0) ∧
    subset_matrix A (List.range n) = A ∧
    ∀ t : List ℕ, (∀ i ∈ t, i < s.length) → subset_matrix (subset_matrix A s) t = subset_matrix A (t.map fun i => s.getD i 0) := by
  have hent : ∀ a b (ha : a < s.length) (hb : b < s.length), ((subset_matrix A s).getD a []).getD b 0 = (A.getD s[a] []).getD s[b] 0 := by
    intro a b ha hb
    simp [subset_matrix, ha, hb, mget]
  refine ⟨⟨by simp [subset_matrix], fun row hr => ?_⟩, hent, ?_, fun t ht => ?_⟩
  · simp only [subset_matrix, List.mem_map] at hr
    obtain ⟨i, -, rfl⟩ := hr
    simp
  · refine List.ext_getElem (by simp [subset_matrix, hA.1]) fun i h1 h2 => ?_
    have hl : A[i].length = n := hA.2 _ (List.getElem_mem h2)
    simp only [subset_matrix, List.getElem_map, List.getElem_range]
    refine List.ext_getElem (by simp [hl]) fun j g1 g2 => ?_
    simp [mget, List.getElem?_eq_getElem h2, List.getElem?_eq_getElem g2]
  · unfold subset_matrix at hent ⊢
    rw [List.map_map]
    refine List.map_congr_left fun i hi => ?_
    simp only [Function.comp, List.map_map]
    refine List.map_congr_left fun j hj => ?_
    have hi' := ht i hi
    have hj' := ht j hj
    have := hent i j hi' hj'
    simp only [mget, Function.comp] at this ⊢
    rw [this, List.getD_eq_getElem _ _ hi', List.getD_eq_getElem _ _ hj']

example : IsMat 3 3 [[(1:ℤ), 2, 3], [4, 5, 6], [7, 8, 9]] ∧ subset_matrix [[(1:ℤ), 2, 3], [4, 5, 6], [7, 8, 9]] [0, 2] = [[1, 3], [7, 9]] := by
  refine ⟨⟨rfl, by simp⟩, rfl⟩

end Verif.Arrays

/-! ### C110: ratios of data -/

namespace Verif.Seq

/-- the ratio of a calculated to an actual value; an actual 0 counts as matched or as ten times too high -/
def ratio {K : Type _} [Field K] [DecidableEq K] (a c : K) : K := if a = 0 then (if c = a then 1 else 10) else c / a

theorem ratios_foldl {K : Type _} [Field K] [LinearOrder K] (f : ℕ → K) (l : List ℕ) (st : K × K) (h : st.1 ≤ st.2) :
    let r := l.foldl (fun st i => if f i < st.1 then (f i, st.2) else if f i > st.2 then (st.1, f i) else st) st;
    r.1 ≤ st.1 ∧ st.2 ≤ r.2 ∧ (∀ i ∈ l, r.1 ≤ f i ∧ f i ≤ r.2) ∧ (r.1 = st.1 ∨ ∃ i ∈ l, r.1 = f i) ∧ (r.2 = st.2 ∨ ∃ i ∈ l, r.2 = f i) := by
  induction l generalizing st with
  | nil => simp
  | cons a l ih =>
    simp only [List.foldl_cons]
    obtain ⟨s1, s2⟩ := st
    simp only at h
    split_ifs with h1 h2
    · obtain ⟨a1, a2, a3, a4, a5⟩ := ih (f a, s2) (h1.le.trans h)
      simp only at a1 a2 a4 a5 ⊢
      refine ⟨a1.trans h1.le, a2, ?_, ?_, ?_⟩
      · rintro i hi
        rcases List.mem_cons.1 hi with rfl | hi
        · exact ⟨a1, (h1.le.trans h).trans a2⟩
        · exact a3 i hi
      · rcases a4 with e | ⟨i, hi, e⟩
        · exact .inr ⟨a, List.mem_cons_self, e⟩
        · exact .inr ⟨i, List.mem_cons_of_mem _ hi, e⟩
      · rcases a5 with e | ⟨i, hi, e⟩
        · exact .inl e
        · exact .inr ⟨i, List.mem_cons_of_mem _ hi, e⟩
    · obtain ⟨a1, a2, a3, a4, a5⟩ := ih (s1, f a) (h.trans (le_of_lt h2))
      simp only at a1 a2 a4 a5 ⊢
      refine ⟨a1, (le_of_lt h2).trans a2, ?_, ?_, ?_⟩
      · rintro i hi
        rcases List.mem_cons.1 hi with rfl | hi
        · exact ⟨a1.trans (h.trans (le_of_lt h2)), a2⟩
        · exact a3 i hi
      · rcases a4 with e | ⟨i, hi, e⟩
        · exact .inl e
        · exact .inr ⟨i, List.mem_cons_of_mem _ hi, e⟩
      · rcases a5 with e | ⟨i, hi, e⟩
        · exact .inr ⟨a, List.mem_cons_self, e⟩
        · exact .inr ⟨i, List.mem_cons_of_mem _ hi, e⟩
    · obtain ⟨a1, a2, a3, a4, a5⟩ := ih (s1, s2) h
      simp only at a1 a2 a4 a5 ⊢
      refine ⟨a1, a2, ?_, ?_, ?_⟩
      · rintro i hi
        rcases List.mem_cons.1 hi with rfl | hi
        · exact ⟨a1.trans (not_lt.1 h1), (not_lt.1 h2).trans a2⟩
        · exact a3 i hi
      · rcases a4 with e | ⟨i, hi, e⟩
        · exact .inl e
        · exact .inr ⟨i, List.mem_cons_of_mem _ hi, e⟩
      · rcases a5 with e | ⟨i, hi, e⟩
        · exact .inl e
        · exact .inr ⟨i, List.mem_cons_of_mem _ hi, e⟩

/-- C110: the two ratios enclose 1 and every ratio of the data, and each of them is 1 or one of the ratios -/
theorem C110_ratios {K : Type _} [Field K] [LinearOrder K] (actual calculated : List K) (hl : actual.length = calculated.length) :
    let r := min_max_ratios actual calculated;
    r.1 ≤ 1 ∧ 1 ≤ r.2 ∧ (∀ p ∈ actual.zip calculated, r.1 ≤ ratio p.1 p.2 ∧ ratio p.1 p.2 ≤ r.2) ∧
      (r.1 = 1 ∨ ∃ p ∈ actual.zip calculated, r.1 = ratio p.1 p.2) ∧ (r.2 = 1 ∨ ∃ p ∈ actual.zip calculated, r.2 = ratio p.1 p.2) := by
  have h := ratios_foldl (fun i => ratio (actual.getD i 0) (calculated.getD i 0)) (List.range actual.length) ((1 : K), 1) le_rfl
  have hz : ∀ p, p ∈ actual.zip calculated ↔ ∃ i ∈ List.range actual.length, p = (actual.getD i 0, calculated.getD i 0) := by
    intro p
    constructor
    · intro hp
      obtain ⟨i, hi, rfl⟩ := List.getElem_of_mem hp
      have h1 : i < actual.length := by simp at hi; omega
      have h2 : i < calculated.length := by omega
      exact ⟨i, by simpa using h1, by simp [List.getElem?_eq_getElem h1, List.getElem?_eq_getElem h2]⟩
    · rintro ⟨i, hi, rfl⟩
      have h1 : i < actual.length := by simpa using hi
      have h2 : i < calculated.length := by omega
      rw [List.getD_eq_getElem _ _ h1, List.getD_eq_getElem _ _ h2]
      have : (actual.zip calculated)[i]'(by simp; omega) = (actual[i], calculated[i]) := by simp
      rw [← this]
      exact List.getElem_mem _
  obtain ⟨h1, h2, h3, h4, h5⟩ := h
  refine ⟨h1, h2, fun p hp => ?_, ?_, ?_⟩
  · obtain ⟨i, hi, rfl⟩ := (hz p).1 hp
    exact h3 i hi
  · exact h4.imp_right fun ⟨i, hi, e⟩ => ⟨_, (hz _).2 ⟨i, hi, rfl⟩, e⟩
  · exact h5.imp_right fun ⟨i, hi, e⟩ => ⟨_, (hz _).2 ⟨i, hi, rfl⟩, e⟩

/-- C110: the lower ratio is not the lowest of the data if everything is too high -/
theorem C110_ratios_one_sided : min_max_ratios [(1 : ℚ), 2] [3, 4] = (1, 3) := by decide +kernel

example : min_max_ratios [(1 : ℚ), 2, 0, 4] [2, 1, 0, 4] = (1 / 2, 2) := by decide +kernel

end Verif.Seq

/-! ### C88: the notation of ISO -/

namespace Verif.Psd

/-- C88: the mean size in the notation of ISO, `x̄(k, r)`, is the mean size D[k + r, r] and lies between the smallest and the largest size -/
theorem C88_ISO {ds fr : List ℝ} {order lo hi k r : ℝ} (h : Input ds fr lo hi) (ho : ds.length = fr.length + 1 → order ≠ 4 ∧ k + r ≠ -1 ∧ r ≠ -1) :
    ∃ s v, ParticleSizeDistribution ds fr false order = .ok s ∧ s.mean_size_ISO k r = .ok v ∧ s.mean_size (k + r) r = .ok v ∧ lo ≤ v ∧ v ≤ hi := by
  by_cases hk : k = 0
  · subst hk
    rw [zero_add] at ho ⊢
    obtain ⟨s, v, h1, h2, h3, h4⟩ := C88_mean_size_equal (p := r) h fun e => ⟨(ho e).1, (ho e).2.1⟩
    exact ⟨s, v, h1, by rw [Discrete.mean_size_ISO, zero_add]; exact h2, h2, h3, h4⟩
  · obtain ⟨s, v, h1, h2, -, h3, h4⟩ := C88_mean_size (p := k + r) (q := r) h ho (fun e => hk (by linarith))
    exact ⟨s, v, h1, h2, h2, h3, h4⟩

end Verif.Psd

/-! ### C123: the motion of the sun over a day -/

namespace Verif.Spa

/-- C123: the difference over a day is kept up to a size of 2 degrees inclusive; beyond it is replaced by the number in [0, 1) that differs from it by whole degrees -/
theorem C123_day_difference (x : ℝ) : (|x| ≤ 2 → dayDiff x = x) ∧ (2 < |x| → 0 ≤ dayDiff x ∧ dayDiff x < 1 ∧ ∃ k : ℤ, x = dayDiff x + k) := by
  refine ⟨fun h => if_neg (not_lt.2 h), fun h => ?_⟩
  have e : dayDiff x = Int.fract x := by
    rw [dayDiff, if_pos h, pmod, div_one, one_mul, Int.fract]
  rw [e]
  exact ⟨Int.fract_nonneg x, Int.fract_lt_one x, ⌊x⌋, (Int.fract_add_floor x).symm⟩

/-- C123: a motion of less than a degree is recovered where the right ascension passes 360 degrees (finding: a motion of a degree or more is not; 1.05 degrees become 0.05) -/
theorem C123_day_difference_wrap : (∀ d : ℝ, 0 ≤ d → d < 1 → dayDiff (d - 360) = d) ∧ dayDiff (1.05 - 360) = 0.05 := by
  have key : ∀ (d : ℝ) (k : ℤ), 0 ≤ d → d < 1 → (k : ℝ) ≤ -358 → dayDiff (d + k) = d := by
    intro d k h0 h1 hk
    have h : 2 < |d + k| := by rw [abs_of_neg (by linarith)]; linarith
    rw [dayDiff, if_pos h, pmod, div_one, one_mul, ← Int.fract, Int.fract_add_intCast, Int.fract_eq_self.2 ⟨h0, h1⟩]
  refine ⟨fun d h0 h1 => ?_, ?_⟩
  · have := key d (-360) h0 h1 (by norm_num)
    push_cast at this
    rwa [sub_eq_add_neg]
  · have := key 0.05 (-359) (by norm_num) (by norm_num) (by norm_num)
    push_cast at this
    rw [show (1.05 - 360 : ℝ) = 0.05 + -359 by norm_num]
    exact this

example : dayDiff 2 = 2 := (C123_day_difference 2).1 (by norm_num)

end Verif.Spa

/-! ### C58: the discharge coefficient of a wedge meter -/

namespace Verif
open Verif.FlowMeter

/-- C58: Miller's discharge coefficient of a wedge meter is linear in the open-area fraction of the pipe, with the constants of the pipe sizes up to 0.7 inch, up to 1.4 inch and above, and decreases as the gap grows -/
theorem C58_wedge_Miller {D : ℝ} (hD : 0 < D) :
    (∀ H, 0 ≤ H → H ≤ D →
      (D ≤ 0.7 * 0.0254 → C_wedge_meter_Miller D H = .ok (0.7883 + 0.107 * (1 - openSegment D H / (π / 4 * D ^ 2)))) ∧
      (0.7 * 0.0254 < D → D ≤ 1.4 * 0.0254 → C_wedge_meter_Miller D H = .ok (0.6143 + 0.718 * (1 - openSegment D H / (π / 4 * D ^ 2)))) ∧
      (1.4 * 0.0254 < D → C_wedge_meter_Miller D H = .ok (0.5433 + 0.2453 * (1 - openSegment D H / (π / 4 * D ^ 2))))) ∧
    ∀ H H', 0 ≤ H → H < H' → H' ≤ D → ∃ c c', C_wedge_meter_Miller D H = .ok c ∧ C_wedge_meter_Miller D H' = .ok c' ∧ c' < c := by
  constructor
  · intro H h0 h1
    obtain ⟨b, hb, -, -, hq⟩ := C58_wedge h0 h1 hD
    rw [pow_two] at hq
    refine ⟨fun h => ?_, fun h h' => ?_, fun h => ?_⟩
    · simp only [C_wedge_meter_Miller, hb, Py.ok_bind, if_pos h, hq]; rfl
    · simp only [C_wedge_meter_Miller, hb, Py.ok_bind, if_neg (not_le.2 h), if_pos h', hq]; rfl
    · have h' : ¬ D ≤ 0.7 * 0.0254 := not_le.2 (lt_trans (by norm_num) h)
      simp only [C_wedge_meter_Miller, hb, Py.ok_bind, if_neg h', if_neg (not_le.2 h), hq]; rfl
  · intro H H' h0 h1 h2
    obtain ⟨b, b', hb, hb', hlt⟩ := C58_wedge_strictMono hD h0 h1 h2
    obtain ⟨b1, e1, n1, -, -⟩ := C58_wedge h0 (h1.le.trans h2) hD
    obtain rfl : b = b1 := by rw [hb] at e1; exact Except.ok.inj e1
    have hq : b * b < b' * b' := by nlinarith
    simp only [C_wedge_meter_Miller, hb, hb', Py.ok_bind]
    split_ifs
    · exact ⟨_, _, rfl, rfl, by linarith⟩
    · exact ⟨_, _, rfl, rfl, by linarith⟩
    · exact ⟨_, _, rfl, rfl, by linarith⟩

example : ∃ c c', C_wedge_meter_Miller 0.15 0.03 = .ok c ∧ C_wedge_meter_Miller 0.15 0.045 = .ok c' ∧ c' < c :=
  (C58_wedge_Miller (by norm_num)).2 _ _ (by norm_num) (by norm_num) (by norm_num)

end Verif

/-! ### C10: polynomials with a logarithm, offset and scale -/

namespace Verif.PolyEval

/-- C10: the evaluator with offset, scale and logarithm: the polynomial of the mapped variable plus the multiple of the logarithm of the variable itself, which must be positive -/
theorem C10_horner_stable_log (c : List ℝ) (offset scale lc x : ℝ) :
    (0 < x → horner_stable_log x c offset scale lc = .ok ((∑ i : Fin c.length, c[i] * (offset + scale * x) ^ (c.length - 1 - i)) + lc * Real.log x)) ∧
    (x ≤ 0 → horner_stable_log x c offset scale lc = .error .valueError) := by
  have h : horner_stable x c offset scale = ∑ i : Fin c.length, c[i] * (offset + scale * x) ^ (c.length - 1 - i) := by
    rw [← stablePoly_eval]; exact (C10_horner_stable c offset scale x).1
  constructor
  · intro hx
    simp only [horner_stable_log, plog, if_neg (not_le.2 hx), Py.ok_bind, h]; rfl
  · intro hx
    simp only [horner_stable_log, plog, if_pos hx, Py.error_bind]

example : horner_stable_log 1 [2, 3] 0 1 5 = .ok 5 := by
  rw [(C10_horner_stable_log _ _ _ _ _).1 one_pos]
  norm_num [Fin.sum_univ_two]

end Verif.PolyEval
