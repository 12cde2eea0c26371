import Verif.Model.Fittings2
import Verif.Props.Interp
import Verif.Props.Friction
import Mathlib.Tactic

/-! C115: Miller's bends and the remaining Rennels fittings (`fluids/fittings.py`). -/

namespace Verif.Fittings
open Verif Verif.Friction Real
open Verif.Seq
open Verif.PolyEval (horner)

variable {M : Miller} {W : ℝ → ℝ}

lemma pdiv_scale' {a b c : ℝ} (hc : c ≠ 0) : pdiv (c * a) (c * b) = pdiv a b := by
  by_cases hb : b = 0
  · rw [hb, mul_zero, pdiv_zero, pdiv_zero]
  · rw [pdiv_ok (mul_ne_zero hc hb), pdiv_ok hb, mul_div_mul_left _ _ hc]

/-! ### The outlet correction -/

/-- what the five outlet curves are at a ratio: 1 from the end of the curve on, a fixed value below 0.01, the spline in between -/
noncomputable def outletCurve (M : Miller) (r : ℝ) (i : ℕ) : ℝ :=
  if millerLimits.getD i 0 ≤ r then 1 else if r ≤ 0.01 then millerShort.getD i 0 else M.Co i r

lemma coCurve_ok (r : ℝ) {i : ℕ} (hi : i < 5) : coCurve M i r = .ok (outletCurve M r i) := by
  unfold coCurve outletCurve
  rw [pyGet_nat _ _ (by simpa [millerLimits] using hi), Py.ok_bind]
  by_cases h1 : r ≥ millerLimits.getD i 0
  · rw [if_pos h1, if_pos h1]
  rw [if_neg h1, if_neg h1]
  by_cases h2 : r ≤ 0.01
  · rw [if_pos h2, if_pos h2, pyGet_nat _ _ (by simpa [millerShort] using hi)]
  rw [if_neg h2, if_neg h2]

lemma knot_lt {i : ℕ} (hi : i < 4) : millerKbs.getD i 0 < millerKbs.getD (i + 1) 0 := by
  interval_cases i <;> simp [millerKbs] <;> norm_num

lemma coLoop_cons (K r : ℝ) {i : ℕ} (hi : i < 4) (is : List ℕ) :
    coLoop M K r (i :: is) = if millerKbs.getD i 0 ≤ K ∧ K ≤ millerKbs.getD (i + 1) 0 then
      .ok (outletCurve M r i + (K - millerKbs.getD i 0) * (outletCurve M r (i + 1) - outletCurve M r i) / (millerKbs.getD (i + 1) 0 - millerKbs.getD i 0))
      else coLoop M K r is := by
  have hk := knot_lt hi
  rw [coLoop, pyGet_nat _ _ (by simp [millerKbs]; omega), Py.ok_bind, show (i : ℤ) + 1 = ((i + 1 : ℕ) : ℤ) by push_cast; rfl, pyGet_nat _ _ (by simp [millerKbs]; omega), Py.ok_bind,
    coCurve_ok r (by omega), Py.ok_bind, coCurve_ok r (by omega), Py.ok_bind, pdiv_ok (sub_pos.2 hk).ne', Py.ok_bind, Py.pure_eq]

/-- C115: the outlet correction is, for any bend coefficient and outlet length, the piecewise linear function of the bend coefficient (limited to 0.1..1) through the five
curves at the ratio of outlet length to diameter (limited to 30); both neighbouring pieces agree at a knot, so no jump occurs there. -/
theorem C115_unimpeded {Kb Di L : ℝ} (hD : Di ≠ 0) {i : ℕ} (hi : i < 4) (h1 : millerKbs.getD i 0 ≤ max 0.1 (min 1 Kb)) (h2 : max 0.1 (min 1 Kb) ≤ millerKbs.getD (i + 1) 0) :
    Miller_bend_unimpeded_correction M Kb Di L = .ok ((outletCurve M (min 30 (L / Di)) i * (millerKbs.getD (i + 1) 0 - max 0.1 (min 1 Kb)) +
      outletCurve M (min 30 (L / Di)) (i + 1) * (max 0.1 (min 1 Kb) - millerKbs.getD i 0)) / (millerKbs.getD (i + 1) 0 - millerKbs.getD i 0)) := by
  have hK : (if Kb < 0.1 then 0.1 else if Kb > 1 then 1 else Kb) = max 0.1 (min 1 Kb) := by
    by_cases a : Kb < 0.1
    · rw [if_pos a, min_eq_right (by linarith), max_eq_left a.le]
    · rw [if_neg a]
      by_cases b : Kb > 1
      · rw [if_pos b, min_eq_left b.le, max_eq_right (by norm_num)]
      · rw [if_neg b, min_eq_right (by linarith), max_eq_right (by linarith)]
  have hr : (if L / Di > 30 then 30 else L / Di) = min 30 (L / Di) := by
    by_cases a : L / Di > 30
    · rw [if_pos a, min_eq_left a.le]
    · rw [if_neg a, min_eq_right (by linarith)]
  unfold Miller_bend_unimpeded_correction
  rw [pdiv_ok hD, Py.ok_bind]
  dsimp only
  rw [hK, hr]
  set K := max 0.1 (min 1 Kb)
  set r := min 30 (L / Di)
  have key : ∀ j < 4, (millerKbs.getD j 0 ≤ K ∧ K ≤ millerKbs.getD (j + 1) 0) →
      outletCurve M r j + (K - millerKbs.getD j 0) * (outletCurve M r (j + 1) - outletCurve M r j) / (millerKbs.getD (j + 1) 0 - millerKbs.getD j 0) =
      (outletCurve M r i * (millerKbs.getD (i + 1) 0 - K) + outletCurve M r (i + 1) * (K - millerKbs.getD i 0)) / (millerKbs.getD (i + 1) 0 - millerKbs.getD i 0) := by
    intro j hj hc
    have same : ∀ k < 4, outletCurve M r k + (K - millerKbs.getD k 0) * (outletCurve M r (k + 1) - outletCurve M r k) / (millerKbs.getD (k + 1) 0 - millerKbs.getD k 0) =
      (outletCurve M r k * (millerKbs.getD (k + 1) 0 - K) + outletCurve M r (k + 1) * (K - millerKbs.getD k 0)) / (millerKbs.getD (k + 1) 0 - millerKbs.getD k 0) := by
      intro k hk
      have := (sub_pos.2 (knot_lt hk)).ne'
      field_simp
      ring
    have mono : ∀ a b, a ≤ b → b < 5 → millerKbs.getD a 0 ≤ millerKbs.getD b 0 := by
      intro a b hab hb
      interval_cases b <;> interval_cases a <;> simp [millerKbs] <;> norm_num
    have at_left : ∀ k < 4, K = millerKbs.getD k 0 →
        (outletCurve M r k * (millerKbs.getD (k + 1) 0 - K) + outletCurve M r (k + 1) * (K - millerKbs.getD k 0)) / (millerKbs.getD (k + 1) 0 - millerKbs.getD k 0) = outletCurve M r k := by
      intro k hk e
      have := (sub_pos.2 (knot_lt hk)).ne'
      rw [e, sub_self, mul_zero, add_zero, mul_div_cancel_right₀ _ this]
    have at_right : ∀ k < 4, K = millerKbs.getD (k + 1) 0 →
        (outletCurve M r k * (millerKbs.getD (k + 1) 0 - K) + outletCurve M r (k + 1) * (K - millerKbs.getD k 0)) / (millerKbs.getD (k + 1) 0 - millerKbs.getD k 0) =
          outletCurve M r (k + 1) := by
      intro k hk e
      have := (sub_pos.2 (knot_lt hk)).ne'
      rw [e, sub_self, mul_zero, zero_add, mul_div_cancel_right₀ _ this]
    rw [same j hj]
    have strict : ∀ a b, a < b → b < 5 → millerKbs.getD a 0 < millerKbs.getD b 0 := fun a b hab hb => (knot_lt (by omega)).trans_le (mono (a + 1) b hab hb)
    rcases lt_trichotomy j i with hji | rfl | hji
    · have e : i = j + 1 := by
        by_contra hne
        have := strict (j + 1) i (by omega) (by omega)
        linarith [hc.2]
      subst e
      have hK' : K = millerKbs.getD (j + 1) 0 := le_antisymm hc.2 h1
      rw [at_right j hj hK', at_left (j + 1) hi hK']
    · rfl
    · have e : j = i + 1 := by
        by_contra hne
        have := strict (i + 1) j (by omega) (by omega)
        linarith [hc.1]
      subst e
      have hK' : K = millerKbs.getD (i + 1) 0 := le_antisymm h2 hc.1
      rw [at_right i hi hK', at_left (i + 1) hj hK']
  rw [show List.range 5 = [0, 1, 2, 3, 4] from rfl, coLoop_cons _ _ (by norm_num), coLoop_cons _ _ (by norm_num), coLoop_cons _ _ (by norm_num), coLoop_cons _ _ (by norm_num)]
  by_cases c0 : millerKbs.getD 0 0 ≤ K ∧ K ≤ millerKbs.getD (0 + 1) 0
  · rw [if_pos c0, key 0 (by norm_num) c0]
  rw [if_neg c0]
  by_cases c1 : millerKbs.getD 1 0 ≤ K ∧ K ≤ millerKbs.getD (1 + 1) 0
  · rw [if_pos c1, key 1 (by norm_num) c1]
  rw [if_neg c1]
  by_cases c2 : millerKbs.getD 2 0 ≤ K ∧ K ≤ millerKbs.getD (2 + 1) 0
  · rw [if_pos c2, key 2 (by norm_num) c2]
  rw [if_neg c2]
  by_cases c3 : millerKbs.getD 3 0 ≤ K ∧ K ≤ millerKbs.getD (3 + 1) 0
  · rw [if_pos c3, key 3 (by norm_num) c3]
  exfalso
  have hh : i = 0 ∨ i = 1 ∨ i = 2 ∨ i = 3 := by omega
  rcases hh with rfl | rfl | rfl | rfl
  · exact c0 ⟨h1, h2⟩
  · exact c1 ⟨h1, h2⟩
  · exact c2 ⟨h1, h2⟩
  · exact c3 ⟨h1, h2⟩

lemma in_some_piece (Kb : ℝ) : ∃ i < 4, millerKbs.getD i 0 ≤ max 0.1 (min 1 Kb) ∧ max 0.1 (min 1 Kb) ≤ millerKbs.getD (i + 1) 0 := by
  have h0 : (0.1 : ℝ) ≤ max 0.1 (min 1 Kb) := le_max_left _ _
  have h1 : max 0.1 (min 1 Kb) ≤ (1 : ℝ) := max_le (by norm_num) (min_le_left _ _)
  set K := max 0.1 (min 1 Kb)
  rcases le_total K 0.15 with a | a
  · exact ⟨0, by norm_num, h0, a⟩
  rcases le_total K 0.2 with b | b
  · exact ⟨1, by norm_num, a, b⟩
  rcases le_total K 0.25 with c | c
  · exact ⟨2, by norm_num, b, c⟩
  · exact ⟨3, by norm_num, c, h1⟩

/-- C115: the correction never fails, lies between two neighbouring curves, and is 1 for outlets of 26.3 diameters or more unless the bend coefficient is below 0.15.
(Finding: there the first curve ends at 30.26 diameters while ratios are cut at 30, so the correction of a bend with a coefficient up to 0.1 stays at the curve's value at 30 however
long the outlet.) -/
theorem C115_unimpeded_total {Kb Di L : ℝ} (hD : 0 < Di) :
    (∃ C, Miller_bend_unimpeded_correction M Kb Di L = .ok C ∧ ∃ i < 4, min (outletCurve M (min 30 (L / Di)) i) (outletCurve M (min 30 (L / Di)) (i + 1)) ≤ C ∧
      C ≤ max (outletCurve M (min 30 (L / Di)) i) (outletCurve M (min 30 (L / Di)) (i + 1))) ∧
    (26.3 * Di ≤ L → 0.15 ≤ Kb → Miller_bend_unimpeded_correction M Kb Di L = .ok 1) ∧
    (30 * Di ≤ L → Kb ≤ 0.1 → Miller_bend_unimpeded_correction M Kb Di L = .ok (M.Co 0 30)) := by
  have bound : ∀ a b lo hi x : ℝ, lo < hi → lo ≤ x → x ≤ hi → min a b ≤ (a * (hi - x) + b * (x - lo)) / (hi - lo) ∧ (a * (hi - x) + b * (x - lo)) / (hi - lo) ≤ max a b := by
    intro a b lo hi x h hx hx'
    rw [le_div_iff₀ (sub_pos.2 h), div_le_iff₀ (sub_pos.2 h)]
    have m1 := min_le_left a b
    have m2 := min_le_right a b
    have m3 := le_max_left a b
    have m4 := le_max_right a b
    have q1 : 0 ≤ hi - x := by linarith
    have q2 : 0 ≤ x - lo := by linarith
    constructor <;> nlinarith [mul_le_mul_of_nonneg_right m1 q1, mul_le_mul_of_nonneg_right m2 q2, mul_le_mul_of_nonneg_right m3 q1, mul_le_mul_of_nonneg_right m4 q2]
  obtain ⟨i, hi, h1, h2⟩ := in_some_piece Kb
  refine ⟨⟨_, C115_unimpeded hD.ne' hi h1 h2, i, hi, bound _ _ _ _ _ (knot_lt hi) h1 h2⟩, fun hL hK => ?_, fun hL hK => ?_⟩
  · have hr : (26.3 : ℝ) ≤ min 30 (L / Di) := le_min (by norm_num) (by rwa [le_div_iff₀ hD])
    have hone : ∀ k, 1 ≤ k → k < 5 → outletCurve M (min 30 (L / Di)) k = 1 := by
      intro k hk hk'
      unfold outletCurve
      rw [if_pos]
      refine le_trans ?_ hr
      interval_cases k <;> simp [millerLimits] <;> norm_num
    have hK' : (0.15 : ℝ) ≤ max 0.1 (min 1 Kb) := le_max_of_le_right (le_min (by norm_num) hK)
    obtain ⟨j, hj0, hj, g1, g2⟩ : ∃ j, 1 ≤ j ∧ j < 4 ∧ millerKbs.getD j 0 ≤ max 0.1 (min 1 Kb) ∧ max 0.1 (min 1 Kb) ≤ millerKbs.getD (j + 1) 0 := by
      rcases Nat.eq_zero_or_pos i with rfl | hp
      · have : max 0.1 (min 1 Kb) = 0.15 := le_antisymm (by simpa [millerKbs] using h2) hK'
        refine ⟨1, le_rfl, by norm_num, ?_, ?_⟩ <;> rw [this] <;> simp [millerKbs]
        norm_num
      · exact ⟨i, hp, hi, h1, h2⟩
    have := (sub_pos.2 (knot_lt hj)).ne'
    rw [C115_unimpeded hD.ne' hj g1 g2, hone j hj0 (by omega), hone (j + 1) (by omega) (by omega)]
    congr 1
    field_simp
    ring
  · have hr : min 30 (L / Di) = 30 := min_eq_left (by rwa [le_div_iff₀ hD])
    have hK' : max 0.1 (min 1 Kb) = 0.1 := max_eq_left ((min_le_right _ _).trans hK)
    rw [C115_unimpeded hD.ne' (i := 0) (by norm_num) (by rw [hK']; simp [millerKbs]) (by rw [hK']; simp [millerKbs]; norm_num), hK', hr]
    have : outletCurve M 30 0 = M.Co 0 30 := by
      unfold outletCurve
      rw [if_neg (by simp [millerLimits]; norm_num), if_neg (by norm_num)]
    rw [this]
    congr 1
    simp only [millerKbs, List.getD_cons_zero, List.getD_cons_succ]
    norm_num

/-! ### Roughness and Reynolds number -/

/-- C115: the roughness correction is the friction factor over that of a smooth pipe: 1 for smooth pipes and in laminar flow, positive, and the same for all Reynolds numbers from
a million on. -/
theorem C115_roughness {Re Di e : ℝ} (hR : 0 < Re) (hD : 0 < Di) :
    (Re < 1e6 → Miller_bend_roughness_correction W Re Di 0 = .ok 1) ∧
    (Re < 2040 → Miller_bend_roughness_correction W Re Di e = .ok 1) ∧
    (0 ≤ e → e ≤ 0.05 * Di → ∃ C > 0, Miller_bend_roughness_correction W Re Di e = .ok C) ∧
    (1e6 ≤ Re → Miller_bend_roughness_correction W Re Di e = Miller_bend_roughness_correction W 1e6 Di e) := by
  refine ⟨fun h => ?_, fun h => ?_, fun h0 h1 => ?_, fun h => ?_⟩
  · obtain ⟨f, hf, hv⟩ := C40_default_total (W := W) hR le_rfl (by norm_num) true
    unfold Miller_bend_roughness_correction
    rw [min_eq_right h.le]
    dsimp only
    rw [if_pos h, hv, Py.ok_bind, pdiv_ok hD.ne', Py.ok_bind, zero_div, hv, Py.ok_bind, pdiv_ok hf.ne', div_self hf.ne']
  · unfold Miller_bend_roughness_correction
    rw [min_eq_right (by linarith)]
    dsimp only
    have h64 : (0 : ℝ) < 64 / Re := by positivity
    rw [if_pos (by linarith), C40_laminar none hR (.inl h), Py.ok_bind, pdiv_ok hD.ne', Py.ok_bind, C40_laminar none hR (.inl h), Py.ok_bind, pdiv_ok h64.ne', div_self h64.ne']
  · have hm : 0 < min 1e6 Re := lt_min (by norm_num) hR
    have he : 0 ≤ e / Di := by positivity
    have he' : e / Di ≤ 0.05 := by rwa [div_le_iff₀ hD]
    obtain ⟨f, hf, hv⟩ := C40_default_total (W := W) hm le_rfl (by norm_num) true
    obtain ⟨g, hg, hw⟩ := C40_default_total (W := W) hm he he' true
    unfold Miller_bend_roughness_correction
    dsimp only
    by_cases h : min 1e6 Re < 1e6
    · rw [if_pos h, hv, Py.ok_bind, pdiv_ok hD.ne', Py.ok_bind, hw, Py.ok_bind, pdiv_ok hf.ne']
      exact ⟨_, by positivity, rfl⟩
    · rw [if_neg h, Py.ok_bind, pdiv_ok hD.ne', Py.ok_bind, hw, Py.ok_bind, pdiv_ok (by norm_num)]
      exact ⟨_, by positivity, rfl⟩
  · unfold Miller_bend_roughness_correction
    rw [min_eq_left h, min_self]

/-- C115: the Reynolds number correction of tight and mitred bends is positive and at most 2.2. -/
theorem C115_tight {Kb Re C : ℝ} (hK : 0 < Kb) (h : millerTight M Kb Re = .ok C) : 0 < C ∧ C ≤ 2.2 := by
  unfold millerTight at h
  dsimp only at h
  generalize Kb - 0.2 * (if Re < 207956.58904584477 then M.CRe Re 1 else 1) + 0.2 = x at h
  obtain ⟨q, hq, h⟩ := Py.bind_eq_ok.1 h
  have hx : x ≠ 0 := by intro e; rw [e, pdiv_zero] at hq; cases hq
  rw [pdiv_ok hx] at hq
  have hq0 : q ≠ 0 := by rw [← Except.ok.inj hq]; exact div_ne_zero hK.ne' hx
  rw [← Except.ok.inj h]
  by_cases c : q > 2.2 ∨ q < 0
  · rw [if_pos c]; norm_num
  · rw [if_neg c]
    rw [not_or] at c
    exact ⟨lt_of_le_of_ne (not_lt.1 c.2) hq0.symm, not_lt.1 c.1⟩

/-! ### Bends -/

/-- C115: a bend is the same at every scale. -/
theorem C115_bend_scale {c : ℝ} (hc : 0 < c) (Di angle Re rough : ℝ) (rc bd L : Option ℝ) :
    bend_rounded_Miller M W (c * Di) angle Re (rc.map (c * ·)) bd (c * rough) (L.map (c * ·)) = bend_rounded_Miller M W Di angle Re rc bd rough L ∧
    bend_miter_Miller M W (c * Di) angle Re (c * rough) (L.map (c * ·)) = bend_miter_Miller M W Di angle Re rough L := by
  have h1 : (rc.map (c * ·)).getD (c * Di * bd.getD 5) = c * rc.getD (Di * bd.getD 5) := by cases rc <;> simp [mul_assoc]
  have h2 : (L.map (c * ·)).getD (20 * (c * Di)) = c * L.getD (20 * Di) := by cases L <;> simp; ring
  have h3 : ∀ K L, Miller_bend_unimpeded_correction M K (c * Di) (c * L) = Miller_bend_unimpeded_correction M K Di L := by
    intro K L; unfold Miller_bend_unimpeded_correction; rw [pdiv_scale' hc.ne']
  have h4 : Miller_bend_roughness_correction W Re (c * Di) (c * rough) = Miller_bend_roughness_correction W Re Di rough := by
    unfold Miller_bend_roughness_correction; rw [pdiv_scale' hc.ne']
  constructor
  · unfold bend_rounded_Miller
    simp only [h1, h2, h3, h4, pdiv_scale' hc.ne']
  · unfold bend_miter_Miller
    simp only [h2, h3, h4]

/-- C115: what is read of the arguments: a given radius makes `bend_diameters` irrelevant, by default it is five diameters; the outlet is 20 diameters by default; radii outside
0.5..10 diameters, angles below 10° (above 120° for mitred bends), Reynolds numbers above 1e8 and outlets over 30 diameters give the same as those limits. -/
theorem C115_bend_limits (Di angle Re rough : ℝ) (hD : 0 < Di) (rc bd bd' L : Option ℝ) :
    (∀ r, bend_rounded_Miller M W Di angle Re (some r) bd rough L = bend_rounded_Miller M W Di angle Re (some r) bd' rough L) ∧
    (∀ b, bend_rounded_Miller M W Di angle Re none (some b) rough L = bend_rounded_Miller M W Di angle Re (some (Di * b)) bd rough L) ∧
    bend_rounded_Miller M W Di angle Re none none rough L = bend_rounded_Miller M W Di angle Re (some (5 * Di)) bd rough L ∧
    bend_rounded_Miller M W Di angle Re rc bd rough none = bend_rounded_Miller M W Di angle Re rc bd rough (some (20 * Di)) ∧
    (∀ r ≤ 0.5 * Di, bend_rounded_Miller M W Di angle Re (some r) bd rough L = bend_rounded_Miller M W Di angle Re (some (0.5 * Di)) bd rough L) ∧
    (∀ r ≥ 10 * Di, bend_rounded_Miller M W Di angle Re (some r) bd rough L = bend_rounded_Miller M W Di angle Re (some (10 * Di)) bd rough L) ∧
    (angle ≤ 10 → bend_rounded_Miller M W Di angle Re rc bd rough L = bend_rounded_Miller M W Di 10 Re rc bd rough L) ∧
    (1e8 ≤ Re → bend_rounded_Miller M W Di angle Re rc bd rough L = bend_rounded_Miller M W Di angle 1e8 rc bd rough L) ∧
    (∀ l ≥ 30 * Di, bend_rounded_Miller M W Di angle Re rc bd rough (some l) = bend_rounded_Miller M W Di angle Re rc bd rough (some (30 * Di))) ∧
    bend_miter_Miller M W Di angle Re rough none = bend_miter_Miller M W Di angle Re rough (some (20 * Di)) ∧
    (120 ≤ angle → bend_miter_Miller M W Di angle Re rough L = bend_miter_Miller M W Di 120 Re rough L) ∧
    (1e8 ≤ Re → bend_miter_Miller M W Di angle Re rough L = bend_miter_Miller M W Di angle 1e8 rough L) ∧
    (∀ l ≥ 30 * Di, bend_miter_Miller M W Di angle Re rough (some l) = bend_miter_Miller M W Di angle Re rough (some (30 * Di))) := by
  have hrough : 1e8 ≤ Re → Miller_bend_roughness_correction W Re Di rough = Miller_bend_roughness_correction W 1e8 Di rough := by
    intro h
    unfold Miller_bend_roughness_correction
    rw [min_eq_left (by linarith), min_eq_left (by norm_num)]
  have hRe : 1e8 ≤ Re → min (max Re 1e4) 1e8 = min (max (1e8 : ℝ) 1e4) 1e8 := by
    intro h
    rw [min_eq_right (le_max_of_le_left h), min_eq_right (le_max_left _ _)]
  have hout : ∀ K, ∀ l ≥ 30 * Di, Miller_bend_unimpeded_correction M K Di l = Miller_bend_unimpeded_correction M K Di (30 * Di) := by
    intro K l hl
    have e : 30 ≤ l / Di := by rwa [le_div_iff₀ hD]
    unfold Miller_bend_unimpeded_correction
    rw [pdiv_ok hD.ne', pdiv_ok hD.ne', Py.ok_bind, Py.ok_bind, mul_div_cancel_right₀ _ hD.ne']
    dsimp only
    have : (if l / Di > 30 then 30 else l / Di) = if (30 : ℝ) > 30 then 30 else 30 := by
      by_cases a : l / Di > 30
      · rw [if_pos a, if_neg (lt_irrefl _)]
      · rw [if_neg a, if_neg (lt_irrefl _)]; linarith
    rw [this]
  refine ⟨fun r => rfl, fun b => rfl, ?_, rfl, fun r hr => ?_, fun r hr => ?_, fun h => ?_, fun h => ?_, fun l hl => ?_, rfl, fun h => ?_, fun h => ?_, fun l hl => ?_⟩
  · unfold bend_rounded_Miller
    simp only [Option.getD_none, Option.getD_some, mul_comm]
  · have e : (if r / Di < 0.5 then 0.5 else r / Di) = (0.5 : ℝ) := by
      have : r / Di ≤ 0.5 := by rwa [div_le_iff₀ hD]
      by_cases a : r / Di < 0.5
      · rw [if_pos a]
      · rw [if_neg a]; linarith
    unfold bend_rounded_Miller
    simp only [Option.getD_some, pdiv_ok hD.ne', Py.ok_bind, mul_div_cancel_right₀ _ hD.ne', e, lt_irrefl, if_false]
  · have e : (if (if r / Di < 0.5 then 0.5 else r / Di) > 10 then 10 else (if r / Di < 0.5 then 0.5 else r / Di)) = (10 : ℝ) := by
      have : 10 ≤ r / Di := by rwa [le_div_iff₀ hD]
      rw [if_neg (show ¬ r / Di < 0.5 by norm_num; linarith)]
      by_cases a : r / Di > 10
      · rw [if_pos a]
      · rw [if_neg a]; linarith
    unfold bend_rounded_Miller
    simp only [Option.getD_some, pdiv_ok hD.ne', Py.ok_bind, mul_div_cancel_right₀ _ hD.ne', e, gt_iff_lt, lt_irrefl, if_false]
    rw [if_neg (show ¬ (10 : ℝ) < 0.5 by norm_num)]
    simp only [lt_irrefl, if_false]
  · have e : (if angle < 10 then 10 else angle) = (10 : ℝ) := by
      by_cases a : angle < 10
      · rw [if_pos a]
      · rw [if_neg a]; linarith
    unfold bend_rounded_Miller
    simp only [e, lt_irrefl, if_false]
  · unfold bend_rounded_Miller
    simp only [hrough h, hRe h]
  · unfold bend_rounded_Miller
    simp only [Option.getD_some, hout _ l hl]
  · have e : (if angle > 120 then 120 else angle) = (120 : ℝ) := by
      by_cases a : angle > 120
      · rw [if_pos a]
      · rw [if_neg a]; linarith
    unfold bend_miter_Miller
    simp only [e, gt_iff_lt, lt_irrefl, if_false]
  · unfold bend_miter_Miller
    simp only [hrough h, hRe h]
  · unfold bend_miter_Miller
    simp only [Option.getD_some, hout _ l hl]

/-- C115: below a million the coefficients of a rough and a smooth bend are in the ratio of the friction factors of the straight pipes. -/
theorem C115_bend_roughness {Di angle Re e K : ℝ} {rc bd L : Option ℝ} (hR : 0 < Re) (hR' : Re < 1e6) (hD : 0 < Di) (he : 0 ≤ e) (he' : e ≤ 0.05 * Di) :
    ∃ fr fs, fr > 0 ∧ fs > 0 ∧ friction_factor W Re (e / Di) none true = .ok fr ∧ friction_factor W Re 0 none true = .ok fs ∧
      (bend_rounded_Miller M W Di angle Re rc bd e L = .ok K → bend_rounded_Miller M W Di angle Re rc bd 0 L = .ok (K * fs / fr)) ∧
      (bend_miter_Miller M W Di angle Re e L = .ok K → bend_miter_Miller M W Di angle Re 0 L = .ok (K * fs / fr)) := by
  obtain ⟨fs, hfs, hs⟩ := C40_default_total (W := W) hR le_rfl (by norm_num) true
  obtain ⟨fr, hfr, hr⟩ := C40_default_total (W := W) hR (show 0 ≤ e / Di by positivity) (by rwa [div_le_iff₀ hD]) true
  have hC : Miller_bend_roughness_correction W Re Di e = .ok (fr / fs) := by
    unfold Miller_bend_roughness_correction
    rw [min_eq_right hR'.le]
    dsimp only
    rw [if_pos hR', hs, Py.ok_bind, pdiv_ok hD.ne', Py.ok_bind, hr, Py.ok_bind, pdiv_ok hfs.ne']
  have h1 := (C115_roughness (W := W) (e := e) hR hD).1 hR'
  refine ⟨fr, fs, hfr, hfs, hr, hs, fun h => ?_, fun h => ?_⟩
  · unfold bend_rounded_Miller at h ⊢
    obtain ⟨r0, h0, h⟩ := Py.bind_eq_ok.1 h
    dsimp only at h h0 ⊢
    rw [h0, Py.ok_bind]
    rw [hC, Py.ok_bind] at h
    rw [h1, Py.ok_bind]
    obtain ⟨x, hx, h⟩ := Py.bind_eq_ok.1 h
    obtain ⟨y, hy, h⟩ := Py.bind_eq_ok.1 h
    rw [hx, Py.ok_bind, hy, Py.ok_bind, ← Except.ok.inj h, Py.pure_eq]
    congr 1
    field_simp
  · unfold bend_miter_Miller at h ⊢
    dsimp only at h ⊢
    obtain ⟨x, hx, h⟩ := Py.bind_eq_ok.1 h
    rw [hC, Py.ok_bind] at h
    rw [hx, Py.ok_bind, h1, Py.ok_bind]
    obtain ⟨y, hy, h⟩ := Py.bind_eq_ok.1 h
    rw [hy, Py.ok_bind, ← Except.ok.inj h, Py.pure_eq]
    congr 1
    field_simp

/-- a bend that meets the hypotheses: constant graphs, angle 90, ten diameters -/
example : ∃ K > 0, bend_rounded_Miller ⟨fun _ _ => 0.3, fun _ _ => 1, fun _ _ => 1⟩ W 1 90 1e5 (some 3) none 0.001 none = .ok K := by
  obtain ⟨C, hC, hv⟩ := (C115_roughness (W := W) (Re := 1e5) (Di := 1) (e := 0.001) (by norm_num) (by norm_num)).2.2.1 (by norm_num) (by norm_num)
  have ho : Miller_bend_unimpeded_correction ⟨fun _ _ => 0.3, fun _ _ => 1, fun _ _ => 1⟩ 0.3 1 (20 * 1) = .ok 1 := by
    rw [C115_unimpeded (by norm_num) (i := 3) (by norm_num) (by simp [millerKbs]; norm_num) (by simp [millerKbs]; norm_num)]
    rw [show min (1 : ℝ) 0.3 = 0.3 by norm_num, show max (0.1 : ℝ) 0.3 = 0.3 by norm_num]
    simp [outletCurve, millerKbs, millerLimits, millerShort]
    norm_num
  refine ⟨0.3 * 1 * C * 1, by positivity, ?_⟩
  unfold bend_rounded_Miller
  simp only [Option.getD_some, Option.getD_none]
  rw [pdiv_ok (by norm_num), Py.ok_bind, hv, Py.ok_bind, ho]
  unfold millerRe
  rw [if_pos (by norm_num), Py.ok_bind, Py.ok_bind, if_neg (by norm_num), if_neg (by norm_num)]
  rfl

/-! ### Entrances, exits, coils -/

/-- C115: contractions after Miller are never negative and the same at every scale; rounding beyond a tenth of the smaller diameter changes nothing. -/
theorem C115_contraction_round {graph : ℝ → ℝ → ℝ} {Di1 Di2 rc : ℝ} (h1 : 0 < Di1) (h2 : 0 < Di2) :
    (∃ K ≥ 0, contraction_round_Miller graph Di1 Di2 rc = .ok K ∧ (0 ≤ graph ((Di2 / Di1) ^ 2) (min 0.1 (rc / Di2)) → K = graph ((Di2 / Di1) ^ 2) (min 0.1 (rc / Di2)))) ∧
    (∀ c, 0 < c → contraction_round_Miller graph (c * Di1) (c * Di2) (c * rc) = contraction_round_Miller graph Di1 Di2 rc) ∧
    (0.1 * Di2 ≤ rc → contraction_round_Miller graph Di1 Di2 rc = contraction_round_Miller graph Di1 Di2 (0.1 * Di2)) := by
  have hm : ∀ r : ℝ, (if r > 0.1 then 0.1 else r) = min 0.1 r := by
    intro r
    by_cases a : r > 0.1
    · rw [if_pos a, min_eq_left a.le]
    · rw [if_neg a, min_eq_right (not_lt.1 a)]
  have hv : ∀ d1 d2 r, 0 < d1 → 0 < d2 → contraction_round_Miller graph d1 d2 r =
      .ok (if graph ((d2 / d1) ^ 2) (min 0.1 (r / d2)) < 0 then 0 else graph ((d2 / d1) ^ 2) (min 0.1 (r / d2))) := by
    intro d1 d2 r a b
    unfold contraction_round_Miller
    rw [pdiv_ok (by positivity), Py.ok_bind, pdiv_ok b.ne', Py.ok_bind, hm, ← sq, ← sq, ← div_pow]
    rfl
  refine ⟨⟨_, ?_, hv _ _ _ h1 h2, fun h => if_neg (not_lt.2 h)⟩, fun c hc => ?_, fun h => ?_⟩
  · split_ifs with a
    · exact le_rfl
    · exact not_lt.1 a
  · rw [hv _ _ _ (by positivity) (by positivity), hv _ _ _ h1 h2, mul_div_mul_left _ _ hc.ne', mul_div_mul_left _ _ hc.ne']
  · have : (0.1 : ℝ) ≤ rc / Di2 := by rwa [le_div_iff₀ h2]
    rw [hv _ _ _ h1 h2, hv _ _ _ h1 h2, min_eq_left this, mul_div_cancel_right₀ _ h2.ne', min_self]

/-- C115: the 45° distant entrance is the same at every scale and does not change with walls thicker than 0.3 diameters, where it is 0.2301. -/
theorem C115_entrance_45 {Di Di0 : ℝ} (h : 0 < Di) :
    (∃ K, entrance_distance_45_Miller Di Di0 = .ok K) ∧ (∀ c, 0 < c → entrance_distance_45_Miller (c * Di) (c * Di0) = entrance_distance_45_Miller Di Di0) ∧
    (1.6 * Di ≤ Di0 → ∃ K, entrance_distance_45_Miller Di Di0 = .ok K ∧ |K - 0.2301| < 1e-4) := by
  refine ⟨?_, fun c hc => ?_, fun hd => ?_⟩
  · unfold entrance_distance_45_Miller
    simp only
    rw [pdiv_ok h.ne', Py.ok_bind]
    exact ⟨_, rfl⟩
  · unfold entrance_distance_45_Miller
    simp only
    rw [show 0.5 * (c * Di0 - c * Di) = c * (0.5 * (Di0 - Di)) by ring, pdiv_scale' hc.ne']
  · have e : (0.3 : ℝ) ≤ 0.5 * (Di0 - Di) / Di := by rw [le_div_iff₀ h]; linarith
    unfold entrance_distance_45_Miller
    simp only
    rw [pdiv_ok h.ne', Py.ok_bind]
    refine ⟨_, rfl, ?_⟩
    have : (if 0.5 * (Di0 - Di) / Di > 0.3 then 0.3 else 0.5 * (Di0 - Di) / Di) = (0.3 : ℝ) := by
      by_cases a : 0.5 * (Di0 - Di) / Di > 0.3
      · rw [if_pos a]
      · rw [if_neg a]; exact le_antisymm (not_lt.1 a) e
    rw [this]
    simp only [horner, distance45Coeffs, List.foldl_cons, List.foldl_nil]
    norm_num [abs_lt]

/-- C115: a beveled orifice entrance has a non-negative coefficient; without bevel (angle 0 or 90°) it is that of a sharp orifice, which for an orifice as wide as the pipe is the 0.57 of
the sharp entrance. -/
theorem C115_orifice {Di Do l angle : ℝ} (hi : 0 < Di) (ho : 0 < Do) (hl : 0 ≤ l) (hl' : l ≤ Do) :
    (0 ≤ angle → angle ≤ 90 → ∃ K ≥ 0, entrance_beveled_orifice Di Do l angle = .ok K) ∧
    (angle = 0 ∨ angle = 90 → entrance_beveled_orifice Di Do l angle = .ok (0.0696 * 1.622 ^ 2 + (1.622 - (Do / Di) ^ 2) ^ 2)) ∧
    (angle = 0 ∨ angle = 90 → Do = Di → ∃ K, entrance_beveled_orifice Di Do l angle = .ok K ∧ |K - 0.57| < 1e-4) := by
  have hr : 0 ≤ l / Do := by positivity
  have hr1 : l / Do ≤ 1 := by rwa [div_le_one ho]
  have hs : √√(l / Do) ≤ 1 := Real.sqrt_le_one.2 (Real.sqrt_le_one.2 hr1)
  have he : 0 < 1 / (1 + l / Do) := by positivity
  have hv : 0 ≤ angle → entrance_beveled_orifice Di Do l angle = .ok (0.0696 * (1 - (1 - angle / 90) * (angle / 90) ^ (1 / (1 + l / Do)) * l / Do) *
      (1 + 0.622 * (1 - (1 - angle / 90) * (angle / 90) ^ (1 / (1 + l / Do)) * (l / Do) ^ ((1 - √√(l / Do)) / 2))) ^ 2 +
      (1 + 0.622 * (1 - (1 - angle / 90) * (angle / 90) ^ (1 / (1 + l / Do)) * (l / Do) ^ ((1 - √√(l / Do)) / 2)) - (Do / Di) ^ 2) ^ 2) := by
    intro ha
    unfold entrance_beveled_orifice
    rw [pdiv_ok ho.ne', Py.ok_bind, pdiv_ok (by positivity), Py.ok_bind, ppow_ok' (by positivity) he.le, Py.ok_bind]
    dsimp only
    rw [psqrt_ok hr, Py.ok_bind, psqrt_ok (Real.sqrt_nonneg _), Py.ok_bind, ppow_ok' hr (by linarith), Py.ok_bind, pdiv_ok ho.ne', Py.ok_bind, pdiv_ok hi.ne', Py.ok_bind]
    rfl
  have hz : angle = 0 ∨ angle = 90 → entrance_beveled_orifice Di Do l angle = .ok (0.0696 * 1.622 ^ 2 + (1.622 - (Do / Di) ^ 2) ^ 2) := by
    rintro (rfl | rfl)
    · rw [hv le_rfl, zero_div, Real.zero_rpow he.ne']
      congr 1
      norm_num
    · rw [hv (by norm_num), div_self (by norm_num : (90 : ℝ) ≠ 0), Real.one_rpow]
      congr 1
      norm_num
  refine ⟨fun h0 h90 => ⟨_, ?_, hv h0⟩, hz, fun h e => ⟨_, hz h, ?_⟩⟩
  · have hx : 0 ≤ angle / 90 := by positivity
    have hx1 : angle / 90 ≤ 1 := by rw [div_le_one (by norm_num)]; exact h90
    have hp0 := Real.rpow_nonneg hx (1 / (1 + l / Do))
    have hp1 := Real.rpow_le_one hx hx1 he.le
    have hC : (1 - angle / 90) * (angle / 90) ^ (1 / (1 + l / Do)) * l / Do ≤ 1 := by
      rw [mul_div_assoc]
      have : (1 - angle / 90) * (angle / 90) ^ (1 / (1 + l / Do)) ≤ 1 := mul_le_one₀ (by linarith) hp0 hp1
      exact mul_le_one₀ this hr hr1
    have : 0 ≤ 1 - (1 - angle / 90) * (angle / 90) ^ (1 / (1 + l / Do)) * l / Do := by linarith
    positivity
  · rw [e, div_self hi.ne']
    norm_num [abs_lt]

/-- C115: a helix is proportional to its turns, each being the friction of the developed length √((2πr)² + pitch²) and a bend loss; a spiral wound in two stages adds up. -/
theorem C115_coils {Di rs pitch fd : ℝ} (hD : 0 < Di) (hp : 0 < pitch) :
    (∀ N, helix Di rs pitch N fd = .ok (N * (fd * √((2 * π * rs) ^ 2 + pitch ^ 2) / Di + 0.2 + 4.8 * fd))) ∧
    (∀ r1 r2 r3, 0 < r1 → 0 < r2 → ∃ K12 K23 K13 K22, spiral Di r2 r1 pitch fd = .ok K12 ∧ spiral Di r3 r2 pitch fd = .ok K23 ∧ spiral Di r3 r1 pitch fd = .ok K13 ∧
      spiral Di r2 r2 pitch fd = .ok K22 ∧ K13 = K12 + K23 - K22 ∧ K22 = 13.2 * fd * (Di / r2) ^ 2) ∧
    (∀ r1 r2, 0 < r1 → r1 ≤ r2 → 0 ≤ fd → ∃ K ≥ 0, spiral Di r2 r1 pitch fd = .ok K) := by
  have hs : ∀ a b, 0 < b → spiral Di a b pitch fd = .ok ((a - b) / pitch * (fd * π * (a + b) / Di + 0.2 + 4.8 * fd) + 13.2 * fd / (b / Di) ^ 2) := by
    intro a b hb
    unfold spiral
    rw [pdiv_ok hp.ne', Py.ok_bind, pdiv_ok hD.ne', Py.ok_bind, pdiv_ok hD.ne', Py.ok_bind, pdiv_ok (by positivity), Py.ok_bind, Py.pure_eq]
    norm_num
  refine ⟨fun N => ?_, fun r1 r2 r3 h1 h2 => ⟨_, _, _, _, hs _ _ h1, hs _ _ h2, hs _ _ h1, hs _ _ h2, ?_, ?_⟩, fun r1 r2 h1 h2 hf => ⟨_, ?_, hs _ _ h1⟩⟩
  · unfold helix
    rw [psqrt_ok (by positivity), Py.ok_bind, pdiv_ok hD.ne', Py.ok_bind, Py.pure_eq]
    norm_num
  · field_simp
    ring
  · field_simp
    ring
  · have : 0 ≤ r2 - r1 := by linarith
    have : 0 < r2 := by linarith
    positivity

/-! ### Contractions and diffusers -/

/-- C115: a beveled contraction without bevel is the sharp contraction, and with the bevel reaching the upstream wall the frictionless conical contraction. (Finding: for equal diameters it
raises ZeroDivisionError while both of those give zero.) -/
theorem C115_beveled (X : Charts) {Di1 Di2 angle : ℝ} (h2 : 0 < Di2) (h12 : Di2 < Di1) (ha : 0 < angle) (ha' : angle < 180) (Re fd : Option ℝ) (rough : ℝ) :
    contraction_beveled Di1 Di2 0 angle = contraction_sharp Di1 Di2 fd Re rough "Rennels" ∧
    contraction_beveled Di1 Di2 ((Di1 - Di2) / (2 * Real.tan (0.5 * (angle * (π / 180))))) angle = contraction_conical X Di1 Di2 (some 0) none (some angle) Re rough "Rennels" ∧
    (∀ l, contraction_beveled Di2 Di2 l angle = .error .zeroDivisionError) := by
  have hpi := pi_pos
  have h1 : 0 < Di1 := by linarith
  have hb : Di2 / Di1 < 1 := by rwa [div_lt_one h1]
  have hb' : (1 : ℝ) - Di2 / Di1 ≠ 0 := by linarith
  have ht : 0 < Real.tan (0.5 * (angle * (π / 180))) := Real.tan_pos_of_pos_of_lt_pi_div_two (by positivity) (by nlinarith)
  have hsn : 0 < Real.sin (0.5 * (angle * (π / 180))) := Real.sin_pos_of_pos_of_lt_pi (by positivity) (by nlinarith)
  have hpw : 0 < angle * (π / 180) / π := by positivity
  refine ⟨?_, ?_, fun l => ?_⟩
  · unfold contraction_beveled contraction_sharp
    simp only [if_true]
    rw [pdiv_ok h1.ne', Py.ok_bind, pdiv_ok h2.ne', Py.ok_bind, pdiv_ok hb', Py.ok_bind, ppow_ok hpw, Py.ok_bind, Py.ok_bind]
    simp only [zero_div, zero_mul, add_zero, mul_one, Py.pure_eq, sq]
  · unfold contraction_beveled contraction_conical
    simp only [if_true]
    have ht2 : 2 * Real.tan (0.5 * (angle * (π / 180))) ≠ 0 := by positivity
    have hs8 : 8 * Real.sin (0.5 * (angle * (π / 180))) ≠ 0 := by positivity
    simp only [pdiv_ok h1.ne', pdiv_ok h2.ne', pdiv_ok hb', pdiv_ok ht2, pdiv_ok hs8, ppow_ok hpw, fdOr, Py.pure_eq, Py.ok_bind, zero_mul]
    congr 1
    have hc : (Di1 - Di2) / (2 * Real.tan (0.5 * (angle * (π / 180)))) / Di2 * 2 * (Di2 / Di1) * Real.tan (0.5 * (angle * (π / 180))) / (1 - Di2 / Di1) = 1 := by
      have : Di1 - Di2 ≠ 0 := by linarith
      generalize Real.tan (0.5 * (angle * (π / 180))) = T at *
      rw [div_eq_one_iff_eq hb']
      field_simp
    rw [hc]
    ring
  · unfold contraction_beveled
    simp only
    rw [pdiv_ok h2.ne', Py.ok_bind, pdiv_ok h2.ne', Py.ok_bind, div_self h2.ne', sub_self, pdiv_zero, Py.error_bind]

/-- C115: a curved diffuser has a non-negative coefficient for every length, zero between equal pipes. -/
theorem C115_curved {Di1 Di2 l : ℝ} (h1 : 0 < Di1) (h12 : Di1 ≤ Di2) : (∃ K ≥ 0, diffuser_curved Di1 Di2 l = .ok K) ∧ diffuser_curved Di1 Di1 l = .ok 0 := by
  have h2 : 0 < Di2 := by linarith
  have hv : ∀ d, 0 < d → diffuser_curved Di1 d l = .ok ((1.01 - 0.624 * l / Di1 + 0.30 * (l / Di1) ^ 2 - 0.074 * (l / Di1) ^ 3 + 0.0070 * (l / Di1) ^ 4) * (1.43 - 1.3 * (Di1 / d) ^ 2) *
      (1 - (Di1 / d) ^ 2) ^ 2) := by
    intro d hd
    unfold diffuser_curved
    rw [pdiv_ok hd.ne', Py.ok_bind, pdiv_ok h1.ne', Py.ok_bind, pdiv_ok h1.ne', Py.ok_bind]
    rfl
  refine ⟨⟨_, ?_, hv _ h2⟩, ?_⟩
  · have hb : Di1 / Di2 ≤ 1 := by rwa [div_le_one h2]
    have hb0 : 0 ≤ Di1 / Di2 := by positivity
    have hx : 0 ≤ 1.01 - 0.624 * l / Di1 + 0.30 * (l / Di1) ^ 2 - 0.074 * (l / Di1) ^ 3 + 0.0070 * (l / Di1) ^ 4 := by
      rw [mul_div_assoc]
      generalize l / Di1 = x
      nlinarith [sq_nonneg (x ^ 2 - 5.2857 * x + 3), sq_nonneg (x - 2.2), sq_nonneg x, sq_nonneg (x ^ 2 - 5 * x)]
    have hy : 0 ≤ 1.43 - 1.3 * (Di1 / Di2) ^ 2 := by nlinarith
    positivity
  · rw [hv _ h1, div_self h1.ne']
    congr 1
    norm_num

/-- C115: a pipe reducer's coefficient: half the angle is arctan of the difference of diameters over 1.2 lengths, so its sine is the side over the hypotenuse; it is positive, the same at every
scale, and a missing outlet friction factor is that of the inlet. (Finding: between equal pipes it raises ZeroDivisionError.) -/
theorem C115_reducer {Di1 Di2 l fd1 : ℝ} (h1 : 0 < Di1) (h12 : Di1 < Di2) (hl : 0 < l) (hf : 0 < fd1) :
    diffuser_pipe_reducer Di1 Di2 l fd1 none = diffuser_pipe_reducer Di1 Di2 l fd1 (some fd1) ∧
    (∀ fd2, 0 ≤ fd2 → ∃ K > 0, diffuser_pipe_reducer Di1 Di2 l fd1 (some fd2) = .ok K ∧
      K = fd1 * 0.2 * l / Di1 + fd1 * √((1.2 * l) ^ 2 + (Di2 - Di1) ^ 2) / (8 * Di2) + fd2 * 0.2 * l / Di2 * (Di1 / Di2) ^ 4) ∧
    (∀ c fd2, 0 < c → diffuser_pipe_reducer (c * Di1) (c * Di2) (c * l) fd1 fd2 = diffuser_pipe_reducer Di1 Di2 l fd1 fd2) ∧
    (∀ fd2, diffuser_pipe_reducer Di1 Di1 l fd1 fd2 = .error .zeroDivisionError) := by
  have h2 : 0 < Di2 := by linarith
  refine ⟨rfl, fun fd2 hf2 => ?_, fun c fd2 hc => ?_, fun fd2 => ?_⟩
  · have hz : (Di1 - Di2) / 1.20 / l < 0 := by
      rw [div_lt_iff₀ hl, zero_mul]; linarith [div_neg_of_neg_of_pos (sub_neg.2 h12) (show (0 : ℝ) < 1.20 by norm_num)]
    have hsin : Real.sin (-2 * Real.arctan ((Di1 - Di2) / 1.20 / l) / 2) = (Di2 - Di1) / √((1.2 * l) ^ 2 + (Di2 - Di1) ^ 2) := by
      rw [show -2 * Real.arctan ((Di1 - Di2) / 1.20 / l) / 2 = Real.arctan (-((Di1 - Di2) / 1.20 / l)) by rw [Real.arctan_neg]; ring, Real.sin_arctan]
      have e : √(1 + (-((Di1 - Di2) / 1.20 / l)) ^ 2) = √((1.2 * l) ^ 2 + (Di2 - Di1) ^ 2) / (1.2 * l) := by
        rw [show 1 + (-((Di1 - Di2) / 1.20 / l)) ^ 2 = ((1.2 * l) ^ 2 + (Di2 - Di1) ^ 2) / (1.2 * l) ^ 2 by field_simp; ring, Real.sqrt_div (by positivity), Real.sqrt_sq (by positivity)]
      have hs0 : 0 < √((1.2 * l) ^ 2 + (Di2 - Di1) ^ 2) := by positivity
      rw [e]
      field_simp
      ring
    have hs0 : 0 < √((1.2 * l) ^ 2 + (Di2 - Di1) ^ 2) := by positivity
    have hd : 0 < Di2 - Di1 := by linarith
    refine ⟨_, ?_, ?_, rfl⟩
    · positivity
    · unfold diffuser_pipe_reducer
      simp only [Option.getD_some]
      rw [pdiv_ok h2.ne', Py.ok_bind, pdiv_ok hl.ne', Py.ok_bind, pdiv_ok h1.ne', Py.ok_bind, hsin, pdiv_ok (by positivity), Py.ok_bind, pdiv_ok h2.ne', Py.ok_bind, Py.pure_eq]
      congr 1
      generalize √((1.2 * l) ^ 2 + (Di2 - Di1) ^ 2) = s at *
      have : Di2 - Di1 ≠ 0 := hd.ne'
      field_simp
      ring
  · unfold diffuser_pipe_reducer
    simp only
    rw [pdiv_scale' hc.ne', show (c * Di1 - c * Di2) / 1.20 = c * ((Di1 - Di2) / 1.20) by ring, pdiv_scale' hc.ne', show fd1 * 0.20 * (c * l) = c * (fd1 * 0.20 * l) by ring, pdiv_scale' hc.ne',
      show fd2.getD fd1 * 0.20 * (c * l) = c * (fd2.getD fd1 * 0.20 * l) by ring, pdiv_scale' hc.ne']
  · unfold diffuser_pipe_reducer
    simp only
    rw [pdiv_ok h1.ne', Py.ok_bind, pdiv_ok hl.ne', Py.ok_bind, pdiv_ok h1.ne', Py.ok_bind, sub_self, zero_div, zero_div, Real.arctan_zero, mul_zero, zero_div, Real.sin_zero, pdiv_zero,
      Py.error_bind]

example : ∃ K > 0, diffuser_pipe_reducer 1 2 3 0.02 (some 0.03) = .ok K := by
  obtain ⟨K, h, hv, -⟩ := (C115_reducer (Di1 := 1) (Di2 := 2) (l := 3) (fd1 := 0.02) (by norm_num) (by norm_num) (by norm_num) (by norm_num)).2.1 0.03 (by norm_num)
  exact ⟨K, h, hv⟩

/-- C115: the Reynolds number correction of bends of between one and two diameters is 1 above 1048884.47, and above the fitted limit of that radius ratio; at the limit itself and below it is the
chart's. From two diameters on the two end points of the chart are given by constants. -/
theorem C115_reynolds_limit {rr Kb Re : ℝ} (h1 : 1 < rr) (h2 : rr < 2) :
    let limit := 2428087.757821312 * rr ^ 4 - 13637184.203693766 * rr ^ 3 + 28450331.830760233 * rr ^ 2 - 25496945.91463643 * rr + 8471761.477755375;
    (min 1048884.4656835075 limit < Re → millerRe M rr Kb Re = .ok 1) ∧ (Re ≤ min 1048884.4656835075 limit → millerRe M rr Kb Re = .ok (M.CRe Re rr)) := by
  intro limit
  have hl : horner millerLimitCoeffs rr = limit := by
    simp only [millerLimitCoeffs, horner, List.foldl, limit]
    ring
  unfold millerRe
  rw [if_neg (by linarith), if_neg (by linarith), hl]
  constructor
  · intro h
    rcases min_lt_iff.1 h with g | g
    · rw [if_pos g]
    · split_ifs <;> rfl
  · intro h
    rw [if_neg (not_lt.2 (le_min_iff.1 h).1), if_neg (not_lt.2 (le_min_iff.1 h).2)]

example : millerRe M 1.5 1 1e7 = .ok 1 := (C115_reynolds_limit (by norm_num) (by norm_num)).1 (lt_of_le_of_lt (min_le_left _ _) (by norm_num))

end Verif.Fittings
