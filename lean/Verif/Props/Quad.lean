import Verif.Model.Quad
import Verif.Lemmas.ListIdx
import Verif.Props.Translate
import Mathlib.Analysis.SpecialFunctions.Integrals.Basic
import Mathlib.Topology.Algebra.Polynomial
import Mathlib.MeasureTheory.Integral.IntervalIntegral.FundThmCalculus

/-! # C33: adaptive quadrature -/

namespace Verif.Quad
open Verif.Translate (idx idx_ok)

section Generic
variable {K : Type _} [Field K] [LinearOrder K]

/-- Specification: a quadrature rule on `[-1, 1]` given by nodes and weights, moved to `[u, v]` -/
def rule (pts ws : List K) (g : K → K) (u v : K) : K :=
  (v - u) / 2 * (List.zipWith (fun p w => w * g (((1 - p) * u + (1 + p) * v) / 2)) pts ws).sum

/-- Specification: `cells` are consecutive intervals leading from `a` to `b` -/
inductive Cells : K → K → List (K × K) → Prop
  | one (a b : K) : Cells a b [(a, b)]
  | append {a m b : K} {l r : List (K × K)} : Cells a m l → Cells m b r → Cells a b (l ++ r)

theorem gkLoop_spec [CharZero K] (g : K → K) (a b fact : K) (kw lw : List K) (ps : List K) : ∀ i vk vl k,
    i + ps.length ≤ kw.length → k + ((i + ps.length) / 2 - i / 2) ≤ lw.length →
    ∃ vl', gkLoop (fun x => .ok (g x)) a b fact kw lw ps i vk vl k =
      .ok (vk + fact * (List.zipWith (fun p w => w * g (((1 - p) * a + (1 + p) * b) / 2)) ps (kw.drop i)).sum, vl') := by
  induction ps with
  | nil => intro i vk vl k _ _; exact ⟨vl, by simp [gkLoop]⟩
  | cons p ps ih =>
    intro i vk vl k h1 h2
    simp only [List.length_cons] at h1 h2
    have hx : a * ((1/2) * (1 - p)) + b * ((1/2) * (1 + p)) = ((1 - p) * a + (1 + p) * b) / 2 := by field_simp
    have hd : kw.drop i = kw.getD i 0 :: kw.drop (i + 1) := by
      rw [List.getD_eq_getElem _ _ (by omega), ← List.drop_eq_getElem_cons]
    have hs : ∀ vk, vk + fact * (List.zipWith (fun p w => w * g (((1 - p) * a + (1 + p) * b) / 2)) (p :: ps) (kw.drop i)).sum =
        vk + fact * g (((1 - p) * a + (1 + p) * b) / 2) * kw.getD i 0 +
          fact * (List.zipWith (fun p w => w * g (((1 - p) * a + (1 + p) * b) / 2)) ps (kw.drop (i + 1))).sum := by
      intro vk; rw [hd]; simp only [List.zipWith_cons_cons, List.sum_cons]; ring
    rw [hs]
    simp only [gkLoop, Py.ok_bind, hx, idx_ok (0 : K) (show i < kw.length by omega)]
    split_ifs with hi
    · rw [idx_ok (0 : K) (show k < lw.length by omega)]
      exact ih _ _ _ _ (by omega) (by omega)
    · exact ih _ _ _ _ (by omega) (by omega)

/-- The tables fit together: as many weights as points, a Legendre weight for every second point. -/
structure Tables (pts kw lw : List K) : Prop where
  kw_len : kw.length = pts.length
  lw_len : pts.length / 2 ≤ lw.length

/-- C33: the fixed rule is the weighted sum it should be, for all tables, integrands and intervals. -/
theorem C33_fixed_rule [CharZero K] {pts kw lw : List K} (ht : Tables pts kw lw) (g : K → K) (a b : K) :
    ∃ e, fixed_quad_Gauss_Kronrod (fun x => .ok (g x)) a b pts kw lw = .ok (rule pts kw g a b, e) := by
  obtain ⟨vl, h⟩ := gkLoop_spec g a b (1/2 * (b - a)) kw lw pts 0 0 0 0 (by simp [ht.kw_len]) (by simpa using ht.lw_len)
  refine ⟨rule pts kw g a b - vl, ?_⟩
  simp only [fixed_quad_Gauss_Kronrod, h, Py.ok_bind, Py.pure_eq, List.drop_zero, zero_add]
  rw [rule, show 1/2 * (b - a) = (b - a) / 2 by ring]

theorem quadLoop_spec [CharZero K] {pts kw lw : List K} (ht : Tables pts kw lw) (g : K → K) (epsrel : K) (left : ℕ) : ∀ epsabs a b,
    ∃ cells e, quadLoop (fun x => .ok (g x)) pts kw lw epsrel left epsabs a b =
        .ok ((cells.map fun c => rule pts kw g c.1 c.2).sum, e) ∧ Cells a b cells ∧ cells.length ≤ 2 ^ left ∧
      ∀ c ∈ cells, ∃ j ≤ left, c.2 - c.1 = (b - a) / 2 ^ j := by
  induction left with
  | zero =>
    intro epsabs a b
    obtain ⟨e, h⟩ := C33_fixed_rule ht g a b
    exact ⟨[(a, b)], e, by simpa [quadLoop] using h, .one a b, by simp, by simp⟩
  | succ left ih =>
    intro epsabs a b
    obtain ⟨e, h⟩ := C33_fixed_rule ht g a b
    simp only [quadLoop, h, Py.ok_bind]
    split_ifs with hc
    · exact ⟨[(a, b)], e, by simp, .one a b, by simpa using Nat.one_le_two_pow, by
        intro c hc; simp only [List.mem_singleton] at hc; subst hc; exact ⟨0, by omega, by simp⟩⟩
    · obtain ⟨c1, e1, h1, h2, h3, h4⟩ := ih (epsabs * (1/2)) a (a + (b - a) * (1/2))
      obtain ⟨c2, e2, k1, k2, k3, k4⟩ := ih (epsabs * (1/2)) (a + (b - a) * (1/2)) b
      refine ⟨c1 ++ c2, |e1| + |e2|, by simp only [h1, k1, Py.ok_bind, Py.pure_eq, List.map_append, List.sum_append], h2.append k2, by simp [pow_succ]; omega, ?_⟩
      intro c hc
      rcases List.mem_append.mp hc with hc | hc
      · obtain ⟨j, hj, hw⟩ := h4 c hc
        exact ⟨j + 1, by omega, by rw [hw]; field_simp; ring⟩
      · obtain ⟨j, hj, hw⟩ := k4 c hc
        exact ⟨j + 1, by omega, by rw [hw]; field_simp; ring⟩

/-- C33: on every integrand that does not raise, with every tolerance, `quad_adaptive` returns the sum of the fixed rule over a partition of
`[a, b]` into at most 128 cells, each a halving of the interval at most seven times. -/
theorem C33_additive [CharZero K] {pts kw lw : List K} (ht : Tables pts kw lw) (g : K → K) (a b epsrel epsabs : K) (depth : ℕ) :
    ∃ cells e, quad_adaptive (fun x => .ok (g x)) a b pts kw lw epsrel epsabs depth =
        .ok ((cells.map fun c => rule pts kw g c.1 c.2).sum, e) ∧ Cells a b cells ∧ cells.length ≤ 128 ∧
      ∀ c ∈ cells, ∃ j ≤ 7, c.2 - c.1 = (b - a) / 2 ^ j := by
  obtain ⟨cells, e, h1, h2, h3, h4⟩ := quadLoop_spec ht g epsrel (7 - depth) epsabs a b
  refine ⟨cells, e, h1, h2, h3.trans ?_, fun c hc => ?_⟩
  · calc 2 ^ (7 - depth) ≤ 2 ^ 7 := Nat.pow_le_pow_right (by norm_num) (by omega)
      _ = 128 := by norm_num
  · obtain ⟨j, hj, hw⟩ := h4 c hc
    exact ⟨j, by omega, hw⟩

theorem Cells.telescope {a b : K} {cells : List (K × K)} (h : Cells a b cells) (G : K → K) (r : K → K → K)
    (hr : ∀ u v, r u v = G v - G u) : (cells.map fun c => r c.1 c.2).sum = G b - G a := by
  induction h with
  | one a b => simp [hr]
  | append _ _ h1 h2 => rw [List.map_append, List.sum_append, h1, h2]; ring

/-- C33: if the fixed rule is exact for the integrand on every interval (`G` being a primitive), so is `quad_adaptive`, whatever the
tolerances and depth. -/
theorem C33_exact [CharZero K] {pts kw lw : List K} (ht : Tables pts kw lw) (g G : K → K) (hG : ∀ u v, rule pts kw g u v = G v - G u)
    (a b epsrel epsabs : K) (depth : ℕ) :
    ∃ e, quad_adaptive (fun x => .ok (g x)) a b pts kw lw epsrel epsabs depth = .ok (G b - G a, e) := by
  obtain ⟨cells, e, h1, h2, -⟩ := C33_additive ht g a b epsrel epsabs depth
  exact ⟨e, by rw [h1, h2.telescope G _ hG]⟩

end Generic

section Support
variable {K : Type _} [Field K] [LinearOrder K] [IsStrictOrderedRing K]

theorem gkLoop_congr (f g : K → Py K) (a b fact : K) (kw lw : List K) (ps : List K)
    (hp : ∀ p ∈ ps, -1 ≤ p ∧ p ≤ 1) (hfg : ∀ x, min a b ≤ x → x ≤ max a b → f x = g x) : ∀ i vk vl k,
    gkLoop f a b fact kw lw ps i vk vl k = gkLoop g a b fact kw lw ps i vk vl k := by
  induction ps with
  | nil => intros; rfl
  | cons p ps ih =>
    intro i vk vl k
    obtain ⟨h1, h2⟩ := hp p (by simp)
    have h3 : f (a * (1 / 2 * (1 - p)) + b * (1 / 2 * (1 + p))) = g (a * (1 / 2 * (1 - p)) + b * (1 / 2 * (1 + p))) := by
      apply hfg
      · rcases le_total a b with h | h
        · rw [min_eq_left h]; nlinarith
        · rw [min_eq_right h]; nlinarith
      · rcases le_total a b with h | h
        · rw [max_eq_right h]; nlinarith
        · rw [max_eq_left h]; nlinarith
    simp only [gkLoop, h3]
    rcases g _ with e | y
    · rfl
    simp only [Py.ok_bind]
    rcases idx kw i with e | w
    · rfl
    simp only [Py.ok_bind]
    have ih' := ih (fun p hp' => hp p (by simp [hp']))
    split_ifs
    · rcases idx lw k with e | l
      · rfl
      · simp only [Py.ok_bind]; exact ih' _ _ _ _
    · exact ih' _ _ _ _

/-- C33: with nodes in `[-1, 1]`, the integrand is only ever evaluated between `a` and `b`: integrands that agree there, errors included, get
the same answer. -/
theorem C33_support (f g : K → Py K) (pts kw lw : List K) (hp : ∀ p ∈ pts, -1 ≤ p ∧ p ≤ 1) (epsrel epsabs : K) (depth : ℕ) (a b : K)
    (hfg : ∀ x, min a b ≤ x → x ≤ max a b → f x = g x) :
    quad_adaptive f a b pts kw lw epsrel epsabs depth = quad_adaptive g a b pts kw lw epsrel epsabs depth := by
  have h1 : ∀ a b, (∀ x, min a b ≤ x → x ≤ max a b → f x = g x) →
      fixed_quad_Gauss_Kronrod f a b pts kw lw = fixed_quad_Gauss_Kronrod g a b pts kw lw := by
    intro a b h
    simp only [fixed_quad_Gauss_Kronrod, gkLoop_congr f g a b _ kw lw pts hp h]
  simp only [quad_adaptive]
  generalize 7 - depth = left
  induction left generalizing a b epsabs with
  | zero => exact h1 a b hfg
  | succ left ih =>
    have hm : min a b ≤ a + (b - a) * (1/2) ∧ a + (b - a) * (1/2) ≤ max a b := by
      rcases le_total a b with h | h
      · rw [min_eq_left h, max_eq_right h]; constructor <;> linarith
      · rw [min_eq_right h, max_eq_left h]; constructor <;> linarith
    simp only [quadLoop, h1 a b hfg]
    rw [ih _ a _ (fun x h2 h3 => hfg x ((le_min (min_le_left _ _) hm.1).trans h2) (h3.trans (max_le (le_max_left _ _) hm.2))),
      ih _ _ b (fun x h2 h3 => hfg x ((le_min hm.1 (min_le_right _ _)).trans h2) (h3.trans (max_le hm.2 (le_max_right _ _))))]

end Support

section Real
open Polynomial

/-- C33: a rule whose moments on `[-1, 1]` are exact up to degree `d` integrates every polynomial of degree at most `d` exactly over every
interval, and so does `quad_adaptive` built on it. -/
theorem C33_polynomials {pts kw lw : List ℝ} (ht : Tables pts kw lw) (d : ℕ)
    (hmom : ∀ m ≤ d, (List.zipWith (fun p w => w * p ^ m) pts kw).sum = ∫ x in (-1 : ℝ)..1, x ^ m)
    (q : ℝ[X]) (hq : q.natDegree ≤ d) (a b epsrel epsabs : ℝ) (depth : ℕ) :
    ∃ e, quad_adaptive (fun x => .ok (q.eval x)) a b pts kw lw epsrel epsabs depth = .ok (∫ x in a..b, q.eval x, e) := by
  have hint : ∀ (r : ℝ[X]) u v, IntervalIntegrable (fun x => r.eval x) MeasureTheory.volume u v :=
    fun r u v => r.continuous.intervalIntegrable u v
  have zsum : ∀ (r : ℝ[X]), r.natDegree ≤ d → (List.zipWith (fun p w => w * r.eval p) pts kw).sum = ∫ x in (-1 : ℝ)..1, r.eval x := by
    intro r hr
    have h1 : ∀ p, r.eval p = ∑ m ∈ Finset.range (d + 1), r.coeff m * p ^ m := fun p => by
      rw [eval_eq_sum_range' (Nat.lt_succ_of_le hr)]
    simp only [h1]
    rw [intervalIntegral.integral_finset_sum (fun m _ => ((continuous_pow m).const_mul _).intervalIntegrable _ _)]
    have h2 : ∀ (ps ws : List ℝ), (List.zipWith (fun p w => w * ∑ m ∈ Finset.range (d + 1), r.coeff m * p ^ m) ps ws).sum =
        ∑ m ∈ Finset.range (d + 1), r.coeff m * (List.zipWith (fun p w => w * p ^ m) ps ws).sum := by
      intro ps
      induction ps with
      | nil => simp
      | cons p ps ih =>
        intro ws
        cases ws with
        | nil => simp
        | cons w ws =>
          simp only [List.zipWith_cons_cons, List.sum_cons, ih, mul_add, Finset.sum_add_distrib]
          congr 1
          rw [Finset.mul_sum]
          exact Finset.sum_congr rfl fun m _ => by ring
    rw [h2]
    refine Finset.sum_congr rfl fun m hm => ?_
    rw [hmom m (by simpa [Nat.lt_succ_iff] using hm), intervalIntegral.integral_const_mul]
  have hx : ∀ u v, rule pts kw (fun x => q.eval x) u v = (∫ x in (0:ℝ)..v, q.eval x) - ∫ x in (0:ℝ)..u, q.eval x := by
    intro u v
    rw [intervalIntegral.integral_interval_sub_left (hint q _ _) (hint q _ _)]
    have h3 := zsum (q.comp (C ((v - u) / 2) * X + C ((u + v) / 2))) (by
      refine natDegree_comp_le.trans ?_
      calc q.natDegree * (C ((v - u) / 2) * X + C ((u + v) / 2)).natDegree ≤ q.natDegree * 1 :=
            Nat.mul_le_mul_left _ natDegree_linear_le
        _ ≤ d := by omega)
    simp only [eval_comp, eval_add, eval_mul, eval_C, eval_X] at h3
    have h4 : ∀ p : ℝ, ((1 - p) * u + (1 + p) * v) / 2 = (v - u) / 2 * p + (u + v) / 2 := fun p => by ring
    simp only [rule, h4, h3]
    rw [intervalIntegral.mul_integral_comp_mul_add (f := fun x => q.eval x)]
    congr 1 <;> ring
  obtain ⟨e, he⟩ := C33_exact ht (fun x => q.eval x) (fun v => ∫ x in (0:ℝ)..v, q.eval x) hx a b epsrel epsabs depth
  refine ⟨e, ?_⟩
  rw [he, intervalIntegral.integral_interval_sub_left (hint q _ _) (hint q _ _)]

/-- The rule with nodes `-1, 0, 1` (Simpson) satisfies the hypotheses with `d = 3`. -/
example : Tables [-1, 0, 1] [1/3, 4/3, (1/3 : ℝ)] [2] ∧
    ∀ m ≤ 3, (List.zipWith (fun p w => w * p ^ m) [-1, 0, 1] [1/3, 4/3, (1/3 : ℝ)]).sum = ∫ x in (-1 : ℝ)..1, x ^ m := by
  refine ⟨⟨rfl, by norm_num⟩, fun m hm => ?_⟩
  rw [integral_pow]
  interval_cases m <;> norm_num

end Real

example : quad_adaptive (fun x : ℚ => .ok (x * x * x * x)) 0 1 [-1, 0, 1] [1/3, 4/3, 1/3] [2] (1/10) (1/10) 0 = .ok (77/384, 31/768) := by
  decide +kernel

end Verif.Quad
