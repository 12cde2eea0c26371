import Verif.Lemmas.Poly
import Mathlib.Analysis.SpecialFunctions.ExpDeriv
import Mathlib.Analysis.SpecialFunctions.Log.Deriv

namespace Verif
open Polynomial

/-- successive derivatives on an open set are the iterated derivative -/
theorem iteratedDeriv_of_open {U : Set ℝ} (hU : IsOpen U) (F : ℕ → ℝ → ℝ) (N : ℕ)
    (h : ∀ n < N, ∀ t ∈ U, HasDerivAt (F n) (F (n + 1) t) t) :
    ∀ n ≤ N, ∀ t ∈ U, iteratedDeriv n (F 0) t = F n t := by
  intro n
  induction n with
  | zero => intro _ t _; simp
  | succ n ih =>
    intro hn t ht
    rw [iteratedDeriv_succ]
    have : iteratedDeriv n (F 0) =ᶠ[nhds t] F n := by
      filter_upwards [hU.mem_nhds ht] with s hs using ih (by omega) s hs
    rw [this.deriv_eq]
    exact (h n (by omega) t ht).deriv

theorem hasDerivAt_poly (q : ℝ[X]) (k : ℕ) (t : ℝ) :
    HasDerivAt (fun s => (derivative^[k] q).eval s) ((derivative^[k + 1] q).eval t) t := by
  rw [Function.iterate_succ_apply']
  exact (derivative^[k] q).hasDerivAt t

theorem poly_iteratedDeriv (q : ℝ[X]) (k : ℕ) (t : ℝ) :
    iteratedDeriv k (fun s => q.eval s) t = (derivative^[k] q).eval t :=
  iteratedDeriv_of_open isOpen_univ (fun k s => (derivative^[k] q).eval s) k
    (fun n _ t _ => hasDerivAt_poly q n t) k le_rfl t trivial

theorem exp_poly_ders (q : ℝ[X]) (t : ℝ) :
    let F := fun s => Real.exp (q.eval s)
    let p1 := (derivative q).eval t
    let p2 := (derivative^[2] q).eval t
    let p3 := (derivative^[3] q).eval t
    deriv F t = p1 * F t ∧ iteratedDeriv 2 F t = (p1 * p1 + p2) * F t ∧
      iteratedDeriv 3 F t = (p1 * p1 * p1 + 3 * p1 * p2 + p3) * F t := by
  intro F p1 p2 p3
  let G : ℕ → ℝ → ℝ := fun n s => match n with
    | 0 => F s
    | 1 => (derivative^[1] q).eval s * F s
    | 2 => ((derivative^[1] q).eval s * (derivative^[1] q).eval s + (derivative^[2] q).eval s) * F s
    | _ => ((derivative^[1] q).eval s * (derivative^[1] q).eval s * (derivative^[1] q).eval s
        + 3 * (derivative^[1] q).eval s * (derivative^[2] q).eval s + (derivative^[3] q).eval s) * F s
  have hF : ∀ s, HasDerivAt F ((derivative^[1] q).eval s * F s) s := fun s => by
    have := (hasDerivAt_poly q 0 s).exp
    simp only [Function.iterate_zero, id] at this
    rw [mul_comm]; exact this
  have h : ∀ n < 3, ∀ s ∈ Set.univ, HasDerivAt (G n) (G (n + 1) s) s := by
    intro n hn s _
    interval_cases n
    · exact hF s
    · refine ((hasDerivAt_poly q 1 s).mul (hF s)).congr_deriv ?_
      simp only [G]; ring
    · refine ((((hasDerivAt_poly q 1 s).mul (hasDerivAt_poly q 1 s)).add (hasDerivAt_poly q 2 s)).mul
        (hF s)).congr_deriv ?_
      simp only [G, Pi.add_apply, Pi.mul_apply]; ring
  have key := iteratedDeriv_of_open isOpen_univ G 3 h
  have h1 := key 1 (by norm_num) t trivial
  rw [iteratedDeriv_one] at h1
  exact ⟨h1, key 2 (by norm_num) t trivial, key 3 (by norm_num) t trivial⟩

theorem lntau_deriv {T Tc : ℝ} (hc : 0 < Tc) (hT : T < Tc) :
    HasDerivAt (fun s => Real.log (1 - s / Tc)) (-(1 / (Tc - T))) T := by
  have h1 : (0 : ℝ) < 1 - T / Tc := by rw [sub_pos, div_lt_one hc]; exact hT
  have h0 : HasDerivAt (fun s : ℝ => 1 - s / Tc) (-(1 / Tc)) T := by
    have := ((hasDerivAt_id T).div_const Tc).const_sub 1
    simpa using this
  refine (h0.log h1.ne').congr_deriv ?_
  have : Tc - T ≠ 0 := by linarith
  have h2 : 1 - T / Tc ≠ 0 := h1.ne'
  have h3 : 1 - T / Tc = (Tc - T) / Tc := by field_simp
  rw [h3]; field_simp

theorem inv_pow_deriv {T Tc : ℝ} (hT : T < Tc) (n : ℕ) :
    HasDerivAt (fun s => 1 / (Tc - s) ^ n) (n / (Tc - T) ^ (n + 1)) T := by
  have h : Tc - T ≠ 0 := by linarith
  have h0 : HasDerivAt (fun s : ℝ => Tc - s) (-1) T := by
    simpa using (hasDerivAt_id T).const_sub Tc
  have := (h0.pow n).inv (pow_ne_zero n h)
  simp only [one_div]
  refine this.congr_deriv ?_
  rcases n with _ | n
  · simp
  · field_simp; simp; ring

/-- derivatives of `q(ln(1 - T/Tc))` -/
theorem lntau_poly_ders (q : ℝ[X]) {T Tc : ℝ} (hc : 0 < Tc) (hT : T < Tc) :
    let L := fun s => Real.log (1 - s / Tc)
    let F := fun s => q.eval (L s)
    let p1 := (derivative q).eval (L T)
    let p2 := (derivative^[2] q).eval (L T)
    let p3 := (derivative^[3] q).eval (L T)
    deriv F T = -p1 / (Tc - T) ∧ iteratedDeriv 2 F T = (-p1 + p2) / (Tc - T) ^ 2 ∧
      iteratedDeriv 3 F T = -(2 * p1 - 3 * p2 + p3) / (Tc - T) ^ 3 := by
  intro L F p1 p2 p3
  let P : ℕ → ℝ → ℝ := fun k s => (derivative^[k] q).eval (L s)
  have hP : ∀ k s, s < Tc → HasDerivAt (P k) (-(P (k + 1) s) * (1 / (Tc - s) ^ 1)) s := fun k s hs => by
    refine ((hasDerivAt_poly q k (L s)).comp s (lntau_deriv hc hs)).congr_deriv ?_
    simp only [P]; ring
  let G : ℕ → ℝ → ℝ := fun n s => match n with
    | 0 => P 0 s
    | 1 => -P 1 s * (1 / (Tc - s) ^ 1)
    | 2 => (-P 1 s + P 2 s) * (1 / (Tc - s) ^ 2)
    | _ => -(2 * P 1 s - 3 * P 2 s + P 3 s) * (1 / (Tc - s) ^ 3)
  have h : ∀ n < 3, ∀ s ∈ Set.Iio Tc, HasDerivAt (G n) (G (n + 1) s) s := by
    intro n hn s hs
    have hs' : s < Tc := hs
    have hne : Tc - s ≠ 0 := by linarith
    interval_cases n
    · exact hP 0 s hs
    · refine ((hP 1 s hs).neg.mul (inv_pow_deriv hs' 1)).congr_deriv ?_
      simp only [G, Pi.neg_apply]; push_cast; field_simp; ring
    · refine (((hP 1 s hs).neg.add (hP 2 s hs)).mul (inv_pow_deriv hs' 2)).congr_deriv ?_
      simp only [G, Pi.neg_apply, Pi.add_apply]; push_cast; field_simp; ring
  have key := iteratedDeriv_of_open isOpen_Iio G 3 h
  have h1 := key 1 (by norm_num) T hT
  rw [iteratedDeriv_one] at h1
  refine ⟨?_, ?_, ?_⟩
  · rw [show F = G 0 from rfl, h1]; simp only [G, P, p1]; simp; ring
  · rw [show F = G 0 from rfl, key 2 (by norm_num) T hT]; simp only [G, P, p1, p2]; simp; ring
  · rw [show F = G 0 from rfl, key 3 (by norm_num) T hT]; simp only [G, P, p1, p2, p3]; simp; ring

/-- derivatives of `exp(q(ln(1 - T/Tc)))` -/
theorem exp_lntau_poly_ders (q : ℝ[X]) {T Tc : ℝ} (hc : 0 < Tc) (hT : T < Tc) :
    let L := fun s => Real.log (1 - s / Tc)
    let F := fun s => Real.exp (q.eval (L s))
    let p1 := (derivative q).eval (L T)
    let p2 := (derivative^[2] q).eval (L T)
    deriv F T = -F T * p1 / (Tc - T) ∧ iteratedDeriv 2 F T = (p1 * p1 - p1 + p2) * F T / (Tc - T) ^ 2 := by
  intro L F p1 p2
  let P : ℕ → ℝ → ℝ := fun k s => (derivative^[k] q).eval (L s)
  have hP : ∀ k s, s < Tc → HasDerivAt (P k) (-(P (k + 1) s) * (1 / (Tc - s) ^ 1)) s := fun k s hs => by
    refine ((hasDerivAt_poly q k (L s)).comp s (lntau_deriv hc hs)).congr_deriv ?_
    simp only [P]; ring
  have hF : ∀ s, s < Tc → HasDerivAt F (F s * (-(P 1 s) * (1 / (Tc - s) ^ 1))) s := fun s hs => (hP 0 s hs).exp
  let G : ℕ → ℝ → ℝ := fun n s => match n with
    | 0 => F s
    | 1 => F s * (-(P 1 s) * (1 / (Tc - s) ^ 1))
    | _ => (P 1 s * P 1 s - P 1 s + P 2 s) * F s * (1 / (Tc - s) ^ 2)
  have h : ∀ n < 2, ∀ s ∈ Set.Iio Tc, HasDerivAt (G n) (G (n + 1) s) s := by
    intro n hn s hs
    have hs' : s < Tc := hs
    have hne : Tc - s ≠ 0 := by linarith
    interval_cases n
    · exact hF s hs
    · refine ((hF s hs).mul ((hP 1 s hs).neg.mul (inv_pow_deriv hs' 1))).congr_deriv ?_
      simp only [G, Pi.neg_apply, Pi.mul_apply]; push_cast; field_simp; ring
  have key := iteratedDeriv_of_open isOpen_Iio G 2 h
  have h1 := key 1 (by norm_num) T hT
  rw [iteratedDeriv_one] at h1
  refine ⟨?_, ?_⟩
  · rw [show F = G 0 from rfl, h1]; simp only [G, P, p1]; simp; ring
  · rw [show F = G 0 from rfl, key 2 (by norm_num) T hT]; simp only [G, P, p1, p2]; simp; ring

end Verif
