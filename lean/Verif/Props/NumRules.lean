import Verif.Model.NumHelpers
import Verif.Props.FiniteDiff
import Verif.Props.Quad
import Verif.Props.Sequences
import Mathlib.LinearAlgebra.Vandermonde

/-! # C132: generated difference weights and repeated integrals -/

namespace Verif.NumHelpers
open Verif Verif.FiniteDiff

/-! ### weights of central differences -/

theorem wsum_ofFn (g : ℤ → ℝ) : ∀ (n : ℕ) (w : Fin n → ℝ) (i : ℤ), wsum g i (List.ofFn w) = ∑ k : Fin n, w k * g (i + (k : ℕ))
  | 0, w, i => by simp [wsum]
  | n + 1, w, i => by
    rw [List.ofFn_succ, wsum, wsum_ofFn g n, Fin.sum_univ_succ]
    congr 1
    · simp
    · refine Finset.sum_congr rfl fun k _ => ?_
      rw [Fin.val_succ]; push_cast; ring_nf

theorem diffMatrix_det (points : ℕ) : IsUnit (diffMatrix points).det := by
  have : diffMatrix points = Matrix.vandermonde fun i : Fin points => (i : ℝ) - ((points / 2 : ℕ) : ℝ) := by
    ext i j; simp [diffMatrix, Matrix.vandermonde]
  rw [this, isUnit_iff_ne_zero, Matrix.det_vandermonde_ne_zero_iff]
  intro i j h
  have : (i : ℝ) = (j : ℝ) := by simpa using h
  exact Fin.ext (by exact_mod_cast this)

theorem weights_moments (points n : ℕ) (h1 : n < points) (h2 : points % 2 = 1) :
    ∃ w, central_diff_weights points n = .ok w ∧ w.length = points ∧
      ∀ j < points, wsum (fun i : ℤ => (i : ℝ) ^ j) (-((points / 2 : ℕ) : ℤ)) w = if j = n then (n.factorial : ℝ) else 0 := by
  unfold central_diff_weights
  rw [if_neg (by omega), if_neg (by omega)]
  refine ⟨_, rfl, by simp, fun j hj => ?_⟩
  have hf : Seq.product ((List.range n).map fun i => ((i + 1 : ℕ) : ℝ)) = (n.factorial : ℝ) := by
    rw [C20_product]
    induction n with
    | zero => simp
    | succ n ih => rw [List.range_succ, List.map_append, List.prod_append, ih (by omega), Nat.factorial_succ]; simp; ring
  rw [wsum_ofFn, hf]
  simp only [dif_pos h1]
  have hinv := Matrix.nonsing_inv_mul (diffMatrix points) (diffMatrix_det points)
  have hij := congrFun (congrFun hinv ⟨n, h1⟩) ⟨j, hj⟩
  rw [Matrix.mul_apply] at hij
  calc _ = (n.factorial : ℝ) * ∑ k : Fin points, (diffMatrix points)⁻¹ ⟨n, h1⟩ k * diffMatrix points k ⟨j, hj⟩ := by
        rw [Finset.mul_sum]
        refine Finset.sum_congr rfl fun k _ => ?_
        rw [show diffMatrix points k ⟨j, hj⟩ = ((k : ℝ) - ((points / 2 : ℕ) : ℝ)) ^ j from rfl]
        rw [Int.cast_add, Int.cast_neg, Int.cast_natCast, Int.cast_natCast, show -((points / 2 : ℕ) : ℝ) + ((k : ℕ) : ℝ) = ((k : ℕ) : ℝ) - ((points / 2 : ℕ) : ℝ) by ring]
        ring
    _ = _ := by
        rw [hij, Matrix.one_apply]
        by_cases h : j = n
        · subst h; simp
        · rw [if_neg h, if_neg (by intro e; exact h (Fin.mk.inj_iff.1 e).symm), mul_zero]

/-- C132: the generated weights of a central difference are exact: for an odd number of points greater than the order of the derivative, the weighted sum of the values of any polynomial of lower degree at the integers about zero is its derivative at zero. Too few points, or an even number, raise `ValueError`. -/
theorem C132_central_diff_weights (points n : ℕ) :
    ((points < n + 1 ∨ points % 2 = 0) → central_diff_weights points n = .error .valueError) ∧
    (n < points → points % 2 = 1 → ∃ w, central_diff_weights points n = .ok w ∧ w.length = points ∧
      ∀ p : Polynomial ℝ, p.natDegree < points → ∑ k ∈ Finset.range points, w.getD k 0 * p.eval ((k : ℝ) - ((points / 2 : ℕ) : ℝ)) = (Polynomial.derivative^[n] p).eval 0) := by
  refine ⟨?_, fun h1 h2 => ?_⟩
  · rintro (h | h)
    · unfold central_diff_weights; rw [if_pos h]
    · unfold central_diff_weights; split_ifs <;> rfl
  · obtain ⟨w, hw, hl, hm⟩ := weights_moments points n h1 h2
    refine ⟨w, hw, hl, fun p hp => ?_⟩
    have := wsum_exact p 0 1 n points _ w hp h1 hm
    rw [one_pow, mul_one] at this
    rw [← this]
    have hw' : w = List.ofFn fun k : Fin points => w.getD k 0 := by
      apply List.ext_getElem <;> simp [hl]
    conv_rhs => rw [hw', wsum_ofFn]
    rw [← Fin.sum_univ_eq_sum_range (fun k => w.getD k 0 * p.eval ((k : ℝ) - ((points / 2 : ℕ) : ℝ)))]
    refine Finset.sum_congr rfl fun k _ => ?_
    congr 2
    rw [Int.cast_add, Int.cast_neg, Int.cast_natCast, Int.cast_natCast]; ring

/-- C132: with these weights `derivative` is exact, for every order of the derivative and every number of points that is not in its table, on polynomials of degree below the number of points, at every point with every step. -/
theorem C132_derivative (n order : ℕ) (h1 : n < order) (h2 : order % 2 = 1) (ht : weightTable.lookup (n, order) = none) (p : Polynomial ℝ) (hp : p.natDegree < order) (x0 dx : ℝ) (hdx : dx ≠ 0) :
    derivative central_diff_weights (fun x => .ok (p.eval x)) x0 dx n order = .ok ((Polynomial.derivative^[n] p).eval x0) := by
  obtain ⟨w, hw, hl, hm⟩ := weights_moments order n h1 h2
  unfold derivative weights
  simp only [ht]
  rw [if_neg (by omega), if_neg (by omega), hw, Py.ok_bind, pdiv_ok (pow_ne_zero n hdx), Py.ok_bind, pointLoop_eq, Py.ok_bind, zero_add]
  have hexact := wsum_exact p x0 dx n order _ w hp h1 hm
  show Except.ok (wsum (fun i : ℤ => p.eval (x0 + i * dx)) _ w * (1 / dx ^ n)) = _
  rw [hexact]
  have := pow_ne_zero n hdx
  congr 1
  field_simp

/-- fourth derivatives from five points are not in the table -/
example : weightTable.lookup (4, 5) = none := by decide +kernel

/-! ### repeated integrals -/

/-- C132, finding: over more than one range `nquad` never returns a value. -/
theorem C132_nquad (tab : List ℝ × List ℝ × List ℝ) (func : List ℝ → Py ℝ) (er ea : ℝ) (r r' : List ℝ → Py (ℝ × ℝ)) (rs : List (List ℝ → Py (ℝ × ℝ))) (args : List ℝ) (v : ℝ × ℝ) :
    nquad tab func er ea (r :: r' :: rs) args ≠ .ok v := by
  unfold nquad
  intro h
  obtain ⟨lim, -, h⟩ := Py.bind_eq_ok.1 h
  obtain ⟨z, -, h⟩ := Py.bind_eq_ok.1 h
  cases h

/-- C132: over one range it is the adaptive rule. -/
theorem C132_nquad_single {pts kw lw : List ℝ} (ht : Quad.Tables pts kw lw) (d : ℕ) (hmom : ∀ m ≤ d, (List.zipWith (fun p w => w * p ^ m) pts kw).sum = ∫ x in (-1 : ℝ)..1, x ^ m)
    (q : Polynomial ℝ) (hq : q.natDegree ≤ d) (er ea a b : ℝ) :
    ∃ e, nquad (pts, kw, lw) (fun l => .ok (q.eval (l.getD 0 0))) er ea [fun _ => .ok (a, b)] [] = .ok (∫ x in a..b, q.eval x, e) := by
  obtain ⟨e, he⟩ := Quad.C33_polynomials ht d hmom q hq a b er ea 0
  exact ⟨e, he⟩

/-- C132: `dblquad` integrates first over its first argument between the curves given and then over the second one. With a rule exact to degree `d`, when the integrand is a polynomial in the first argument and the inner integral one in the second, of degree at most `d`, the result is the double integral. -/
theorem C132_dblquad {pts kw lw : List ℝ} (ht : Quad.Tables pts kw lw) (d : ℕ) (hmom : ∀ m ≤ d, (List.zipWith (fun p w => w * p ^ m) pts kw).sum = ∫ x in (-1 : ℝ)..1, x ^ m)
    (P : ℝ → Polynomial ℝ) (hP : ∀ y, (P y).natDegree ≤ d) (lo hi : ℝ → ℝ) (q : Polynomial ℝ) (hq : q.natDegree ≤ d) (hqi : ∀ y, q.eval y = ∫ x in lo y..hi y, (P y).eval x) (a b er ea : ℝ) :
    ∃ e, dblquad (pts, kw, lw) (fun x y => .ok ((P y).eval x)) a b (fun y => .ok (lo y)) (fun y => .ok (hi y)) er ea = .ok (∫ y in a..b, ∫ x in lo y..hi y, (P y).eval x, e) := by
  unfold dblquad
  have hin : dblInner (pts, kw, lw) (fun x y => .ok ((P y).eval x)) (fun y => .ok (lo y)) (fun y => .ok (hi y)) er ea = fun y => .ok (q.eval y) := by
    funext y
    obtain ⟨e, he⟩ := Quad.C33_polynomials ht d hmom (P y) (hP y) (lo y) (hi y) er ea 0
    unfold dblInner
    rw [Py.ok_bind, Py.ok_bind, he, Py.ok_bind, hqi]
    rfl
  rw [hin]
  simp only [← hqi]
  exact Quad.C33_polynomials ht d hmom q hq a b er ea 0

/-- the midpoint rule is exact to degree one: the integral of `y` over `0 < x < 1` and `a < y < b` -/
example (a b : ℝ) : ∃ e, dblquad ([0], [2], []) (fun _ y => .ok ((Polynomial.C y).eval 0)) a b (fun _ => .ok 0) (fun _ => .ok 1) 1 1 = .ok (∫ y in a..b, ∫ x in (0 : ℝ)..1, (Polynomial.C y).eval x, e) := by
  have := C132_dblquad (pts := [0]) (kw := [2]) (lw := []) ⟨rfl, by simp⟩ 1 (by
    intro m hm
    have : m = 0 ∨ m = 1 := by omega
    rcases this with rfl | rfl <;> norm_num) (fun y => Polynomial.C y) (by simp) (fun _ => 0) (fun _ => 1) Polynomial.X (by simp) (by simp) a b 1 1
  simpa using this

end Verif.NumHelpers
