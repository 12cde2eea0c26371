import Verif.Model.LeastSquares
import Verif.Props.MatrixAlgebra
import Mathlib.LinearAlgebra.Matrix.NonsingularInverse
import Mathlib.Algebra.Order.BigOperators.Group.Finset

/-! # C137: least squares and null spaces from a singular value decomposition -/

namespace Verif.LeastSquares
open Verif.Spec Verif.Arrays Matrix

noncomputable section

/-! ### Specification -/

/-- the `m × n` matrix with the numbers `s` on its diagonal -/
def rectDiag (m n : ℕ) (s : List ℝ) : Matrix (Fin m) (Fin n) ℝ := fun i j => if (i : ℕ) = j then s.getD i 0 else 0

/-- what numpy documents of its decomposition: orthogonal factors, descending singular values that are not negative, and the product -/
structure IsSVD (m n : ℕ) (a : List (List ℝ)) (F : Factors) : Prop where
  U_mat : IsMat m m F.U
  V_mat : IsMat n n F.Vt
  s_len : F.s.length = min m n
  U_orth : (toMatrix m m F.U)ᵀ * toMatrix m m F.U = 1
  V_orth : toMatrix n n F.Vt * (toMatrix n n F.Vt)ᵀ = 1
  desc : F.s.Pairwise (· ≥ ·)
  nonneg : ∀ σ ∈ F.s, 0 ≤ σ
  prod : toMatrix m n a = toMatrix m m F.U * rectDiag m n F.s * toMatrix n n F.Vt

/-- the sum of the squares -/
def sq {k : ℕ} (v : Fin k → ℝ) : ℝ := ∑ i, v i ^ 2

/-- the cutoff separates the singular values: those it discards are zero -/
def Separates (m n : ℕ) (rcond : Option ℝ) (s : List ℝ) : Prop := ∀ σ ∈ s, σ ≤ rcond.getD ((max m n : ℕ) * 2.2e-16) * s.getD 0 0 → σ = 0

/-! ### Auxiliary: the mathematics -/

theorem sq_eq_dot {k : ℕ} (v : Fin k → ℝ) : sq v = v ⬝ᵥ v := by simp [sq, dotProduct, pow_two]

theorem sq_orth {k : ℕ} {Q : Matrix (Fin k) (Fin k) ℝ} (h : Qᵀ * Q = 1) (v : Fin k → ℝ) : sq (Q *ᵥ v) = sq v := by
  rw [sq_eq_dot, sq_eq_dot, dotProduct_mulVec, ← mulVec_transpose, mulVec_mulVec, h, one_mulVec]

theorem rectDiag_mulVec {m n : ℕ} (s : List ℝ) (z : Fin n → ℝ) (i : Fin m) : (rectDiag m n s *ᵥ z) i = if h : (i : ℕ) < n then s.getD i 0 * z ⟨i, h⟩ else 0 := by
  simp only [mulVec, dotProduct, rectDiag, ite_mul, zero_mul]
  split_ifs with h
  · rw [Finset.sum_eq_single (⟨i, h⟩ : Fin n)]
    · simp
    · intro j _ hj
      rw [if_neg]
      intro e
      exact hj (Fin.ext e.symm)
    · simp
  · refine Finset.sum_eq_zero fun j _ => ?_
    rw [if_neg]
    intro e
    exact h (e ▸ j.2)

section
variable {m n : ℕ} {a : List (List ℝ)} {F : Factors} (H : IsSVD m n a F)
include H

theorem IsSVD.U_orth' : toMatrix m m F.U * (toMatrix m m F.U)ᵀ = 1 := mul_eq_one_comm.1 H.U_orth
theorem IsSVD.V_orth' : (toMatrix n n F.Vt)ᵀ * toMatrix n n F.Vt = 1 := mul_eq_one_comm.1 H.V_orth

/-- the residual in the coordinates of the decomposition -/
theorem IsSVD.residual (b : Fin m → ℝ) (y : Fin n → ℝ) :
    sq (b - toMatrix m n a *ᵥ y) = ∑ i : Fin m, (((toMatrix m m F.U)ᵀ *ᵥ b) i - if h : (i : ℕ) < n then F.s.getD i 0 * (toMatrix n n F.Vt *ᵥ y) ⟨i, h⟩ else 0) ^ 2 := by
  have h1 : sq (b - toMatrix m n a *ᵥ y) = sq ((toMatrix m m F.U)ᵀ *ᵥ (b - toMatrix m n a *ᵥ y)) := (sq_orth (by rw [transpose_transpose]; exact H.U_orth') _).symm
  rw [h1, mulVec_sub, H.prod, mulVec_mulVec, ← Matrix.mul_assoc, ← Matrix.mul_assoc, H.U_orth, Matrix.one_mul, ← mulVec_mulVec, sq]
  simp only [Pi.sub_apply, rectDiag_mulVec]

theorem IsSVD.s_zero {k : ℕ} (hk : min m n ≤ k) : F.s.getD k 0 = 0 := by
  rw [List.getD_eq_default]; rw [H.s_len]; exact hk

/-- coordinates of the least-squares solution of smallest norm -/
def best (F : Factors) {m n : ℕ} (c : Fin m → ℝ) (j : Fin n) : ℝ := if h : (j : ℕ) < m then (if F.s.getD j 0 ≠ 0 then c ⟨j, h⟩ / F.s.getD j 0 else 0) else 0

/-- the solution with those coordinates minimises the residual, and the norm among the minimisers -/
theorem IsSVD.best_spec (b : Fin m → ℝ) (x : Fin n → ℝ) (hx : toMatrix n n F.Vt *ᵥ x = best F ((toMatrix m m F.U)ᵀ *ᵥ b)) :
    (∀ y, sq (b - toMatrix m n a *ᵥ x) ≤ sq (b - toMatrix m n a *ᵥ y)) ∧ ∀ y, sq (b - toMatrix m n a *ᵥ y) = sq (b - toMatrix m n a *ᵥ x) → sq x ≤ sq y := by
  set c := (toMatrix m m F.U)ᵀ *ᵥ b with hc
  have term : ∀ (y : Fin n → ℝ) (i : Fin m), (c i - if h : (i : ℕ) < n then F.s.getD i 0 * (toMatrix n n F.Vt *ᵥ x) ⟨i, h⟩ else 0) ^ 2 ≤
      (c i - if h : (i : ℕ) < n then F.s.getD i 0 * (toMatrix n n F.Vt *ᵥ y) ⟨i, h⟩ else 0) ^ 2 := by
    intro y i
    by_cases hi : (i : ℕ) < n
    · rw [dif_pos hi, dif_pos hi, hx]
      by_cases h0 : F.s.getD i 0 = 0
      · rw [h0, zero_mul, zero_mul]
      · have : best F c ⟨i, hi⟩ = c i / F.s.getD i 0 := by simp only [best, i.2, dif_pos]; rw [if_pos h0]
        rw [this, mul_div_cancel₀ _ h0, sub_self, zero_pow two_ne_zero]
        positivity
    · rw [dif_neg hi, dif_neg hi]
  refine ⟨fun y => ?_, fun y hy => ?_⟩
  · rw [H.residual, H.residual]
    exact Finset.sum_le_sum fun i _ => term y i
  · rw [H.residual, H.residual] at hy
    have hall := (Finset.sum_eq_sum_iff_of_le fun i _ => term y i).1 hy.symm
    rw [← sq_orth H.V_orth' x, ← sq_orth H.V_orth' y, hx]
    refine Finset.sum_le_sum fun j _ => ?_
    by_cases hj : (j : ℕ) < m
    · by_cases h0 : F.s.getD j 0 = 0
      · have : best F c j = 0 := by simp only [best, dif_pos hj]; rw [if_neg (not_not.2 h0)]
        rw [this, zero_pow two_ne_zero]; positivity
      · have hb : best F c j = c ⟨j, hj⟩ / F.s.getD j 0 := by simp only [best, dif_pos hj]; rw [if_pos h0]
        have := hall ⟨j, hj⟩ (Finset.mem_univ _)
        simp only [j.2, dif_pos, Fin.eta] at this
        rw [hx, hb, mul_div_cancel₀ _ h0, sub_self] at this
        have h1 : c ⟨j, hj⟩ - F.s.getD j 0 * (toMatrix n n F.Vt *ᵥ y) j = 0 := by
          have h2 := this.symm
          simpa using h2
        rw [hb, show c ⟨j, hj⟩ = F.s.getD j 0 * (toMatrix n n F.Vt *ᵥ y) j by linarith, mul_div_cancel_left₀ _ h0]
    · have : best F c j = 0 := by simp only [best, dif_neg hj]
      rw [this, zero_pow two_ne_zero]; positivity

end

/-! ### Auxiliary: the lists -/

/-- of a descending list, the entries from the count of those above a limit on are not above it -/
theorem countAbove_spec (tol : ℝ) (s : List ℝ) (hs : s.Pairwise (· ≥ ·)) : (∀ k (h : k < s.length), countAbove tol s ≤ k → s[k] ≤ tol) ∧ (∀ k (h : k < s.length), k < countAbove tol s → tol < s[k]) := by
  induction s with
  | nil => simp
  | cons x s ih =>
    obtain ⟨h1, h2⟩ := List.pairwise_cons.1 hs
    obtain ⟨i1, i2⟩ := ih h2
    by_cases hx : x > tol
    · have e : countAbove tol (x :: s) = countAbove tol s + 1 := by simp [countAbove, List.countP_cons, hx]
      rw [e]
      refine ⟨fun k hk hc => ?_, fun k hk hc => ?_⟩
      · obtain ⟨k, rfl⟩ : ∃ k', k = k' + 1 := ⟨k - 1, by omega⟩
        simpa using i1 k (by simpa using hk) (by omega)
      · cases k with
        | zero => exact hx
        | succ k => simpa using i2 k (by simpa using hk) (by omega)
    · have hle : ∀ y ∈ x :: s, y ≤ tol := fun y hy => by
        rcases List.mem_cons.1 hy with rfl | hy
        · exact not_lt.1 hx
        · exact (h1 y hy).trans (not_lt.1 hx)
      have e : countAbove tol (x :: s) = 0 := by
        rw [countAbove, List.countP_eq_zero]
        intro y hy
        simpa using hle y hy
      rw [e]
      exact ⟨fun k hk _ => hle _ (List.getElem_mem hk), fun k hk h => absurd h (by omega)⟩

theorem countAbove_le (tol : ℝ) (s : List ℝ) : countAbove tol s ≤ s.length := List.countP_le_length

theorem isMat_take {α : Type _} {m n r : ℕ} {A : List (List α)} (h : IsMat m n A) (hr : r ≤ m) : IsMat r n (A.take r) :=
  ⟨by rw [List.length_take, h.1]; omega, fun row hrow => h.2 row (List.mem_of_mem_take hrow)⟩

theorem isMat_dims {m n : ℕ} {a : List (List ℝ)} (hm : 0 < m) (ha : IsMat m n a) : a.length = m ∧ (a.getD 0 []).length = n := by
  refine ⟨ha.1, ?_⟩
  have h0 : 0 < a.length := by rw [ha.1]; exact hm
  rw [List.getD_eq_getElem _ _ h0]
  exact ha.2 _ (List.getElem_mem h0)

/-! ### The property -/

/-- C137: least squares. Given a decomposition as numpy documents it and a cutoff that discards only zeros, the solution minimises the sum of squared residuals, and among all minimisers it is the shortest;
the rank is the number of singular values above the cutoff; the residual reported is the sum of squared residuals for a tall matrix of full rank and for rank 0, and 0 otherwise. -/
theorem C137_least_squares {svd : List (List ℝ) → Factors} {m n : ℕ} {a : List (List ℝ)} {b : List ℝ} {rcond : Option ℝ} (hm : 0 < m) (hn : 0 < n) (ha : IsMat m n a) (hb : b.length = m)
    (H : IsSVD m n a (svd a)) (hcut : Separates m n rcond (svd a).s) :
    ∃ x res r, gelsd svd a b rcond = .ok (x, res, r, (svd a).s) ∧ x.length = n ∧
      (∀ y, sq (toVec m b - toMatrix m n a *ᵥ toVec n x) ≤ sq (toVec m b - toMatrix m n a *ᵥ y)) ∧
      (∀ y, sq (toVec m b - toMatrix m n a *ᵥ y) = sq (toVec m b - toMatrix m n a *ᵥ toVec n x) → sq (toVec n x) ≤ sq y) ∧
      r = (svd a).s.countP (fun σ => decide (rcond.getD ((max m n : ℕ) * 2.2e-16) * (svd a).s.getD 0 0 < σ)) ∧
      (n < m → r = n → res = sq (toVec m b - toMatrix m n a *ᵥ toVec n x)) ∧ (r = 0 → res = sq (toVec m b - toMatrix m n a *ᵥ toVec n x)) ∧ (r ≠ 0 → (m ≤ n ∨ r ≠ n) → res = 0) := by
  obtain ⟨d1, d2⟩ := isMat_dims hm ha
  set F := svd a with hF
  set tol : ℝ := cutoff rcond m n * F.s.getD 0 0 with htol
  obtain ⟨k1, k2⟩ := countAbove_spec tol F.s H.desc
  have hrle : countAbove tol F.s ≤ min m n := H.s_len ▸ countAbove_le tol F.s
  have hzero : ∀ k, countAbove tol F.s ≤ k → F.s.getD k 0 = 0 := by
    intro k hk
    by_cases h : k < F.s.length
    · rw [List.getD_eq_getElem _ _ h]
      exact hcut _ (List.getElem_mem h) (k1 k h hk)
    · exact List.getD_eq_default _ _ (not_lt.1 h)
  have hg : gelsd svd a b rcond = if countAbove tol F.s = 0 then .ok (List.replicate n 0, (b.map fun bi => bi * bi).sum, 0, F.s) else (do
      let Ut ← transpose F.U
      let Utb ← matrix_vector_dot (Ut.take (countAbove tol F.s)) b
      let s_inv_Utb := divided F.s Utb (countAbove tol F.s)
      let V ← transpose (F.Vt.take (countAbove tol F.s))
      let x ← matrix_vector_dot V s_inv_Utb
      if m > n ∧ countAbove tol F.s = n then do
        let Ax ← matrix_vector_dot a x
        let diff := (List.range m).map fun i => b.getD i 0 - Ax.getD i 0
        let residuals ← dot_product diff diff
        return (x, residuals, countAbove tol F.s, F.s)
      else return (x, 0, countAbove tol F.s, F.s)) := by
    simp only [gelsd, d1, d2]
    rw [if_neg (by omega), if_neg (not_not.2 hb)]
  rw [hg]
  by_cases hr : countAbove tol F.s = 0
  · rw [if_pos hr]
    have hx0 : toVec n (List.replicate n (0:ℝ)) = 0 := by
      ext j; simp [toVec]
    have hbest : toMatrix n n F.Vt *ᵥ toVec n (List.replicate n (0:ℝ)) = best F ((toMatrix m m F.U)ᵀ *ᵥ toVec m b) := by
      rw [hx0, mulVec_zero]
      ext j
      simp only [best, hzero j (by omega)]
      simp
    obtain ⟨s1, s2⟩ := H.best_spec (toVec m b) _ hbest
    have hres : (b.map fun bi => bi * bi).sum = sq (toVec m b - toMatrix m n a *ᵥ toVec n (List.replicate n 0)) := by
      rw [hx0, mulVec_zero, sub_zero, sq]
      subst hb
      rw [← Fin.sum_univ_fun_getElem]
      refine Finset.sum_congr rfl fun i _ => ?_
      simp [toVec, pow_two]
    refine ⟨_, _, _, rfl, by simp, s1, s2, hr.symm, fun _ _ => hres, fun _ => hres, fun h => absurd rfl h⟩
  · rw [if_neg hr]
    set r := countAbove tol F.s with hrd
    have hrm : r ≤ m := hrle.trans (min_le_left _ _)
    have hrn : r ≤ n := hrle.trans (min_le_right _ _)
    have hr0 : 0 < r := Nat.pos_of_ne_zero hr
    obtain ⟨Ut, t1, t2, t3, -⟩ := C18_transpose m m hm hm F.U H.U_mat
    obtain ⟨V, v1, v2, v3, -⟩ := C18_transpose r n hr0 hn (F.Vt.take r) (isMat_take H.V_mat hrn)
    have hUt := isMat_take t2 hrm
    obtain ⟨Utb, u1, u2, u3⟩ := (C18_matrix_vector_dot (Ut.take r) b).1 (by rw [hUt.1, hb]; exact hUt)
    rw [hUt.1] at u2
    have hdl : (divided F.s Utb r).length = r := by simp [divided]
    obtain ⟨x, x1, x2, x3⟩ := (C18_matrix_vector_dot V (divided F.s Utb r)).1 (by rw [v2.1, hdl]; exact v2)
    rw [v2.1] at x2
    simp only [t1, Py.ok_bind, u1, v1, x1]
    -- the coordinates
    have hc : ∀ k (hk : k < r), Utb.getD k 0 = ((toMatrix m m F.U)ᵀ *ᵥ toVec m b) ⟨k, hk.trans_le hrm⟩ := by
      intro k hk
      have := congrFun u3 ⟨k, by rw [hUt.1]; exact hk⟩
      simp only [toVec] at this
      rw [this]
      simp only [mulVec, dotProduct, toMatrix, transpose_apply, toVec]
      subst hb
      refine Finset.sum_congr rfl fun i _ => ?_
      have e : (Ut.take r).getD k [] = Ut.getD k [] := by
        simp only [List.getD_eq_getElem?_getD, List.getElem?_take, if_pos hk]
      rw [e]
      have := t3 i i.2 k (hk.trans_le hrm)
      rw [show (default : ℝ) = 0 from rfl] at this
      rw [this]
    have hbest : toMatrix n n F.Vt *ᵥ toVec n x = best F ((toMatrix m m F.U)ᵀ *ᵥ toVec m b) := by
      have hx : toVec n x = (toMatrix n n F.Vt)ᵀ *ᵥ best F ((toMatrix m m F.U)ᵀ *ᵥ toVec m b) := by
        ext j
        have := congrFun x3 ⟨j, by rw [v2.1]; exact j.2⟩
        simp only [toVec] at this
        simp only [toVec]
        rw [this]
        simp only [mulVec, dotProduct, toMatrix, transpose_apply, toVec]
        set g : ℕ → ℝ := fun k => if h : k < n then (F.Vt.getD k []).getD j 0 * best F ((toMatrix m m F.U)ᵀ *ᵥ toVec m b) ⟨k, h⟩ else 0 with hgd
        have eR : ∑ k : Fin n, (F.Vt.getD k []).getD j 0 * best F ((toMatrix m m F.U)ᵀ *ᵥ toVec m b) k = ∑ k ∈ Finset.range n, g k := by
          rw [← Fin.sum_univ_eq_sum_range g]
          refine Finset.sum_congr rfl fun k _ => ?_
          simp only [hgd, k.2, dif_pos, Fin.eta]
        have eL : ∀ k ∈ Finset.range (divided F.s Utb r).length, (V.getD j []).getD k 0 * (divided F.s Utb r).getD k 0 = g k := by
          intro k hk
          have hk' : k < r := by rw [hdl] at hk; simpa using hk
          have hkn := hk'.trans_le hrn
          have := v3 k hk' j j.2
          rw [show (default : ℝ) = 0 from rfl] at this
          have e : (F.Vt.take r).getD k [] = F.Vt.getD k [] := by
            simp only [List.getD_eq_getElem?_getD, List.getElem?_take, if_pos hk']
          rw [this, e]
          simp only [hgd, dif_pos hkn]
          congr 1
          have ed : (divided F.s Utb r).getD k 0 = if F.s.getD k 0 ≠ 0 then Utb.getD k 0 / F.s.getD k 0 else 0 := by
            rw [divided, List.getD_eq_getElem _ _ (by simpa using hk'), List.getElem_map, List.getElem_range]
          rw [ed, hc k hk', best, dif_pos (hk'.trans_le hrm)]
        rw [eR, Fin.sum_univ_eq_sum_range (fun k => (V.getD j []).getD k 0 * (divided F.s Utb r).getD k 0), Finset.sum_congr rfl eL, hdl]
        refine Finset.sum_subset (by intro k; simp only [Finset.mem_range]; omega) fun k hk hk' => ?_
        have hkn : k < n := by simpa using hk
        have hkr : r ≤ k := by simpa using hk'
        simp only [hgd, dif_pos hkn, best, hzero k hkr]
        simp
      rw [hx, mulVec_mulVec, H.V_orth, one_mulVec]
    obtain ⟨s1, s2⟩ := H.best_spec (toVec m b) _ hbest
    by_cases hfull : m > n ∧ r = n
    · rw [if_pos hfull]
      obtain ⟨Ax, a1, a2, a3⟩ := (C18_matrix_vector_dot a x).1 (by rw [ha.1, x2]; exact ha)
      simp only [a1, Py.ok_bind]
      rw [C18_dot_product, if_pos rfl]
      refine ⟨x, _, r, rfl, x2, s1, s2, rfl, fun _ _ => ?_, fun h => absurd h hr, fun _ h => ?_⟩
      · rw [sq_eq_dot]
        have hl : ((List.range m).map fun i => b.getD i 0 - Ax.getD i 0).length = m := by simp
        have hv : toVec m ((List.range m).map fun i => b.getD i 0 - Ax.getD i 0) = toVec m b - toMatrix m n a *ᵥ toVec n x := by
          ext i
          have := congrFun a3 ⟨i, by rw [ha.1]; exact i.2⟩
          simp only [toVec] at this
          simp only [toVec, Pi.sub_apply]
          rw [List.getD_eq_getElem _ _ (by simp), List.getElem_map, List.getElem_range, this]
          subst x2
          rfl
        rw [← hv, hl]
      · omega
    · rw [if_neg hfull]
      refine ⟨x, 0, r, rfl, x2, s1, s2, rfl, fun h1 h2 => absurd ⟨h1, h2⟩ hfull, fun h => absurd h hr, fun _ _ => rfl⟩

/-- C137: a right-hand side of another length is refused, and a matrix without rows or columns has the empty solution -/
theorem C137_refusals (svd : List (List ℝ) → Factors) (a : List (List ℝ)) (b : List ℝ) (rcond : Option ℝ) :
    (gelsd svd [] b rcond = .ok ([], 0, 0, [])) ∧ (∀ rows, gelsd svd ([] :: rows) b rcond = .ok ([], 0, 0, [])) ∧
    (∀ m n, 0 < m → 0 < n → IsMat m n a → b.length ≠ m → gelsd svd a b rcond = .error .valueError) := by
  refine ⟨by simp [gelsd], fun rows => by simp [gelsd], fun m n hm hn ha hb => ?_⟩
  obtain ⟨d1, d2⟩ := isMat_dims hm ha
  simp only [gelsd, d1, d2]
  rw [if_neg (by omega), if_pos hb]

theorem maxOf_desc {s : List ℝ} (hs : s.Pairwise (· ≥ ·)) : maxOf s = s.getD 0 0 := by
  cases s with
  | nil => rfl
  | cons x s =>
    have h1 := (List.pairwise_cons.1 hs).1
    simp only [maxOf, List.getD_cons_zero, List.foldl_cons, max_self]
    clear hs
    induction s with
    | nil => rfl
    | cons y s ih =>
      rw [List.foldl_cons, max_eq_left (h1 y (by simp))]
      exact ih fun z hz => h1 z (by simp [hz])

/-- C137: the null space. Given such a decomposition, and a cutoff that is not negative and discards only zeros, the columns of the answer are orthonormal, the matrix maps each to zero,
and every vector the matrix maps to zero is the combination of them with its own inner products as coefficients. -/
theorem C137_null_space {svd : List (List ℝ) → Factors} {m n : ℕ} {a : List (List ℝ)} {rcond : Option ℝ} (hm : 0 < m) (hn : 0 < n) (ha : IsMat m n a)
    (H : IsSVD m n a (svd a)) (hrc : ∀ r, rcond = some r → 0 ≤ r) (hcut : Separates m n rcond (svd a).s) :
    ∃ (Z : List (List ℝ)) (k : ℕ), null_space svd a rcond = .ok Z ∧ IsMat n k Z ∧
      (toMatrix n k Z)ᵀ * toMatrix n k Z = 1 ∧ toMatrix m n a * toMatrix n k Z = 0 ∧
      ∀ y, toMatrix m n a *ᵥ y = 0 → y = toMatrix n k Z *ᵥ ((toMatrix n k Z)ᵀ *ᵥ y) := by
  obtain ⟨d1, d2⟩ := isMat_dims hm ha
  set F := svd a with hF
  have hsne : F.s ≠ [] := by
    intro h
    have := H.s_len
    rw [h, List.length_nil] at this
    omega
  set tol : ℝ := maxOf F.s * cutoff rcond m n with htol
  have htol' : tol = cutoff rcond m n * F.s.getD 0 0 := by rw [htol, maxOf_desc H.desc, mul_comm]
  have hs0 : 0 ≤ F.s.getD 0 0 := by
    have h0 : 0 < F.s.length := List.length_pos_iff.2 hsne
    rw [List.getD_eq_getElem _ _ h0]
    exact H.nonneg _ (List.getElem_mem h0)
  have hc0 : 0 ≤ cutoff rcond m n := by
    cases rcond with
    | none => simp only [cutoff, Option.getD_none]; positivity
    | some r => exact hrc r rfl
  have htol0 : 0 ≤ tol := htol' ▸ mul_nonneg hc0 hs0
  obtain ⟨k1, k2⟩ := countAbove_spec tol F.s H.desc
  set r := countAbove tol F.s with hr
  have hrle : r ≤ min m n := H.s_len ▸ countAbove_le tol F.s
  have hrn : r ≤ n := hrle.trans (min_le_right _ _)
  have hzero : ∀ k, r ≤ k → F.s.getD k 0 = 0 := by
    intro k hk
    by_cases h : k < F.s.length
    · rw [List.getD_eq_getElem _ _ h]
      exact hcut _ (List.getElem_mem h) (htol' ▸ k1 k h hk)
    · exact List.getD_eq_default _ _ (not_lt.1 h)
  have hpos : ∀ k, k < r → F.s.getD k 0 ≠ 0 := by
    intro k hk
    have h : k < F.s.length := by rw [H.s_len]; omega
    rw [List.getD_eq_getElem _ _ h]
    exact (htol0.trans_lt (k2 k h hk)).ne'
  obtain ⟨V, v1, v2, v3, -⟩ := C18_transpose n n hn hn F.Vt H.V_mat
  set Z := V.map fun row => row.drop r with hZ
  have hZm : IsMat n (n - r) Z := by
    refine ⟨by rw [hZ, List.length_map, v2.1], fun row hrow => ?_⟩
    obtain ⟨w, hw, rfl⟩ := List.mem_map.1 hrow
    rw [List.length_drop, v2.2 w hw]
  -- the columns of the answer are the last rows of `Vt`
  have hent : ∀ (j : Fin n) (k : Fin (n - r)), toMatrix n (n - r) Z j k = toMatrix n n F.Vt ⟨r + k, by omega⟩ j := by
    intro j k
    have hj : (j : ℕ) < V.length := by rw [v2.1]; exact j.2
    have e : Z.getD j [] = (V.getD j []).drop r := by
      rw [List.getD_eq_getElem _ _ (by rw [hZm.1]; exact j.2), List.getD_eq_getElem _ _ hj]
      simp only [hZ, List.getElem_map]
    have := v3 (r + k) (by omega) j j.2
    rw [show (default : ℝ) = 0 from rfl] at this
    simp only [toMatrix]
    rw [e, ← this]
    simp only [List.getD_eq_getElem?_getD, List.getElem?_drop]
  refine ⟨Z, n - r, ?_, hZm, ?_, ?_, ?_⟩
  · simp only [null_space, d1, d2, ← hF]
    rw [if_neg (by omega), if_pos hsne, ← htol, v1]
    rfl
  · ext k l
    have := congrFun (congrFun H.V_orth ⟨r + k, by omega⟩) ⟨r + l, by omega⟩
    simp only [mul_apply, transpose_apply] at this ⊢
    simp only [hent]
    rw [this]
    simp only [one_apply, Fin.mk.injEq, Nat.add_left_cancel_iff, Fin.ext_iff]
  · -- `Vt` maps the column to a unit vector, whose singular value is zero
    have hcol : toMatrix n n F.Vt * toMatrix n (n - r) Z = Matrix.of (fun (i : Fin n) (k : Fin (n - r)) => if (i : ℕ) = r + (k : ℕ) then (1 : ℝ) else 0) := by
      ext i k
      have := congrFun (congrFun H.V_orth i) ⟨r + k, by omega⟩
      simp only [mul_apply, transpose_apply] at this ⊢
      simp only [hent]
      rw [this]
      simp only [one_apply, Fin.ext_iff, of_apply]
    have hD : rectDiag m n F.s * Matrix.of (fun (i : Fin n) (k : Fin (n - r)) => if (i : ℕ) = r + (k : ℕ) then (1 : ℝ) else 0) = 0 := by
      ext i k
      simp only [mul_apply, rectDiag, Matrix.zero_apply, of_apply]
      refine Finset.sum_eq_zero fun j _ => ?_
      by_cases h1 : (i : ℕ) = j
      · by_cases h2 : (j : ℕ) = r + k
        · rw [if_pos h1, hzero i (by omega), zero_mul]
        · rw [if_neg h2, mul_zero]
      · rw [if_neg h1, zero_mul]
    rw [H.prod, Matrix.mul_assoc, hcol, Matrix.mul_assoc, hD, Matrix.mul_zero]
  · intro y hy
    have hDy : rectDiag m n F.s *ᵥ (toMatrix n n F.Vt *ᵥ y) = 0 := by
      have := congrArg (fun v => (toMatrix m m F.U)ᵀ *ᵥ v) hy
      simp only [H.prod, mulVec_mulVec, mulVec_zero] at this
      rw [← Matrix.mul_assoc, ← Matrix.mul_assoc, H.U_orth, Matrix.one_mul] at this
      rw [mulVec_mulVec]
      exact this
    have hlow : ∀ i : Fin n, (i : ℕ) < r → (toMatrix n n F.Vt *ᵥ y) i = 0 := by
      intro i hi
      have := congrFun hDy ⟨i, by omega⟩
      rw [rectDiag_mulVec, dif_pos i.2] at this
      exact (mul_eq_zero.1 this).resolve_left (hpos i hi)
    have hy' : y = (toMatrix n n F.Vt)ᵀ *ᵥ (toMatrix n n F.Vt *ᵥ y) := by rw [mulVec_mulVec, H.V_orth', one_mulVec]
    have hzt : ∀ k : Fin (n - r), ((toMatrix n (n - r) Z)ᵀ *ᵥ y) k = (toMatrix n n F.Vt *ᵥ y) ⟨r + k, by omega⟩ := by
      intro k
      simp only [mulVec, dotProduct, transpose_apply]
      simp only [hent]
    ext j
    conv_lhs => rw [hy']
    set w := toMatrix n n F.Vt *ᵥ y with hw
    simp only [mulVec, dotProduct, transpose_apply]
    have hzt' : ∀ k : Fin (n - r), ∑ x, toMatrix n (n - r) Z x k * y x = w ⟨r + k, by omega⟩ := hzt
    simp only [hzt']
    simp only [hent]
    set g : ℕ → ℝ := fun i => if h : i < n then toMatrix n n F.Vt ⟨i, h⟩ j * w ⟨i, h⟩ else 0 with hg
    have e1 : ∑ i : Fin n, toMatrix n n F.Vt i j * w i = ∑ i ∈ Finset.range n, g i := by
      rw [← Fin.sum_univ_eq_sum_range g]
      refine Finset.sum_congr rfl fun i _ => ?_
      simp only [hg, i.2, dif_pos, Fin.eta]
    have e2 : ∑ k : Fin (n - r), toMatrix n n F.Vt ⟨r + k, by omega⟩ j * w ⟨r + k, by omega⟩ = ∑ k ∈ Finset.range (n - r), g (r + k) := by
      rw [← Fin.sum_univ_eq_sum_range fun k => g (r + k)]
      refine Finset.sum_congr rfl fun k _ => ?_
      have hk : r + (k : ℕ) < n := by omega
      simp only [hg, dif_pos hk]
    rw [e1, e2, ← Finset.sum_Ico_eq_sum_range, Finset.range_eq_Ico, ← Finset.sum_Ico_consecutive g (Nat.zero_le r) hrn, add_eq_right]
    refine Finset.sum_eq_zero fun i hi => ?_
    have hir : i < r := (Finset.mem_Ico.1 hi).2
    simp only [hg, dif_pos (hir.trans_le hrn)]
    rw [hlow ⟨i, hir.trans_le hrn⟩ hir, mul_zero]

/-- the decomposition of `diag(2, 0)` -/
def diagonal : Factors := ⟨[[1, 0], [0, 1]], [2, 0], [[1, 0], [0, 1]]⟩

theorem diagonal_isSVD : IsSVD 2 2 [[2, 0], [0, 0]] diagonal := by
  refine ⟨⟨rfl, by simp [diagonal]⟩, ⟨rfl, by simp [diagonal]⟩, rfl, ?_, ?_, by simp [diagonal], by simp [diagonal], ?_⟩ <;>
  · ext i j
    fin_cases i <;> fin_cases j <;> simp [diagonal, toMatrix, mul_apply, rectDiag, Fin.sum_univ_two]

/-- C137, finding: for a matrix that lacks full rank the residual is reported as 0 even when the system has no solution: `diag(2, 0)·x = (4, 3)` has the least-squares solution `(2, 0)` with squared residual 9 -/
theorem C137_residual_lost : gelsd (fun _ => diagonal) [[2, 0], [0, 0]] [4, 3] none = .ok ([2, 0], 0, 1, [2, 0]) ∧
    sq (toVec 2 [4, 3] - toMatrix 2 2 [[2, 0], [0, 0]] *ᵥ toVec 2 [2, 0]) = 9 := by
  constructor
  · have hc : countAbove (cutoff none 2 2 * 2) [2, 0] = 1 := by
      have h1 : cutoff none 2 2 * 2 < 2 := by norm_num [cutoff]
      have h2 : ¬ cutoff none 2 2 * 2 < 0 := by norm_num [cutoff]
      simp [countAbove, List.countP_cons, h1, h2]
    have t1 : Arrays.transpose ([[1, 0], [0, 1]] : List (List ℝ)) = .ok [[1, 0], [0, 1]] := by simp [Arrays.transpose, List.range_succ]
    have t2 : Arrays.transpose ([[1, 0]] : List (List ℝ)) = .ok [[1], [0]] := by simp [Arrays.transpose, List.range_succ]
    simp [gelsd, diagonal, hc, t1, t2, Py.ok_bind, matrix_vector_dot, divided, List.range_succ]
    norm_num
  · simp [sq, toVec, toMatrix, mulVec, dotProduct, Fin.sum_univ_two]
    norm_num

example : IsMat 2 2 ([[2, 0], [0, 0]] : List (List ℝ)) ∧ IsSVD 2 2 [[2, 0], [0, 0]] diagonal ∧ Separates 2 2 none diagonal.s := by
  refine ⟨⟨rfl, by simp⟩, diagonal_isSVD, ?_⟩
  intro σ hσ h
  simp only [diagonal, List.mem_cons, List.not_mem_nil, or_false] at hσ
  rcases hσ with rfl | rfl
  · norm_num [diagonal] at h
  · rfl

end

end Verif.LeastSquares
