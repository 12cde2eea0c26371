import Verif.Lemmas.LUSolve
import Mathlib.LinearAlgebra.Matrix.Permutation
import Mathlib.LinearAlgebra.Matrix.Block
import Mathlib.Tactic.Ring
import Mathlib.Tactic.Linarith
import Mathlib.Tactic.FieldSimp
import Mathlib.Tactic.FinCases

/-!
# C15, C16: LU factorisation, linear solves, inverse and determinant

Specification: Mathlib's matrices, through `Spec.toMatrix` / `Spec.toVec`. `K` is any ordered field (the code only uses
`+ - * /`, absolute values and comparisons).
-/

namespace Verif
open Verif.Spec Verif.Arrays Finset
open scoped Matrix

variable {K : Type _} [Field K] [LinearOrder K] [IsStrictOrderedRing K]

theorem solve_LU_cases {N : ℕ} {A : List (List K)} (hA : IsMat N N A) {b : List K} (hb : b.length = N) :
    ((toMatrix N N A).det ≠ 0 → ∃ x, solve_LU_decomposition A b = .ok x ∧ x.length = N ∧
      toMatrix N N A *ᵥ toVec N x = toVec N b) ∧
    ((toMatrix N N A).det = 0 → solve_LU_decomposition A b = .error .valueError) := by
  rcases inplace_LU_ok_or hA (ipivot := List.replicate N 0) (by simp) with ⟨hd, A', piv, e, h1, h2, h3⟩ | ⟨hd, e⟩
  · refine ⟨fun _ => ?_, fun h => absurd h hd⟩
    obtain ⟨x, x1, x2, x3⟩ := solve_from_lu_spec h2 h3 b hb
    exact ⟨x, by simp only [solve_LU_decomposition, hb, e, Py.ok_bind, x1], x2, mulVec_eq_of_sums x3⟩
  · exact ⟨fun h => absurd hd h, fun _ => by simp [solve_LU_decomposition, hb, e, Py.error_bind]⟩

/-- C15: `inplace_LU` followed by `solve_from_lu` solves `A x = b` for every nonsingular `A` of every size; on a singular `A`
the factorisation raises `ValueError`. -/
theorem C15_lu_solve (N : ℕ) (A : List (List K)) (hA : IsMat N N A) (b : List K) (hb : b.length = N) :
    ((toMatrix N N A).det ≠ 0 → ∃ A' piv x, inplace_LU A (List.replicate N 0) = .ok (A', piv) ∧
      solve_from_lu A' piv b = .ok x ∧ x.length = N ∧ toMatrix N N A *ᵥ toVec N x = toVec N b) ∧
    ((toMatrix N N A).det = 0 → inplace_LU A (List.replicate N 0) = .error .valueError) := by
  rcases inplace_LU_ok_or hA (ipivot := List.replicate N 0) (by simp) with ⟨hd, A', piv, e, h1, h2, h3⟩ | ⟨hd, e⟩
  · refine ⟨fun _ => ?_, fun h => absurd h hd⟩
    obtain ⟨x, x1, x2, x3⟩ := solve_from_lu_spec h2 h3 b hb
    exact ⟨A', piv, x, e, x1, x2, mulVec_eq_of_sums x3⟩
  · exact ⟨fun h => absurd hd h, fun _ => e⟩

theorem isMat_two {A : List (List K)} (hA : IsMat 2 2 A) : ∃ a b c d, A = [[a, b], [c, d]] := by
  obtain ⟨h1, h2⟩ := hA
  rcases A with _ | ⟨r0, _ | ⟨r1, _ | ⟨_, _⟩⟩⟩ <;> simp at h1
  have e0 := h2 r0 (by simp); have e1 := h2 r1 (by simp)
  rcases r0 with _ | ⟨a, _ | ⟨b, _ | ⟨_, _⟩⟩⟩ <;> simp at e0
  rcases r1 with _ | ⟨c, _ | ⟨d, _ | ⟨_, _⟩⟩⟩ <;> simp at e1
  exact ⟨a, b, c, d, rfl⟩

theorem length_three {α : Type _} {r : List α} (h : r.length = 3) : ∃ a b c, r = [a, b, c] := by
  rcases r with _ | ⟨a, _ | ⟨b, _ | ⟨c, _ | ⟨_, _⟩⟩⟩⟩ <;> simp at h
  exact ⟨a, b, c, rfl⟩

theorem length_two {α : Type _} {r : List α} (h : r.length = 2) : ∃ a b, r = [a, b] := by
  rcases r with _ | ⟨a, _ | ⟨b, _ | ⟨_, _⟩⟩⟩ <;> simp at h
  exact ⟨a, b, rfl⟩

theorem isMat_three {A : List (List K)} (hA : IsMat 3 3 A) : ∃ a b c d e f g h i, A = [[a, b, c], [d, e, f], [g, h, i]] := by
  obtain ⟨h1, h2⟩ := hA
  obtain ⟨r0, r1, r2, rfl⟩ := length_three h1
  obtain ⟨a, b, c, rfl⟩ := length_three (h2 r0 (by simp))
  obtain ⟨d, e, f, rfl⟩ := length_three (h2 r1 (by simp))
  obtain ⟨g, h, i, rfl⟩ := length_three (h2 r2 (by simp))
  exact ⟨a, b, c, d, e, f, g, h, i, rfl⟩

theorem abs_gt_ne {d : K} (h : ¬ |d| ≤ 1e-7) : d ≠ 0 := by
  rintro rfl; apply h; rw [abs_zero]; norm_num

theorem pdiv_one {d : K} (h : d ≠ 0) : ∃ v, (1 /ₚ d) = .ok v ∧ d * v = 1 := ⟨_, pdiv_ok h, mul_one_div_cancel h⟩

theorem solve_eq_lu {N : ℕ} (h2 : N ≠ 2) (h3 : N ≠ 3) {A : List (List K)} (hA : A.length = N) (b : List K) :
    solve A b = solve_LU_decomposition A b := by
  rcases A with _ | ⟨r0, _ | ⟨r1, _ | ⟨r2, _ | ⟨r3, A⟩⟩⟩⟩
  · rfl
  · rfl
  · simp at hA; omega
  · simp at hA; omega
  · rfl

/-- C15: for every size `N` and every `N × N` matrix, `solve(A, b)` returns the solution of `A x = b` when `A` is
nonsingular, and raises `ValueError` exactly when it is singular. -/
theorem C15_solve (N : ℕ) (A : List (List K)) (hA : IsMat N N A) (b : List K) (hb : b.length = N) :
    ((toMatrix N N A).det ≠ 0 → ∃ x, solve A b = .ok x ∧ x.length = N ∧ toMatrix N N A *ᵥ toVec N x = toVec N b) ∧
    ((toMatrix N N A).det = 0 ↔ solve A b = .error .valueError) := by
  suffices h : ((toMatrix N N A).det ≠ 0 → ∃ x, solve A b = .ok x ∧ x.length = N ∧
      toMatrix N N A *ᵥ toVec N x = toVec N b) ∧ ((toMatrix N N A).det = 0 → solve A b = .error .valueError) by
    refine ⟨h.1, h.2, fun he => ?_⟩
    by_contra hd
    obtain ⟨x, hx, -⟩ := h.1 hd
    rw [he] at hx; simp at hx
  have hlu := solve_LU_cases hA hb
  by_cases h2 : N = 2
  · subst h2
    obtain ⟨a, c, d, e, rfl⟩ := isMat_two hA
    obtain ⟨b0, b1, rfl⟩ := length_two hb
    by_cases hs : |a * e - c * d| ≤ 1e-7
    · simpa only [solve, if_pos hs] using hlu
    · have hne := abs_gt_ne hs
      have hdet : (toMatrix 2 2 [[a, c], [d, e]]).det = a * e - c * d := by
        rw [Matrix.det_fin_two]; simp [toMatrix]
      obtain ⟨v, hv1, hv2⟩ := pdiv_one hne
      refine ⟨fun _ => ⟨_, by simp only [solve, if_neg hs, hv1, Py.ok_bind]; rfl, rfl, ?_⟩, fun h => ?_⟩
      · ext i
        fin_cases i <;> simp [Matrix.mulVec, dotProduct, toMatrix, toVec, Fin.sum_univ_two]
        · linear_combination b0 * hv2
        · linear_combination b1 * hv2
      · rw [hdet] at h; exact absurd h hne
  by_cases h3 : N = 3
  · subst h3
    obtain ⟨a00, a01, a02, a10, a11, a12, a20, a21, a22, rfl⟩ := isMat_three hA
    obtain ⟨b0, b1, b2, rfl⟩ := length_three hb
    by_cases hs : |a00 * a11 * a22 - a00 * a12 * a21 - a01 * a10 * a22 + a01 * a12 * a20 + a02 * a10 * a21
        - a02 * a11 * a20| ≤ 1e-7
    · simpa only [solve, if_pos hs] using hlu
    · have hne := abs_gt_ne hs
      have hdet : (toMatrix 3 3 [[a00, a01, a02], [a10, a11, a12], [a20, a21, a22]]).det = a00 * a11 * a22
          - a00 * a12 * a21 - a01 * a10 * a22 + a01 * a12 * a20 + a02 * a10 * a21 - a02 * a11 * a20 := by
        rw [Matrix.det_fin_three]; simp [toMatrix]
      obtain ⟨v, hv1, hv2⟩ := pdiv_one hne
      refine ⟨fun _ => ⟨_, by simp only [solve, if_neg hs, hv1, Py.ok_bind]; rfl, rfl, ?_⟩, fun h => ?_⟩
      · ext i
        fin_cases i <;> simp [Matrix.mulVec, dotProduct, toMatrix, toVec, Fin.sum_univ_three]
        · linear_combination b0 * hv2
        · linear_combination b1 * hv2
        · linear_combination b2 * hv2
      · rw [hdet] at h; exact absurd h hne
  rw [solve_eq_lu h2 h3 hA.1]
  exact hlu

/-- the row interchanges recorded in `lu`'s loop -/
theorem perm_rows {N : ℕ} (piv : List ℕ) (hp : ∀ i < N, i ≤ piv.getD i 0 ∧ piv.getD i 0 < N) (P0 : List (List K))
    (h0 : P0.length = N) (n : ℕ) (hn : n ≤ N) :
    let P := (List.range n).foldl (fun P i =>
      let pivot := piv.getD i 0
      if pivot ≠ i then
        let t := P.getD pivot []
        let P' := P.set pivot (P.getD i [])
        P'.set i t
      else P) P0
    P.length = N ∧ ∀ i < N, P.getD i [] = P0.getD (pivPerm piv n i) [] := by
  induction n with
  | zero => exact ⟨h0, fun i _ => rfl⟩
  | succ n ih =>
    obtain ⟨h1, h2⟩ := ih (by omega)
    rw [List.range_succ, List.foldl_append]
    simp only [List.foldl_cons, List.foldl_nil]
    simp only at h1 h2
    set P := (List.range n).foldl (fun P i =>
      if piv.getD i 0 ≠ i then (P.set (piv.getD i 0) (P.getD i [])).set i (P.getD (piv.getD i 0) []) else P) P0 with hP
    obtain ⟨q1, q2⟩ := hp n (by omega)
    set p := piv.getD n 0 with hpd
    by_cases hpn : p = n
    · rw [if_neg (by simpa using hpn)]
      refine ⟨h1, fun i hi => ?_⟩
      rw [pivPerm, ← hpd, hpn, Equiv.swap_self, Equiv.Perm.mul_apply, h2 i hi]; rfl
    · rw [if_pos hpn]
      refine ⟨by simp [h1], fun i hi => ?_⟩
      rw [getD_set', getD_set', List.length_set, pivPerm, ← hpd, Equiv.Perm.mul_apply, h1]
      by_cases a : i = n
      · rw [if_pos ⟨a.symm, by omega⟩, a, Equiv.swap_apply_left, h2 p q2]
      · rw [if_neg (by omega)]
        by_cases c : i = p
        · rw [if_pos ⟨c.symm, by omega⟩, c, Equiv.swap_apply_right, h2 n (by omega)]
        · rw [if_neg (by omega), Equiv.swap_apply_of_ne_of_ne a c, h2 i hi]

/-- C15: on every nonsingular `N × N` matrix `lu` returns `P, L, U` with `P` a permutation matrix, `L` lower triangular with
unit diagonal and entries at most 1 in absolute value, `U` upper triangular with nonzero diagonal, and `P A = L U`. It raises
`ValueError` exactly when `A` is singular. -/
theorem C15_lu (N : ℕ) (A : List (List K)) (hA : IsMat N N A) :
    ((toMatrix N N A).det ≠ 0 → ∃ P L U, lu A = .ok (P, L, U) ∧ IsMat N N P ∧ IsMat N N L ∧ IsMat N N U ∧
      (∃ σ : Equiv.Perm (Fin N), toMatrix N N P = σ.permMatrix K) ∧
      (∀ i j : Fin N, i < j → toMatrix N N L i j = 0) ∧ (∀ i, toMatrix N N L i i = 1) ∧
      (∀ i j, |toMatrix N N L i j| ≤ 1) ∧
      (∀ i j : Fin N, j < i → toMatrix N N U i j = 0) ∧ (∀ i, toMatrix N N U i i ≠ 0) ∧
      toMatrix N N P * toMatrix N N A = toMatrix N N L * toMatrix N N U) ∧
    ((toMatrix N N A).det = 0 ↔ lu A = .error .valueError) := by
  rcases inplace_LU_ok_or hA (ipivot := List.replicate N 0) (by simp) with ⟨hd, A', piv, e, h1, h2, h3⟩ | ⟨hd, e⟩
  · obtain ⟨p1, p2⟩ := perm_rows piv h2 ((List.range N).map fun i => (List.range N).map fun j => if j = i then (1 : K) else 0)
      (by simp) N le_rfl
    simp only at p1 p2
    have hlu : ∃ P L U, lu A = .ok (P, L, U) ∧ P.length = N ∧ (∀ i < N, P.getD i [] = ((List.range N).map fun i =>
        (List.range N).map fun j => if j = i then (1 : K) else 0).getD (pivPerm piv N i) []) ∧
        L = ((List.range N).map fun i => (List.range N).map fun j => if j < i then mget A' i j else if i = j then 1 else 0) ∧
        U = ((List.range N).map fun i => (List.range N).map fun j => if i ≤ j then mget A' i j else 0) :=
      ⟨_, _, _, by simp only [lu, hA.1, e, Py.ok_bind, h1]; rfl, p1, p2, rfl, rfl⟩
    obtain ⟨P, L, U, hok, hPl, hPr, hL, hU⟩ := hlu
    have hperm : ∀ i < N, pivPerm piv N i < N := fun i hi => (h3.perm i).mp hi
    have hPmat : IsMat N N P := by
      refine ⟨hPl, fun row hrow => ?_⟩
      obtain ⟨i, hi, rfl⟩ := List.getElem_of_mem hrow
      have := hPr i (by omega)
      rw [List.getD_eq_getElem _ _ hi] at this
      rw [this]
      have hI : IsMat N N ((List.range N).map fun i => (List.range N).map fun j => if j = i then (1 : K) else 0) :=
        isMat_map_range N N _
      exact Arrays.IsMat.row_length hI (hperm i (by omega))
    have hPget : ∀ i < N, ∀ j < N, mget P i j = if j = pivPerm piv N i then 1 else 0 := fun i hi j hj => by
      rw [mget, hPr i hi]; exact mget_map_range N N _ (hperm i hi) hj
    have hLget : ∀ i < N, ∀ j < N, mget L i j = Lf A' i j := fun i hi j hj => by
      rw [hL, mget_map_range N N _ hi hj, Lf]
      simp only [eq_comm]
    have hUget : ∀ i < N, ∀ j < N, mget U i j = Uf A' i j := fun i hi j hj => by
      rw [hU, mget_map_range N N _ hi hj, Uf]
    refine ⟨fun _ => ⟨P, L, U, hok, hPmat, hL ▸ isMat_map_range N N _, hU ▸ isMat_map_range N N _, ?_, ?_, ?_, ?_, ?_, ?_, ?_⟩,
      fun h => absurd h hd, fun h => by rw [hok] at h; simp at h⟩
    · refine ⟨Equiv.ofBijective (fun i : Fin N => ⟨pivPerm piv N i, hperm i i.2⟩) ?_, ?_⟩
      · rw [← Finite.injective_iff_bijective]
        intro i j hij
        have := (pivPerm piv N).injective (Fin.mk.inj hij)
        exact Fin.ext this
      · ext i j
        have := hPget i i.2 j j.2
        simp only [Equiv.Perm.permMatrix, PEquiv.toMatrix_apply]
        change mget P i j = _
        rw [this]
        simp [Equiv.toPEquiv, Fin.ext_iff, eq_comm]
    · intro i j hij
      have hij' : (i : ℕ) < j := hij
      change mget L i j = 0
      rw [hLget i i.2 j j.2, Lf, if_neg (by omega), if_neg (by omega)]
    · intro i
      change mget L i i = 1
      rw [hLget i i.2 i i.2, Lf, if_neg (lt_irrefl _), if_pos rfl]
    · intro i j
      change |mget L i j| ≤ 1
      rw [hLget i i.2 j j.2, Lf]
      split_ifs with a
      · exact h3.bound _ j.2 _ i.2 a
      · simp
      · simp
    · intro i j hij
      have hij' : (j : ℕ) < i := hij
      change mget U i j = 0
      rw [hUget i i.2 j j.2, Uf, if_neg (by omega)]
    · intro i
      change mget U i i ≠ 0
      rw [hUget i i.2 i i.2, Uf, if_pos le_rfl]
      exact h3.piv i i.2
    · ext i k
      rw [Matrix.mul_apply, Matrix.mul_apply]
      have e1 : ∑ j, toMatrix N N P i j * toMatrix N N A j k = mget A (pivPerm piv N i) k := by
        rw [Finset.sum_eq_single (⟨pivPerm piv N i, hperm i i.2⟩ : Fin N)]
        · change mget P i (pivPerm piv N i) * mget A (pivPerm piv N i) k = _
          rw [hPget i i.2 _ (hperm i i.2), if_pos rfl, one_mul]
        · intro j _ hj
          change mget P i j * _ = 0
          rw [hPget i i.2 j j.2, if_neg (fun h => hj (Fin.ext h)), zero_mul]
        · simp
      rw [e1, h3.factor i.2 k.2 k.2, ← Fin.sum_univ_eq_sum_range (fun l => Lf A' i l * Uf A' l k)]
      refine Finset.sum_congr rfl fun l _ => ?_
      change _ = mget L i l * mget U l k
      rw [hLget i i.2 l l.2, hUget l l.2 k k.2]
  · exact ⟨fun h => absurd hd h, fun _ => by simp [lu, hA.1, e, Py.error_bind], fun _ => hd⟩

/-! ### inverse -/

theorem fill_col {N : ℕ} {A : List (List K)} (hA : IsMat N N A) {j : ℕ} (hj : j < N) (b : List K) (n : ℕ) (hn : n ≤ N) :
    let R := (List.range n).foldl (fun ainv i => mset ainv i j (b.getD i 0)) A
    IsMat N N R ∧ ∀ i k, mget R i k = if k = j ∧ i < n then b.getD i 0 else mget A i k := by
  induction n with
  | zero => exact ⟨hA, by simp⟩
  | succ n ih =>
    obtain ⟨h1, h2⟩ := ih (by omega)
    rw [List.range_succ, List.foldl_append]
    simp only [List.foldl_cons, List.foldl_nil]
    refine ⟨isMat_mset h1 _ _ _, fun i k => ?_⟩
    rw [mget_mset h1 (by omega) hj, h2]
    by_cases a : i = n ∧ k = j
    · obtain ⟨rfl, rfl⟩ := a; simp
    · rw [if_neg a]
      by_cases c : k = j ∧ i < n
      · rw [if_pos c, if_pos ⟨c.1, by omega⟩]
      · rw [if_neg c, if_neg]
        rintro ⟨c1, c2⟩
        have : i ≠ n := fun h => a ⟨h, c1⟩
        exact c ⟨c1, by omega⟩

theorem inv_lu_cases {N : ℕ} {A : List (List K)} (hA : IsMat N N A) :
    ((toMatrix N N A).det ≠ 0 → ∃ M, inv_lu A = .ok M ∧ IsMat N N M ∧ toMatrix N N A * toMatrix N N M = 1) ∧
    ((toMatrix N N A).det = 0 → inv_lu A = .error .valueError) := by
  rcases inplace_LU_ok_or hA (ipivot := List.replicate N 0) (by simp) with ⟨hd, A', piv, e, h1, h2, h3⟩ | ⟨hd, e⟩
  · refine ⟨fun _ => ?_, fun h => absurd h hd⟩
    set f : List (List K) → ℕ → Py (List (List K)) := fun ainv j => do
      let b := (List.replicate N (0 : K)).set j 1
      let b ← solve_from_lu A' piv b
      return (List.range N).foldl (fun ainv i => mset ainv i j (b.getD i 0)) ainv with hf
    have hrun : ∀ n ≤ N, ∃ M, (List.range n).foldlM f (List.replicate N (List.replicate N 0)) = .ok M ∧ IsMat N N M ∧
        ∀ j < n, ∀ i < N, ∑ k ∈ range N, mget A i k * mget M k j = if i = j then 1 else 0 := by
      intro n
      induction n with
      | zero => intro _; exact ⟨_, rfl, isMat_replicate N N 0, by simp⟩
      | succ n ih =>
        intro hn
        obtain ⟨M, m1, m2, m3⟩ := ih (by omega)
        obtain ⟨x, x1, x2, x3⟩ := solve_from_lu_spec h2 h3 ((List.replicate N (0 : K)).set n 1) (by simp)
        obtain ⟨r1, r2⟩ := fill_col m2 (show n < N by omega) x N le_rfl
        refine ⟨_, ?_, r1, fun j hj i hi => ?_⟩
        · rw [List.range_succ, List.foldlM_append, m1, Py.ok_bind]
          simp only [List.foldlM_cons, List.foldlM_nil, hf, x1, Py.ok_bind, Py.pure_eq]
        · by_cases hjn : j = n
          · subst hjn
            have := x3 i hi
            rw [getD_set', List.length_replicate, getD_replicate'] at this
            rw [sum_congr rfl fun k hk => by rw [r2, if_pos ⟨rfl, by simpa using hk⟩], this]
            by_cases c : i = j
            · rw [if_pos ⟨c.symm, by omega⟩, if_pos c]
            · rw [if_neg (by tauto), if_neg c]
          · rw [← m3 j (by omega) i hi]
            refine sum_congr rfl fun k _ => ?_
            rw [r2, if_neg (by tauto)]
    obtain ⟨M, m1, m2, m3⟩ := hrun N le_rfl
    refine ⟨M, ?_, m2, ?_⟩
    · simp only [inv_lu, hA.1, e, Py.ok_bind]; exact m1
    · ext i j
      rw [Matrix.mul_apply, Matrix.one_apply]
      have := m3 j j.2 i i.2
      rw [← Fin.sum_univ_eq_sum_range (fun k => mget A i k * mget M k j)] at this
      simp only [Fin.ext_iff]
      exact this
  · exact ⟨fun h => absurd hd h, fun _ => by simp [inv_lu, hA.1, e, Py.error_bind]⟩

/-- C16: for every size `N` and every `N × N` matrix, `inv` returns the two-sided inverse when the matrix is nonsingular, and
raises otherwise. -/
theorem C16_inv (N : ℕ) (A : List (List K)) (hA : IsMat N N A) :
    ((toMatrix N N A).det ≠ 0 → ∃ M, inv A = .ok M ∧ IsMat N N M ∧ toMatrix N N A * toMatrix N N M = 1 ∧
      toMatrix N N M * toMatrix N N A = 1) ∧
    ((toMatrix N N A).det = 0 → inv A = .error (if N = 1 then .zeroDivisionError else .valueError)) := by
  suffices h : ((toMatrix N N A).det ≠ 0 → ∃ M, inv A = .ok M ∧ IsMat N N M ∧ toMatrix N N A * toMatrix N N M = 1) ∧
      ((toMatrix N N A).det = 0 → inv A = .error (if N = 1 then .zeroDivisionError else .valueError)) by
    refine ⟨fun hd => ?_, h.2⟩
    obtain ⟨M, a, b, c⟩ := h.1 hd
    exact ⟨M, a, b, c, mul_eq_one_comm.mp c⟩
  have hlu := inv_lu_cases hA
  by_cases n1 : N = 1
  · subst n1
    obtain ⟨h1, h2⟩ := hA
    rcases A with _ | ⟨r, _ | ⟨_, _⟩⟩ <;> simp at h1
    have := h2 r (by simp)
    rcases r with _ | ⟨a, _ | ⟨_, _⟩⟩ <;> simp at this
    have hdet : (toMatrix 1 1 [[a]]).det = a := by simp [toMatrix]
    rw [hdet]
    refine ⟨fun h => ?_, fun h => ?_⟩
    · obtain ⟨v, hv1, hv2⟩ := pdiv_one h
      refine ⟨[[v]], by simp only [inv, hv1, Py.ok_bind]; rfl, ⟨rfl, by simp⟩, ?_⟩
      ext i j
      rw [Subsingleton.elim i 0, Subsingleton.elim j 0, Matrix.mul_apply]
      simp [toMatrix, hv2]
    · subst h; simp [inv, pdiv_zero, Py.error_bind]
  rw [if_neg n1]
  by_cases n2 : N = 2
  · subst n2
    obtain ⟨a, c, d, e, rfl⟩ := isMat_two hA
    by_cases hs : |a * e - c * d| ≤ 1e-7
    · simpa only [inv, if_pos hs] using hlu
    · have hne := abs_gt_ne hs
      have hdet : (toMatrix 2 2 [[a, c], [d, e]]).det = a * e - c * d := by
        rw [Matrix.det_fin_two]; simp [toMatrix]
      obtain ⟨v, hv1, hv2⟩ := pdiv_one hne
      refine ⟨fun _ => ⟨_, by simp only [inv, if_neg hs, hv1, Py.ok_bind]; rfl, ⟨rfl, by simp⟩, ?_⟩, fun h => ?_⟩
      · ext i j
        fin_cases i <;> fin_cases j <;> simp [Matrix.mul_apply, toMatrix, Fin.sum_univ_two] <;>
          first | linear_combination hv2 | ring
      · rw [hdet] at h; exact absurd h hne
  by_cases n3 : N = 3
  · subst n3
    obtain ⟨a00, a01, a02, a10, a11, a12, a20, a21, a22, rfl⟩ := isMat_three hA
    by_cases hs : |a00 * (a11 * a22) - a00 * (a12 * a21) + a10 * (a02 * a21) - a10 * (a01 * a22) + a20 * (a01 * a12)
        - a20 * (a02 * a11)| ≤ 1e-7
    · simpa only [inv, if_pos hs] using hlu
    · have hne := abs_gt_ne hs
      have hdet : (toMatrix 3 3 [[a00, a01, a02], [a10, a11, a12], [a20, a21, a22]]).det = a00 * (a11 * a22)
          - a00 * (a12 * a21) + a10 * (a02 * a21) - a10 * (a01 * a22) + a20 * (a01 * a12) - a20 * (a02 * a11) := by
        rw [Matrix.det_fin_three]; simp [toMatrix]; ring
      obtain ⟨v, hv1, hv2⟩ := pdiv_one hne
      refine ⟨fun _ => ⟨_, by simp only [inv, if_neg hs, hv1, Py.ok_bind]; rfl, ⟨rfl, by simp⟩, ?_⟩, fun h => ?_⟩
      · ext i j
        fin_cases i <;> fin_cases j <;> simp [Matrix.mul_apply, toMatrix, Fin.sum_univ_three] <;>
          first | linear_combination hv2 | ring
      · rw [hdet] at h; exact absurd h hne
  have : inv A = inv_lu A := by
    have h1 := hA.1
    rcases A with _ | ⟨r0, _ | ⟨r1, _ | ⟨r2, _ | ⟨r3, A⟩⟩⟩⟩
    · rfl
    · simp at h1; omega
    · simp at h1; omega
    · simp at h1; omega
    · rfl
  rw [this]
  exact hlu

/-- C16 finding: `inv` of a one-row table that is not square does not raise, it returns `[[1/a]]`; and `inv([])` is `[]`. -/
theorem C16_inv_not_square_no_error : inv [[2, 3]] = .ok [[(1/2 : ℚ)]] ∧ inv ([] : List (List ℚ)) = .ok [] := by
  decide +kernel

section
variable {R : Type _} [CommRing R]

theorem length_four {α : Type _} {r : List α} (h : r.length = 4) : ∃ a b c d, r = [a, b, c, d] := by
  rcases r with _ | ⟨a, r⟩
  · simp at h
  · obtain ⟨b, c, d, rfl⟩ := length_three (by simpa using h : r.length = 3); exact ⟨a, b, c, d, rfl⟩

theorem length_five {α : Type _} {r : List α} (h : r.length = 5) : ∃ a b c d e, r = [a, b, c, d, e] := by
  rcases r with _ | ⟨a, r⟩
  · simp at h
  · obtain ⟨b, c, d, e, rfl⟩ := length_four (by simpa using h : r.length = 4); exact ⟨a, b, c, d, e, rfl⟩

theorem det_four (M : Matrix (Fin 4) (Fin 4) R) : M.det =
    M 0 0 * (M 1 1 * (M 2 2 * M 3 3 - M 2 3 * M 3 2) - M 1 2 * (M 2 1 * M 3 3 - M 2 3 * M 3 1)
      + M 1 3 * (M 2 1 * M 3 2 - M 2 2 * M 3 1))
    - M 0 1 * (M 1 0 * (M 2 2 * M 3 3 - M 2 3 * M 3 2) - M 1 2 * (M 2 0 * M 3 3 - M 2 3 * M 3 0)
      + M 1 3 * (M 2 0 * M 3 2 - M 2 2 * M 3 0))
    + M 0 2 * (M 1 0 * (M 2 1 * M 3 3 - M 2 3 * M 3 1) - M 1 1 * (M 2 0 * M 3 3 - M 2 3 * M 3 0)
      + M 1 3 * (M 2 0 * M 3 1 - M 2 1 * M 3 0))
    - M 0 3 * (M 1 0 * (M 2 1 * M 3 2 - M 2 2 * M 3 1) - M 1 1 * (M 2 0 * M 3 2 - M 2 2 * M 3 0)
      + M 1 2 * (M 2 0 * M 3 1 - M 2 1 * M 3 0)) := by
  rw [Matrix.det_succ_row_zero]
  simp only [Fin.sum_univ_four, Matrix.det_fin_three]
  simp [Matrix.submatrix, Fin.succAbove]
  ring

/-- C16: for sizes 2 to 5 (the hand-expanded formulas) `det` is the determinant. -/
theorem C16_det (N : ℕ) (h2 : 2 ≤ N) (h5 : N ≤ 5) (A : List (List R)) (hA : IsMat N N A) (np : List (List R) → Py R) :
    det np A = .ok (.number (toMatrix N N A).det) := by
  obtain ⟨h1, hr⟩ := hA
  obtain rfl | rfl | rfl | rfl : N = 2 ∨ N = 3 ∨ N = 4 ∨ N = 5 := by omega
  · obtain ⟨r0, r1, rfl⟩ := length_two h1
    obtain ⟨a, b, rfl⟩ := length_two (hr r0 (by simp))
    obtain ⟨c, d, rfl⟩ := length_two (hr r1 (by simp))
    rw [Matrix.det_fin_two]
    simp only [det, toMatrix]
    congr 2
    simp; ring
  · obtain ⟨r0, r1, r2, rfl⟩ := length_three h1
    obtain ⟨a, b, c, rfl⟩ := length_three (hr r0 (by simp))
    obtain ⟨d, e, f, rfl⟩ := length_three (hr r1 (by simp))
    obtain ⟨g, h, i, rfl⟩ := length_three (hr r2 (by simp))
    rw [Matrix.det_fin_three]
    simp only [det, toMatrix]
    congr 2
    simp; ring
  · obtain ⟨r0, r1, r2, r3, rfl⟩ := length_four h1
    obtain ⟨a, b, c, d, rfl⟩ := length_four (hr r0 (by simp))
    obtain ⟨e, f, g, h, rfl⟩ := length_four (hr r1 (by simp))
    obtain ⟨i, j, k, l, rfl⟩ := length_four (hr r2 (by simp))
    obtain ⟨m, n, o, p, rfl⟩ := length_four (hr r3 (by simp))
    simp only [det]
    congr 2
    rw [det_four]
    simp [toMatrix]; ring
  · obtain ⟨r0, r1, r2, r3, r4, rfl⟩ := length_five h1
    obtain ⟨a, b, c, d, e, rfl⟩ := length_five (hr r0 (by simp))
    obtain ⟨f, g, h, i, j, rfl⟩ := length_five (hr r1 (by simp))
    obtain ⟨k, l, m, n, o, rfl⟩ := length_five (hr r2 (by simp))
    obtain ⟨p, q, r, s, t, rfl⟩ := length_five (hr r3 (by simp))
    obtain ⟨u, v, w, x, y, rfl⟩ := length_five (hr r4 (by simp))
    simp only [det]
    congr 2
    rw [Matrix.det_succ_row_zero]
    simp only [Fin.sum_univ_five, det_four]
    simp [toMatrix, Matrix.submatrix, Fin.succAbove]
    ring
end

/-- C16 finding: for a 1 × 1 matrix `det` returns the row `[a]`, a list, instead of the number `a`. -/
theorem C16_det_one (R : Type _) [CommRing R] (a : R) (np : List (List R) → Py R) :
    det np [[a]] = .ok (.row [a]) ∧ det np [[a]] ≠ .ok (.number a) := by
  simp [det]

/-- C16: for sizes 2 to 5 a table whose rows do not all have the length of the table raises `ValueError`. -/
theorem C16_det_not_square (R : Type _) [CommRing R] (N : ℕ) (h2 : 2 ≤ N) (h5 : N ≤ 5) (A : List (List R)) (hl : A.length = N)
    (h : ¬ IsMat N N A) (np : List (List R) → Py R) : det np A = .error .valueError := by
  unfold det
  obtain rfl | rfl | rfl | rfl : N = 2 ∨ N = 3 ∨ N = 4 ∨ N = 5 := by omega
  · obtain ⟨r0, r1, rfl⟩ := length_two hl
    simp only
    split
    · exact absurd ⟨rfl, by simp⟩ h
    · rfl
  · obtain ⟨r0, r1, r2, rfl⟩ := length_three hl
    simp only
    split
    · exact absurd ⟨rfl, by simp⟩ h
    · rfl
  · obtain ⟨r0, r1, r2, r3, rfl⟩ := length_four hl
    simp only
    split
    · exact absurd ⟨rfl, by simp⟩ h
    · rfl
  · obtain ⟨r0, r1, r2, r3, r4, rfl⟩ := length_five hl
    simp only
    split
    · exact absurd ⟨rfl, by simp⟩ h
    · rfl

section Examples
example : det (fun _ => .error .valueError) [[2, 0, 1, 0], [1, 3, 0, 0], [0, 0, 1, 4], [1, 0, 0, (1 : ℚ)]] =
    .ok (.number 18) := by decide +kernel
/-- a pivoting 4 × 4 example -/
def exA : List (List ℚ) := [[0, 2, 1, 1], [4, 1, 0, 2], [2, 3, 5, 1], [1, 1, 1, 3]]
example : solve exA [11, 14, 27, 18] = .ok [1, 2, 3, 4] := by decide +kernel
example : solve [[1, 2, 3, 4], [2, 4, 6, 8], [0, 1, 0, 1], [1, 1, 1, 1]] [1, 2, 3, (4 : ℚ)] = .error .valueError := by
  decide +kernel
example : lu [[0, 2], [(4 : ℚ), 1]] = .ok ([[0, 1], [1, 0]], [[1, 0], [0, 1]], [[4, 1], [0, 2]]) := by decide +kernel
example : inv [[0, 2], [(4 : ℚ), 1]] = .ok [[-1/8, 1/4], [1/2, 0]] := by decide +kernel
end Examples

end Verif
