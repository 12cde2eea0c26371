import Verif.Model.Arrays

/-!
# Least squares and null spaces, fluids/numerics/arrays.py

The singular value decomposition (`svd`, arrays.py:1521-1552) is numpy's and is a parameter: it answers `U`, the singular values and `Vt` as lists. Arithmetic is exact.
-/

namespace Verif.LeastSquares
open Verif.Arrays

noncomputable section

/-- arrays.py:1521-1552 `svd`: the three lists numpy's decomposition is converted to -/
structure Factors where
  U : List (List ℝ)
  s : List ℝ
  Vt : List (List ℝ)

/-- arrays.py:1608-1609, 1671-1672: the cutoff ratio, by default the larger dimension times 2.2e-16 -/
def cutoff (rcond : Option ℝ) (m n : ℕ) : ℝ := rcond.getD ((max m n : ℕ) * 2.2e-16)

/-- arrays.py:1613, 1676: `sum(sv > tol for sv in s)` -/
def countAbove (tol : ℝ) (s : List ℝ) : ℕ := s.countP fun sv => decide (sv > tol)

/-- arrays.py:1626: the coordinates divided by the singular values, 0 for a zero one -/
def divided (s Utb : List ℝ) (rank : ℕ) : List ℝ := (List.range rank).map fun i => if s.getD i 0 ≠ 0 then Utb.getD i 0 / s.getD i 0 else 0

/-- arrays.py:1555-1642 `gelsd`; returns solution, residuals, rank and singular values. Without rows `n` is 0 as well, so that 1597 is never reached. -/
def gelsd (svd : List (List ℝ) → Factors) (a : List (List ℝ)) (b : List ℝ) (rcond : Option ℝ) : Py (List ℝ × ℝ × ℕ × List ℝ) :=
  let m := a.length
  let n := (a.getD 0 []).length
  if m = 0 ∨ n = 0 then .ok ([], 0, 0, [])
  else if b.length ≠ m then .error .valueError
  else
    let F := svd a
    let tol : ℝ := cutoff rcond m n * F.s.getD 0 0
    let rank := countAbove tol F.s
    if rank = 0 then .ok (List.replicate n 0, (b.map fun bi => bi * bi).sum, 0, F.s)
    else do
      let Ut ← transpose F.U
      let Utb ← matrix_vector_dot (Ut.take rank) b
      let s_inv_Utb := divided F.s Utb rank
      let V ← transpose (F.Vt.take rank)
      let x ← matrix_vector_dot V s_inv_Utb
      if m > n ∧ rank = n then do
        let Ax ← matrix_vector_dot a x
        let diff := (List.range m).map fun i => b.getD i 0 - Ax.getD i 0
        let residuals ← dot_product diff diff
        return (x, residuals, rank, F.s)
      else return (x, 0, rank, F.s)

/-- arrays.py:1675: `max(s)` of a list that is not empty -/
def maxOf (s : List ℝ) : ℝ := s.foldl max (s.getD 0 0)

/-- arrays.py:1644-1681 `null_space` -/
def null_space (svd : List (List ℝ) → Factors) (a : List (List ℝ)) (rcond : Option ℝ) : Py (List (List ℝ)) :=
  let m := a.length
  let n := (a.getD 0 []).length
  if m = 0 ∨ n = 0 then .ok []
  else do
    let F := svd a
    let tol : ℝ := if F.s ≠ [] then maxOf F.s * cutoff rcond m n else 0
    let num := countAbove tol F.s
    let V ← transpose F.Vt
    return V.map fun row => row.drop num

end

end Verif.LeastSquares
