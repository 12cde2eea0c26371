import Mathlib.LinearAlgebra.Matrix.Defs
import Mathlib.Data.Matrix.Mul

/-! # Specification: lists of rows as Mathlib matrices -/

namespace Verif.Spec
variable {K : Type _} [CommRing K]

/-- `A` is an `m × n` table: `m` rows, each with `n` entries. -/
def IsMat {α : Type _} (m n : ℕ) (A : List (List α)) : Prop := A.length = m ∧ ∀ row ∈ A, row.length = n

/-- The matrix whose entry `(i, j)` is `A[i][j]`. -/
def toMatrix (m n : ℕ) (A : List (List K)) : Matrix (Fin m) (Fin n) K := fun i j => (A.getD i []).getD j 0

/-- The vector whose entry `i` is `v[i]`. -/
def toVec (n : ℕ) (v : List K) : Fin n → K := fun i => v.getD i 0

end Verif.Spec
