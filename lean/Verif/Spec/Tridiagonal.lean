import Mathlib.LinearAlgebra.Matrix.Defs
import Mathlib.Data.Matrix.Mul

/-! # Specification: the tridiagonal matrix with sub-, main and superdiagonal `a`, `b`, `c` -/

namespace Verif.Spec

/-- entry `(i, j)`: `b[i]` on the diagonal, `a[j]` just below it, `c[i]` just above it, 0 elsewhere -/
def triMatrix {K : Type _} [CommRing K] (N : ℕ) (a b c : List K) : Matrix (Fin N) (Fin N) K := fun i j =>
  if (i : ℕ) = j then b.getD i 0 else if (i : ℕ) = j + 1 then a.getD j 0 else if (j : ℕ) = i + 1 then c.getD i 0 else 0

end Verif.Spec
