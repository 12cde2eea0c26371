import Mathlib.Algebra.Polynomial.Derivative
import Mathlib.Algebra.BigOperators.Fin

/-! # Specification: polynomials from coefficient lists -/

namespace Verif.Spec
open Polynomial

/-- The polynomial with the given coefficients, highest power first: `c₀ Xⁿ⁻¹ + … + cₙ₋₁`. -/
noncomputable def polyDesc {K : Type _} [CommRing K] (c : List K) : K[X] :=
  ∑ i : Fin c.length, C c[i] * X ^ (c.length - 1 - i)

/-- The polynomial with the given coefficients, lowest power first: `c₀ + c₁ X + …`. -/
noncomputable def polyAsc {K : Type _} [CommRing K] (c : List K) : K[X] :=
  ∑ i : Fin c.length, C c[i] * X ^ (i : ℕ)

end Verif.Spec
