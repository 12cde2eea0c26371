import Mathlib.RingTheory.Polynomial.Chebyshev

/-! # Specification: Chebyshev series -/

namespace Verif.Spec
open Polynomial

/-- The series `∑ₖ cₖ Tₖ`, with `Tₖ` Mathlib's Chebyshev polynomial of the first kind. -/
noncomputable def chebSeries {K : Type _} [CommRing K] (c : List K) : K[X] :=
  ∑ k : Fin c.length, C c[k] * Chebyshev.T K (k : ℤ)

end Verif.Spec
