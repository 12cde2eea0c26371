import Mathlib.Analysis.SpecialFunctions.Exp

/-! The principal branch of the Lambert W function on the non-negative reals, as a specification of `lambertw(x).real`. -/

namespace Verif.Spec
open Real

/-- `W y` is the non-negative solution of `w * exp w = y`. -/
def IsLambertW (W : ℝ → ℝ) : Prop := ∀ y, 0 ≤ y → 0 ≤ W y ∧ W y * exp (W y) = y

end Verif.Spec
