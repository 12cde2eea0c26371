import Verif.Model.Chebyshev
import Verif.Model.PolyEval

/-!
# Model of the exponential and `ln(1 - T/Tc)` Chebyshev series of `fluids/numerics/__init__.py`

`chebval` is `Verif.Chebyshev.chebval`; `trunc_exp` and `exp` are the real exponential (no overflow).
-/

namespace Verif.ChebExp
open Verif Verif.Chebyshev

/-- numerics/__init__.py:1316-1318 `exp_cheb`. -/
noncomputable def exp_cheb (x : ℝ) (coeffs : List ℝ) (offset scale : ℝ) : Py ℝ := do
  let y ← chebval x coeffs offset scale
  return PolyEval.trunc_exp y

/-- numerics/__init__.py:1320-1325 `exp_cheb_and_der`. -/
noncomputable def exp_cheb_and_der (x : ℝ) (coeffs der_coeffs : List ℝ) (offset scale : ℝ) : Py (ℝ × ℝ) := do
  let poly_val ← chebval x coeffs offset scale
  let poly_der ← chebval x der_coeffs offset scale
  let val : ℝ := Real.exp poly_val
  let der : ℝ := poly_der * val
  return (val, der)

/-- numerics/__init__.py:1327-1334 `exp_cheb_and_der2`. -/
noncomputable def exp_cheb_and_der2 (x : ℝ) (coeffs der_coeffs der2_coeffs : List ℝ) (offset scale : ℝ) : Py (ℝ × ℝ × ℝ) := do
  let poly_val ← chebval x coeffs offset scale
  let poly_der ← chebval x der_coeffs offset scale
  let poly_der2 ← chebval x der2_coeffs offset scale
  let val : ℝ := Real.exp poly_val
  let der : ℝ := poly_der * val
  let der2 : ℝ := (poly_der * poly_der + poly_der2) * val
  return (val, der, der2)

/-- numerics/__init__.py:1336-1345 `exp_cheb_and_der3`. -/
noncomputable def exp_cheb_and_der3 (x : ℝ) (coeffs der_coeffs der2_coeffs der3_coeffs : List ℝ) (offset scale : ℝ) : Py (ℝ × ℝ × ℝ × ℝ) := do
  let poly_val ← chebval x coeffs offset scale
  let poly_der ← chebval x der_coeffs offset scale
  let poly_der2 ← chebval x der2_coeffs offset scale
  let poly_der3 ← chebval x der3_coeffs offset scale
  let val : ℝ := Real.exp poly_val
  let der : ℝ := poly_der * val
  let der2 : ℝ := (poly_der * poly_der + poly_der2) * val
  let der3 : ℝ := (poly_der * poly_der * poly_der + 3 * poly_der * poly_der2 + poly_der3) * val
  return (val, der, der2, der3)

/-- numerics/__init__.py:1347-1352 `exp_cheb_ln_tau`. -/
noncomputable def exp_cheb_ln_tau (T Tc : ℝ) (coeffs : List ℝ) (offset scale : ℝ) : Py ℝ :=
  if T ≥ Tc then .ok 0
  else do
    let q ← T /ₚ Tc
    let lntau ← plog (1 - q)
    let y ← chebval lntau coeffs offset scale
    return PolyEval.trunc_exp y

/-- numerics/__init__.py:1354-1363 `exp_cheb_ln_tau_and_der`. -/
noncomputable def exp_cheb_ln_tau_and_der (T Tc : ℝ) (coeffs der_coeffs : List ℝ) (offset scale : ℝ) : Py (ℝ × ℝ) :=
  if T ≥ Tc then .ok (0, 0)
  else do
    let q ← T /ₚ Tc
    let tau : ℝ := 1 - q
    let lntau ← plog tau
    let poly_val ← chebval lntau coeffs offset scale
    let poly_der_val ← chebval lntau der_coeffs offset scale
    let val : ℝ := Real.exp poly_val
    let der ← -val * poly_der_val /ₚ (Tc * tau)
    return (val, der)

/-- numerics/__init__.py:1365-1377 `exp_cheb_ln_tau_and_der2`. -/
noncomputable def exp_cheb_ln_tau_and_der2 (T Tc : ℝ) (coeffs der_coeffs der2_coeffs : List ℝ) (offset scale : ℝ) : Py (ℝ × ℝ × ℝ) :=
  if T ≥ Tc then .ok (0, 0, 0)
  else do
    let q ← T /ₚ Tc
    let tau : ℝ := 1 - q
    let lntau ← plog tau
    let poly_val ← chebval lntau coeffs offset scale
    let poly_val_der ← chebval lntau der_coeffs offset scale
    let poly_val_der2 ← chebval lntau der2_coeffs offset scale
    let val : ℝ := Real.exp poly_val
    let der ← -val * poly_val_der /ₚ (Tc * tau)
    let der2 ← (poly_val_der * poly_val_der - poly_val_der + poly_val_der2) * val /ₚ (Tc * Tc * (tau * tau))
    return (val, der, der2)

/-- numerics/__init__.py:1379-1384 `chebval_ln_tau`. -/
noncomputable def chebval_ln_tau (T Tc : ℝ) (coeffs : List ℝ) (offset scale : ℝ) : Py ℝ :=
  if T ≥ Tc then .ok 0
  else do
    let q ← T /ₚ Tc
    let lntau ← plog (1 - q)
    chebval lntau coeffs offset scale

/-- numerics/__init__.py:1386-1393 `chebval_ln_tau_and_der`. -/
noncomputable def chebval_ln_tau_and_der (T Tc : ℝ) (coeffs der_coeffs : List ℝ) (offset scale : ℝ) : Py (ℝ × ℝ) :=
  if T ≥ Tc then .ok (0, 0)
  else do
    let q ← T /ₚ Tc
    let lntau ← plog (1 - q)
    let val ← chebval lntau coeffs offset scale
    let poly_der ← chebval lntau der_coeffs offset scale
    let q1 ← -T /ₚ Tc
    let der ← -poly_der /ₚ (Tc * (q1 + 1))
    return (val, der)

/-- numerics/__init__.py:1396-1406 `chebval_ln_tau_and_der2`. -/
noncomputable def chebval_ln_tau_and_der2 (T Tc : ℝ) (coeffs der_coeffs der2_coeffs : List ℝ) (offset scale : ℝ) : Py (ℝ × ℝ × ℝ) :=
  if T ≥ Tc then .ok (0, 0, 0)
  else do
    let q ← T /ₚ Tc
    let lntau ← plog (1 - q)
    let val ← chebval lntau coeffs offset scale
    let poly_der ← chebval lntau der_coeffs offset scale
    let poly_der2 ← chebval lntau der2_coeffs offset scale
    let q1 ← -T /ₚ Tc
    let der ← -poly_der /ₚ (Tc * (q1 + 1))
    let der2 ← (-poly_der + poly_der2) /ₚ (Tc ^ 2 * (q - 1) ^ 2)
    return (val, der, der2)

/-- numerics/__init__.py:1408-1420 `chebval_ln_tau_and_der3` (the last value for `T ≥ Tc` is the integer literal `00`). -/
noncomputable def chebval_ln_tau_and_der3 (T Tc : ℝ) (coeffs der_coeffs der2_coeffs der3_coeffs : List ℝ) (offset scale : ℝ) : Py (ℝ × ℝ × ℝ × ℝ) :=
  if T ≥ Tc then .ok (0, 0, 0, 0)
  else do
    let q ← T /ₚ Tc
    let lntau ← plog (1 - q)
    let val ← chebval lntau coeffs offset scale
    let poly_der ← chebval lntau der_coeffs offset scale
    let poly_der2 ← chebval lntau der2_coeffs offset scale
    let poly_der3 ← chebval lntau der3_coeffs offset scale
    let q1 ← -T /ₚ Tc
    let der ← -poly_der /ₚ (Tc * (q1 + 1))
    let der2 ← (-poly_der + poly_der2) /ₚ (Tc ^ 2 * (q - 1) ^ 2)
    let der3 ← (2 * poly_der - 3 * poly_der2 + poly_der3) /ₚ (Tc ^ 3 * (q - 1) ^ 3)
    return (val, der, der2, der3)

end Verif.ChebExp
