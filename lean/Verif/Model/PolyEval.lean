import Verif.Py

/-!
# Model of `fluids/numerics/polynomial_evaluation.py`

Loops `for c in coeffs: state = ...` are `List.foldl` over the coefficient list with the tuple of loop variables as state.
The ring-only routines are over an arbitrary commutative ring; routines that call `exp`/`log` are over ℝ.
-/

namespace Verif.PolyEval

section Ring
variable {K : Type _} [CommRing K]

/-- polynomial_evaluation.py:118-121 `horner(coeffs, x)`. -/
def horner (coeffs : List K) (x : K) : K :=
  coeffs.foldl (fun tot c => tot * x + c) 0

/-- polynomial_evaluation.py:124-131 `horner_and_der`. -/
def horner_and_der (coeffs : List K) (x : K) : K × K :=
  coeffs.foldl (fun (f, der) a => (x * f + a, x * der + f)) (0, 0)

/-- polynomial_evaluation.py:133-140 `horner_and_der2`. -/
def horner_and_der2 (coeffs : List K) (x : K) : K × K × K :=
  let (f, der, der2) := coeffs.foldl
    (fun ((f, der, der2) : K × K × K) a => (x * f + a, x * der + f, x * der2 + der)) (0, 0, 0)
  (f, der, der2 + der2)

/-- polynomial_evaluation.py:142-151 `horner_and_der3`. -/
def horner_and_der3 (coeffs : List K) (x : K) : K × K × K × K :=
  let (f, der, der2, der3) := coeffs.foldl
    (fun ((f, der, der2, der3) : K × K × K × K) a =>
      (x * f + a, x * der + f, x * der2 + der, x * der3 + der2)) (0, 0, 0, 0)
  (f, der, der2 + der2, der3 * 6)

/-- polynomial_evaluation.py:153-163 `horner_and_der4`. -/
def horner_and_der4 (coeffs : List K) (x : K) : K × K × K × K × K :=
  let (f, der, der2, der3, der4) := coeffs.foldl
    (fun ((f, der, der2, der3, der4) : K × K × K × K × K) a =>
      (x * f + a, x * der + f, x * der2 + der, x * der3 + der2, x * der4 + der3)) (0, 0, 0, 0, 0)
  (f, der, der2 + der2, der3 * 6, der4 * 24)

/-- polynomial_evaluation.py:165-166 `horner_backwards`. -/
def horner_backwards (x : K) (coeffs : List K) : K := horner coeffs x

/-- polynomial_evaluation.py:301-306 `horner_stable`. -/
def horner_stable (x : K) (coeffs : List K) (offset scale : K) : K :=
  let x := offset + scale * x
  coeffs.foldl (fun tot c => tot * x + c) 0

/-- polynomial_evaluation.py:308-315 `horner_stable_and_der`. -/
def horner_stable_and_der (x : K) (coeffs : List K) (offset scale : K) : K × K :=
  let x := offset + scale * x
  let (f, der) := coeffs.foldl (fun ((f, der) : K × K) a => (x * f + a, x * der + f)) (0, 0)
  (f, der * scale)

/-- polynomial_evaluation.py:317-324 `horner_stable_and_der2`. -/
def horner_stable_and_der2 (x : K) (coeffs : List K) (offset scale : K) : K × K × K :=
  let x := offset + scale * x
  let (f, der, der2) := coeffs.foldl
    (fun ((f, der, der2) : K × K × K) a => (x * f + a, x * der + f, x * der2 + der)) (0, 0, 0)
  (f, der * scale, scale * scale * (der2 + der2))

/-- polynomial_evaluation.py:326-335 `horner_stable_and_der3`. -/
def horner_stable_and_der3 (x : K) (coeffs : List K) (offset scale : K) : K × K × K × K :=
  let x := offset + scale * x
  let (f, der, der2, der3) := coeffs.foldl
    (fun ((f, der, der2, der3) : K × K × K × K) a =>
      (x * f + a, x * der + f, x * der2 + der, x * der3 + der2)) (0, 0, 0, 0)
  let scale2 := scale * scale
  (f, der * scale, scale2 * (der2 + der2), scale2 * scale * der3 * 6)

/-- polynomial_evaluation.py:337-347 `horner_stable_and_der4`. -/
def horner_stable_and_der4 (x : K) (coeffs : List K) (offset scale : K) : K × K × K × K × K :=
  let x := offset + scale * x
  let (f, der, der2, der3, der4) := coeffs.foldl
    (fun ((f, der, der2, der3, der4) : K × K × K × K × K) a =>
      (x * f + a, x * der + f, x * der2 + der, x * der3 + der2, x * der4 + der3)) (0, 0, 0, 0, 0)
  let scale2 := scale * scale
  (f, der * scale, scale2 * (der2 + der2), scale2 * scale * der3 * 6, scale2 * scale2 * der4 * 24)
end Ring

/-- polynomial_evaluation.py:262-299 `horner_domain` (raises ZeroDivisionError when `xmax = xmin`). -/
def horner_domain {K : Type _} [Field K] [DecidableEq K] (x : K) (coeffs : List K) (xmin xmax : K) : Py K := do
  let range_inv ← 1 /ₚ (xmax - xmin)
  let off := (-xmax - xmin) * range_inv
  let scl := 2 * range_inv
  let x := off + scl * x
  return coeffs.foldl (fun tot c => tot * x + c) 0

noncomputable section
open Real

/-- numerics/special.py:130: special.py `trunc_exp`: `exp(x)`, with the overflow fallback. Simplification: reals do not overflow, so the
`except OverflowError: return trunc` branch never fires here. -/
def trunc_exp (x : ℝ) : ℝ := exp x

/-- polynomial_evaluation.py:168-169. -/
def exp_horner_backwards (x : ℝ) (coeffs : List ℝ) : ℝ := exp (horner coeffs x)

/-- polynomial_evaluation.py:171-175. -/
def exp_horner_backwards_and_der (x : ℝ) (coeffs : List ℝ) : ℝ × ℝ :=
  let (poly_val, poly_der) := horner_and_der coeffs x
  let val := exp poly_val
  (val, poly_der * val)

/-- polynomial_evaluation.py:177-182. -/
def exp_horner_backwards_and_der2 (x : ℝ) (coeffs : List ℝ) : ℝ × ℝ × ℝ :=
  let (poly_val, poly_der, poly_der2) := horner_and_der2 coeffs x
  let val := exp poly_val
  (val, poly_der * val, (poly_der * poly_der + poly_der2) * val)

/-- polynomial_evaluation.py:184-190. -/
def exp_horner_backwards_and_der3 (x : ℝ) (coeffs : List ℝ) : ℝ × ℝ × ℝ × ℝ :=
  let (poly_val, poly_der, poly_der2, poly_der3) := horner_and_der3 coeffs x
  let val := exp poly_val
  (val, poly_der * val, (poly_der * poly_der + poly_der2) * val,
    (poly_der * poly_der * poly_der + 3 * poly_der * poly_der2 + poly_der3) * val)

/-- polynomial_evaluation.py:193-197. -/
def horner_backwards_ln_tau (T Tc : ℝ) (coeffs : List ℝ) : Py ℝ := do
  if T ≥ Tc then return 0
  let lntau ← plog (1 - (← T /ₚ Tc))
  return horner coeffs lntau

/-- polynomial_evaluation.py:199-205. -/
def horner_backwards_ln_tau_and_der (T Tc : ℝ) (coeffs : List ℝ) : Py (ℝ × ℝ) := do
  if T ≥ Tc then return (0, 0)
  let lntau ← plog (1 - (← T /ₚ Tc))
  let (val, poly_der) := horner_and_der coeffs lntau
  let der ← -poly_der /ₚ (Tc * ((← -T /ₚ Tc) + 1))
  return (val, der)

/-- polynomial_evaluation.py:207-215. -/
def horner_backwards_ln_tau_and_der2 (T Tc : ℝ) (coeffs : List ℝ) : Py (ℝ × ℝ × ℝ) := do
  if T ≥ Tc then return (0, 0, 0)
  let lntau ← plog (1 - (← T /ₚ Tc))
  let (val, poly_der, poly_der2) := horner_and_der2 coeffs lntau
  let der ← -poly_der /ₚ (Tc * ((← -T /ₚ Tc) + 1))
  let der2 ← (-poly_der + poly_der2) /ₚ (Tc ^ 2 * ((← T /ₚ Tc) - 1) ^ 2)
  return (val, der, der2)

/-- polynomial_evaluation.py:217-226. -/
def horner_backwards_ln_tau_and_der3 (T Tc : ℝ) (coeffs : List ℝ) : Py (ℝ × ℝ × ℝ × ℝ) := do
  if T ≥ Tc then return (0, 0, 0, 0)
  let lntau ← plog (1 - (← T /ₚ Tc))
  let (val, poly_der, poly_der2, poly_der3) := horner_and_der3 coeffs lntau
  let der ← -poly_der /ₚ (Tc * ((← -T /ₚ Tc) + 1))
  let der2 ← (-poly_der + poly_der2) /ₚ (Tc ^ 2 * ((← T /ₚ Tc) - 1) ^ 2)
  let der3 ← (2 * poly_der - 3 * poly_der2 + poly_der3) /ₚ (Tc ^ 3 * ((← T /ₚ Tc) - 1) ^ 3)
  return (val, der, der2, der3)

/-- polynomial_evaluation.py:228-238. -/
def exp_horner_backwards_ln_tau (T Tc : ℝ) (coeffs : List ℝ) : Py ℝ := do
  if T ≥ Tc then return 0
  let lntau ← plog (1 - (← T /ₚ Tc))
  return exp (horner coeffs lntau)

/-- polynomial_evaluation.py:240-247. -/
def exp_horner_backwards_ln_tau_and_der (T Tc : ℝ) (coeffs : List ℝ) : Py (ℝ × ℝ) := do
  if T ≥ Tc then return (0, 0)
  let tau := 1 - (← T /ₚ Tc)
  let lntau ← plog tau
  let (poly_val, poly_der_val) := horner_and_der coeffs lntau
  let val := exp poly_val
  return (val, ← -val * poly_der_val /ₚ (Tc * tau))

/-- polynomial_evaluation.py:249-260. -/
def exp_horner_backwards_ln_tau_and_der2 (T Tc : ℝ) (coeffs : List ℝ) : Py (ℝ × ℝ × ℝ) := do
  if T ≥ Tc then return (0, 0, 0)
  let tau := 1 - (← T /ₚ Tc)
  let lntau ← plog tau
  let (poly_val, poly_val_der, poly_val_der2) := horner_and_der2 coeffs lntau
  let val := exp poly_val
  let temp ← 1 /ₚ (Tc * tau)
  let der := -temp * val * poly_val_der
  let der2 := (poly_val_der * poly_val_der - poly_val_der + poly_val_der2) * val * (temp * temp)
  return (val, der, der2)

/-- polynomial_evaluation.py:349-353. -/
def horner_stable_ln_tau (T Tc : ℝ) (coeffs : List ℝ) (offset scale : ℝ) : Py ℝ := do
  if T ≥ Tc then return 0
  let lntau ← plog (1 - (← T /ₚ Tc))
  return horner_stable lntau coeffs offset scale

/-- polynomial_evaluation.py:355-361. -/
def horner_stable_ln_tau_and_der (T Tc : ℝ) (coeffs : List ℝ) (offset scale : ℝ) : Py (ℝ × ℝ) := do
  if T ≥ Tc then return (0, 0)
  let lntau ← plog (1 - (← T /ₚ Tc))
  let (val, poly_der) := horner_stable_and_der lntau coeffs offset scale
  let der ← -poly_der /ₚ (Tc * ((← -T /ₚ Tc) + 1))
  return (val, der)

/-- polynomial_evaluation.py:363-373. -/
def horner_stable_ln_tau_and_der2 (T Tc : ℝ) (coeffs : List ℝ) (offset scale : ℝ) : Py (ℝ × ℝ × ℝ) := do
  if T ≥ Tc then return (0, 0, 0)
  let tau := 1 - (← T /ₚ Tc)
  let lntau ← plog tau
  let (val, poly_der, poly_der2) := horner_stable_and_der2 lntau coeffs offset scale
  let den ← 1 /ₚ (Tc * tau)
  return (val, -poly_der * den, (-poly_der + poly_der2) * den * den)

/-- polynomial_evaluation.py:375-386. -/
def horner_stable_ln_tau_and_der3 (T Tc : ℝ) (coeffs : List ℝ) (offset scale : ℝ) : Py (ℝ × ℝ × ℝ × ℝ) := do
  if T ≥ Tc then return (0, 0, 0, 0)
  let tau := 1 - (← T /ₚ Tc)
  let lntau ← plog tau
  let (val, poly_der, poly_der2, poly_der3) := horner_stable_and_der3 lntau coeffs offset scale
  let den ← 1 /ₚ (Tc * tau)
  return (val, -poly_der * den, (-poly_der + poly_der2) * den * den,
    -(2 * poly_der - 3 * poly_der2 + poly_der3) * den * den * den)

/-- polynomial_evaluation.py:388-389. -/
def exp_horner_stable (x : ℝ) (coeffs : List ℝ) (offset scale : ℝ) : ℝ :=
  trunc_exp (horner_stable x coeffs offset scale)

/-- polynomial_evaluation.py:391-395. -/
def exp_horner_stable_and_der (x : ℝ) (coeffs : List ℝ) (offset scale : ℝ) : ℝ × ℝ :=
  let (poly_val, poly_der) := horner_stable_and_der x coeffs offset scale
  let val := exp poly_val
  (val, poly_der * val)

/-- polynomial_evaluation.py:397-402. -/
def exp_horner_stable_and_der2 (x : ℝ) (coeffs : List ℝ) (offset scale : ℝ) : ℝ × ℝ × ℝ :=
  let (poly_val, poly_der, poly_der2) := horner_stable_and_der2 x coeffs offset scale
  let val := exp poly_val
  (val, poly_der * val, (poly_der * poly_der + poly_der2) * val)

/-- polynomial_evaluation.py:404-410. -/
def exp_horner_stable_and_der3 (x : ℝ) (coeffs : List ℝ) (offset scale : ℝ) : ℝ × ℝ × ℝ × ℝ :=
  let (poly_val, poly_der, poly_der2, poly_der3) := horner_stable_and_der3 x coeffs offset scale
  let val := exp poly_val
  (val, poly_der * val, (poly_der * poly_der + poly_der2) * val,
    (poly_der * poly_der * poly_der + 3 * poly_der * poly_der2 + poly_der3) * val)

/-- polynomial_evaluation.py:412-416. -/
def exp_horner_stable_ln_tau (T Tc : ℝ) (coeffs : List ℝ) (offset scale : ℝ) : Py ℝ := do
  if T ≥ Tc then return 0
  let lntau ← plog (1 - (← T /ₚ Tc))
  return trunc_exp (horner_stable lntau coeffs offset scale)

/-- polynomial_evaluation.py:418-425. -/
def exp_horner_stable_ln_tau_and_der (T Tc : ℝ) (coeffs : List ℝ) (offset scale : ℝ) : Py (ℝ × ℝ) := do
  if T ≥ Tc then return (0, 0)
  let tau := 1 - (← T /ₚ Tc)
  let lntau ← plog tau
  let (poly_val, poly_der_val) := horner_stable_and_der lntau coeffs offset scale
  let val := trunc_exp poly_val
  return (val, ← -val * poly_der_val /ₚ (Tc * tau))

/-- polynomial_evaluation.py:427-437. -/
def exp_horner_stable_ln_tau_and_der2 (T Tc : ℝ) (coeffs : List ℝ) (offset scale : ℝ) : Py (ℝ × ℝ × ℝ) := do
  if T ≥ Tc then return (0, 0, 0)
  let tau := 1 - (← T /ₚ Tc)
  let lntau ← plog tau
  let (poly_val, poly_val_der, poly_val_der2) := horner_stable_and_der2 lntau coeffs offset scale
  let val := trunc_exp poly_val
  let der ← -val * poly_val_der /ₚ (Tc * tau)
  let der2 ← (poly_val_der * poly_val_der - poly_val_der + poly_val_der2) * val /ₚ (Tc * Tc * (tau * tau))
  return (val, der, der2)

/-- polynomial_evaluation.py:439-446. -/
def horner_log (coeffs : List ℝ) (log_coeff x : ℝ) : Py ℝ := do
  let tot := coeffs.foldl (fun tot c => tot * x + c) 0
  return tot + log_coeff * (← plog x)

/-- polynomial_evaluation.py:449-451. -/
def horner_stable_log (x : ℝ) (coeffs : List ℝ) (offset scale log_coeff : ℝ) : Py ℝ := do
  let tot := horner_stable x coeffs offset scale
  return tot + log_coeff * (← plog x)

end
end Verif.PolyEval
