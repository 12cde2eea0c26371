SEEDS = [
 ('PolyEval','horner_and_der','x * der + f)','x * der + f + a)','C09: the second component is the derivative'),
 ('PolyEval','horner_and_der2','(f, der, der2 + der2)','(f, der, der2)','C09: the third component is the second derivative'),
 ('PolyEval','horner_and_der3','der3 * 6','der3 * 3','C09: the fourth component is the third derivative'),
 ('PolyEval','horner_stable_and_der','(f, der * scale)','(f, der)','C10: chain rule factor of the stable form'),
 ('PolyEval','horner_stable_and_der3','scale2 * scale * der3 * 6','scale2 * der3 * 6','C10: third derivative of the stable form'),
 ('PolyEval','horner_domain','(-xmax - xmin) * range_inv','(-xmax + xmin) * range_inv','C10: xmin and xmax map to -1 and 1'),
 ('PolyEval','horner_backwards_ln_tau','if T ≥ Tc then return 0','if T > Tc then return 0','C10: value 0 at the critical point'),
 ('PolyEval','horner_backwards_ln_tau_and_der2','(-poly_der + poly_der2)','(poly_der + poly_der2)','C10: second temperature derivative'),
 ('PolyEval','exp_horner_backwards_and_der2','(poly_der * poly_der + poly_der2) * val','(poly_der + poly_der2) * val','C10: second derivative of exp(p)'),
 ('PolyEval','exp_horner_backwards_ln_tau_and_der2','* (temp * temp)','* temp','C10: second derivative of exp of polynomial in ln tau'),
 ('PolyEval','horner_stable_ln_tau_and_der3','- 3 * poly_der2','+ 3 * poly_der2','C10: third derivative in ln tau'),
 ('PolyEval','horner_log','log_coeff * (← plog x)','log_coeff * x','C10: log term of horner_log'),
 ('PolyUtils','poly_add','max p1.length p2.length','min p1.length p2.length','C13: poly_add keeps the longer polynomial'),
 ('PolyUtils','poly_mul','(i + j)','(i + j + 1)','C13: product coefficient positions'),
 ('PolyUtils','stable_poly_to_unstable','-(high + low) /ₚ','(high + low) /ₚ','C13: conversion evaluates to the same polynomial'),
 ('PolyUtils','polyint','((N - i : ℕ) : K)','((N - i - 1 : ℕ) : K)','C11: polyint inverts polyder'),
 ('PolyUtils','polyint_stable','scale * coeffs.getD i 0','coeffs.getD i 0','C11: integral of the stable form'),
 ('PolyUtils','polyint_over_x','coeffs.getLastD 0','coeffs.headD 0','C11: coefficient of the logarithm'),
 ('PolyUtils','polyder','m ≥ c.length','m > c.length','C11: m-th derivative (boundary m = len)'),
 ('PolyUtils','polyder_once','((j + 1 : ℕ) : K)','((j : ℕ) : K)','C11: polyder'),
 ('PolyUtils','quadratic_from_points','v0 + x0','v0 - x0','C13: quadratic through three points'),
 ('PolyUtils','quadratic_from_f_ders','d1 - d2 * x','d1 + d2 * x','C13: quadratic with given value and slopes'),
 ('PolyUtils','poly_convert','1 / 2 * (Tmax - Tmin)','1 / 2 * (Tmax + Tmin)','C13: poly_convert'),
 ('PolyUtils','polyint_over_x_stable','powers offset n','powers scale n','C11: integral over x of the stable form'),
 ('PolyUtils','deflate_cubic_real_roots','-d /ₚ x0','d /ₚ x0','C14: deflated roots'),
 ('PolyUtils','exp_poly_ln_tau_coeffs2','der * x0 * x1','-der * x0 * x1','C13: exp_poly_ln_tau_coeffs2 matches value and slope'),
 ('Roots','roots_quadratic','b * b - 4 * a * c','b * b - 2 * a * c','C14: quadratic roots'),
 ('Roots','roots_quadratic','let root ← -c /ₚ b','let root ← c /ₚ b','C14: linear case'),
 ('Roots','roots_cubic','return ((x1 : ℂ), (t1 : ℂ) + t2, (t1 : ℂ) - t2)','return ((x1 : ℂ), (t1 : ℂ) + t2, (t1 : ℂ) + t2)','C14: complex pair of the cubic'),
 ('Roots','roots_cubic','let x3 := P - j * (M - N)','let x3 := P + j * (M - N)','C14: trigonometric roots'),
 ('Roots','roots_cubic','return (x1, x1, x2)','return (x1, x1, x1)','C14: degenerate cubic with complex roots'),
 ('Roots','roots_cubic_a2','t40 * (1 / 3)','t40 * (2 / 3)','C14: roots_cubic_a2'),
 ('Core','Reynolds','mu /ₚ rho','rho /ₚ mu','C01: Reynolds number from rho and mu'),
 ('Core','Fourier_heat','(L * L)','L','C01: Fourier number'),
 ('Core','Grashof','|T2 - T1|','(T2 - T1)','C01: Grashof uses the absolute temperature difference'),
 ('Core','Prandtl','nu /ₚ alpha','alpha /ₚ nu','C01: Prandtl from nu and alpha'),
 ('Core','Froude','if squared then return Fr * Fr','if squared then return Fr','C01: squared Froude number'),
 ('Core','Froude_densimetric','if heavy then rho1 else rho2','if heavy then rho2 else rho1','C01: densimetric Froude number'),
 ('Core','nu_mu_converter','.ok (nu * rho)','nu /ₚ rho','C01: nu_mu_converter round trip'),
 ('Core','Power_number','L ^ 5','L ^ 4','C78: unit invariance of the power number'),
 ('Core','Weber','V * V * L','V * L','C78: unit invariance of the Weber number'),
 ('Core','F2K','(F - 32)','(F + 32)','C02: temperature conversions'),
 ('Core','R2F','18 / 10 * zero_Celsius + 32','18 / 10 * zero_Celsius - 32','C02: temperature conversions'),
 ('Core','head_from_K','(1 / 2) * V * V','V * V','C03: head from K'),
 ('Core','L_from_K','Kl * D /ₚ fd','Kl /ₚ fd','C03: L from K'),
 ('Core','gravity','- 3.086e-6 * H','+ 3.086e-6 * H','C01/C03: gravity decreases with height'),
 ('Core','estep','working_xs := [], working_ys := []','working_ys := []','C79: the Engauge parser separates curves'),
 ('Core','engauge','s.x_lists ++ [s.working_xs]','s.x_lists','C79: the last curve is returned'),
]
