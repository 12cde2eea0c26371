P = []
def p(title, statement, quantifier, why, anchors):
    P.append(dict(id="C%02d" % (len(P)+1), title=title, statement=statement,
                  quantifier=quantifier, why_tests_cant=why, anchors=anchors))
REAL = "Ranges over a continuum of real inputs; tests sample a handful of points."
# --- core ---
p("Dimensionless groups: input selection and mutual identities",
  "Reynolds, Peclet, Prandtl, Schmidt, Lewis, Grashof, Fourier, Graetz, ... return the same number whichever admissible combination of properties (nu, or rho and mu, or alpha, or rho/Cp/k) is supplied; they raise ValueError exactly when no admissible combination is supplied; and they satisfy the defining identities (Peclet_heat = Reynolds*Prandtl, Rayleigh = Prandtl*Grashof, Lewis = Schmidt/Prandtl, Weber = Capillary*Reynolds for the same velocity, length and viscosity, Ohnesorge^2*Suratman = 1).",
  "all real property values and all present/absent patterns of the optional arguments", REAL + " The combinations of optional arguments multiply the cases.",
  ["fluids/core.py:Reynolds,Prandtl,Peclet_heat,Peclet_mass,Schmidt,Lewis,Grashof,Rayleigh,Weber,Capillary,Ohnesorge,Suratman"])
p("Temperature conversions are mutually inverse and compose",
  "Each of the twelve conversions among Celsius, Kelvin, Fahrenheit and Rankine is inverted by its reverse, and converting through any third scale gives the same value as converting directly.",
  "all real temperatures, all ordered pairs/triples of scales", REAL, ["fluids/core.py:C2K,K2C,F2C,C2F,F2K,K2F,C2R,K2R,F2R,R2C,R2K,R2F"])
p("Loss coefficient, equivalent length, head and pressure conversions round-trip",
  "K_from_f/f_from_K/L_from_K, K_from_L_equiv/L_equiv_from_K, head_from_P/P_from_head, head_from_K/dP_from_K agree and invert each other; nu_mu_converter returns the other viscosity, round-trips, and raises ValueError unless exactly one viscosity is given.",
  "all nonzero real inputs", REAL, ["fluids/core.py:K_from_f,f_from_K,K_from_L_equiv,L_equiv_from_K,L_from_K,dP_from_K,head_from_K,head_from_P,P_from_head,nu_mu_converter"])
# --- compressible ---
p("isentropic_work_compression solves the same equation for every unknown",
  "Whichever one of W, P1, P2, eta is left out, the value returned satisfies the isentropic work equation, so feeding it back recovers the original argument; too few inputs raise ValueError.",
  "all T1>0, k>1, Z>0, positive pressures and efficiencies", REAL, ["fluids/compressible.py:isentropic_work_compression"])
p("Isentropic/polytropic efficiency and exponent conversions are inverse",
  "isentropic_efficiency(eta_s) and isentropic_efficiency(eta_p) invert each other; polytropic_exponent(n) and polytropic_exponent(eta_p) invert each other; missing inputs raise ValueError.",
  "all pressures P1 != P2 > 0, k > 1, admissible efficiencies", REAL, ["fluids/compressible.py:isentropic_efficiency,polytropic_exponent"])
p("Stagnation and critical-flow relations are consistent",
  "P_stagnation, T_stagnation, T_stagnation_ideal, P_critical_flow, T_critical_flow obey the isentropic relation with each other; is_critical_flow answers True exactly when P2 is strictly below P_critical_flow(P1,k).",
  "all positive pressures, temperatures and k > 1", REAL, ["fluids/compressible.py:P_stagnation,T_stagnation,T_critical_flow,P_critical_flow,is_critical_flow"])
p("Nine gas-pipeline equations: every solve mode inverts the flow equation",
  "For Panhandle_A, Panhandle_B, Weymouth, Spitzglass_high, Spitzglass_low, Oliphant, Fritzsche, Muller and IGT: solving for D, P1, P2 or L from a Q that the forward mode computed returns exactly the original value, and calling with not exactly enough inputs raises ValueError.",
  "all physically valid real inputs (P1 > P2 > 0, positive lengths, diameters, temperatures)", REAL + " 36 separate closed forms with hand-derived exponents.",
  ["fluids/compressible.py:Panhandle_A,Panhandle_B,Weymouth,Spitzglass_high,Spitzglass_low,Oliphant,Fritzsche,Muller,IGT"])
p("isothermal_gas closed forms are consistent",
  "isothermal_gas solving for mass flow, L, D satisfies the isothermal compressible-flow equation; the D and L results recover the mass flow; a choked request raises ValueError.",
  "all positive real inputs with P1 > P2", REAL, ["fluids/compressible.py:isothermal_gas,isothermal_gas_err_P1"])
# --- polynomials ---
p("Horner evaluators compute the polynomial and its derivatives",
  "horner returns the value of the polynomial whose descending coefficients are given; horner_and_der, _der2, _der3, _der4 return that value together with the exact 1st..4th derivatives; horner_log is the value of the polynomial plus its log term.",
  "all coefficient lists of every length and all points", "Unbounded degree; tests only use fixed degrees.", ["fluids/numerics/polynomial_evaluation.py:horner,horner_and_der,horner_and_der2,horner_and_der3,horner_and_der4,horner_log"])
p("Offset/scale ('stable') polynomial form is equivalent to the plain form",
  "horner_stable evaluates the polynomial at offset+scale*x and its derivative variants return true derivatives with respect to x; stable_poly_to_unstable returns coefficients whose plain horner value equals horner_stable everywhere.",
  "all coefficient lists, offsets, scales and evaluation points", "Unbounded degree and a continuum of points.", ["fluids/numerics/polynomial_evaluation.py:horner_stable,horner_stable_and_der,horner_stable_and_der2", "fluids/numerics/polynomial_utils.py:polynomial_offset_scale,stable_poly_to_unstable"])
p("polyint / polyder are exact calculus on coefficient lists",
  "polyint returns coefficients of an antiderivative vanishing at 0; polyder(c, m) returns coefficients of the m-th derivative; polyder inverts polyint up to list order; polyint_over_x integrates p(x)/x.",
  "all coefficient lists and derivative orders", "Unbounded degree.", ["fluids/numerics/polynomial_utils.py:polyint,polyder,polyint_over_x,polyint_stable"])
p("Chebyshev evaluation, differentiation and integration",
  "chebval returns sum c_k T_k(x); chebder returns coefficients of the derivative series; chebint returns coefficients of an antiderivative that has the requested value at the lower bound.",
  "all coefficient lists of every length and all x", "Unbounded degree, recurrence with in-place mutation.", ["fluids/numerics/__init__.py:chebval,chebder,chebint"])
p("Closed-form polynomial construction: interpolation conditions hold",
  "quadratic_from_points passes through its three points, quadratic_from_f_ders has the requested value, slope and curvature; exp_poly_ln_tau_coeffs2/3 reproduce their conditions; the returned coefficients are the only ones that do.",
  "all distinct abscissae / admissible conditions", REAL, ["fluids/numerics/polynomial_utils.py:quadratic_from_points,quadratic_from_f_ders,exp_poly_ln_tau_coeffs2,exp_poly_ln_tau_coeffs3"])
p("roots_quadratic returns exactly the roots",
  "Every returned number satisfies a x^2+b x+c = 0 and every solution is returned, including the degenerate a == 0 case.",
  "all real a, b, c", REAL, ["fluids/numerics/polynomial_roots.py:roots_quadratic"])
# --- arrays ---
p("LU solver returns a true solution, for every size",
  "When solve(A, b) / inplace_LU+solve_from_lu returns x, A x = b; lu(A) returns P, L, U with P A = L U, L unit lower triangular, U upper triangular, P a permutation; the routine raises ValueError exactly when A is singular.",
  "all N x N matrices of every N and all right-hand sides", "Unbounded dimension and every pivoting history.", ["fluids/numerics/arrays.py:inplace_LU,solve_from_lu,solve,lu,solve_LU_decomposition"])
p("inv returns the two-sided inverse, det the determinant",
  "For square A of any size inv(A) returns the two-sided inverse when A is nonsingular and raises otherwise; for the coded sizes 2-5 det(A) equals the mathematical determinant and a non-square table raises ValueError (1x1 returns the row, a recorded defect; larger sizes are delegated to NumPy).",
  "all square matrices", "Unbounded dimension; closed forms for sizes 1-4 are long expressions.", ["fluids/numerics/arrays.py:inv,det,inv_lu"])
p("Tridiagonal storage round-trips and the Thomas solver solves",
  "array_as_tridiagonals and tridiagonals_as_array are inverse on tridiagonal matrices; when solve_tridiagonal returns x, the tridiagonal system T x = b holds.",
  "all lengths of diagonals", "Unbounded size.", ["fluids/numerics/arrays.py:array_as_tridiagonals,tridiagonals_as_array,solve_tridiagonal"])
p("Plain list matrix algebra agrees with linear algebra",
  "transpose is an involution on rectangular matrices; matrix_multiply is associative, has eye as unit, and raises ValueError exactly on mismatched inner sizes; matrix_vector_dot, dot_product, scalar_* are entrywise what their name says; subset_matrix picks rows and columns, all of them give the matrix back and picking twice is picking once with composed indices.",
  "all rectangular matrices of all sizes", "Unbounded dimension.", ["fluids/numerics/arrays.py:transpose,matrix_multiply,matrix_vector_dot,dot_product,eye,scalar_add_matrices,scalar_multiply_matrix"])
p("argsort1d / sort_paired_lists are stable sorting by permutation",
  "argsort1d returns a permutation of indices along which the list is nondecreasing, ties in original order; sort_paired_lists permutes both lists by the same permutation.",
  "all lists of all lengths", "Unbounded length and every order/tie pattern.", ["fluids/numerics/arrays.py:argsort1d,sort_paired_lists"])
# --- numerics ---
p("linspace/logspace/diff/cumsum sequence laws",
  "linspace returns num points, first = start, last = stop, equal spacing; cumsum and diff invert each other; mean, product and cumulative_trapezoid compute their mathematical definitions.",
  "all lengths and all real end points", "Unbounded length.", ["fluids/numerics/__init__.py:linspace,logspace,diff,cumsum,product,mean,cumulative_trapezoid"])
p("interp is clamped piecewise-linear interpolation",
  "interp returns the end values outside the table (or the left/right override), the exact tabulated value at nodes, the chord value between nodes, and so stays between the neighbouring ordinates.",
  "all strictly increasing tables of every length and all x", "Unbounded table length and a continuum of x.", ["fluids/numerics/__init__.py:interp"])
p("binary_search locates a key in a sorted list",
  "On every nonempty sorted list binary_search terminates; it returns the list length when the key exceeds the last entry, and otherwise the index of the last entry not exceeding the key (-1 when the key is below the first entry), so that index holds the key whenever the key is present. An empty list raises IndexError.",
  "all sorted lists and keys", "Unbounded length.", ["fluids/numerics/__init__.py:binary_search"])
p("is_monotonic / is_increasing decide monotonicity",
  "is_increasing is True exactly for strictly increasing lists; is_monotonic exactly for nondecreasing or nonincreasing lists.",
  "all lists", "Unbounded length.", ["fluids/numerics/__init__.py:is_monotonic,is_increasing"])
p("isclose is the documented tolerance relation",
  "isclose(a,b) holds exactly when |a-b| <= max(rel_tol*max(|a|,|b|), abs_tol); it is reflexive, symmetric, monotone in the tolerances, and rejects negative tolerances.",
  "all reals and tolerances", REAL, ["fluids/numerics/__init__.py:isclose"])
p("bisect keeps a sign-changing bracket and converges",
  "bisect raises when f(a) and f(b) have the same sign; otherwise every iterate's bracket contains a sign change, its width halves each step, and the value returned lies in [a,b] and within the tolerance of a true root for continuous f.",
  "all functions f, brackets, tolerances and iteration limits", "All functions and unbounded iteration counts.", ["fluids/numerics/__init__.py:bisect"])
p("ridder and brenth return only bracketed, tolerance-certified points",
  "ridder/brenth raise ValueError on same-signed end points; any returned point is an exact zero or was accepted by the documented tolerance test, and running out of iterations raises UnconvergedError.",
  "all functions and tolerances", "All functions and iteration histories.", ["fluids/numerics/__init__.py:ridder,brenth"])
p("secant / newton respect the convergence contract",
  "A value returned by secant, newton, or halley with a ytol is either an exact zero, or met the x/y tolerances that the caller asked for (newton and halley also return a point where the search stalled with |f| < ytol); secant without additional guesses and newton in every configuration never evaluate the objective outside [low, high] and return a point inside; newton on plain first-derivative objectives fails only with UnconvergedError or the objective's own error. (Findings: secant with additional_guesses leaves the bounds; secant accepts its own first step when xtol is coarser than it; newton with both bisection and additional_guesses can raise TypeError; maxiter=0 raises UnboundLocalError; halley without ytol returns stationary points.)",
  "all functions, guesses, bounds, tolerances", "All functions and iteration histories.", ["fluids/numerics/__init__.py:secant,newton,halley"])
p("fixed_point postcondition",
  "A value returned by fixed_point is the start itself with residual below ytol, or one damped step from a point whose residual met every requested tolerance; exhaustion raises UnconvergedError; the reported iteration count never exceeds max(1, maxiter). (Finding: with neither tolerance given it always reports success.)",
  "all functions and start values", "All functions and iteration histories.", ["fluids/numerics/__init__.py:fixed_point,fixed_point_to_residual,residual_to_fixed_point"])
p("Closed-form linear solvers of size 2, 3, 4 are exact",
  "solve_2_direct returns x with A x = b whenever det A is nonzero and raises ZeroDivisionError otherwise; solve_3_direct and solve_4_direct do so exactly when all leading principal minors are nonzero. (Finding: regular matrices with a zero leading minor, for example a zero corner entry, are rejected with ZeroDivisionError.)",
  "all real matrices", REAL + " The size-4 expression has hundreds of terms.", ["fluids/numerics/__init__.py:solve_2_direct,solve_3_direct,solve_4_direct"])
p("B-spline basis is a nonnegative partition of unity",
  "fpbspl returns k+1 nonnegative basis values summing to one for any point of the knot interval, so splev is a weighted mean of control coefficients and reproduces constants.",
  "all degrees, knot vectors and points", "Unbounded degree and knots.", ["fluids/numerics/__init__.py:fpbspl,py_splev"])
p("Bounded/unbounded variable translation round-trips",
  "translate_bound_func maps every real to a point strictly inside the bounds and its two translations invert each other.",
  "all bounds low<high and all points", REAL, ["fluids/numerics/__init__.py:translate_bound_func"])
p("nelder_mead never loses its best point",
  "At every iteration each stored function value belongs to its stored vertex, the best value never increases, and the value returned is the best vertex evaluated.",
  "all objective functions, dimensions, iteration counts", "All functions and unbounded histories.", ["fluids/numerics/__init__.py:nelder_mead"])
p("Adaptive quadrature is exact when its rule is exact and additive over splits",
  "quad_adaptive returns a value equal to the sum of the fixed rule over a partition of [a,b]; for integrands on which the rule is exact it returns the exact integral; recursion depth is bounded.",
  "all functions, intervals, depths", "Unbounded recursion.", ["fluids/numerics/__init__.py:fixed_quad_Gauss_Kronrod,quad_adaptive"])
p("Extrapolated fits are consistent across value, derivative and integral",
  "evaluate_linear_fits continues a polynomial linearly outside [Tmin,Tmax]: value, derivative and second derivative agree, the join is C1; poly_fit_integral_value is an antiderivative of the piecewise function.",
  "all coefficients and temperatures", REAL, ["fluids/numerics/__init__.py:evaluate_linear_fits,evaluate_linear_fits_d,evaluate_linear_fits_d2,poly_fit_integral_value,fit_integral_linear_extrapolation"])
p("damping_maintain_sign never flips a sign",
  "The damped Newton step returned keeps every component of x of its previous sign and equals the requested damping where the full step does not cross zero.",
  "all vectors of all lengths", "Unbounded length.", ["fluids/numerics/__init__.py:damping_maintain_sign"])
p("normalize yields weights summing to one",
  "normalize(values) sums to 1 and keeps ratios; on values summing to zero it raises ZeroDivisionError / returns the documented fallback.",
  "all lists", "Unbounded length.", ["fluids/numerics/__init__.py:normalize"])
# --- tables ---
p("nearest_pipe returns the smallest adequate pipe",
  "For every schedule, nearest_pipe(Di=..) returns the tabulated pipe with the smallest inner diameter that is at least the requested one (same for Do); it raises ValueError when the request exceeds the table or the schedule is unknown; NPS lookup returns exactly that NPS. (Finding: with no request at all it ends in UnboundLocalError.)",
  "all requested diameters and all schedules", "Continuum of requests; 40+ tables.", ["fluids/piping.py:nearest_pipe,schedule_lookup"])
p("Wire gauge lookups round-trip",
  "gauge_from_t(t_from_gauge(g)) = g for every gauge of every schedule; the gauge picked for any thickness within the table is one of the two gauges bracketing that thickness. (Finding: below the thinnest entry that entry's thickness is returned as if it were a gauge.)",
  "all thicknesses, all schedules", "Continuum of thicknesses.", ["fluids/piping.py:gauge_from_t,t_from_gauge"])
p("Standard-size rounding returns the least adequate size",
  "motor_round_size and API520_round_size return the smallest listed size not below the request and raise ValueError exactly when the request exceeds every listed size.",
  "all real requests", "Continuum of requests.", ["fluids/pump.py:motor_round_size,nema_sizes", "fluids/safety_valve.py:API520_round_size,API526_A"])
