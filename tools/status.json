{
 "C09": {
  "status": "proved",
  "note": "exact real arithmetic; every horner variant, value and derivatives"
 },
 "C10": {
  "status": "proved",
  "note": "exact arithmetic"
 },
 "C11": {
  "status": "proved",
  "note": "exact arithmetic"
 },
 "C13": {
  "status": "proved",
  "note": "quadratic_from_points, quadratic_from_f_ders, exp_poly_ln_tau_coeffs2/3 (existence and uniqueness), deflate_cubic_real_roots"
 },
 "C14": {
  "status": "proved",
  "note": "roots_quadratic, roots_cubic (all branches), roots_cubic_a1/a2; roots_quartic is not modelled"
 },
 "C01": {
  "status": "proved",
  "note": "exact real arithmetic; every identity and input pattern"
 },
 "C02": {
  "status": "proved",
  "note": "exact arithmetic; all scale pairs"
 },
 "C03": {
  "status": "proved",
  "note": "exact real arithmetic"
 },
 "C78": {
  "status": "proved",
  "note": "change of units as an arbitrary positive rescaling of the base units"
 },
 "C79": {
  "status": "proved",
  "note": "round trip proved for non-empty curves; misalignment with an empty curve proved as a finding"
 },
 "C04": {
  "status": "proved",
  "note": "exact real arithmetic"
 },
 "C05": {
  "status": "proved",
  "note": "exact real arithmetic"
 },
 "C06": {
  "status": "proved",
  "note": "exact real arithmetic; strict inequality as in the code"
 },
 "C07": {
  "status": "proved",
  "note": "exact real arithmetic; diameter modes of Spitzglass and Oliphant for any solver that only returns zeros"
 },
 "C08": {
  "status": "proved",
  "note": "exact real arithmetic; lambertw branch -1 by its defining equation, numerical solvers assumed to return only zeros"
 },
 "C12": {
  "status": "proved",
  "note": "chebval, chebder and chebint for every length and order, including the IndexError/ValueError branches."
 },
 "C18": {
  "status": "proved",
  "note": "All list matrix operations of arrays.py, for all shapes, against Mathlib matrices."
 },
 "C15": {
  "status": "proved",
  "note": "inplace_LU, solve_from_lu, solve and lu for every size over any ordered field; ValueError iff det = 0."
 },
 "C16": {
  "status": "proved",
  "note": "inv for every size; det for the coded sizes 2-5. Findings: det of 1x1 returns the row; inv([[2,3]]) and inv([]) do not raise."
 },
 "C17": {
  "status": "proved",
  "note": "Storage round trips both ways; Thomas solver solves or raises ZeroDivisionError; never raises on strictly diagonally dominant systems."
 },
 "C19": {
  "status": "proved",
  "note": "Python's sorted is modelled as Lean's stable mergeSort."
 },
 "C20": {
  "status": "proved",
  "note": ""
 },
 "C21": {
  "status": "proved",
  "note": ""
 },
 "C22": {
  "status": "proved",
  "note": ""
 },
 "C23": {
  "status": "proved",
  "note": ""
 },
 "C24": {
  "status": "proved",
  "note": ""
 },
 "C36": {
  "status": "proved",
  "note": ""
 },
 "C80": {
  "status": "proved",
  "note": ""
 },
 "C81": {
  "status": "proved",
  "note": ""
 },
 "C25": {
  "status": "proved",
  "note": ""
 },
 "C26": {
  "status": "proved",
  "note": "findings: ridder can leave the bracket when the tolerance is wider than it (C26_ridder_leaves_bracket)"
 },
 "C27": {
  "status": "proved",
  "note": "findings proved as negations next to the theorems"
 },
 "C28": {
  "status": "proved",
  "note": "norm2 is a parameter"
 },
 "C35": {
  "status": "proved",
  "note": ""
 },
 "C82": {
  "status": "proved",
  "note": "the answer is characterised for both orientations; the orientation with the positive end below is where the code differs from its documentation"
 },
 "C29": {
  "status": "proved",
  "note": ""
 },
 "C31": {
  "status": "proved",
  "note": "exact real arithmetic: the overflow branch of trunc_exp is never taken"
 },
 "C33": {
  "status": "proved",
  "note": "the published node tables are parameters; exactness is proved from exact moments"
 },
 "C34": {
  "status": "proved",
  "note": ""
 },
 "C30": {
  "status": "proved",
  "note": "Partition of unity, nonnegativity, identification with the Cox-de Boor basis, splev/bisplev as basis sums, ext modes; every degree (bisplev: degree at most five, the size of the work array)"
 },
 "C32": {
  "status": "proved",
  "note": "Invariant over all iterations with a log of evaluations; returned value minimal over every evaluation; totality and bounds"
 },
 "C37": {
  "status": "proved",
  "note": "All 86 schedules, every rational request; consistency of the tables"
 },
 "C38": {
  "status": "proved",
  "note": "Round trip over the whole table in both units; bracketing for every thickness; finding below the table"
 },
 "C39": {
  "status": "proved",
  "note": ""
 },
 "C76": {
  "status": "proved",
  "note": "All constants; published definitions as specification"
 },
 "C40": {
  "status": "proved",
  "note": "all inputs for dispatch, listing, Darcy flag and errors; that listed methods return a value is proved for 2040 <= Re, 0 <= eD <= 0.05 away from the singular points stated (C42_documented, C40_default_total), with the singular listed cases proved as findings"
 },
 "C41": {
  "status": "proved",
  "note": "W is a parameter assumed to solve w e^w = y; the source's decimal constants are idealised to the constants named in its comments"
 },
 "C42": {
  "status": "proved",
  "note": "28 correlations plus Blasius and von_Karman; values for all Re >= 2040, definedness for eD <= 0.05"
 },
 "C43": {
  "status": "proved",
  "note": ""
 },
 "C44": {
  "status": "proved",
  "note": "findings: acceleration term not additive and not the printed formula when density varies"
 },
 "C45": {
  "status": "proved",
  "note": ""
 },
 "C83": {
  "status": "proved",
  "note": ""
 },
 "C46": {
  "status": "proved",
  "note": ""
 },
 "C47": {
  "status": "proved",
  "note": ""
 },
 "C48": {
  "status": "proved",
  "note": ""
 },
 "C49": {
  "status": "proved",
  "note": ""
 },
 "C50": {
  "status": "proved",
  "note": "Miller's three chart-based functions enter as parameters; dispatch to them is proved."
 },
 "C84": {
  "status": "proved",
  "note": ""
 },
 "C53": {
  "status": "proved",
  "note": ""
 },
 "C54": {
  "status": "proved",
  "note": "superheat surfaces are parameters"
 },
 "C77": {
  "status": "proved",
  "note": "VFD surface is a parameter"
 },
 "C85": {
  "status": "proved",
  "note": ""
 },
 "C51": {
  "status": "proved",
  "note": ""
 },
 "C52": {
  "status": "proved",
  "note": ""
 },
 "C55": {
  "status": "proved",
  "note": "both round trips for every 0 < Do < D and positive C or K; consistency with dP_orifice at the computed flow for every meter whose ratio is Do/D"
 },
 "C56": {
  "status": "proved",
  "note": "orifice 1998 and 1989, Stewart cone and nozzle; limits k->1 and P2->P1 as Tendsto; k = 1 failures stated as theorems"
 },
 "C57": {
  "status": "proved",
  "note": "all 28 meters and every tap argument; Hollingshead data and root finders are parameters"
 },
 "C58": {
  "status": "proved",
  "note": "areas as integrals of the chord; strict monotonicity and rejection of impossible geometry"
 },
 "C61": {
  "status": "proved",
  "note": "Area equals the integral of the chord, 0/full/symmetry/strict monotonicity proved; the inverse is proved for areas up to the half circle. Finding: circle_segment_h_from_A only searches the lower half, so it cannot return heights above D/2."
 },
 "C59": {
  "status": "proved",
  "note": "All vertical heads (convex and concave), partial sphere, and horizontal conical, ellipsoidal, guppy, spherical and torispherical heads. Finding: a flat spherical head (a=0) in a horizontal tank raises ZeroDivisionError."
 },
 "C60": {
  "status": "proved",
  "note": "Both orientations: 0 when empty, V_tank when full, monotone, unsupported heads rejected. Findings: negative levels raise ValueError in horizontal tanks; guppy heads on vertical tanks are silently ignored; V_tank uses the depth of side A for both torispherical heads when f and k agree."
 },
 "C62": {
  "status": "proved",
  "note": "Sphere, vertical conical/ellipsoidal/spherical/torispherical, horizontal conical/spherical/torispherical heads, SA_tank, SA_from_h vertical full = SA_tank. Elliptic-integral heads: empty and clamped only. Findings proved as theorems."
 },
 "C63": {
  "status": "proved",
  "note": "Finding: turns and pitch given together are not checked for colliding turns."
 },
 "C64": {
  "status": "proved",
  "note": "degrees to radians idealised to pi/180"
 },
 "C65": {
  "status": "proved",
  "note": ""
 },
 "C66": {
  "status": "proved",
  "note": ""
 },
 "C67": {
  "status": "proved",
  "note": "Exact decimals; pressure at layer boundaries is only continuous to the table's digits, which is not claimed."
 },
 "C73": {
  "status": "proved",
  "note": ""
 },
 "C74": {
  "status": "proved",
  "note": "The digitised Watkins spline is a parameter. Finding: jumps at 15 and 40 psia."
 },
 "C75": {
  "status": "proved",
  "note": ""
 },
 "C86": {
  "status": "proved",
  "note": "Finding: contracted SIA weir discharges at zero head."
 },
 "C70": {
  "status": "proved",
  "note": "All 29 correlations: 25 proved to be fractions (with the exact slip form where there is one), also through the front end; the four that leave [0,1] and the supercritical case of Sun_Duffey_Peng have witnesses."
 },
 "C71": {
  "status": "proved",
  "note": "All 29 methods and 6 viscosities: listed iff arguments supplied, dispatch equals the direct call, TypeError/ValueError otherwise."
 },
 "C72": {
  "status": "proved",
  "note": "Inversion, endpoints, bounds; sharp factors for the two models that overshoot."
 },
 "C68": {
  "status": "proved",
  "note": "all three families, with and without truncation, other bases, percentiles under an exact root finder; findings proved as negations"
 },
 "C69": {
  "status": "proved",
  "note": "spacings and discrete fractions; finding proved for cumulative volume input at sizes"
 },
 "C87": {
  "status": "proved",
  "note": "both tables in full; wire diameter findings"
 },
 "C88": {
  "status": "proved",
  "note": "discrete distributions and truncated lognormal/Rosin-Rammler; findings proved"
 },
 "C89": {
  "status": "proved",
  "note": "all four functions, every branch of the tables; the jumps are proved as a finding"
 },
 "C90": {
  "status": "proved",
  "note": "log10 and the graph in exact real arithmetic; VDI factor 360 proved as a finding"
 },
 "C91": {
  "status": "proved",
  "note": "21 correlations; Mikhailov_Freire and Barati findings proved"
 },
 "C92": {
  "status": "proved",
  "note": "dispatch, tables and the default selection"
 },
 "C93": {
  "status": "proved",
  "note": "root finder and odeint are parameters; OverflowError of exp does not arise in exact arithmetic"
 },
 "C94": {
  "status": "proved",
  "note": "All 14 correlations; findings proved as theorems"
 },
 "C95": {
  "status": "proved",
  "note": "All names and presence patterns"
 },
 "C96": {
  "status": "proved",
  "note": "findings proved as theorems"
 },
 "C97": {
  "status": "proved",
  "note": "solvers are parameters: their result is assumed to be a root"
 },
 "C98": {
  "status": "proved",
  "note": "finding proved as a theorem"
 },
 "C99": {
  "status": "proved",
  "note": "degrees are idealised to \u03c0/180; findings proved as theorems"
 },
 "C100": {
  "status": "proved",
  "note": "the friction factor is a parameter, positive at every positive Reynolds number"
 },
 "C101": {
  "status": "proved",
  "note": "the friction factor is a parameter; findings proved as theorems"
 },
 "C102": {
  "status": "proved",
  "note": "all names, all presence patterns"
 },
 "C103": {
  "status": "proved",
  "note": "radians idealised to \u03c0/180"
 },
 "C104": {
  "status": "proved",
  "note": "spline curves evaluated by the modelled py_splev"
 },
 "C105": {
  "status": "proved",
  "note": "findings proved as theorems; degrees idealised to \u03c0/180"
 },
 "C106": {
  "status": "proved",
  "note": "solver, random restarts and guesses arbitrary; retracted-nozzle denominator proved different from the documentation"
 },
 "C107": {
  "status": "proved",
  "note": "findings proved as theorems"
 },
 "C108": {
  "status": "proved",
  "note": "All complex coefficients; roots are exact complex numbers. The ZeroDivisionError finding is proved for every quartic with a vanishing depressed linear and quadratic term."
 },
 "C109": {
  "status": "proved",
  "note": "Exact real and complex arithmetic; signed zeros are taken as +0.0. The large-argument branch of py_catanh is modelled but is an approximation by design and outside the theorem."
 },
 "C110": {
  "status": "proved",
  "note": "Exact arithmetic over any linearly ordered field."
 },
 "C111": {
  "status": "proved",
  "note": "Real arithmetic without overflow (trunc_exp = exp); numpy variants of the same formulas not modelled."
 },
 "C112": {
  "status": "proved",
  "note": "weights that are not cached come from an external routine and are outside the model"
 },
 "C113": {
  "status": "proved",
  "note": "root finders are assumed to return roots, as stated in the hypotheses; the interpolation table and the Chebyshev approximators are parameters"
 },
 "C114": {
  "status": "proved",
  "note": "ellipe is assumed to be the complete elliptic integral of the second kind"
 },
 "C115": {
  "status": "proved",
  "note": "Chart splines are arbitrary functions"
 },
 "C116": {
  "status": "proved",
  "note": ""
 },
 "C117": {
  "status": "proved",
  "note": "The string matcher is assumed to return one of the candidates"
 },
 "C118": {
  "status": "proved",
  "note": "angles in degrees, deg2rad idealised to pi/180"
 },
 "C119": {
  "status": "proved",
  "note": "gravity is a parameter"
 },
 "C120": {
  "status": "proved",
  "note": "no NaN or infinities in the model; norm2 is a parameter"
 },
 "C121": {
  "status": "proved",
  "note": "no NaN or infinities in the model; norm2 and the least-squares coefficients are parameters"
 },
 "C122": {
  "status": "proved",
  "note": "NaN and infinities and object identity are not modelled"
 },
 "C123": {
  "status": "proved",
  "note": "Floating point is idealised; the decimal constants 0.25, 365.25, 30.6001 are exact; the numba batch variants and the datetime handling of the wrappers are not modelled except the choice of the day"
 },
 "C124": {
  "status": "proved",
  "note": "The look-up of the turbidity (pvlib, pandas) and the NRLMSISE-00 defaults of T and P are not modelled; exponentials do not underflow"
 },
 "C125": {
  "status": "proved",
  "note": "The rounded constants 10/ln 10, 20/ln 10 and ln(10)/10 are modelled by the exact ones; the tables are the decimals of the source"
 },
 "C126": {
  "status": "proved",
  "note": "Exponents are unbounded in the model: overflow, underflow, infinities and NaN are outside it"
 },
 "C127": {
  "status": "proved",
  "note": "Statements for rd = id, i.e. without rounding of the single operations; the guesses of the cube roots are arguments of the model"
 },
 "C128": {
  "status": "proved",
  "note": "float, int, datetime, the k-d tree, the online geocoder and SQLite's storage of keys are parameters; downloads and files are not modelled"
 },
 "C129": {
  "status": "proved",
  "note": "pint is represented by dimensions with affine maps; the path for array magnitudes, offset units of results and the section patterns of the documentation parser are not modelled"
 },
 "C130": {
  "status": "proved",
  "note": "exact arithmetic; one column; adaptive sampling without N, restriction of the domain, products, and the eigenvalue solver itself are not modelled"
 },
 "C131": {
  "status": "proved",
  "note": "the difference schemes and solvers themselves are parameters; the jacobian sizes assumed consistent with numpy"
 },
 "C132": {
  "status": "proved",
  "note": "roots, eigen-solver, Newton and quad are parameters; the inverse of the Vandermonde matrix is that of the code's solver by its specification"
 },
 "C133": {
  "status": "proved",
  "note": "PchipInterpolator, minimize, brenth and the custom distribution are parameters; quad is the exact integral; plots are not modelled"
 },
 "C134": {
  "status": "proved",
  "note": "Quadrature is the exact integral; the sign of a floating-point zero on a branch cut is not modelled; ellipe is the complete elliptic integral."
 },
 "C135": {
  "status": "proved",
  "note": "Quadrature is the exact integral; the secant solver is a parameter whose answer is a root of the error function."
 },
 "C136": {
  "status": "proved",
  "note": "numpy's cheb2poly is outside the code and taken as what it documents; numbers printed in text keep all digits."
 },
 "C137": {
  "status": "proved",
  "note": "numpy's svd is outside the code and taken as what it documents; arithmetic is exact."
 },
 "C138": {
  "status": "proved",
  "note": "numpy arrays, which answer with their own shape, and the identity of row objects are outside the model."
 },
 "C139": {
  "status": "proved",
  "note": "The accuracy above 0.7 is not stated; arithmetic is exact."
 }
}