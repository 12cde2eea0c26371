# Formal model of CalebBell/fluids in Lean 4

## 1. Layout

* `lean/Verif/Py.lean` - the Python value layer: exceptions as values, partial float operations.
* `lean/Verif/Model/*.lean` - the model, one file per /repo module (or group); every `def` cites file and lines.
* `lean/Verif/Spec/*.lean` - small independent specifications (sums, integrals, matrices, equations).
* `lean/Verif/Lemmas/*.lean` - helper lemmas.
* `lean/Verif/Props/*.lean` - the property theorems (C01 ...), each with a non-vacuity `example` beside it.
* `properties.jsonl`, `MANIFEST.json` - properties and the theorem names that settle them.
* `seeded/LOG.jsonl` - record of mutation experiments.

## 2. How Python is modelled

* An exception is a value: `Py α = Except PyErr α`, with one constructor per Python exception class.
* `float` is modelled by an exact number. Pure selection / table / list code is written over an arbitrary
  linearly ordered field (instantiable at ℚ, so executable) or an arbitrary type; formulas with
  roots/logs/trigonometry are over ℝ. Division, `sqrt`, `log`, `**`, `acos`, `asin` are partial exactly as in Python:
  division by zero is `ZeroDivisionError`, `sqrt`/`log`/`acos` outside their domain `ValueError`, a fractional power of a
  negative number is flagged `complexResult`.
* Iterative solvers are, where the claim allows, modelled over an *uninterpreted* arithmetic (a structure of operations with
  no laws), so the theorems hold for IEEE doubles as well, including NaN; claims that need order or continuity use ℝ.
* Keyword arguments with default `None` are `Option`.
* Strings that select a method are `String` (so unknown names are included in the quantifier).
* Loops are structural recursion; in-place mutation is functional update.

## 3. Trusted base

* Lean 4.33.0 kernel; Mathlib definitions of ℝ, log, exp, rpow, arccos, integral, derivative, matrices, polynomials.
* Axioms: only `propext`, `Classical.choice`, `Quot.sound` (checked with `#print axioms`).
* The reading of /repo: the model is hand translated; nothing mechanically ties it to the source.
* Not modelled: IEEE rounding, overflow, NaN/inf (except in the law-free solver models), numpy array inputs, numba/vectorized/units wrappers,
  scipy fallbacks, plotting, file I/O, climate and NRLMSISE-00 data.
* Idealisations, each also noted at the definition: decimal literals are the exact rationals; `pi`, `sqrt(2)`-like truncated constants
  and the Colebrook constants are the numbers they approximate; degrees are converted with `pi/180`; `scipy.integrate.quad` is the exact interval integral;
  `erf`, `gamma`, `gammaincc`, `ellipe`-free closed forms are the mathematical functions; `isclose` uses exact arithmetic; `float(str)` parsing is a parameter.
* External routines are *parameters* of the model, universally quantified or assumed only to meet their contract (a solver, if it returns, returns a zero):
  root finders and ODE solver called by front ends (`secant`, `brenth`, `newton`, `odeint`), `lambertw`, `numpy.linalg.det`, `numpy.linalg.svd`, `norm2`, quadrature node tables,
  digitised charts and splines (Miller charts, superheat surfaces, VFD efficiency surface, Hollingshead data, Watkins spline, flow-meter root finder),
  the toroidal surface and guppy integrands where only their sign or continuity matters.
* Python's recursion limit appears as fuel whose exhaustion is `RecursionError` (`.exception`); NelderMead carries a ghost log of evaluated points.

## 4. Plan per property

* **C01** Dimensionless groups: input selection and mutual identities: core.py functions over ℝ with Option arguments; field algebra; error branch by cases on presence.
* **C02** Temperature conversions are mutually inverse and compose: affine maps over a field; ring/field_simp.
* **C03** Loss coefficient, equivalent length, head and pressure conversions round-trip: rational functions over ℝ; field_simp.
* **C04** isentropic_work_compression solves the same equation for every unknown: rpow formulas; injectivity of rpow and algebra.
* **C05** Isentropic/polytropic efficiency and exponent conversions are inverse: log/rpow algebra.
* **C06** Stagnation and critical-flow relations are consistent: rpow algebra; order equivalence.
* **C07** Nine gas-pipeline equations: every solve mode inverts the flow equation: nine functions with Option arguments; rpow inverse algebra, one generic lemma Q = c*(..)^a*D^b.
* **C08** isothermal_gas closed forms are consistent: log/sqrt algebra.
* **C09** Horner evaluators compute the polynomial and its derivatives: list recursion; induction on coefficient list against a Finset/List sum spec and Mathlib Polynomial derivative.
* **C10** Offset/scale ('stable') polynomial form is equivalent to the plain form: induction on coefficient list.
* **C11** polyint / polyder are exact calculus on coefficient lists: list code against Polynomial.derivative and HasDerivAt.
* **C12** Chebyshev evaluation, differentiation and integration: Clenshaw recurrence; induction against Chebyshev T polynomials.
* **C13** Closed-form polynomial construction: interpolation conditions hold: field algebra.
* **C14** roots_quadratic returns exactly the roots: roots over ℂ; completing the square.
* **C15** LU solver returns a true solution, for every size: list-of-rows LU with pivoting; loop invariant P A = L U; triangular solve induction.
* **C16** inv returns the two-sided inverse, det the determinant: closed forms against Matrix.det; LU route via C15.
* **C17** Tridiagonal storage round-trips and the Thomas solver solves: Thomas algorithm invariant by induction.
* **C18** Plain list matrix algebra agrees with linear algebra: list code against Matrix.
* **C19** argsort1d / sort_paired_lists are stable sorting by permutation: stable sort of indices; List.Perm, Pairwise.
* **C20** linspace/logspace/diff/cumsum sequence laws: list induction.
* **C21** interp is clamped piecewise-linear interpolation: list recursion on tables; order reasoning.
* **C22** binary_search finds an element exactly when present: fuel-free well-founded recursion; sortedness.
* **C23** is_monotonic / is_increasing decide monotonicity: list induction.
* **C24** isclose is the documented tolerance relation: case analysis on model of isclose.
* **C25** bisect keeps a sign-changing bracket and converges: loop with fuel=maxiter; bracket invariant; IVT.
* **C26** ridder and brenth return only bracketed, tolerance-certified points: loop model, postcondition from the exit branch.
* **C27** secant / newton respect the convergence contract: loop model over law-free arithmetic; exit-branch postconditions, invariant on iterates.
* **C28** fixed_point postcondition: loop model.
* **C29** Closed-form linear solvers of size 2, 3, 4 are exact: field_simp/ring.
* **C30** B-spline basis is a nonnegative partition of unity: recursion over degree; invariant sum=1.
* **C31** Bounded/unbounded variable translation round-trips: exp/log algebra.
* **C32** nelder_mead never loses its best point: law-free arithmetic; invariant over iterations.
* **C33** Adaptive quadrature is exact when its rule is exact and additive over splits: recursion over depth; additivity.
* **C34** Extrapolated fits are consistent across value, derivative and integral: piecewise functions; HasDerivAt, ring.
* **C35** damping_maintain_sign never flips a sign: list induction.
* **C36** normalize yields weights summing to one: list sums.
* **C37** nearest_pipe returns the smallest adequate pipe: tables as data; generic search lemma; decide over whole table for sortedness.
* **C38** Wire gauge lookups round-trip: tables as data over ℚ.
* **C39** Standard-size rounding returns the least adequate size: tables as data over ℚ.
* **C40** friction_factor: listed methods are all usable; regimes and Fanning scaling: method table as data; dispatch by string; decide over table.
* **C41** Colebrook (Lambert W form) solves the Colebrook equation: Lambert W as abstract function with its defining equation; log algebra; monotonicity for uniqueness.
* **C42** Documented friction correlations are the documented formulas: doc formula as spec; rpow/log algebra.
* **C43** transmission_factor is an involution between fd and F: sqrt algebra.
* **C44** Pressure-drop helpers decompose consistently: field algebra.
* **C45** friction_factor_curved and helical dispatch: dispatch.
* **C46** change_K_basis is a group action of diameters: field algebra.
* **C47** Flow coefficient conversions commute and invert: sqrt algebra.
* **C48** Contractions and diffusers vanish at equal diameters and stay nonnegative: piecewise formulas; order.
* **C49** Crane valve coefficients reduce to the full-bore value: algebra.
* **C50** Fitting dispatchers accept every documented method and reject others: dispatch on strings.
* **C51** Choke pressure and choke predicate agree: algebra, order.
* **C52** Turbulent control-valve sizing satisfies the IEC flow equation: recursion with fuel as in code.
* **C53** API 520 coefficients are bounded, monotone and continuous: order and calculus.
* **C54** API 520 required area is linear in flow and inverts the discharge equation: algebra.
* **C55** Discharge coefficient and loss coefficient conversions are inverse and consistent with the pressure recovery formula: sqrt algebra.
* **C56** Expansibility factors are one at zero pressure drop and lie in (0,1]: order/rpow.
* **C57** Flow meter dispatch is total on the advertised meters: dispatch tables.
* **C58** Diameter-ratio helpers invert the area they describe: sqrt algebra.
* **C59** Liquid volume in heads is the integral of the wetted cross-section: derivative = area, FTC.
* **C60** Tank volume: V_from_h is 0 empty, V_tank full, monotone: from C59 by composition.
* **C61** Circular segments: area formula equals integral of chord: FTC, arccos derivative.
* **C62** Partial surface areas agree with full areas: algebra.
* **C63** HelicalCoil: any two of N, pitch, H_total determine the same coil: algebra.
* **C64** pitch_angle_solver reconstructs a consistent triple: trig algebra.
* **C65** Hyperbolic cooling tower profile passes through its design diameters: sqrt algebra.
* **C66** Drilled cylinders: area and volume are additive over holes: list induction, permutation invariance.
* **C67** US standard atmosphere layers join and satisfy hydrostatics: tables as data; HasDerivAt; antitone.
* **C68** Particle size distribution functions are genuine distributions: HasDerivAt, monotone.
* **C69** psd_spacing returns ascending sizes within range; discrete PSD fractions sum to one: list filter/reverse, sums.
* **C70** Void fraction correlations stay in [0,1]: order.
* **C71** Void fraction dispatch is total on listed methods: decide over method table, presence pattern as predicate.
* **C72** Two-phase density/void fraction inversion and viscosity bounds: order/field.
* **C73** Manning and Chezy are interchangeable: rpow algebra.
* **C74** Demister and Watkins separator K correlations are bounded: piecewise, order.
* **C75** Saltation velocities satisfy their defining correlation: rpow algebra.
* **C76** Unit constants are exact compositions: rational table.
* **C77** VFD/motor helper functions decision logic: case analysis.
* **C78** Dimensionless groups are dimensionless: rescale all base units by arbitrary positive factors; field algebra.
* **C79** Engauge export parser returns the exported curves: list-of-lines parser against an exporter; induction on curves.
* **C80** caching_decorator is transparent over every call history: cache as state; invariant over the list of calls.
* **C81** interp2d_linear is bilinear on every grid cell: search plus bilinear form; order.
* **C82** best_bounding_bounds returns a valid, tightened bracket: fold over the evaluated points; sign invariant.
* **C83** gravity: closed form over ℝ; order and limits.
* **C84** Staged diffuser: induction on the number of stages.
* **C85** CSA motor efficiency: tables as data; order.
* **C86** Weirs: rpow monotonicity.
* **C87** Sieve tables: `decide +kernel` over the whole tables.
* **C88** Mean particle sizes: weighted power means; list induction; interval integrals.
* **C89** Crane tees: rational functions of the two ratios; order.
* **C90** Flare noise: logarithms; interpolation lemma for the digitised graph.
* **C91-C93** Sphere drag, selection, settling: order, limits, explicit solution of the equation of motion.
* **C94** Packed-bed pressure drops: a common normal form closed under sums and weights; monotonicity and limit from the form.
* **C95** Packed-bed selection and voidage: dispatch on strings; order.
* **C96** Demisters, mesh, Robbins: closed forms and order; the poles of the demister fit as witnesses.
* **C97** Stichlmair: the solver's residuals against the published equations; derivatives by `HasDerivAt`.
* **C98** Mixing: closed forms, cancellation of the speed, order across regimes, table by `decide +kernel`.
* **C99** Filters: interpolation and spline tables; order, bounds, jump and extrapolation witnesses.

* **C100** Separated-flow two-phase drops: evaluation into Chisholm's form over any positive friction factor; tables of C as explicit cases.
* **C101** Two-phase multipliers: evaluation into the documented formulas, limits at quality 0 and 1, positivity; witnesses for negative and complex results.
* **C102** `two_phase_dP` dispatch: requirement table as specification; all 128 presence patterns by kernel evaluation, lifted to every argument value.
* **C103** Acceleration and gravity terms: momentum balance, path additivity, `HasDerivAt` for the differential form.
* **C104** Regime maps: decision logic stated outright, spline totality, ordering in the gas velocity.
* **C105** Beggs-Brill: regime map totality, holdup bounds and continuity, closed form, length scaling, witnesses of overfull and negative holdup.
* **C106** Jet pump: the four explicit branches and three solved pressures, supply balance as an iff, conservation laws as a separate specification, dissipation identity for the efficiency bound; solver, restarts and their random factors as parameters; residual bound from the acceptance test.
* **C107** Vacuum leakage: closed forms in the correlations' units, monotonicity across bands, error branches, witnesses of negative and complex results.
* **C108** Quartic: the resolvent formula over the complex numbers; the product of the four linear factors is expanded by ring, the inner radicals enter only through their squares and cube.
* **C109** Special functions: loops by induction, complex inverse functions through exp(2w) or through the components of the two square roots.
* **C110** Error metrics: the two loops by induction over the data, generic over ordered fields; maxima as attained upper bounds.
* **C111** Chebyshev fits: HasDerivAt statements about the functions computed by the value routine, derivative coefficients from the chebder of C12.
* **C112** finite differences: the whole weight table is checked against exact rational weights and their moment conditions, lifted to all polynomials by Taylor expansion; jacobian and hessian by induction on the index loops with the perturbed list as state.
* **C113** tank class: the constructor as a function from its arguments to the record of attributes, characterised by an iff; root finders, interpolation tables and Chebyshev approximations are parameters.
* **C114** exchanger geometry: the constructors as functions to records; the elliptic integral is a parameter assumed to be the complete integral of the second kind; the arc length by substitution and periodicity; the rest by field arithmetic.
* **C115** Miller bends and Rennels fittings: the charts are arbitrary functions; the outlet correction by cases on the knots; scale laws by cancellation in every quotient; the rest by field arithmetic and trigonometric identities.
* **C116** two- and three-constant methods: both tables complete with rational constants and lookup by name; kernel-checked facts about the whole tables lifted to membership; the diameter conversion through the interpolation theorems.
* **C117** roughness database: all 137 entries with rational values, the string matcher an arbitrary function that returns one of its candidates, the recursion limit an argument; kernel-checked facts about the whole tables lifted by membership.
* **C118** Both Martin forms are shown to equal one closed form (a weighted mean of inverse square roots) which is monotone and homogeneous; Kumar's table search is evaluated for all inputs to a five-row piecewise power law, and its jumps are bounded by integer power comparisons checked by the kernel.
* **C119** Each function is evaluated to a closed form for all admissible inputs; monotonicity, bounds and scaling are derived from it, and the work inequality from 1 + y <= exp y.
* **C120** The loops are modelled with every callable arbitrary and partial, unbound Python variables as options; postconditions are loop invariants proved by induction over the passes, termination of the homotopy by the Archimedean property, findings by kernel evaluation of concrete runs.
* **C121** The loops are modelled with the objective and the coefficient solver arbitrary and partial; postconditions are loop invariants by induction over the passes, the findings are proved for every input they describe.
* **C122** The closures and the checker are state machines; their answers over a whole sequence of calls are related to the history by induction. The one-sided secant loop is modelled with an arbitrary partial function; non-evaluation beyond the flat point is proved as non-interference.
* **C123** The tables are transcribed as integers and the series are sums over them; bounds follow from the sums of amplitudes, evaluated in the kernel over the whole tables. The calendar is proved by induction over the successor function of dates. Each conversion of angles is related to the rotation of a unit vector; solar_position composes them. atan2 is the complex argument.
* **C124** Real-valued models with NaN as none and the pvlib methods as a parameter; the incidence is the inner product of unit vectors; a convexity (tangent) bound shows that the denominator of the air mass formula stays positive beyond the horizon; the air mass integral is compared pointwise.
* **C125** The loop over the bands is a monadic fold shown equal to a sum; levels are 10 log10 of powers, so each band's decibel arithmetic becomes a product of powers; regimes by case analysis, Mach numbers through a monotone function of the pressure ratio (mach = 1 and sqrt 2 at the two boundaries, k^(k/(k-1)) <= k e < 22).
* **C126** Floats are the reals k 2^q with |k| <= 2^53; every operation of the model is rd of the exact one, rd an arbitrary function to a nearest float. Knuth's and Dekker's error-free transformations are proved from divisibility (all terms are multiples of one power of two and small); the error bounds follow by summing the roundings.
* **C127** The polynomial loops are the numerator N of the [12/12] Pade approximant; x + log N(-x) - log N(x) has the derivative x^24/(N(x)N(-x)), so the mean value theorem bounds the error by 1e-36. The constant e of the code is compared with N(1/2)^2/N(-1/2)^2. Halley's step has a cubic error by the mean value theorem. Complex functions are compared with the operations of the complex numbers.
* **C128** Loops are folds and monadic maps; induction over the records shows that sums and counts are those of the filtered lists. The cache is a state machine: an invariant over all histories characterises the table. The search by tenfold enlargement is a well-founded recursion.
* **C129** A unit is a dimension with an affine map to base units, a quantity a magnitude with a unit; the wrapped function is a parameter. Refinement: the wrapper equals the plain function under the relation 'this value denotes that number of documented units', by induction over the argument lists. The bracket pattern is a two-state scanner over characters.
* **C130** Lists of reals; the Fourier transform is its defining cosine sum and the interpolator of scipy its barycentric formula. Discrete orthogonality of cosines gives one round trip, injectivity the other; the barycentric formula by division with remainder and weights annihilating low degrees; derivative by the recurrence in Chebyshev polynomials of the second kind; eigenvectors of the colleague matrix are the values of the basis.
* **C131** Vectors tagged with their representation; a solver is an interaction tree asking for values, jacobians and hessians and the interface interprets it; theorems by induction on the tree, with a relational specification of a run and its numbers of evaluations.
* **C132** Polynomials of Mathlib give the specification; the sign between neighbouring roots by the intermediate value theorem; outliers by Chebyshev's inequality over the list; the inverse of the Vandermonde matrix determines the weights; the combinations by an invariant of the loop over the dictionary order; the spline from the weights of C30.
* **C133** The dictionary of integrals is threaded as state; an inductive relation gives the caches reachable by any history, and an invariant states which order each entry belongs to. The interpolation is a parameter with a specification (through the points, monotone, differentiable); the integral by the fundamental theorem.
* **C134** Modelled in Model/HeadAreas.lean (integrands int_1, int_2, int_3, the two integrated branches) and Model/Geometry.lean; the specification is the graph area element with partial derivatives taken by `deriv`, integrated over the wetted region; proved by substitution, the fundamental theorem of calculus and a limit at the crown's edge.
* **C135** Modelled in Model/Atmosphere.lean on top of the constructor; the specification is the pressure, temperature and gravity the class reports; proved with the hydrostatic equation of C67 and the fundamental theorem of calculus.
* **C136** Modelled in Model/ChebPoly.lean with numpy's Polynomial class as Mathlib's polynomials; specified by the sum of Chebyshev polynomials, linked to the models of chebval (C12) and of the interpolant's evaluation (C130).
* **C137** Modelled in Model/LeastSquares.lean with the decomposition as a parameter; specified with Mathlib's matrices: the residual is a sum over the coordinates of the decomposition and is minimised termwise.
* **C138** Modelled in Model/Shapes.lean with nested lists as an inductive type; specified by a predicate on the nesting, proved by induction on the dimensions.
* **C139** Modelled in Model/Polylog.lean with the tables as exact rationals; specified by the series of the dilogarithm. Polynomials are lists of rationals: their signs on an interval follow from the signs of Bernstein coefficients or of the coefficients in the distance from an end, computed in the kernel; the series is cut after 40 terms with a geometric bound of the rest.

<!-- generated below by tools/design.py -->

## 5. Result per property

* **C01** Dimensionless groups: input selection and mutual identities - proved, 14 theorems. exact real arithmetic; every identity and input pattern
* **C02** Temperature conversions are mutually inverse and compose - proved, 2 theorems. exact arithmetic; all scale pairs
* **C03** Loss coefficient, equivalent length, head and pressure conversions round-trip - proved, 3 theorems. exact real arithmetic
* **C04** isentropic_work_compression solves the same equation for every unknown - proved, 3 theorems. exact real arithmetic
* **C05** Isentropic/polytropic efficiency and exponent conversions are inverse - proved, 5 theorems. exact real arithmetic
* **C06** Stagnation and critical-flow relations are consistent - proved, 5 theorems. exact real arithmetic; strict inequality as in the code
* **C07** Nine gas-pipeline equations: every solve mode inverts the flow equation - proved, 9 theorems. exact real arithmetic; diameter modes of Spitzglass and Oliphant for any solver that only returns zeros
* **C08** isothermal_gas closed forms are consistent - proved, 8 theorems. exact real arithmetic; lambertw branch -1 by its defining equation, numerical solvers assumed to return only zeros
* **C09** Horner evaluators compute the polynomial and its derivatives - proved, 7 theorems. exact real arithmetic; every horner variant, value and derivatives
* **C10** Offset/scale ('stable') polynomial form is equivalent to the plain form - proved, 8 theorems. exact arithmetic
* **C11** polyint / polyder are exact calculus on coefficient lists - proved, 8 theorems. exact arithmetic
* **C12** Chebyshev evaluation, differentiation and integration - proved, 5 theorems. chebval, chebder and chebint for every length and order, including the IndexError/ValueError branches.
* **C13** Closed-form polynomial construction: interpolation conditions hold - proved, 5 theorems. quadratic_from_points, quadratic_from_f_ders, exp_poly_ln_tau_coeffs2/3 (existence and uniqueness), deflate_cubic_real_roots
* **C14** roots_quadratic returns exactly the roots - proved, 5 theorems. roots_quadratic, roots_cubic (all branches), roots_cubic_a1/a2; roots_quartic is not modelled
* **C15** LU solver returns a true solution, for every size - proved, 3 theorems. inplace_LU, solve_from_lu, solve and lu for every size over any ordered field; ValueError iff det = 0.
* **C16** inv returns the two-sided inverse, det the determinant - proved, 5 theorems. inv for every size; det for the coded sizes 2-5. Findings: det of 1x1 returns the row; inv([[2,3]]) and inv([]) do not raise.
* **C17** Tridiagonal storage round-trips and the Thomas solver solves - proved, 5 theorems. Storage round trips both ways; Thomas solver solves or raises ZeroDivisionError; never raises on strictly diagonally dominant systems.
* **C18** Plain list matrix algebra agrees with linear algebra - proved, 14 theorems. All list matrix operations of arrays.py, for all shapes, against Mathlib matrices.
* **C19** argsort1d / sort_paired_lists are stable sorting by permutation - proved, 3 theorems. Python's sorted is modelled as Lean's stable mergeSort.
* **C20** linspace/logspace/diff/cumsum sequence laws - proved, 11 theorems. 
* **C21** interp is clamped piecewise-linear interpolation - proved, 3 theorems. 
* **C22** binary_search locates a key in a sorted list - proved, 3 theorems. 
* **C23** is_monotonic / is_increasing decide monotonicity - proved, 2 theorems. 
* **C24** isclose is the documented tolerance relation - proved, 2 theorems. 
* **C25** bisect keeps a sign-changing bracket and converges - proved, 5 theorems. 
* **C26** ridder and brenth return only bracketed, tolerance-certified points - proved, 6 theorems. findings: ridder can leave the bracket when the tolerance is wider than it (C26_ridder_leaves_bracket)
* **C27** secant / newton respect the convergence contract - proved, 11 theorems. findings proved as negations next to the theorems
* **C28** fixed_point postcondition - proved, 3 theorems. norm2 is a parameter
* **C29** Closed-form linear solvers of size 2, 3, 4 are exact - proved, 7 theorems. 
* **C30** B-spline basis is a nonnegative partition of unity - proved, 6 theorems. Partition of unity, nonnegativity, identification with the Cox-de Boor basis, splev/bisplev as basis sums, ext modes; every degree (bisplev: degree at most five, the size of the work array)
* **C31** Bounded/unbounded variable translation round-trips - proved, 6 theorems. exact real arithmetic: the overflow branch of trunc_exp is never taken
* **C32** nelder_mead never loses its best point - proved, 5 theorems. Invariant over all iterations with a log of evaluations; returned value minimal over every evaluation; totality and bounds
* **C33** Adaptive quadrature is exact when its rule is exact and additive over splits - proved, 5 theorems. the published node tables are parameters; exactness is proved from exact moments
* **C34** Extrapolated fits are consistent across value, derivative and integral - proved, 6 theorems. 
* **C35** damping_maintain_sign never flips a sign - proved, 1 theorems. 
* **C36** normalize yields weights summing to one - proved, 1 theorems. 
* **C37** nearest_pipe returns the smallest adequate pipe - proved, 5 theorems. All 86 schedules, every rational request; consistency of the tables
* **C38** Wire gauge lookups round-trip - proved, 5 theorems. Round trip over the whole table in both units; bracketing for every thickness; finding below the table
* **C39** Standard-size rounding returns the least adequate size - proved, 4 theorems. 
* **C40** friction_factor: listed methods are all usable; regimes and Fanning scaling - proved, 11 theorems. all inputs for dispatch, listing, Darcy flag and errors; that listed methods return a value is proved for 2040 <= Re, 0 <= eD <= 0.05 away from the singular points stated (C42_documented, C40_default_total), with the singular listed cases proved as findings
* **C41** Colebrook (Lambert W form) solves the Colebrook equation - proved, 10 theorems. W is a parameter assumed to solve w e^w = y; the source's decimal constants are idealised to the constants named in its comments
* **C42** Documented friction correlations are the documented formulas - proved, 4 theorems. 28 correlations plus Blasius and von_Karman; values for all Re >= 2040, definedness for eD <= 0.05
* **C43** transmission_factor is an involution between fd and F - proved, 3 theorems. 
* **C44** Pressure-drop helpers decompose consistently - proved, 10 theorems. findings: acceleration term not additive and not the printed formula when density varies
* **C45** friction_factor_curved and helical dispatch - proved, 7 theorems. 
* **C46** change_K_basis is a group action of diameters - proved, 3 theorems. 
* **C47** Flow coefficient conversions commute and invert - proved, 7 theorems. 
* **C48** Contractions and diffusers vanish at equal diameters and stay nonnegative - proved, 8 theorems. 
* **C49** Crane valve coefficients reduce to the full-bore value - proved, 14 theorems. 
* **C50** Fitting dispatchers accept every documented method and reject others - proved, 14 theorems. Miller's three chart-based functions enter as parameters; dispatch to them is proved.
* **C51** Choke pressure and choke predicate agree - proved, 9 theorems. 
* **C52** Turbulent control-valve sizing satisfies the IEC flow equation - proved, 12 theorems. 
* **C53** API 520 coefficients are bounded, monotone and continuous - proved, 9 theorems. 
* **C54** API 520 required area is linear in flow and inverts the discharge equation - proved, 10 theorems. superheat surfaces are parameters
* **C55** Discharge coefficient and loss coefficient conversions are inverse and consistent with the pressure recovery formula - proved, 4 theorems. both round trips for every 0 < Do < D and positive C or K; consistency with dP_orifice at the computed flow for every meter whose ratio is Do/D
* **C56** Expansibility factors are one at zero pressure drop and lie in (0,1] - proved, 8 theorems. orifice 1998 and 1989, Stewart cone and nozzle; limits k->1 and P2->P1 as Tendsto; k = 1 failures stated as theorems
* **C57** Flow meter dispatch is total on the advertised meters - proved, 13 theorems. all 28 meters and every tap argument; Hollingshead data and root finders are parameters
* **C58** Diameter-ratio helpers invert the area they describe - proved, 5 theorems. areas as integrals of the chord; strict monotonicity and rejection of impossible geometry
* **C59** Liquid volume in heads is the integral of the wetted cross-section - proved, 16 theorems. All vertical heads (convex and concave), partial sphere, and horizontal conical, ellipsoidal, guppy, spherical and torispherical heads. Finding: a flat spherical head (a=0) in a horizontal tank raises ZeroDivisionError.
* **C60** Tank volume: V_from_h is 0 empty, V_tank full, monotone - proved, 5 theorems. Both orientations: 0 when empty, V_tank when full, monotone, unsupported heads rejected. Findings: negative levels raise ValueError in horizontal tanks; guppy heads on vertical tanks are silently ignored; V_tank uses the depth of side A for both torispherical heads when f and k agree.
* **C61** Circular segments: area formula equals integral of chord - proved, 2 theorems. Area equals the integral of the chord, 0/full/symmetry/strict monotonicity proved; the inverse is proved for areas up to the half circle. Finding: circle_segment_h_from_A only searches the lower half, so it cannot return heights above D/2.
* **C62** Partial surface areas agree with full areas - proved, 17 theorems. Sphere, vertical conical/ellipsoidal/spherical/torispherical, horizontal conical/spherical/torispherical heads, SA_tank, SA_from_h vertical full = SA_tank. Elliptic-integral heads: empty and clamped only. Findings proved as theorems.
* **C63** HelicalCoil: any two of N, pitch, H_total determine the same coil - proved, 5 theorems. Finding: turns and pitch given together are not checked for colliding turns.
* **C64** pitch_angle_solver reconstructs a consistent triple - proved, 2 theorems. degrees to radians idealised to pi/180
* **C65** Hyperbolic cooling tower profile passes through its design diameters - proved, 3 theorems. 
* **C66** Drilled cylinders: area and volume are additive over holes - proved, 4 theorems. 
* **C67** US standard atmosphere layers join and satisfy hydrostatics - proved, 6 theorems. Exact decimals; pressure at layer boundaries is only continuous to the table's digits, which is not claimed.
* **C68** Particle size distribution functions are genuine distributions - proved, 22 theorems. all three families, with and without truncation, other bases, percentiles under an exact root finder; findings proved as negations
* **C69** psd_spacing returns ascending sizes within range; discrete PSD fractions sum to one - proved, 15 theorems. spacings and discrete fractions; finding proved for cumulative volume input at sizes
* **C70** Void fraction correlations stay in [0,1] - proved, 35 theorems. All 29 correlations: 25 proved to be fractions (with the exact slip form where there is one), also through the front end; the four that leave [0,1] and the supercritical case of Sun_Duffey_Peng have witnesses.
* **C71** Void fraction dispatch is total on listed methods - proved, 4 theorems. All 29 methods and 6 viscosities: listed iff arguments supplied, dispatch equals the direct call, TypeError/ValueError otherwise.
* **C72** Two-phase density/void fraction inversion and viscosity bounds - proved, 12 theorems. Inversion, endpoints, bounds; sharp factors for the two models that overshoot.
* **C73** Manning and Chezy are interchangeable - proved, 3 theorems. 
* **C74** Demister and Watkins separator K correlations are bounded - proved, 8 theorems. The digitised Watkins spline is a parameter. Finding: jumps at 15 and 40 psia.
* **C75** Saltation velocities satisfy their defining correlation - proved, 8 theorems. 
* **C76** Unit constants are exact compositions - proved, 11 theorems. All constants; published definitions as specification
* **C77** VFD/motor helper functions decision logic - proved, 5 theorems. VFD surface is a parameter
* **C78** Dimensionless groups are dimensionless - proved, 3 theorems. change of units as an arbitrary positive rescaling of the base units
* **C79** Engauge export parser returns the exported curves - proved, 2 theorems. round trip proved for non-empty curves; misalignment with an empty curve proved as a finding
* **C80** caching_decorator is transparent over every call history - proved, 2 theorems. 
* **C81** interp2d_linear is bilinear on every grid cell - proved, 1 theorems. 
* **C82** best_bounding_bounds returns a valid, tightened bracket - proved, 4 theorems. the answer is characterised for both orientations; the orientation with the positive end below is where the code differs from its documentation
* **C83** gravity depends on latitude and height as documented - proved, 5 theorems. 
* **C84** A staged diffuser is the sum of its stages - proved, 2 theorems. 
* **C85** CSA_motor_efficiency returns an efficiency of its tables - proved, 1 theorems. 
* **C86** Weir discharge rises with the head - proved, 5 theorems. Finding: contracted SIA weir discharges at zero head.
* **C87** Sieve tables are consistent - proved, 6 theorems. both tables in full; wire diameter findings
* **C88** Mean particle sizes lie between the smallest and the largest size - proved, 12 theorems. discrete distributions and truncated lognormal/Rosin-Rammler; findings proved
* **C89** Crane tee coefficients follow the published equations - proved, 10 theorems. all four functions, every branch of the tables; the jumps are proved as a finding
* **C90** Flare noise falls with distance and follows its graph - proved, 9 theorems. log10 and the graph in exact real arithmetic; VDI factor 360 proved as a finding
* **C91** Sphere drag correlations are positive and approach the Stokes law - proved, 29 theorems. 21 correlations; Mikhailov_Freire and Barati findings proved
* **C92** drag_sphere selects a correlation valid at the Reynolds number - proved, 9 theorems. dispatch, tables and the default selection
* **C93** Settling velocities and trajectories satisfy the equation of motion - proved, 7 theorems. root finder and odeint are parameters; OverflowError of exp does not arise in exact arithmetic
* **C94** Packed-bed pressure drops obey the laws of flow through a bed - proved, 17 theorems. All 14 correlations; findings proved as theorems
* **C95** Packed-bed method selection and voidage estimates - proved, 6 theorems. All names and presence patterns
* **C96** Demisters, mesh measurements and random packings are physically ordered - proved, 8 theorems. findings proved as theorems
* **C97** Stichlmair pressure drops and flooding solve the published equations - proved, 7 theorems. solvers are parameters: their result is assumed to be a root
* **C98** Mixing times and coefficients of variation are ordered - proved, 14 theorems. finding proved as a theorem
* **C99** Screens, nets and grills lose less the more open they are - proved, 11 theorems. degrees are idealised to π/180; findings proved as theorems
* **C100** Separated-flow two-phase pressure drops are Chisholm's form of the single-phase drops - proved, 10 theorems. the friction factor is a parameter, positive at every positive Reynolds number
* **C101** Two-phase multipliers reduce to the single-phase drops and stay positive - proved, 14 theorems. the friction factor is a parameter; findings proved as theorems
* **C102** The two-phase front end runs exactly the method asked for - proved, 7 theorems. all names, all presence patterns
* **C103** Two-phase acceleration and gravity terms are momentum and hydrostatic balances - proved, 7 theorems. radians idealised to π/180
* **C104** Flow regime maps always answer with a documented regime - proved, 7 theorems. spline curves evaluated by the modelled py_splev
* **C105** The Beggs-Brill pressure drop combines a total regime map, a bounded correction and two terms - proved, 10 theorems. findings proved as theorems; degrees idealised to π/180
* **C106** Jet pump results satisfy the conservation laws and keep what was given - proved, 16 theorems. solver, random restarts and guesses arbitrary; retracted-nozzle denominator proved different from the documentation
* **C107** Air leakage estimates rise with vacuum and vessel volume - proved, 10 theorems. findings proved as theorems
* **C108** The quartic solver returns the four roots or raises ZeroDivisionError - proved, 4 theorems. All complex coefficients; roots are exact complex numbers. The ZeroDivisionError finding is proved for every quartic with a vanishing depressed linear and quadratic term.
* **C109** Replacements of mathematical library functions compute the functions they replace - proved, 7 theorems. Exact real and complex arithmetic; signed zeros are taken as +0.0. The large-argument branch of py_catanh is modelled but is an approximation by design and outside the theorem.
* **C110** Error metrics are the maxima and means they are named after - proved, 13 theorems. Exact arithmetic over any linearly ordered field.
* **C111** Chebyshev fits in temperature return the true derivatives of their values - proved, 6 theorems. Real arithmetic without overflow (trunc_exp = exp); numpy variants of the same formulas not modelled.
* **C112** Finite-difference derivatives are exact on the polynomials their rules promise - proved, 11 theorems. weights that are not cached come from an external routine and are outside the model
* **C113** A TANK object is the same tank however it is described - proved, 16 theorems. root finders are assumed to return roots, as stated in the hypotheses; the interpolation table and the Chebyshev approximators are parameters
* **C114** Heat exchanger geometries and shape factors - proved, 9 theorems. ellipe is assumed to be the complete elliptic integral of the second kind
* **C115** Miller bends and the remaining Rennels fittings - proved, 15 theorems. Chart splines are arbitrary functions
* **C116** Two- and three-constant fitting methods - proved, 10 theorems. 
* **C117** Pipe roughness database - proved, 7 theorems. The string matcher is assumed to return one of the candidates
* **C118** Plate exchanger friction factors - proved, 5 theorems. angles in degrees, deg2rad idealised to pi/180
* **C119** Wet-gas Venturi tubes, pump efficiencies, erosional velocity and isothermal work - proved, 6 theorems. gravity is a parameter
* **C120** Solvers for systems of equations - proved, 11 theorems. no NaN or infinities in the model; norm2 is a parameter
* **C121** Accelerated fixed-point iterations - proved, 15 theorems. no NaN or infinities in the model; norm2 and the least-squares coefficients are parameters
* **C122** Iteration guards, one-sided secant and closeness assertions - proved, 21 theorems. NaN and infinities and object identity are not modelled
* **C123** Solar position algorithm: calendar, angles, refraction, transit - proved, 36 theorems. Floating point is idealised; the decimal constants 0.25, 365.25, 30.6001 are exact; the numba batch variants and the datetime handling of the wrappers are not modelled except the choice of the day
* **C124** Solar irradiation of inclined surfaces, clear sky and air mass - proved, 11 theorems. The look-up of the turbidity (pvlib, pandas) and the NRLMSISE-00 defaults of T and P are not modelled; exponentials do not underflow
* **C125** Noise of control valves for liquids and gases - proved, 12 theorems. The rounded constants 10/ln 10, 20/ln 10 and ln(10)/10 are modelled by the exact ones; the tables are the decimals of the source
* **C126** Double-double arithmetic is accurate to about 2^-103 - proved, 11 theorems. Exponents are unbounded in the model: overflow, underflow, infinities and NaN are outside it
* **C127** Elementary and complex functions of double-double numbers - proved, 8 theorems. Statements for rd = id, i.e. without rounding of the single operations; the guesses of the cube roots are arguments of the model
* **C128** Weather records: averages, parsing, stations and cached addresses - proved, 12 theorems. float, int, datetime, the k-d tree, the online geocoder and SQLite's storage of keys are parameters; downloads and files are not modelled
* **C129** Unit-aware calls agree with plain calls - proved, 17 theorems. pint is represented by dimensions with affine maps; the path for array magnitudes, offset units of results and the section patterns of the documentation parser are not modelled
* **C130** Chebyshev interpolants represent the sampled polynomial - proved, 17 theorems. exact arithmetic; one column; adaptive sampling without N, restriction of the domain, products, and the eigenvalue solver itself are not modelled
* **C131** The common solver interface adapts representations and counts evaluations - proved, 13 theorems. the difference schemes and solvers themselves are parameters; the jacobian sizes assumed consistent with numpy
* **C132** Numerical helpers: signs of polynomials, outliers, Lambert function, difference weights, repeated integrals, combinations, bilinear splines - proved, 17 theorems. roots, eigen-solver, Newton and quad are parameters; the inverse of the Vandermonde matrix is that of the code's solver by its specification
* **C133** Interpolated and custom size distributions, meshes and fits - proved, 19 theorems. PchipInterpolator, minimize, brenth and the custom distribution are parameters; quad is the exact integral; plots are not modelled
* **C134** Wetted areas of horizontal ellipsoidal and torispherical heads are surface areas - proved, 10 theorems. Quadrature is the exact integral; the sign of a floating-point zero on a branch cut is not modelled; ellipe is the complete elliptic integral.
* **C135** The pressure difference of a column of air is the weight of the air in it - proved, 5 theorems. Quadrature is the exact integral; the secant solver is a parameter whose answer is a root of the error function.
* **C136** Chebyshev series convert to ordinary polynomials without changing value - proved, 5 theorems. numpy's cheb2poly is outside the code and taken as what it documents; numbers printed in text keep all digits.
* **C137** Least squares and null spaces - proved, 4 theorems. numpy's svd is outside the code and taken as what it documents; arithmetic is exact.
* **C138** Shapes of nested lists and arrays of one value - proved, 7 theorems. numpy arrays, which answer with their own shape, and the identity of row objects are outside the model.
* **C139** The dilogarithm for entropy integrals - proved, 4 theorems. The accuracy above 0.7 is not stated; arithmetic is exact.

## 6. Findings

Where the code does not have the property a user would expect, the exact behaviour is stated in the property and proved, with a concrete witness:

* **C27** Findings: secant with additional_guesses leaves the bounds; secant accepts its own first step when xtol is coarser than it; newton with both bisection and additional_guesses can raise TypeError; maxiter=0 raises UnboundLocalError; halley without ytol returns stationary points.
* **C28** Finding: with neither tolerance given it always reports success.
* **C29** Finding: regular matrices with a zero leading minor, for example a zero corner entry, are rejected with ZeroDivisionError.
* **C37** Finding: with no request at all it ends in UnboundLocalError.
* **C38** Finding: below the thinnest entry that entry's thickness is returned as if it were a gauge.
* **C48** Finding: diffuser_conical_Crane uses Di1-Di2 in the angle, so with a length it returns a negative K.
* **C49** Findings: K_gate_valve_Crane with angle 0 is a division by zero; v_lift_valve_Crane raises UnboundLocalError for styles whose bore ratio it forgot.
* **C50** Finding: bend_rounded with method Crane and an explicit rc is rejected unless rc is five diameters or bend_diameters is also given.
* **C52** Findings: without full_output an unconverged liquid sizing raises NameError; the FP and FLP reported are those of the first iterate.
* **C53** Findings: API520_B jumps at its switch-over and API520_N at 10339 kPa.
* **C54** Findings: API520_A_l without Kv and mu raises TypeError; API520_A_g at k=1 raises ZeroDivisionError.
* **C56** Finding: with k = 1 and P1 = P2 nozzle_expansibility raises ZeroDivisionError, and with k = 1 it ignores an explicitly supplied diameter ratio, so the wedge meters get the value for another geometry.
* **C57** Finding: without tap arguments the Miller concentric, eccentric and segmental orifices and the generic segmental orifice raise ValueError, even if C is specified; differential_pressure_meter_dP supports every meter except the venturi nozzle and the unspecified meter.
* **C62** Findings: a horizontal guppy head with a = D/2 takes the half-sphere shortcut; horizontal spherical heads deeper than D/2 get the smaller complementary cap; the torispherical function never returns exactly at the knuckle's end.
* **C63** Finding: (N,pitch) is not checked, so colliding turns are accepted that way.
* **C68** Findings: Gates-Gaudin-Schuhman raises AttributeError with d_max, ZeroDivisionError in a lower basis and exceeds 1 in a higher one; truncated distributions in another basis return negative cumulative values.
* **C69** Finding: from cumulative volume values at sizes instead of classes the first value is dropped and the volume fractions do not sum to one.
* **C70** Finding: Tandon_Varma_Gupta and Harms exceed 1 at small Reynolds numbers, Domanski_Didion is negative for Lockhart-Martinelli parameters above 189, Kopte_Newell_Chato is negative at large Froude rates, and Sun_Duffey_Peng exceeds 1 above the critical pressure.
* **C72** Finding: Beattie_Whalley and Fourar_Bories do not: for two phases with identical properties they return up to 1.625 and 2 times the common viscosity, and these factors are the sharp bounds.
* **C74** Finding: the York correlation jumps at 15 and 40 psia.
* **C79** Finding: a curve without points breaks the alignment.
* **C80** Finding: the cache key is the first argument only, so functions with further arguments get stale answers.
* **C82** Findings: in the second case the negative point can be further from zero than the given end, and with a negative but no positive history the function raises UnboundLocalError.
* **C85** Finding: other pole counts, including 8 poles at high efficiency, raise UnboundLocalError.
* **C86** Finding: the contracted SIA formula reports a discharge at zero head.
* **C87** Findings: the wires of all ASTM sieves finer than 1 mm are stored a thousand times too thin; some fine ISO sieves have wires outside their own tolerance.
* **C88** Findings: with size classes it is not, and D[-1, q] raises ZeroDivisionError; a Gates-Gaudin-Schuhman volume distribution without d_min has no specific surface.
* **C89** Finding: the coefficients jump at the boundaries of the published regions.
* **C90** Finding: both VDI functions convert kg/s with 360 in place of 3.6, 30 and 34 dB too high.
* **C91** Findings: Mikhailov_Freire is negative at large Re; Barati stays bounded as Re tends to 0.
* **C93** Findings: time_v_terminal_Stokes raises ValueError for rising particles and for a start at the terminal velocity; Reynolds numbers are compared with their sign, so rising particles of any size get the Stokes velocity.
* **C94** Findings: Guo_Sun in every wider column gives a negative pressure drop at high velocity; most correlations raise ZeroDivisionError at zero velocity.
* **C96** Findings: the dry demister fit raises ZeroDivisionError where specific area times thickness is 160.9/4.85, and in its documented range gives negative pressure drops, for example 1000 per metre and 15 mm at high velocity.
* **C98** Finding: with one jet the exponent of size_tee drops from 1.33 to 1/33 at a momentum ratio of 0.7, so a stronger jet predicts worse mixing.
* **C99** Findings: the angle factors rise across 45 degrees; round_edge_grill extrapolates instead of keeping its end values, so that every grill more than 80 % open gets a negative loss coefficient.
* **C100** Finding: Lockhart-Martinelli gives the gas drop above a quality of 1 - 1e-13, but the others raise ZeroDivisionError for a single-phase flow.
* **C101** Findings: Chisholm and Muller-Steinhagen-Heck give a negative pressure drop when the gas-only drop is a tenth or less of the liquid-only drop, as for 1 Pa s oil and air; a gas more viscous than the liquid makes Friedel and Chen-Friedel return a complex number.
* **C103** Finding: an end with void fraction 0 or 1 raises ZeroDivisionError although the absent phase carries no momentum.
* **C104** Finding: Mandhane_Gregory_Aziz_regime returns the liquid velocity first, the documentation lists the gas velocity first.
* **C105** Findings: pure liquid at a Froude number of 1 is given a holdup of 1.065; steep downhill flow can be given a negative holdup.
* **C106** Findings: with the nozzle retracted, the default, the denominator of N has 1 - Ks where the documentation has 1 + Ks, so N is never the documented one when Ks is not zero; solved pressures that come out negative are returned as their absolute values.
* **C107** Findings: the constant documented as 0.0298 in Seider's formula is 0.0289 in the code; Seider's leakage is negative for a large vessel within 1/3 torr of atmospheric pressure; Ryans-Croll returns a complex number above atmospheric pressure.
* **C108** Finding: every quartic of the form a (x - r)^4 + k, such as x^4 - 1, raises ZeroDivisionError.
* **C110** Finding: the lower ratio is 1 rather than the lowest if everything is too high.
* **C111** Finding: for a series too short, such as a constant, chebder returns no coefficients and evaluating the derivative, which is zero, raises IndexError.
* **C112** Finding: a limit moves the base point of derivative, so the derivative at another point is returned: x^2 at 1 with an upper limit of 1 and a step of 0.1 gives 1.8.
* **C113** Findings: add_thickness adds the wall of an end to both the length and the depth of its head, flat ends included, so a vertical tank without torispherical heads grows by twice the end thicknesses; from_two_specs raises TypeError without h even for 'V' and 'SA', which are documented not to need it; a torispherical head given by its depth alone raises ValueError; A_cross_sectional is 0 at the top and bottom of flat-ended vertical tanks.
* **C114** Findings: blockage_ratio of the rectangular fin exchanger, documented as the blocked fraction of the layer, is the open fraction, one minus the offset strip exchanger's blockage_ratio_Kim; AirCooledExchanger's pitch_ratio check is inverted: alone it raises ValueError, with pitch given it silently replaces the pitch.
* **C115** Findings: the outlet correction of bends with coefficients up to 0.1 never reaches 1 because the ratio is cut at 30 while the curve ends at 30.26; contraction_beveled and diffuser_pipe_reducer raise ZeroDivisionError for equal diameters.
* **C116** Finding: diameters below 4.46 mm extrapolate to a negative size and give a complex coefficient, and exactly 4.46 mm a ZeroDivisionError.
* **C117** Findings: one concrete surface has an average of 0.5 mm below its minimum of 6 mm, so its neutral roughness is below the optimistic one; nearest_material_roughness with clean=None, documented to search both, never finds the Farshad materials; roughness_Farshad with an unknown name raises UnboundLocalError.
* **C119** Findings: the wet-gas discharge coefficient does not depend on its parameter H although H is documented and a zero H raises; the pump efficiency is negative for flows below about four gallons per minute with no warning.
* **C120** Findings: newton_system swallows the exceptions of the objective and keeps the residuals of an earlier point, so it can return a point at which the objective raises; its early exit returns two values where homotopy_solver unpacks four, so that with a residual tolerance only a linear equation fails with UnconvergedError; broyden2 returns an unconverged point silently, and its update scales the whole inverse Jacobian instead of correcting it, so that it stays a multiple of the first one for ever; the optional Armijo test adds the squared slope where the rule subtracts it, so it never asks for the decrease it is named after.
* **C121** Findings: on a geometric sequence Aitken's step is taken from the two oldest differences and lands at L + c q^(k-2)(q^2-1) instead of the limit L, farther away than the newest point if q^2 < 1/2; the simple dominant-eigenvalue step has the wrong sign when the error alternates and doubles it; the Anderson step of fixed_point_anderson drops the weight of the newest residual, so that at a fixed point c it gives (1-w)c; its ytol is compared with the function values at the start in every iteration, so that no result is returned if these are larger, and with require_progress none after the first check; and its final check compares the last point with itself, so that an unconverged point is returned silently.
* **C122** Findings: fast growth on both sides is never called oscillating; the secant step of one_sided_secant can divide by zero; with both tolerances positive assert_close depends on the order of its arguments, and assert_close2d stops at the first pair accepted only by the fallback and passes whatever follows; with a negative tolerance it passes everything of one shape.
* **C123** Findings: julian_day_dt counts a microsecond as a second and loses count before the year 1; the refraction of a sun at the zenith is negative, and at -5.11 degrees it divides by zero although switched off; sunrise_sunset adds the UTC offset instead of subtracting it, so one instant on two clocks gives different days; a daily motion of a degree or more loses its whole degrees where the right ascension passes 360.
* **C124** Findings: solar_irradiation computes the extraterrestrial irradiance of the day and never uses it, so the day and the method leave the result unchanged; every air mass model other than kastenyoung1989 ends in ValueError, the six others it recognises included; the relative air mass at the zenith is below 1.
* **C125** Findings: liquids that flash, P2 <= Psat, end in ZeroDivisionError or ValueError; the order x_vcc < xB the gas code relies on fails for valves of high recovery, e.g. k = 2 and FL = 1/2, where regime 3 is empty; the peak frequency drops from 1.414 to 1.4 at the onset of screech; the correction for small valves jumps by 0.95 dB at 0.15 m; rho_air is never read for gases, nor is T1 when T2 is given; no pressure drop raises ValueError for liquids and ZeroDivisionError for gases.
* **C127** Findings: the first step of cbrt_dd lacks the factor 1/3 and doubles the residual instead of squaring it; pow_dd with a float exponent that is a whole number raises TypeError; sqrt_imag_dd ignores the sign of the imaginary part: for numbers in the lower half-plane the square of the result is the conjugate, e.g. the root of 3-4i is given as 2+i.
* **C128** Findings: the default range None of the monthly averages always fails; 999.9 is a code of missing data in every column, so that a pressure of 999.9 mbar is lost; the distance of stations is Euclid's in degrees and does not cross the antimeridian; the STRING column of the cache is numeric in SQLite, so that the postal codes 02134 and 2134 share one entry; heating and cooling degree days are exchanged with respect to the usual terms.
* **C129** Findings: a parameter documented as dimensionless takes quantities of any dimension; positional arguments beyond the documented ones and results beyond the documented units are dropped without an error; differential_pressure_meter_solver without k succeeds plainly and raises KeyError in fluids.units.
* **C130** Findings: roots of a straight line, two coefficients, raises IndexError; the pruning scale is 1 whatever the function, so a function whose coefficients are all below 128*2^-52 becomes a constant.
* **C131** Findings: a scalar objective written for arrays is handed a list by the default jacobian and hessian schemes; the name jacobi_backward runs forward differences; the gradient formed from lists for a system that is not square raises IndexError or is truncated; an unknown method raises UnboundLocalError.
* **C132** Findings: 1 - x on the interval from 0 to 1 is answered not positive; with the default cutoff no data of ten or fewer values have an outlier; nquad over more than one range never returns a value; combinations of nothing yield nothing instead of one empty choice.
* **C133** Findings: a query of an order that is not whole replaces the cached integral of the order truncated to a whole number, so a later mean size can exceed the largest particle; sizes starting with zero leave the smallest size unset and percentiles and means raise AttributeError; a fit to fractions at sizes compares each with the share above its size instead of below; the order given to a fit is never used.
* **C134** Findings: on the axis the closed form of the knuckle divides by zero and silently answers 0, so the code must integrate twice in a band around half full; at the edge of the crown the antiderivative always divides by zero and is evaluated a part in 10^14 further on, which gives the exact value unless the crown is nearly a hemisphere.
* **C136** Finding: the conversion to the mapped variable does not notice a domain without length unless text is asked for.
* **C137** Findings: for a wide, square or rank-deficient matrix the residual is reported as 0 even if the system has no solution; the branch for a matrix without rows but with columns cannot be reached.
* **C138** Finding: the shape of an array of shape (0, 3) is reported as (0,).
* **C139** Finding: the documented bound is said to hold from 0, but up to 0.00001 the relative error is above it, and at 0 the value is positive where the dilogarithm is 0.

## 7. Code modelled and not modelled

Computed from the citations in the model: a function counts as modelled when a definition cites lines of its body.

* `__init__.py`: not modelled (2 functions).
* `atmosphere.py` modelled (17): H_for_P_ATMOSPHERE_1976_err, to_int_dP_ATMOSPHERE_1976, ATMOSPHERE_1976.__init__, ATMOSPHERE_1976._get_ind_from_H, ATMOSPHERE_1976.thermal_conductivity, ATMOSPHERE_1976.viscosity, ATMOSPHERE_1976.density, ATMOSPHERE_1976.sonic_velocity, ATMOSPHERE_1976.gravity, ATMOSPHERE_1976.pressure_integral, to_int_airmass, airmass, earthsun_distance, solar_position, sunrise_sunset, _get_extra_radiation_shim, solar_irradiation. Not modelled (1): ATMOSPHERE_NRLMSISE00.__init__.
* `compressible.py` modelled (26): isothermal_work_compression, isentropic_work_compression, isentropic_T_rise_compression, isentropic_efficiency, polytropic_exponent, T_critical_flow, P_critical_flow, P_isothermal_critical_flow, P_upstream_isothermal_critical_flow, is_critical_flow, stagnation_energy, P_stagnation, T_stagnation, T_stagnation_ideal, isothermal_gas_err_P2_basis, isothermal_gas_err_D, isothermal_gas, Panhandle_A, Panhandle_B, Weymouth, Spitzglass_high, Spitzglass_low, Oliphant, Fritzsche, Muller, IGT. Not modelled (5): isothermal_gas_err_P1, isothermal_gas_err_P2, _to_solve_Spitzglass_high, _to_solve_Spitzglass_low, _to_solve_Oliphant.
* `control_valve.py` modelled (14): cavitation_index, FF_critical_pressure_ratio_l, control_valve_choke_P_l, control_valve_choke_P_g, is_choked_turbulent_l, is_choked_turbulent_g, Reynolds_valve, loss_coefficient_piping, Reynolds_factor, size_control_valve_l, size_control_valve_g, convert_flow_coefficient, control_valve_noise_l_2015, control_valve_noise_g_2011. Nothing else.
* `core.py` modelled (67): thermal_diffusivity, c_ideal_gas, Reynolds, Peclet_heat, Peclet_mass, Fourier_heat, Fourier_mass, Graetz_heat, Schmidt, Lewis, Weber, Mach, Confinement, Morton, Knudsen, Prandtl, Grashof, Bond, Rayleigh, Froude, Froude_densimetric, Strouhal, Nusselt, Sherwood, Biot, Stanton, Euler, Cavitation, Eckert, Jakob, Power_number, Drag, Stokes_number, Capillary, Archimedes, Ohnesorge, Suratman, Hagen, Bejan_L, Bejan_p, Boiling, Dean, relative_roughness, nu_mu_converter, gravity, K_from_f, f_from_K, K_from_L_equiv, L_equiv_from_K, L_from_K, dP_from_K, head_from_K, head_from_P, P_from_head, C2K, K2C, F2C, C2F, F2K, K2F, C2R, K2R, F2R, R2C, R2K, R2F, Engauge_2d_parser. Nothing else.
* `design_climate.py` modelled (11): SimpleGeolocatorCache.cached_address, SimpleGeolocatorCache.cache_address, geocode, heating_degree_days, cooling_degree_days, IntegratedSurfaceDatabaseStation.__init__, StationDataGSOD.coldest_month, StationDataGSOD.warmest_month, StationDataGSOD.month_average_temperature, get_closest_station, gsod_day_parser. Not modelled (17): geopy_geolocator, geopy_cache, SimpleGeolocatorCache.__init__, get_clean_isd_history, IntegratedSurfaceDatabaseStation.__repr__, StationDataGSOD.__init__, StationDataGSOD.load_empty_vectors, StationDataGSOD.download_data, StationDataGSOD.parse_data, StationDataGSOD.month_average_windspeed, StationDataGSOD.percentile_extreme_condition, _load_station_data, get_station_count, get_stations, get_latlongs, get_kd_tree, get_station_year_text.
* `drag.py` modelled (27): Stokes, Barati, Barati_high, Rouse, Engelund_Hansen, Clift_Gauvin, Morsi_Alexander, Graf, Flemmer_Banks, Khan_Richardson, Swamee_Ojha, Yen, Haider_Levenspiel, Cheng, Terfous, Mikhailov_Freire, Clift, Ceylan, Almedeij, Morrison, Song_Xu, drag_sphere_methods, drag_sphere, _v_terminal_err, v_terminal, time_v_terminal_Stokes, integrate_drag_sphere. Nothing else.
* `filters.py` modelled (5): round_edge_screen, round_edge_open_mesh, square_edge_screen, square_edge_grill, round_edge_grill. Nothing else.
* `fittings.py` modelled (58): change_K_basis, entrance_sharp, entrance_distance, entrance_distance_45_Miller, entrance_angled, entrance_rounded, entrance_beveled, entrance_beveled_orifice, exit_normal, Miller_bend_roughness_correction, Miller_bend_unimpeded_correction, bend_rounded_Miller, bend_rounded_Crane, bend_rounded_Ito, bend_rounded, bend_miter_Miller, bend_miter, helix, spiral, contraction_round_Miller, contraction_sharp, contraction_round, contraction_conical_Crane, contraction_conical, contraction_beveled, diffuser_sharp, diffuser_conical_Crane, diffuser_conical, diffuser_conical_staged, diffuser_curved, diffuser_pipe_reducer, Darby3K, Hooper2K, Kv_to_Cv, Cv_to_Kv, Kv_to_K, K_to_Kv, K_to_Cv, Cv_to_K, K_gate_valve_Crane, K_globe_valve_Crane, K_angle_valve_Crane, K_swing_check_valve_Crane, K_lift_check_valve_Crane, K_tilting_disk_check_valve_Crane, K_globe_stop_check_valve_Crane, K_angle_stop_check_valve_Crane, K_ball_valve_Crane, K_diaphragm_valve_Crane, K_foot_valve_Crane, K_butterfly_valve_Crane, K_plug_valve_Crane, v_lift_valve_Crane, Crane_loss_coefficient, K_branch_converging_Crane, K_run_converging_Crane, K_branch_diverging_Crane, K_run_diverging_Crane. Nothing else.
* `flow_meter.py` modelled (34): flow_meter_discharge, orifice_expansibility, orifice_expansibility_1989, C_Reader_Harris_Gallagher, C_Miller_1996, C_eccentric_orifice_ISO_15377_1998, C_quarter_circle_orifice_ISO_15377_1998, discharge_coefficient_to_K, K_to_discharge_coefficient, dP_orifice, velocity_of_approach_factor, flow_coefficient, nozzle_expansibility, C_long_radius_nozzle, C_ISA_1932_nozzle, C_venturi_nozzle, dP_venturi_tube, diameter_ratio_cone_meter, cone_meter_expansibility_Stewart, dP_cone_meter, diameter_ratio_wedge_meter, C_wedge_meter_Miller, C_wedge_meter_ISO_5167_6_2017, dP_wedge_meter, C_Reader_Harris_Gallagher_wet_venturi_tube, dP_Reader_Harris_Gallagher_wet_venturi_tube, differential_pressure_meter_beta, differential_pressure_meter_C_epsilon, err_dp_meter_solver_m, err_dp_meter_solver_P2, err_dp_meter_solver_D2, err_dp_meter_solver_P1, differential_pressure_meter_solver, differential_pressure_meter_dP. Nothing else.
* `friction.py` modelled (70): fuzzy_match, friction_laminar, Blasius, Colebrook, Clamond, Moody, Alshul_1952, Wood_1966, Churchill_1973, Eck_1973, Jain_1976, Swamee_Jain_1976, Churchill_1977, Chen_1979, Round_1980, Shacham_1980, Barr_1981, Zigrang_Sylvester_1, Zigrang_Sylvester_2, Haaland, Serghides_1, Serghides_2, Tsal_1989, Manadilli_1997, Romeo_2002, Sonnad_Goudar_2006, Rao_Kumar_2007, Buzzelli_2008, Avci_Karagoz_2009, Papaevangelo_2010, Brkic_2011_1, Brkic_2011_2, Fang_2011, von_Karman, Prandtl_von_Karman_Nikuradse, ft_Crane, friction_factor_methods, friction_factor, helical_laminar_fd_White, helical_laminar_fd_Mori_Nakayama, helical_laminar_fd_Schmidt, helical_turbulent_fd_Srinivasan, helical_turbulent_fd_Schmidt, helical_turbulent_fd_Mori_Nakayama, helical_turbulent_fd_Prasad, helical_turbulent_fd_Czop, helical_turbulent_fd_Guo, helical_turbulent_fd_Ju, helical_turbulent_fd_Mandal_Nigam, helical_transition_Re_Seth_Stahel, helical_transition_Re_Ito, helical_transition_Re_Kubair_Kuloor, helical_transition_Re_Kutateladze_Borishanskii, helical_transition_Re_Schmidt, helical_transition_Re_Srinivasan, helical_Re_crit, friction_factor_curved_methods, friction_factor_curved, friction_plate_Martin_1999, friction_plate_Martin_VDI, friction_plate_Kumar, friction_plate_Muley_Manglik, roughness_Farshad, nearest_material_roughness, material_roughness, transmission_factor, one_phase_dP, one_phase_dP_acceleration, one_phase_dP_dz_acceleration, one_phase_dP_gravitational. Nothing else.
* `geometry.py` modelled (75): SA_partial_sphere, V_partial_sphere, V_horiz_conical, V_horiz_ellipsoidal, V_horiz_guppy, _V_horiz_spherical_toint, V_horiz_spherical, V_horiz_torispherical_toint_1, V_horiz_torispherical_toint_2, V_horiz_torispherical_toint_3, V_horiz_torispherical, V_vertical_conical, V_vertical_ellipsoidal, V_vertical_spherical, V_vertical_torispherical, V_vertical_conical_concave, V_vertical_ellipsoidal_concave, V_vertical_spherical_concave, V_vertical_torispherical_concave, SA_ellipsoidal_head, SA_conical_head, SA_guppy_head, SA_torispheroidal, SA_tank, V_tank, SA_partial_cylindrical_body, A_partial_circle, circle_segment_area_inner, circle_segment_h_from_A, SA_partial_horiz_conical_head, _SA_partial_horiz_spherical_head_to_int, SA_partial_horiz_spherical_head, SA_partial_horiz_ellipsoidal_head, SA_partial_horiz_guppy_head, _SA_partial_horiz_torispherical_head_int_1, _SA_partial_horiz_torispherical_head_int_2, _SA_partial_horiz_torispherical_head_int_3, SA_partial_horiz_torispherical_head, SA_partial_vertical_conical_head, SA_partial_vertical_ellipsoidal_head, SA_partial_vertical_spherical_head, SA_partial_vertical_torispherical_head, a_torispherical, V_from_h, SA_from_h, tank_from_two_specs_err, TANK.__init__, TANK.set_misc, TANK.from_two_specs, TANK.add_thickness, TANK.SA_from_h, TANK.V_from_h, TANK.h_from_V, TANK.A_cross_sectional, TANK._V_solver_error, TANK._solve_tank_for_V, HelicalCoil.__init__, plate_enlargement_factor, PlateExchanger.__init__, RectangularFinExchanger.__init__, RectangularFinExchanger.set_overall_geometry, RectangularOffsetStripFinExchanger.__init__, HyperbolicCoolingTower.__init__, HyperbolicCoolingTower.diameter, AirCooledExchanger.__init__, pitch_angle_solver, sphericity, aspect_ratio, circularity, A_cylinder, V_cylinder, A_hollow_cylinder, V_hollow_cylinder, A_multiple_hole_cylinder, V_multiple_hole_cylinder. Not modelled (17): _SA_partial_horiz_ellipsoidal_head_to_int_dbl, _SA_partial_horiz_ellipsoidal_head_limits, _SA_partial_horiz_ellipsoidal_head_limits2, _SA_partial_horiz_ellipsoidal_head_to_int, _SA_partial_horiz_guppy_head_to_int, TANK.__str__, TANK.__repr__, TANK.__hash__, TANK.set_table, TANK.set_chebyshev_approximators, HelicalCoil.__repr__, PlateExchanger.__repr__, PlateExchanger.plate_exchanger_identifier, HyperbolicCoolingTower.__repr__, HyperbolicCoolingTower.plot, AirCooledExchanger.__repr__, AirCooledExchanger.__hash__.
* `jet_pump.py` modelled (7): liquid_jet_pump_ancillary, liquid_jet_pump_pressure_ratio, liquid_jet_pump, vacuum_air_leakage_Ryans_Croll, vacuum_air_leakage_Seider, vacuum_air_leakage_HEI2633, vacuum_air_leakage_Coker_Worthington. Nothing else.
* `mixing.py` modelled (7): adjust_homogeneity, agitator_time_homogeneous, Kp_helical_ribbon_Rieger, time_helical_ribbon_Grenville, size_tee, COV_motionless_mixer, K_motionless_mixer. Nothing else.
* `nrlmsise00/nrlmsise_00.py`: not modelled (21 functions).
* `nrlmsise00/nrlmsise_00_header.py`: not modelled (4 functions).
* `numba.py` modelled (1): combinations. Not modelled (18): select_kernel, add_scipy_special_overloads, numba_exec_cacheable, fpbspl, init_w, cy_bispev, normalize, bisplev, infer_dictionary_types, numba_dict, return_value_numpy, transform_lists_to_arrays, remove_for_numba, remove_branch, transform_dataypes_module, create_numerics, transform_module, transform_complete.
* `numerics/__init__.py` modelled (132): mean, detect_outlier_normal, linspace, cumulative_trapezoid, logspace, product, cumsum, diff, central_diff_weights, derivative, jacobian, hessian, exp_cheb, exp_cheb_and_der, exp_cheb_and_der2, exp_cheb_and_der3, exp_cheb_ln_tau, exp_cheb_ln_tau_and_der, exp_cheb_ln_tau_and_der2, chebval_ln_tau, chebval_ln_tau_and_der, chebval_ln_tau_and_der2, chebval_ln_tau_and_der3, is_poly_positive, is_poly_negative, is_monotonic, is_increasing, min_max_ratios, std, fit_integral_linear_extrapolation, poly_fit_integral_value, fit_integral_over_T_linear_extrapolation, poly_fit_integral_over_T_value, evaluate_linear_fits, evaluate_linear_fits_d, evaluate_linear_fits_d2, chebval, chebder, chebint, binary_search, isclose, assert_close, assert_close1d, assert_close2d, assert_close3d, assert_close4d, zeros, full, interp, interp2d_linear, implementation_optimize_tck, tck_interp2d_linear, caching_decorator, translate_bound_func, translate_bound_jac, translate_bound_f_jac, damping_maintain_sign, make_damp_initial, make_max_step_initial, OscillationChecker.__init__, OscillationChecker.clear, OscillationChecker.is_oscillating, OscillationChecker.wrap, best_bounding_bounds, bisect, ridder, brenth, secant, one_sided_secant, newton, halley, newton_err, basic_damping, solve_2_direct, solve_3_direct, solve_4_direct, check_jacobian, newton_system, newton_minimize, homotopy_function, homotopy_solver, broyden2, fixed_point, aitken_delta_squared_accelerate, fixed_point_aitken, dem, gdem, fixed_point_gdem, compute_accelerated_step, anderson_step, fixed_point_anderson, fixed_point_anderson_residual, normalize, func_40_splev, py_splev, fpbspl, init_w, bispev_inner, polylog2, max_abs_error, max_abs_rel_error, max_squared_error, max_squared_rel_error, mean_abs_error, mean_abs_rel_error, mean_squared_error, mean_squared_rel_error, fixed_quad_Gauss_Kronrod, quad_adaptive, _call_nquad, nquad, dblquad, bounds_clip_naive, sort_nelder_mead_points_python, nelder_mead, fixed_point_to_residual, residual_to_fixed_point, SolverInterface.objf_counting, SolverInterface.objf_python_return_numpy, SolverInterface.objf_numpy_return_python, SolverInterface.objf_numpy_minimizing, SolverInterface.objf_python_minimizing, SolverInterface.jac_minimizing, SolverInterface.jac_minimizing_numpy, SolverInterface.objf_python_return_numpy_scalar, SolverInterface.objf_numpy_return_python_scalar, SolverInterface.__init__, SolverInterface.hessian, SolverInterface.jacobian, SolverInterface.solve, _lambertw_err, py_lambertw. Not modelled (39): FakePackage.__getattr__, FakePackage.__init__, sincos, sincos, my_wraps, trunc_exp_numpy, trunc_log_numpy, UnconvergedError.__repr__, UnconvergedError.__init__, SamePointError.__repr__, SamePointError.__init__, oscillation_checking_wrapper, halley_compat_numba, func_35_splev, py_bisplev, root, minimize, fsolve, curve_fit, leastsq, differential_evolution, lmder, lmfit, lazy_quad, sort_nelder_mead_points_numba, splev, bisplev, lambertw, ellipe, gammaincc, i1, i0, k1, k0, iv, hyp2f1, ellipkinc, ellipeinc, erf.
* `numerics/arrays.py` modelled (31): transpose, det, inv, shape, eye, dot_product, matrix_vector_dot, matrix_multiply, sum_matrix_rows, sum_matrix_cols, scalar_add_matrices, scalar_subtract_matrices, scalar_multiply_matrix, scalar_divide_matrix, stack_vectors, inplace_LU, solve_from_lu, solve_LU_decomposition, inv_lu, lu, solve, norm2, array_as_tridiagonals, tridiagonals_as_array, solve_tridiagonal, subset_matrix, argsort1d, sort_paired_lists, svd, gelsd, null_space. Nothing else.
* `numerics/doubledouble.py` modelled (26): eq_dd, neq_dd, lt_dd, le_dd, gt_dd, ge_dd, add_dd, mul_noerrors_dd, mul_dd, div_dd, sqrt_dd, square_dd, intpow_dd, exp_dd, log_dd, pow_dd, mul_imag_dd, mul_imag_noerrors_dd, sqrt_imag_dd, add_imag_dd, imag_inv_dd, div_imag_dd, cbrt_imag_dd, cbrt_dd, cube_dd, cbrt_explicit_dd. Nothing else.
* `numerics/polynomial_evaluation.py` modelled (36): horner, horner_and_der, horner_and_der2, horner_and_der3, horner_and_der4, horner_backwards, exp_horner_backwards, exp_horner_backwards_and_der, exp_horner_backwards_and_der2, exp_horner_backwards_and_der3, horner_backwards_ln_tau, horner_backwards_ln_tau_and_der, horner_backwards_ln_tau_and_der2, horner_backwards_ln_tau_and_der3, exp_horner_backwards_ln_tau, exp_horner_backwards_ln_tau_and_der, exp_horner_backwards_ln_tau_and_der2, horner_domain, horner_stable, horner_stable_and_der, horner_stable_and_der2, horner_stable_and_der3, horner_stable_and_der4, horner_stable_ln_tau, horner_stable_ln_tau_and_der, horner_stable_ln_tau_and_der2, horner_stable_ln_tau_and_der3, exp_horner_stable, exp_horner_stable_and_der, exp_horner_stable_and_der2, exp_horner_stable_and_der3, exp_horner_stable_ln_tau, exp_horner_stable_ln_tau_and_der, exp_horner_stable_ln_tau_and_der2, horner_log, horner_stable_log. Nothing else.
* `numerics/polynomial_roots.py` modelled (5): roots_quadratic, roots_quartic, roots_cubic_a1, roots_cubic_a2, roots_cubic. Nothing else.
* `numerics/polynomial_utils.py` modelled (16): poly_add, poly_mul, stable_poly_to_unstable, polyint_stable, polynomial_offset_scale, polyint, polyint_over_x, polyder, quadratic_from_points, quadratic_from_f_ders, exp_poly_ln_tau_coeffs2, exp_poly_ln_tau_coeffs3, deflate_cubic_real_roots, polyint_over_x_stable_helper, polyint_over_x_stable, poly_convert. Nothing else.
* `numerics/special.py` modelled (8): py_factorial, py_comb, py_hypot, py_cacos, py_catan, py_catanh, trunc_exp, trunc_log. Nothing else.
* `open_flow.py` modelled (11): Q_weir_V_Shen, Q_weir_rectangular_Kindsvater_Carter, Q_weir_rectangular_SIA, Q_weir_rectangular_full_Ackers, Q_weir_rectangular_full_SIA, Q_weir_rectangular_full_Rehbock, Q_weir_rectangular_full_Kindsvater_Carter, V_Manning, n_Manning_to_C_Chezy, C_Chezy_to_n_Manning, V_Chezy. Nothing else.
* `optional/irradiance.py` modelled (10): aoi_projection, aoi, poa_components, get_ground_diffuse, get_sky_diffuse, get_absolute_airmass, get_relative_airmass, get_total_irradiance, isotropic, ineichen. Nothing else.
* `optional/pychebfun.py` modelled (29): fftpack_ifft, fftpack_fft, chebfun_to_poly, cheb_to_poly, cheb_range_simplifier, Polyfun.from_coeff, Polyfun.dichotomy, Polyfun.from_function, Polyfun._threshold, Polyfun._cutoff, Polyfun.__init__, Polyfun.__call__, Polyfun.__add__, Polyfun.__neg__, Polyfun.coefficients, Chebfun.identity, Chebfun.basis, Chebfun.sum, Chebfun.integrate, Chebfun.differentiate, Chebfun.roots, Chebfun.interpolation_points, Chebfun.sample_function, Chebfun.polyfit, Chebfun.polyval, Chebfun.interpolator, Chebfun.differentiator, even_data, dct. Not modelled (33): eigvals, toeplitz, build_pychebfun, build_solve_pychebfun, cast_scalar, Polyfun.from_data, Polyfun.from_fun, Polyfun.same_domain, Polyfun.__repr__, Polyfun.__str__, Polyfun.__getitem__, Polyfun.__bool__, Polyfun.__hash__, Polyfun.__eq__, Polyfun.__ne__, Polyfun.__sub__, Polyfun.__rsub__, Polyfun.__rmul__, Polyfun.__rtruediv__, Polyfun.__abs__, Polyfun.size, Polyfun.values, Polyfun.domain, Polyfun.integrate, Polyfun.differentiate, Polyfun.dot, Polyfun.norm, Polyfun.restrict, Chebfun.get_default_domain, _add_operator, rdiv, _add_delegate, chebfun.
* `optional/spa.py` modelled (45): julian_day_dt, julian_day, julian_ephemeris_day, julian_century, julian_ephemeris_millennium, heliocentric_longitude, heliocentric_latitude, heliocentric_radius_vector, geocentric_longitude, geocentric_latitude, mean_elongation, mean_anomaly_sun, mean_anomaly_moon, moon_argument_latitude, moon_ascending_longitude, longitude_obliquity_nutation, mean_ecliptic_obliquity, true_ecliptic_obliquity, aberration_correction, apparent_sun_longitude, mean_sidereal_time, apparent_sidereal_time, geocentric_sun_right_ascension, geocentric_sun_declination, local_hour_angle, equatorial_horizontal_parallax, uterm, xterm, yterm, parallax_sun_right_ascension, topocentric_sun_right_ascension, topocentric_sun_declination, topocentric_local_hour_angle, topocentric_elevation_angle_without_atmosphere, atmospheric_refraction_correction, topocentric_elevation_angle, topocentric_zenith_angle, topocentric_astronomers_azimuth, topocentric_azimuth_angle, sun_mean_longitude, equation_of_time, earthsun_distance, solar_position, transit_sunrise_sunset, calculate_deltat. Not modelled (5): julian_ephemeris_century, longitude_nutation, obliquity_nutation, solar_position_loop, solar_position_numba.
* `packed_bed.py` modelled (19): Ergun, Kuo_Nydegger, Tallmadge, Jones_Krier, Carman, Hicks, Brauer, KTA, Erdim_Akgiray_Demir, Fahien_Schriver, Idelchik, Harrison_Brunner_Hecker, Montillet_Akkari_Comiti, Guo_Sun, dP_packed_bed_methods, dP_packed_bed, voidage_Benyahia_Oneil, voidage_Benyahia_Oneil_spherical, voidage_Benyahia_Oneil_cylindrical. Nothing else.
* `packed_tower.py` modelled (12): dP_demister_dry_Setekleiv_Svendsen, dP_demister_dry_Setekleiv_Svendsen_lit, dP_demister_wet_ElDessouky, separation_demister_ElDessouky, voidage_experimental, specific_area_mesh, Stichlmair_dry, _Stichlmair_wet_err, Stichlmair_wet, _Stichlmair_flood_f_and_jac, Stichlmair_flood, Robbins. Nothing else.
* `particle_size_distribution.py` modelled (53): Sieve.__repr__, Sieve.__str__, Sieve.__init__, psd_spacing, pdf_lognormal, cdf_lognormal, pdf_lognormal_basis_integral, pdf_Gates_Gaudin_Schuhman, cdf_Gates_Gaudin_Schuhman, pdf_Gates_Gaudin_Schuhman_basis_integral, pdf_Rosin_Rammler, cdf_Rosin_Rammler, pdf_Rosin_Rammler_basis_integral, ParticleSizeDistributionContinuous._pdf, ParticleSizeDistributionContinuous._cdf, ParticleSizeDistributionContinuous._pdf_basis_integral, ParticleSizeDistributionContinuous._pdf_basis_integral_definite, ParticleSizeDistributionContinuous.pdf, ParticleSizeDistributionContinuous.cdf, ParticleSizeDistributionContinuous.delta_cdf, ParticleSizeDistributionContinuous.dn, ParticleSizeDistributionContinuous.ds_discrete, ParticleSizeDistributionContinuous.fractions_discrete, ParticleSizeDistributionContinuous.cdf_discrete, ParticleSizeDistributionContinuous.mean_size, ParticleSizeDistributionContinuous.mean_size_ISO, ParticleSizeDistributionContinuous.vssa, ParticleSizeDistribution.__init__, ParticleSizeDistribution.interpolated, ParticleSizeDistribution._fit_obj_function, ParticleSizeDistribution.fit, ParticleSizeDistribution.di_power, ParticleSizeDistribution.mean_size, ParticleSizeDistribution.mean_size_ISO, ParticleSizeDistribution.vssa, PSDLognormal.__init__, PSDLognormal._pdf, PSDLognormal._cdf, PSDLognormal._pdf_basis_integral, PSDGatesGaudinSchuhman.__init__, PSDGatesGaudinSchuhman._pdf, PSDGatesGaudinSchuhman._cdf, PSDGatesGaudinSchuhman._pdf_basis_integral, PSDRosinRammler.__init__, PSDRosinRammler._pdf, PSDRosinRammler._cdf, PSDRosinRammler._pdf_basis_integral, PSDCustom.__init__, PSDCustom._pdf_basis_integral_definite, PSDInterpolated.__init__, PSDInterpolated._pdf, PSDInterpolated._cdf, PSDInterpolated._pdf_basis_integral. Not modelled (10): _label_distribution_n, ParticleSizeDistributionContinuous.plot_pdf, ParticleSizeDistributionContinuous.plot_cdf, ParticleSizeDistribution.__repr__, ParticleSizeDistribution._pdf, ParticleSizeDistribution._cdf, ParticleSizeDistribution._pdf_basis_integral, ParticleSizeDistribution.Dis, PSDCustom._pdf, PSDCustom._cdf.
* `piping.py` modelled (7): Di_lookup, Do_lookup, NPS_lookup, nearest_pipe, gauge_from_t, t_from_gauge, erosional_velocity. Nothing else.
* `pump.py` modelled (10): Corripio_pump_efficiency, Corripio_motor_efficiency, VFD_efficiency, motor_round_size, CSA_motor_efficiency, motor_efficiency_underloaded, specific_speed, specific_diameter, speed_synchronous, current_ideal. Not modelled (2): CountryPower.__repr__, CountryPower.__init__.
* `safety_valve.py` modelled (15): API520_round_size, API520_C, API520_F2, API520_N, API520_SH, API520_B, API520_A_g, API520_A_steam, API520_Kv, API520_W, API520_A_l, API521_noise_graph, API521_noise, VDI_3732_noise_ground_flare, VDI_3732_noise_elevated_flare. Nothing else.
* `saltation.py` modelled (7): Rizk, Matsumoto_1974, Matsumoto_1975, Matsumoto_1977, Schade, Weber_saltation, Geldart_Ling. Nothing else.
* `separator.py` modelled (4): K_separator_Watkins, K_separator_demister_York, v_Souders_Brown, K_Souders_Brown_theoretical. Nothing else.
* `two_phase.py` modelled (31): _Beggs_Brill_holdup, Beggs_Brill, Friedel, Gronnerud, Chisholm, Baroczy_Chisholm, Muller_Steinhagen_Heck, Lombardi_Pedrocchi, Theissing, Jung_Radermacher, Tran, Chen_Friedel, Zhang_Webb, Bankoff, Xu_Fang, Yu_France, Wang_Chiang_Lu, Hwang_Kim, Zhang_Hibiki_Mishima, Mishima_Hibiki, friction_factor_Kim_Mudawar, Kim_Mudawar, Lockhart_Martinelli, two_phase_dP_methods, two_phase_dP, two_phase_dP_acceleration, two_phase_dP_dz_acceleration, two_phase_dP_gravitational, two_phase_dP_dz_gravitational, Taitel_Dukler_regime, Mandhane_Gregory_Aziz_regime. Nothing else.
* `two_phase_voidage.py` modelled (42): Thom, Zivi, Smith, Fauske, Chisholm_voidage, Turner_Wallis, homogeneous, Chisholm_Armand, Armand, Nishino_Yamazaki, Guzhov, Kawahara, Lockhart_Martinelli_Xtt, Baroczy, Tandon_Varma_Gupta, Harms, Domanski_Didion, Graham, Yashar, Huq_Loth, Kopte_Newell_Chato, Steiner, Rouhani_1, Rouhani_2, Nicklin_Wilkes_Davidson, Gregory_Scott, Dix, Sun_Duffey_Peng, Xu_Fang_voidage, Woldesemayat_Ghajar, liquid_gas_voidage_methods, liquid_gas_voidage, density_two_phase, two_phase_voidage_experimental, Beattie_Whalley, McAdams, Cicchitti, Lin_Kwok, Fourar_Bories, Duckler, gas_liquid_viscosity_methods, gas_liquid_viscosity. Nothing else.
* `units.py` modelled (9): make_dimensionless_units, parse_numpydoc_variables_units_docstring, convert_input, parse_expression_cached, convert_output, wraps_numpydoc, UnitAwareClass.__getattr__, kwargs_to_args, variable_output_wrapper. Not modelled (16): get_docstring, func_args, parse_numpydoc_variables_units, check_args_order, check_module_docstring_parameters, match_parse_units, UnitAwareClass.__repr__, UnitAwareClass.__add__, UnitAwareClass.__sub__, UnitAwareClass.__init__, UnitAwareClass.wrap, UnitAwareClass.input_units_to_dimensionless, clean_parsed_info, wrap_numpydoc_obj, A_multiple_hole_cylinder, V_multiple_hole_cylinder.

In all 977 functions and methods are modelled and 190 are not.
