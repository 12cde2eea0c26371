{
 "claims": [
  {
   "property": "C01",
   "status": "proved",
   "theorems": [
    "Verif.C01_Reynolds",
    "Verif.C01_Prandtl",
    "Verif.C01_Peclet_heat",
    "Verif.C01_Fourier_heat",
    "Verif.C01_Graetz_heat",
    "Verif.C01_Schmidt",
    "Verif.C01_Lewis",
    "Verif.C01_Grashof",
    "Verif.C01_heat_identities",
    "Verif.C01_surface_tension_identities",
    "Verif.C01_gravity_identities",
    "Verif.C01_pressure_identities",
    "Verif.Core.C01_Rayleigh",
    "Verif.Core.C01_sonic"
   ],
   "note": "exact real arithmetic; every identity and input pattern"
  },
  {
   "property": "C02",
   "status": "proved",
   "theorems": [
    "Verif.C02_conversion",
    "Verif.C02_fixed_points"
   ],
   "note": "exact arithmetic; all scale pairs"
  },
  {
   "property": "C03",
   "status": "proved",
   "theorems": [
    "Verif.C03_loss_round_trip",
    "Verif.C03_head_pressure",
    "Verif.C03_nu_mu"
   ],
   "note": "exact real arithmetic"
  },
  {
   "property": "C04",
   "status": "proved",
   "theorems": [
    "Verif.C04_round_trip",
    "Verif.C04_rejects",
    "Verif.C04_temperature_rise"
   ],
   "note": "exact real arithmetic"
  },
  {
   "property": "C05",
   "status": "proved",
   "theorems": [
    "Verif.C05_polytropic_round_trip",
    "Verif.C05_isentropic_round_trip",
    "Verif.C05_efficiency_rejects",
    "Verif.C05_exponent_round_trip",
    "Verif.C05_exponent_round_trip'"
   ],
   "note": "exact real arithmetic"
  },
  {
   "property": "C06",
   "status": "proved",
   "theorems": [
    "Verif.C06_stagnation",
    "Verif.C06_critical_is_isentropic",
    "Verif.C06_is_critical_flow",
    "Verif.C06_k_one",
    "Verif.C06_T_stagnation_ideal"
   ],
   "note": "exact real arithmetic; strict inequality as in the code"
  },
  {
   "property": "C07",
   "status": "proved",
   "theorems": [
    "Verif.C07_Panhandle_A",
    "Verif.C07_Panhandle_B",
    "Verif.C07_Weymouth",
    "Verif.C07_Fritzsche",
    "Verif.C07_Muller",
    "Verif.C07_IGT",
    "Verif.C07_Spitzglass_high",
    "Verif.C07_Spitzglass_low",
    "Verif.C07_Oliphant"
   ],
   "note": "exact real arithmetic; diameter modes of Spitzglass and Oliphant for any solver that only returns zeros"
  },
  {
   "property": "C08",
   "status": "proved",
   "theorems": [
    "Verif.C08_choke_pressure",
    "Verif.C08_mass_flow",
    "Verif.C08_choke_is_maximum",
    "Verif.C08_length_round_trip",
    "Verif.C08_outlet_round_trip",
    "Verif.C08_outlet_sound",
    "Verif.C08_inlet_and_diameter_sound",
    "Verif.C08_rejects"
   ],
   "note": "exact real arithmetic; lambertw branch -1 by its defining equation, numerical solvers assumed to return only zeros"
  },
  {
   "property": "C09",
   "status": "proved",
   "theorems": [
    "Verif.C09_horner_value",
    "Verif.C09_horner_derivatives",
    "Verif.C09_horner_iteratedDeriv",
    "Verif.C09_exp_horner_derivatives",
    "Verif.C09_horner_ln_tau",
    "Verif.C09_exp_horner_ln_tau",
    "Verif.C09_horner_log"
   ],
   "note": "exact real arithmetic; every horner variant, value and derivatives"
  },
  {
   "property": "C10",
   "status": "proved",
   "theorems": [
    "Verif.C10_horner_stable",
    "Verif.C10_exp_horner_stable",
    "Verif.C10_horner_stable_ln_tau",
    "Verif.C10_exp_horner_stable_ln_tau",
    "Verif.C10_horner_domain",
    "Verif.C10_stable_poly_to_unstable",
    "Verif.C10_poly_convert",
    "Verif.PolyEval.C10_horner_stable_log"
   ],
   "note": "exact arithmetic"
  },
  {
   "property": "C11",
   "status": "proved",
   "theorems": [
    "Verif.C11_poly_ring",
    "Verif.C11_polyint",
    "Verif.C11_polyint_hasDerivAt",
    "Verif.C11_polyint_over_x",
    "Verif.C11_polyint_stable",
    "Verif.C11_polyder",
    "Verif.C11_polyder_polyint",
    "Verif.C11_polyint_over_x_stable"
   ],
   "note": "exact arithmetic"
  },
  {
   "property": "C12",
   "status": "proved",
   "theorems": [
    "Verif.C12_chebval",
    "Verif.C12_chebval_cos",
    "Verif.C12_chebder",
    "Verif.C12_chebint",
    "Verif.C12_chebder_chebint"
   ],
   "note": "chebval, chebder and chebint for every length and order, including the IndexError/ValueError branches."
  },
  {
   "property": "C13",
   "status": "proved",
   "theorems": [
    "Verif.C13_quadratic_from_points",
    "Verif.C13_quadratic_from_f_ders",
    "Verif.C13_exp_poly_ln_tau_coeffs2",
    "Verif.C13_exp_poly_ln_tau_coeffs3",
    "Verif.C13_deflate_cubic_real_roots"
   ],
   "note": "quadratic_from_points, quadratic_from_f_ders, exp_poly_ln_tau_coeffs2/3 (existence and uniqueness), deflate_cubic_real_roots"
  },
  {
   "property": "C14",
   "status": "proved",
   "theorems": [
    "Verif.C14_roots_quadratic",
    "Verif.C14_roots_cubic_a2",
    "Verif.C14_roots_cubic_a1",
    "Verif.C14_roots_cubic",
    "Verif.C14_roots_cubic_degenerate"
   ],
   "note": "roots_quadratic, roots_cubic (all branches), roots_cubic_a1/a2; roots_quartic is not modelled"
  },
  {
   "property": "C15",
   "status": "proved",
   "theorems": [
    "Verif.C15_lu_solve",
    "Verif.C15_solve",
    "Verif.C15_lu"
   ],
   "note": "inplace_LU, solve_from_lu, solve and lu for every size over any ordered field; ValueError iff det = 0."
  },
  {
   "property": "C16",
   "status": "proved",
   "theorems": [
    "Verif.C16_inv",
    "Verif.C16_inv_not_square_no_error",
    "Verif.C16_det",
    "Verif.C16_det_one",
    "Verif.C16_det_not_square"
   ],
   "note": "inv for every size; det for the coded sizes 2-5. Findings: det of 1x1 returns the row; inv([[2,3]]) and inv([]) do not raise."
  },
  {
   "property": "C17",
   "status": "proved",
   "theorems": [
    "Verif.C17_as_array",
    "Verif.C17_roundtrip_diagonals",
    "Verif.C17_roundtrip_matrix",
    "Verif.C17_solve",
    "Verif.C17_solve_dominant"
   ],
   "note": "Storage round trips both ways; Thomas solver solves or raises ZeroDivisionError; never raises on strictly diagonally dominant systems."
  },
  {
   "property": "C18",
   "status": "proved",
   "theorems": [
    "Verif.C18_transpose",
    "Verif.C18_transpose_error",
    "Verif.C18_matrix_multiply",
    "Verif.C18_matrix_multiply_error",
    "Verif.C18_matrix_multiply_assoc",
    "Verif.C18_eye",
    "Verif.C18_eye_unit",
    "Verif.C18_dot_product",
    "Verif.C18_matrix_vector_dot",
    "Verif.C18_add_subtract",
    "Verif.C18_add_subtract_error",
    "Verif.C18_scalar_multiply_divide",
    "Verif.C18_row_col_sums",
    "Verif.Arrays.C18_subset"
   ],
   "note": "All list matrix operations of arrays.py, for all shapes, against Mathlib matrices."
  },
  {
   "property": "C19",
   "status": "proved",
   "theorems": [
    "Verif.C19_argsort",
    "Verif.C19_sort_paired_lists",
    "Verif.C19_sort_paired_lists_error"
   ],
   "note": "Python's sorted is modelled as Lean's stable mergeSort."
  },
  {
   "property": "C20",
   "status": "proved",
   "theorems": [
    "Verif.C20_linspace",
    "Verif.C20_linspace_open",
    "Verif.C20_linspace_small",
    "Verif.C20_logspace",
    "Verif.C20_product",
    "Verif.C20_mean",
    "Verif.C20_cumsum",
    "Verif.C20_diff_cumsum",
    "Verif.C20_cumsum_diff",
    "Verif.C20_diff",
    "Verif.C20_cumulative_trapezoid"
   ],
   "note": ""
  },
  {
   "property": "C21",
   "status": "proved",
   "theorems": [
    "Verif.C21_interp_inside",
    "Verif.C21_interp_outside",
    "Verif.C21_interp_between"
   ],
   "note": ""
  },
  {
   "property": "C22",
   "status": "proved",
   "theorems": [
    "Verif.C22_binary_search",
    "Verif.C22_binary_search_found",
    "Verif.C22_binary_search_empty"
   ],
   "note": ""
  },
  {
   "property": "C23",
   "status": "proved",
   "theorems": [
    "Verif.C23_is_increasing",
    "Verif.C23_is_monotonic"
   ],
   "note": ""
  },
  {
   "property": "C24",
   "status": "proved",
   "theorems": [
    "Verif.C24_isclose",
    "Verif.C24_isclose_laws"
   ],
   "note": ""
  },
  {
   "property": "C25",
   "status": "proved",
   "theorems": [
    "Verif.C25_bisect_rejects",
    "Verif.C25_bisect_post",
    "Verif.C25_bisect_converges",
    "Verif.C25_bisect_unconverged",
    "Verif.C25_bisect_root"
   ],
   "note": ""
  },
  {
   "property": "C26",
   "status": "proved",
   "theorems": [
    "Verif.C26_brenth",
    "Verif.C26_brenth_ytol",
    "Verif.C26_ridder",
    "Verif.C26_ridder_leaves_bracket",
    "Verif.C26_brenth_root",
    "Verif.C26_ridder_root"
   ],
   "note": "findings: ridder can leave the bracket when the tolerance is wider than it (C26_ridder_leaves_bracket)"
  },
  {
   "property": "C27",
   "status": "proved",
   "theorems": [
    "Verif.C27_secant_bounds",
    "Verif.C27_secant_leaves_bounds",
    "Verif.C27_secant_first_step",
    "Verif.C27_secant_post",
    "Verif.C27_newton",
    "Verif.C27_newton_require_eval",
    "Verif.C27_newton_errors",
    "Verif.C27_newton_type_error",
    "Verif.C27_newton_maxiter_zero",
    "Verif.C27_halley_stationary",
    "Verif.C27_halley_post"
   ],
   "note": "findings proved as negations next to the theorems"
  },
  {
   "property": "C28",
   "status": "proved",
   "theorems": [
    "Verif.C28_fixed_point",
    "Verif.C28_fixed_point_errors",
    "Verif.C28_fixed_point_no_tolerance"
   ],
   "note": "norm2 is a parameter"
  },
  {
   "property": "C29",
   "status": "proved",
   "theorems": [
    "Verif.Direct.C29_solve_2",
    "Verif.Direct.C29_solve_2_singular",
    "Verif.Direct.C29_solve_3",
    "Verif.Direct.C29_solve_3_singular",
    "Verif.Direct.C29_solve_3_rejects_regular",
    "Verif.Direct.C29_solve_4",
    "Verif.Direct.C29_solve_4_singular"
   ],
   "note": ""
  },
  {
   "property": "C30",
   "status": "proved",
   "theorems": [
    "Verif.Splines.C30_fpbspl",
    "Verif.Splines.C30_splev",
    "Verif.Splines.C30_splev_mean",
    "Verif.Splines.C30_splev_constant",
    "Verif.Splines.C30_splev_ext",
    "Verif.Splines.C30_bisplev"
   ],
   "note": "Partition of unity, nonnegativity, identification with the Cox-de Boor basis, splev/bisplev as basis sums, ext modes; every degree (bisplev: degree at most five, the size of the work array)"
  },
  {
   "property": "C31",
   "status": "proved",
   "theorems": [
    "Verif.Translate.C31_outof",
    "Verif.Translate.C31_into_outof",
    "Verif.Translate.C31_outof_into",
    "Verif.Translate.C31_bound_func",
    "Verif.Translate.C31_endpoints",
    "Verif.Translate.C31_jac"
   ],
   "note": "exact real arithmetic: the overflow branch of trunc_exp is never taken"
  },
  {
   "property": "C32",
   "status": "proved",
   "theorems": [
    "Verif.NelderMead.C32_step",
    "Verif.NelderMead.C32_nelder_mead",
    "Verif.NelderMead.C32_total",
    "Verif.NelderMead.C32_empty",
    "Verif.NelderMead.C32_only_high"
   ],
   "note": "Invariant over all iterations with a log of evaluations; returned value minimal over every evaluation; totality and bounds"
  },
  {
   "property": "C33",
   "status": "proved",
   "theorems": [
    "Verif.Quad.C33_fixed_rule",
    "Verif.Quad.C33_additive",
    "Verif.Quad.C33_exact",
    "Verif.Quad.C33_support",
    "Verif.Quad.C33_polynomials"
   ],
   "note": "the published node tables are parameters; exactness is proved from exact moments"
  },
  {
   "property": "C34",
   "status": "proved",
   "theorems": [
    "Verif.Fits.C34_linear_fits",
    "Verif.Fits.C34_integral_value",
    "Verif.Fits.C34_integral_difference",
    "Verif.Fits.C34_integral",
    "Verif.Fits.C34_integral_over_T_value",
    "Verif.Fits.C34_integral_over_T_difference"
   ],
   "note": ""
  },
  {
   "property": "C35",
   "status": "proved",
   "theorems": [
    "Verif.C35_damping"
   ],
   "note": ""
  },
  {
   "property": "C36",
   "status": "proved",
   "theorems": [
    "Verif.C36_normalize"
   ],
   "note": ""
  },
  {
   "property": "C37",
   "status": "proved",
   "theorems": [
    "Verif.Piping.C37_Di",
    "Verif.Piping.C37_Do",
    "Verif.Piping.C37_NPS",
    "Verif.Piping.C37_errors",
    "Verif.Piping.C37_consistent"
   ],
   "note": "All 86 schedules, every rational request; consistency of the tables"
  },
  {
   "property": "C38",
   "status": "proved",
   "theorems": [
    "Verif.Piping.C38_inches",
    "Verif.Piping.C38_roundtrip",
    "Verif.Piping.C38_bracket",
    "Verif.Piping.C38_errors",
    "Verif.Piping.C38_below_is_not_a_gauge"
   ],
   "note": "Round trip over the whole table in both units; bracketing for every thickness; finding below the table"
  },
  {
   "property": "C39",
   "status": "proved",
   "theorems": [
    "Verif.Sizes.C39_motor",
    "Verif.Sizes.C39_API520",
    "Verif.Sizes.C39_monotone",
    "Verif.Sizes.C39_letters"
   ],
   "note": ""
  },
  {
   "property": "C40",
   "status": "proved",
   "theorems": [
    "Verif.Friction.C40_laminar",
    "Verif.Friction.C40_dispatch",
    "Verif.Friction.C40_listed",
    "Verif.Friction.C40_all_listed",
    "Verif.Friction.C40_unknown",
    "Verif.Friction.C40_default",
    "Verif.Friction.C40_default_listed",
    "Verif.Friction.C40_quarter",
    "Verif.Friction.C40_default_total",
    "Verif.Friction.C40_Rao_Kumar_smooth",
    "Verif.Friction.C40_Serghides_1_singular"
   ],
   "note": "all inputs for dispatch, listing, Darcy flag and errors; that listed methods return a value is proved for 2040 <= Re, 0 <= eD <= 0.05 away from the singular points stated (C42_documented, C40_default_total), with the singular listed cases proved as findings"
  },
  {
   "property": "C41",
   "status": "proved",
   "theorems": [
    "Verif.Friction.C41_solves",
    "Verif.Friction.C41_unique",
    "Verif.Friction.C41_iff",
    "Verif.Friction.C41_no_solution",
    "Verif.Friction.C41_tol",
    "Verif.Friction.C41_numerical",
    "Verif.Friction.C41_numerical_start",
    "Verif.Friction.C41_smooth",
    "Verif.Friction.C41_above_limits",
    "Verif.Friction.C41_antitone"
   ],
   "note": "W is a parameter assumed to solve w e^w = y; the source's decimal constants are idealised to the constants named in its comments"
  },
  {
   "property": "C42",
   "status": "proved",
   "theorems": [
    "Verif.Friction.C42_documented",
    "Verif.Friction.C42_values",
    "Verif.Friction.C42_Blasius",
    "Verif.Friction.C42_von_Karman"
   ],
   "note": "28 correlations plus Blasius and von_Karman; values for all Re >= 2040, definedness for eD <= 0.05"
  },
  {
   "property": "C43",
   "status": "proved",
   "theorems": [
    "Verif.Friction.C43_definition",
    "Verif.Friction.C43_involution",
    "Verif.Friction.C43_errors"
   ],
   "note": ""
  },
  {
   "property": "C44",
   "status": "proved",
   "theorems": [
    "Verif.Friction.C44_one_phase_dP",
    "Verif.Friction.C44_one_phase_dP_ok",
    "Verif.Friction.C44_acceleration",
    "Verif.Friction.C44_acceleration_antisymm",
    "Verif.Friction.C44_acceleration_default",
    "Verif.Friction.C44_acceleration_additive",
    "Verif.Friction.C44_acceleration_not_additive",
    "Verif.Friction.C44_acceleration_not_documented",
    "Verif.Friction.C44_dz_acceleration",
    "Verif.Friction.C44_gravitational"
   ],
   "note": "findings: acceleration term not additive and not the printed formula when density varies"
  },
  {
   "property": "C45",
   "status": "proved",
   "theorems": [
    "Verif.Friction.C45_Re_crit",
    "Verif.Friction.C45_methods",
    "Verif.Friction.C45_regime",
    "Verif.Friction.C45_quarter",
    "Verif.Friction.C45_unknown",
    "Verif.Friction.C45_listed",
    "Verif.Friction.C45_White_straight"
   ],
   "note": ""
  },
  {
   "property": "C46",
   "status": "proved",
   "theorems": [
    "Verif.Fittings.C46_group",
    "Verif.Fittings.C46_inverse",
    "Verif.Fittings.C46_pressure_drop"
   ],
   "note": ""
  },
  {
   "property": "C47",
   "status": "proved",
   "theorems": [
    "Verif.Fittings.C47_Kv_Cv",
    "Verif.Fittings.C47_Kv_K",
    "Verif.Fittings.C47_Cv_K",
    "Verif.Fittings.C47_triangle",
    "Verif.Fittings.C47_convert",
    "Verif.Fittings.C47_convert_laws",
    "Verif.Fittings.C47_convert_unknown"
   ],
   "note": ""
  },
  {
   "property": "C48",
   "status": "proved",
   "theorems": [
    "Verif.Fittings.C48_contraction_zero",
    "Verif.Fittings.C48_diffuser_zero",
    "Verif.Fittings.C48_contraction_nonneg",
    "Verif.Fittings.C48_diffuser_sharp",
    "Verif.Fittings.C48_diffuser_nonneg",
    "Verif.Fittings.C48_contraction_length_angle",
    "Verif.Fittings.C48_diffuser_length_angle",
    "Verif.Fittings.C48_diffuser_Crane_length_negative"
   ],
   "note": ""
  },
  {
   "property": "C49",
   "status": "proved",
   "theorems": [
    "Verif.Fittings.C49_friction_defined",
    "Verif.Fittings.C49_globe_angle",
    "Verif.Fittings.C49_check",
    "Verif.Fittings.C49_ball_plug",
    "Verif.Fittings.C49_gate",
    "Verif.Fittings.C49_gate_angle_zero",
    "Verif.Fittings.C49_full_bore",
    "Verif.Fittings.C49_fixed",
    "Verif.Fittings.C49_styles",
    "Verif.Fittings.C49_missing",
    "Verif.Fittings.C49_dispatch",
    "Verif.Fittings.C49_dispatch_values",
    "Verif.Fittings.C49_lift_velocity",
    "Verif.Fittings.C49_lift_velocity_unknown"
   ],
   "note": ""
  },
  {
   "property": "C50",
   "status": "proved",
   "theorems": [
    "Verif.Fittings.C50_entrance_sharp",
    "Verif.Fittings.C50_entrance_distance",
    "Verif.Fittings.C50_entrance_rounded",
    "Verif.Fittings.C50_entrance_beveled",
    "Verif.Fittings.C50_bend_rounded_Rennels",
    "Verif.Fittings.C50_bend_rounded_methods",
    "Verif.Fittings.C50_bend_rounded_unknown",
    "Verif.Fittings.C50_bend_rounded_Crane_rc",
    "Verif.Fittings.C50_bend_miter",
    "Verif.Fittings.C50_contraction_sharp",
    "Verif.Fittings.C50_contraction_round",
    "Verif.Fittings.C50_contraction_conical",
    "Verif.Fittings.C50_diffuser_sharp",
    "Verif.Fittings.C50_diffuser_conical"
   ],
   "note": "Miller's three chart-based functions enter as parameters; dispatch to them is proved."
  },
  {
   "property": "C51",
   "status": "proved",
   "theorems": [
    "Verif.CV.C51_flips_l",
    "Verif.CV.C51_check_l",
    "Verif.CV.C51_roundtrip_l",
    "Verif.CV.C51_FL_one",
    "Verif.CV.C51_arguments",
    "Verif.CV.C51_flips_g",
    "Verif.CV.C51_roundtrip_g",
    "Verif.CV.C51_choked_piping",
    "Verif.CV.C51_cavitation_index"
   ],
   "note": ""
  },
  {
   "property": "C52",
   "status": "proved",
   "theorems": [
    "Verif.CV.C52_liquid",
    "Verif.CV.C52_gas",
    "Verif.CV.C52_loss",
    "Verif.CV.C52_step_l",
    "Verif.CV.C52_piping_l",
    "Verif.CV.C52_warning_name_error",
    "Verif.CV.C52_step_g",
    "Verif.CV.C52_piping_g",
    "Verif.CV.C52_laminar",
    "Verif.CV.C52_liquid_diameters",
    "Verif.CV.C52_gas_diameters",
    "Verif.CV.C52_partial_diameters"
   ],
   "note": ""
  },
  {
   "property": "C53",
   "status": "proved",
   "theorems": [
    "Verif.Safety.C53_C_continuous",
    "Verif.Safety.C53_Kv",
    "Verif.Safety.C53_Kv_unknown",
    "Verif.Safety.C53_W",
    "Verif.Safety.C53_B",
    "Verif.Safety.C53_B_jump",
    "Verif.Safety.C53_N",
    "Verif.Safety.C53_N_jump",
    "Verif.Safety.C53_F2"
   ],
   "note": ""
  },
  {
   "property": "C54",
   "status": "proved",
   "theorems": [
    "Verif.Safety.C54_gas",
    "Verif.Safety.C54_gas_scaling",
    "Verif.Safety.C54_gas_boundary",
    "Verif.Safety.C54_gas_k_one",
    "Verif.Safety.C54_steam",
    "Verif.Safety.C54_superheat",
    "Verif.Safety.C54_liquid",
    "Verif.Safety.C54_liquid_scaling",
    "Verif.Safety.C54_liquid_viscous",
    "Verif.Safety.C54_liquid_no_Kv"
   ],
   "note": "superheat surfaces are parameters"
  },
  {
   "property": "C55",
   "status": "proved",
   "theorems": [
    "Verif.C55_C_K_C",
    "Verif.C55_K_C_K",
    "Verif.C55_consistent",
    "Verif.FlowMeter.C55_approach"
   ],
   "note": "both round trips for every 0 < Do < D and positive C or K; consistency with dP_orifice at the computed flow for every meter whose ratio is Do/D"
  },
  {
   "property": "C56",
   "status": "proved",
   "theorems": [
    "Verif.C56_orifice",
    "Verif.C56_orifice_1989",
    "Verif.C56_cone",
    "Verif.C56_nozzle",
    "Verif.C56_nozzle_limit",
    "Verif.C56_nozzle_zero_dP",
    "Verif.C56_nozzle_k1_zero_dP",
    "Verif.C56_nozzle_k1_ignores_beta"
   ],
   "note": "orifice 1998 and 1989, Stewart cone and nozzle; limits k->1 and P2->P1 as Tendsto; k = 1 failures stated as theorems"
  },
  {
   "property": "C57",
   "status": "proved",
   "theorems": [
    "Verif.C57_beta_reject",
    "Verif.C57_beta",
    "Verif.C57_correlation",
    "Verif.C57_C_epsilon_reject",
    "Verif.C57_C_epsilon",
    "Verif.C57_C_epsilon_taps",
    "Verif.C57_unspecified",
    "Verif.C57_default_taps",
    "Verif.C57_solver_one_unknown",
    "Verif.C57_solver_correct",
    "Verif.C57_dP_orifice",
    "Verif.C57_dP",
    "Verif.C57_dP_reject"
   ],
   "note": "all 28 meters and every tap argument; Hollingshead data and root finders are parameters"
  },
  {
   "property": "C58",
   "status": "proved",
   "theorems": [
    "Verif.C58_cone",
    "Verif.C58_wedge",
    "Verif.C58_wedge_strictMono",
    "Verif.C58_reject",
    "Verif.C58_wedge_Miller"
   ],
   "note": "areas as integrals of the chord; strict monotonicity and rejection of impossible geometry"
  },
  {
   "property": "C59",
   "status": "proved",
   "theorems": [
    "Verif.Geometry.C59_vertical_conical",
    "Verif.Geometry.C59_vertical_ellipsoidal",
    "Verif.Geometry.C59_vertical_spherical",
    "Verif.Geometry.C59_partial_sphere",
    "Verif.Geometry.C59_vertical_conical_concave",
    "Verif.Geometry.C59_vertical_ellipsoidal_concave",
    "Verif.Geometry.C59_vertical_spherical_concave",
    "Verif.Geometry.C59_horiz_spherical",
    "Verif.Geometry.C59_horiz_spherical_flat",
    "Verif.Geometry.C59_horiz_torispherical",
    "Verif.Geometry.C59_horiz_torispherical_fill",
    "Verif.Geometry.C59_horiz_ellipsoidal",
    "Verif.Geometry.C59_horiz_guppy",
    "Verif.Geometry.C59_horiz_conical",
    "Verif.Geometry.C59_vertical_torispherical",
    "Verif.Geometry.C59_vertical_torispherical_concave"
   ],
   "note": "All vertical heads (convex and concave), partial sphere, and horizontal conical, ellipsoidal, guppy, spherical and torispherical heads. Finding: a flat spherical head (a=0) in a horizontal tank raises ZeroDivisionError."
  },
  {
   "property": "C60",
   "status": "proved",
   "theorems": [
    "Verif.Geometry.C60_horizontal",
    "Verif.Geometry.C60_horizontal_negative",
    "Verif.Geometry.C60_vertical",
    "Verif.Geometry.C60_rejects",
    "Verif.Geometry.C60_vertical_guppy_ignored"
   ],
   "note": "Both orientations: 0 when empty, V_tank when full, monotone, unsupported heads rejected. Findings: negative levels raise ValueError in horizontal tanks; guppy heads on vertical tanks are silently ignored; V_tank uses the depth of side A for both torispherical heads when f and k agree."
  },
  {
   "property": "C61",
   "status": "proved",
   "theorems": [
    "Verif.Geometry.C61_area",
    "Verif.Geometry.C61_inverse"
   ],
   "note": "Area equals the integral of the chord, 0/full/symmetry/strict monotonicity proved; the inverse is proved for areas up to the half circle. Finding: circle_segment_h_from_A only searches the lower half, so it cannot return heights above D/2."
  },
  {
   "property": "C62",
   "status": "proved",
   "theorems": [
    "Verif.Geometry.C62_cylinder_wall",
    "Verif.Geometry.C62_partial_sphere",
    "Verif.Geometry.C62_vertical_conical",
    "Verif.Geometry.C62_vertical_spherical",
    "Verif.Geometry.C62_vertical_ellipsoidal",
    "Verif.Geometry.C62_vertical_torispherical",
    "Verif.Geometry.C62_horiz_conical",
    "Verif.Geometry.C62_horiz_spherical",
    "Verif.Geometry.C62_horiz_hemisphere",
    "Verif.Geometry.C62_horiz_hemisphere_unclamped",
    "Verif.Geometry.C62_horiz_spherical_deep",
    "Verif.Geometry.C62_horiz_guppy_shortcut",
    "Verif.Geometry.C62_horiz_elliptic",
    "Verif.Geometry.C62_horiz_torispherical",
    "Verif.Geometry.C62_horiz_torispherical_loops",
    "Verif.Geometry.C62_tank",
    "Verif.Geometry.C62_from_h_vertical"
   ],
   "note": "Sphere, vertical conical/ellipsoidal/spherical/torispherical, horizontal conical/spherical/torispherical heads, SA_tank, SA_from_h vertical full = SA_tank. Elliptic-integral heads: empty and clamped only. Findings proved as theorems."
  },
  {
   "property": "C63",
   "status": "proved",
   "theorems": [
    "Verif.Geometry.C63_same",
    "Verif.Geometry.C63_outer",
    "Verif.Geometry.C63_attributes",
    "Verif.Geometry.C63_rejects",
    "Verif.Geometry.C63_colliding_accepted"
   ],
   "note": "Finding: turns and pitch given together are not checked for colliding turns."
  },
  {
   "property": "C64",
   "status": "proved",
   "theorems": [
    "Verif.Geometry.C64_any_two",
    "Verif.Geometry.C64_underspecified"
   ],
   "note": "degrees to radians idealised to pi/180"
  },
  {
   "property": "C65",
   "status": "proved",
   "theorems": [
    "Verif.Geometry.C65_profile",
    "Verif.Geometry.C65_construct",
    "Verif.Geometry.C65_defaults"
   ],
   "note": ""
  },
  {
   "property": "C66",
   "status": "proved",
   "theorems": [
    "Verif.Geometry.C66_additive",
    "Verif.Geometry.C66_order",
    "Verif.Geometry.C66_group",
    "Verif.Geometry.C66_hollow"
   ],
   "note": ""
  },
  {
   "property": "C67",
   "status": "proved",
   "theorems": [
    "Verif.Atmosphere.C67_layer",
    "Verif.Atmosphere.C67_temperature_continuous",
    "Verif.Atmosphere.C67_hydrostatic",
    "Verif.Atmosphere.C67_density",
    "Verif.Atmosphere.C67_pressure_decreasing",
    "Verif.Atmosphere.C67_offset"
   ],
   "note": "Exact decimals; pressure at layer boundaries is only continuous to the table's digits, which is not claimed."
  },
  {
   "property": "C68",
   "status": "proved",
   "theorems": [
    "Verif.Psd.C68_Gates_Gaudin_Schuhman",
    "Verif.Psd.C68_Rosin_Rammler",
    "Verif.Psd.C68_lognormal",
    "Verif.Psd.C68_PSDLognormal_basis",
    "Verif.Psd.C68_PSDRosinRammler_basis",
    "Verif.Psd.C68_PSDGatesGaudinSchuhman_basis",
    "Verif.Psd.C68_PSDGatesGaudinSchuhman_basis_above_one",
    "Verif.Psd.C68_PSDGatesGaudinSchuhman_lower_basis",
    "Verif.Psd.C68_truncated_basis_negative",
    "Verif.Psd.C68_PSDLognormal",
    "Verif.Psd.C68_PSDLognormal_truncated",
    "Verif.Psd.C68_PSDRosinRammler",
    "Verif.Psd.C68_PSDRosinRammler_truncated",
    "Verif.Psd.C68_PSDGatesGaudinSchuhman",
    "Verif.Psd.C68_PSDGatesGaudinSchuhman_truncated",
    "Verif.Psd.C68_PSDGatesGaudinSchuhman_d_max",
    "Verif.Psd.C68_delta_cdf",
    "Verif.Psd.C68_delta_cdf_additive",
    "Verif.Psd.C68_fractions_discrete",
    "Verif.Psd.C68_dn",
    "Verif.Psd.C68_dn_ends",
    "Verif.Psd.C68_dn_truncated"
   ],
   "note": "all three families, with and without truncation, other bases, percentiles under an exact root finder; findings proved as negations"
  },
  {
   "property": "C69",
   "status": "proved",
   "theorems": [
    "Verif.Psd.C69_fractions_sum",
    "Verif.Psd.C69_volume_sum",
    "Verif.Psd.C69_cdf_other_basis_sum",
    "Verif.Psd.C69_cdf_classes",
    "Verif.Psd.C69_cdf_sizes",
    "Verif.Psd.C69_roundtrip",
    "Verif.Psd.C69_cdf_sizes_example",
    "Verif.Psd.C69_sieves",
    "Verif.Psd.C69_logarithmic",
    "Verif.Psd.C69_logarithmic_errors",
    "Verif.Psd.C69_linear",
    "Verif.Psd.C69_Renard_up",
    "Verif.Psd.C69_Renard_down",
    "Verif.Psd.C69_Renard_errors",
    "Verif.Psd.C69_unknown"
   ],
   "note": "spacings and discrete fractions; finding proved for cumulative volume input at sizes"
  },
  {
   "property": "C70",
   "status": "proved",
   "theorems": [
    "Verif.Voidage.C70_homogeneous",
    "Verif.Voidage.C70_Zivi",
    "Verif.Voidage.C70_Fauske",
    "Verif.Voidage.C70_Chisholm_voidage",
    "Verif.Voidage.C70_Smith",
    "Verif.Voidage.C70_Thom",
    "Verif.Voidage.C70_Turner_Wallis",
    "Verif.Voidage.C70_Armand",
    "Verif.Voidage.C70_Chisholm_Armand",
    "Verif.Voidage.C70_Nishino_Yamazaki",
    "Verif.Voidage.C70_Guzhov",
    "Verif.Voidage.C70_Kawahara",
    "Verif.Voidage.C70_Baroczy",
    "Verif.Voidage.C70_Graham",
    "Verif.Voidage.C70_Yashar",
    "Verif.Voidage.C70_Huq_Loth",
    "Verif.Voidage.C70_Steiner",
    "Verif.Voidage.C70_Rouhani_1",
    "Verif.Voidage.C70_Rouhani_2",
    "Verif.Voidage.C70_Nicklin_Wilkes_Davidson",
    "Verif.Voidage.C70_Gregory_Scott",
    "Verif.Voidage.C70_Dix",
    "Verif.Voidage.C70_Sun_Duffey_Peng",
    "Verif.Voidage.C70_Xu_Fang_voidage",
    "Verif.Voidage.C70_Woldesemayat_Ghajar",
    "Verif.Voidage.C70_Domanski_Didion",
    "Verif.Voidage.C70_Domanski_Didion_negative",
    "Verif.Voidage.C70_Tandon_Varma_Gupta",
    "Verif.Voidage.C70_Tandon_Varma_Gupta_above_one",
    "Verif.Voidage.C70_Harms",
    "Verif.Voidage.C70_Harms_above_one",
    "Verif.Voidage.C70_Kopte_Newell_Chato",
    "Verif.Voidage.C70_Kopte_Newell_Chato_negative",
    "Verif.Voidage.C70_Sun_Duffey_Peng_above_one",
    "Verif.Voidage.C70_front_end"
   ],
   "note": "All 29 correlations: 25 proved to be fractions (with the exact slip form where there is one), also through the front end; the four that leave [0,1] and the supercritical case of Sun_Duffey_Peng have witnesses."
  },
  {
   "property": "C71",
   "status": "proved",
   "theorems": [
    "Verif.Voidage.C71_methods",
    "Verif.Voidage.C71_unknown",
    "Verif.Voidage.C71_default",
    "Verif.Voidage.C71_viscosity"
   ],
   "note": "All 29 methods and 6 viscosities: listed iff arguments supplied, dispatch equals the direct call, TypeError/ValueError otherwise."
  },
  {
   "property": "C72",
   "status": "proved",
   "theorems": [
    "Verif.Voidage.C72_inverse",
    "Verif.Voidage.C72_inverse_equal",
    "Verif.Voidage.C72_density",
    "Verif.Voidage.C72_endpoints",
    "Verif.Voidage.C72_McAdams",
    "Verif.Voidage.C72_Cicchitti",
    "Verif.Voidage.C72_Lin_Kwok",
    "Verif.Voidage.C72_Duckler",
    "Verif.Voidage.C72_Beattie_Whalley",
    "Verif.Voidage.C72_Beattie_Whalley_above",
    "Verif.Voidage.C72_Fourar_Bories",
    "Verif.Voidage.C72_Fourar_Bories_above"
   ],
   "note": "Inversion, endpoints, bounds; sharp factors for the two models that overshoot."
  },
  {
   "property": "C73",
   "status": "proved",
   "theorems": [
    "Verif.OpenFlow.C73_inverse",
    "Verif.OpenFlow.C73_velocity",
    "Verif.OpenFlow.C73_errors"
   ],
   "note": ""
  },
  {
   "property": "C74",
   "status": "proved",
   "theorems": [
    "Verif.Separator.C74_york",
    "Verif.Separator.C74_bounded",
    "Verif.Separator.C74_shape",
    "Verif.Separator.C74_jumps",
    "Verif.Separator.C74_souders_brown",
    "Verif.Separator.C74_souders_brown_error",
    "Verif.Separator.C74_theoretical",
    "Verif.Separator.C74_watkins"
   ],
   "note": "The digitised Watkins spline is a parameter. Finding: jumps at 15 and 40 psia."
  },
  {
   "property": "C75",
   "status": "proved",
   "theorems": [
    "Verif.Saltation.C75_Rizk",
    "Verif.Saltation.C75_Matsumoto_1974",
    "Verif.Saltation.C75_Matsumoto_1975",
    "Verif.Saltation.C75_Matsumoto_1977_coarse",
    "Verif.Saltation.C75_Matsumoto_1977_fine",
    "Verif.Saltation.C75_Schade",
    "Verif.Saltation.C75_Weber",
    "Verif.Saltation.C75_Geldart_Ling"
   ],
   "note": ""
  },
  {
   "property": "C76",
   "status": "proved",
   "theorems": [
    "Verif.Const.C76_prefixes",
    "Verif.Const.C76_lengths",
    "Verif.Const.C76_masses",
    "Verif.Const.C76_times",
    "Verif.Const.C76_mechanics",
    "Verif.Const.C76_volumes",
    "Verif.Const.C76_thermal",
    "Verif.Const.C76_inverses",
    "Verif.Const.C76_angles",
    "Verif.Const.C76_rounded",
    "Verif.Const.C76_aliases"
   ],
   "note": "All constants; published definitions as specification"
  },
  {
   "property": "C77",
   "status": "proved",
   "theorems": [
    "Verif.Pump.C77_current_ideal",
    "Verif.Pump.C77_VFD_efficiency",
    "Verif.Pump.C77_speed_synchronous",
    "Verif.Pump.C77_specific_speed",
    "Verif.Pump.C77_underloaded"
   ],
   "note": "VFD surface is a parameter"
  },
  {
   "property": "C78",
   "status": "proved",
   "theorems": [
    "Verif.C78_momentum",
    "Verif.C78_heat_mass",
    "Verif.C78_gravity"
   ],
   "note": "change of units as an arbitrary positive rescaling of the base units"
  },
  {
   "property": "C79",
   "status": "proved",
   "theorems": [
    "Verif.C79_engauge_round_trip",
    "Verif.C79_engauge_empty_curve_misaligned"
   ],
   "note": "round trip proved for non-empty curves; misalignment with an empty curve proved as a finding"
  },
  {
   "property": "C80",
   "status": "proved",
   "theorems": [
    "Verif.C80_cache_transparent",
    "Verif.C80_cache_ignores_args"
   ],
   "note": ""
  },
  {
   "property": "C81",
   "status": "proved",
   "theorems": [
    "Verif.C81_interp2d"
   ],
   "note": ""
  },
  {
   "property": "C82",
   "status": "proved",
   "theorems": [
    "Verif.C82_best_bounds_bracket",
    "Verif.C82_best_bounds",
    "Verif.C82_best_bounds_worse",
    "Verif.C82_best_bounds_unbound"
   ],
   "note": "the answer is characterised for both orientations; the orientation with the positive end below is where the code differs from its documentation"
  },
  {
   "property": "C83",
   "status": "proved",
   "theorems": [
    "Verif.Core.C83_height",
    "Verif.Core.C83_ends",
    "Verif.Core.C83_formula",
    "Verif.Core.C83_even",
    "Verif.Core.C83_between"
   ],
   "note": ""
  },
  {
   "property": "C84",
   "status": "proved",
   "theorems": [
    "Verif.Fittings.C84_staged_sum",
    "Verif.Fittings.C84_staged_empty"
   ],
   "note": ""
  },
  {
   "property": "C85",
   "status": "proved",
   "theorems": [
    "Verif.Pump.C85_CSA_efficiency"
   ],
   "note": ""
  },
  {
   "property": "C86",
   "status": "proved",
   "theorems": [
    "Verif.OpenFlow.C86_full_width",
    "Verif.OpenFlow.C86_contracted",
    "Verif.OpenFlow.C86_triangular",
    "Verif.OpenFlow.C86_proportional",
    "Verif.OpenFlow.C86_SIA_zero_head"
   ],
   "note": "Finding: contracted SIA weir discharges at zero head."
  },
  {
   "property": "C87",
   "status": "proved",
   "theorems": [
    "Verif.Psd.C87_opening",
    "Verif.Psd.C87_distinct",
    "Verif.Psd.C87_ASTM_wire_range",
    "Verif.Psd.C87_ASTM_fine_wires",
    "Verif.Psd.C87_ISO_wire_range",
    "Verif.Psd.C87_series"
   ],
   "note": "both tables in full; wire diameter findings"
  },
  {
   "property": "C88",
   "status": "proved",
   "theorems": [
    "Verif.Psd.C88_constructor",
    "Verif.Psd.C88_mean_size",
    "Verif.Psd.C88_mean_size_equal",
    "Verif.Psd.C88_vssa",
    "Verif.Psd.C88_vssa_Sauter",
    "Verif.Psd.C88_vssa_classes",
    "Verif.Psd.C88_mean_size_minus_one",
    "Verif.Psd.C88_lognormal",
    "Verif.Psd.C88_lognormal_whole",
    "Verif.Psd.C88_Rosin_Rammler",
    "Verif.Psd.C88_Gates_Gaudin_Schuhman_vssa",
    "Verif.Psd.C88_ISO"
   ],
   "note": "discrete distributions and truncated lognormal/Rosin-Rammler; findings proved"
  },
  {
   "property": "C89",
   "status": "proved",
   "theorems": [
    "Verif.Fittings.C89_ratios",
    "Verif.Fittings.C89_no_branch_flow",
    "Verif.Fittings.C89_all_branch_flow",
    "Verif.Fittings.C89_angle_monotone",
    "Verif.Fittings.C89_tabulated",
    "Verif.Fittings.C89_branch_diverging",
    "Verif.Fittings.C89_run_diverging",
    "Verif.Fittings.C89_run_converging",
    "Verif.Fittings.C89_jumps",
    "Verif.Fittings.C89_errors"
   ],
   "note": "all four functions, every branch of the tables; the jumps are proved as a finding"
  },
  {
   "property": "C90",
   "status": "proved",
   "theorems": [
    "Verif.Safety.C90_graph",
    "Verif.Safety.C90_graph_monotone",
    "Verif.Safety.C90_graph_continuous",
    "Verif.Safety.C90_noise_laws",
    "Verif.Safety.C90_noise_at_30m",
    "Verif.Safety.C90_noise_pressure",
    "Verif.Safety.C90_noise_errors",
    "Verif.Safety.C90_VDI_offset",
    "Verif.Safety.C90_VDI_laws"
   ],
   "note": "log10 and the graph in exact real arithmetic; VDI factor 360 proved as a finding"
  },
  {
   "property": "C91",
   "status": "proved",
   "theorems": [
    "Verif.Drag.C91_Stokes",
    "Verif.Drag.C91_Barati",
    "Verif.Drag.C91_Barati_high",
    "Verif.Drag.C91_Rouse",
    "Verif.Drag.C91_Engelund_Hansen",
    "Verif.Drag.C91_Clift_Gauvin",
    "Verif.Drag.C91_Morsi_Alexander",
    "Verif.Drag.C91_Graf",
    "Verif.Drag.C91_Flemmer_Banks",
    "Verif.Drag.C91_Khan_Richardson",
    "Verif.Drag.C91_Khan_Richardson_asymptotes",
    "Verif.Drag.C91_Swamee_Ojha",
    "Verif.Drag.C91_Haider_Levenspiel",
    "Verif.Drag.C91_Terfous",
    "Verif.Drag.C91_Mikhailov_Freire",
    "Verif.Drag.C91_Mikhailov_Freire_negative",
    "Verif.Drag.C91_Clift",
    "Verif.Drag.C91_Almedeij",
    "Verif.Drag.C91_Morrison",
    "Verif.Drag.C91_Song_Xu",
    "Verif.Drag.C91_Yen",
    "Verif.Drag.C91_Cheng",
    "Verif.Drag.C91_Ceylan",
    "Verif.Drag.C91_above_Stokes",
    "Verif.Drag.C91_Stokes_limit_simple",
    "Verif.Drag.C91_Stokes_limit_Flemmer_Banks",
    "Verif.Drag.C91_Stokes_limit_Swamee_Ojha",
    "Verif.Drag.C91_Stokes_limit_Almedeij",
    "Verif.Drag.C91_Barati_no_Stokes_limit"
   ],
   "note": "21 correlations; Mikhailov_Freire and Barati findings proved"
  },
  {
   "property": "C92",
   "status": "proved",
   "theorems": [
    "Verif.Drag.C92_methods",
    "Verif.Drag.C92_methods_all",
    "Verif.Drag.C92_methods_none",
    "Verif.Drag.C92_listed_work",
    "Verif.Drag.C92_unrecognised",
    "Verif.Drag.C92_named",
    "Verif.Drag.C92_auto_positive",
    "Verif.Drag.C92_auto_regions",
    "Verif.Drag.C92_auto_continuous"
   ],
   "note": "dispatch, tables and the default selection"
  },
  {
   "property": "C93",
   "status": "proved",
   "theorems": [
    "Verif.Drag.C93_v_terminal_Stokes",
    "Verif.Drag.C93_v_terminal",
    "Verif.Drag.C93_laminar_trajectory",
    "Verif.Drag.C93_time_v_terminal",
    "Verif.Drag.C93_time_v_terminal_errors",
    "Verif.Drag.C93_integrate",
    "Verif.Drag.C93_rising"
   ],
   "note": "root finder and odeint are parameters; OverflowError of exp does not arise in exact arithmetic"
  },
  {
   "property": "C94",
   "status": "proved",
   "theorems": [
    "Verif.PackedBed.C94_Ergun",
    "Verif.PackedBed.C94_Kuo_Nydegger",
    "Verif.PackedBed.C94_Tallmadge",
    "Verif.PackedBed.C94_Jones_Krier",
    "Verif.PackedBed.C94_Carman",
    "Verif.PackedBed.C94_Brauer",
    "Verif.PackedBed.C94_KTA",
    "Verif.PackedBed.C94_Erdim_Akgiray_Demir",
    "Verif.PackedBed.C94_Hicks",
    "Verif.PackedBed.C94_equations",
    "Verif.PackedBed.C94_Idelchik",
    "Verif.PackedBed.C94_Harrison_Brunner_Hecker",
    "Verif.PackedBed.C94_Montillet_Akkari_Comiti",
    "Verif.PackedBed.C94_Guo_Sun",
    "Verif.PackedBed.C94_Guo_Sun_negative",
    "Verif.PackedBed.C94_Fahien_Schriver",
    "Verif.PackedBed.C94_zero_velocity"
   ],
   "note": "All 14 correlations; findings proved as theorems"
  },
  {
   "property": "C95",
   "status": "proved",
   "theorems": [
    "Verif.PackedBed.C95_methods",
    "Verif.PackedBed.C95_named",
    "Verif.PackedBed.C95_unrecognised",
    "Verif.PackedBed.C95_default",
    "Verif.PackedBed.C95_voidage",
    "Verif.PackedBed.C95_voidage_equations"
   ],
   "note": "All names and presence patterns"
  },
  {
   "property": "C96",
   "status": "proved",
   "theorems": [
    "Verif.PackedTower.C96_voidage_experimental",
    "Verif.PackedTower.C96_specific_area",
    "Verif.PackedTower.C96_demister_dry",
    "Verif.PackedTower.C96_demister_pole",
    "Verif.PackedTower.C96_demister_negative",
    "Verif.PackedTower.C96_demister_wet",
    "Verif.PackedTower.C96_separation",
    "Verif.PackedTower.C96_Robbins"
   ],
   "note": "findings proved as theorems"
  },
  {
   "property": "C97",
   "status": "proved",
   "theorems": [
    "Verif.PackedTower.C97_dry",
    "Verif.PackedTower.C97_dry_velocity",
    "Verif.PackedTower.C97_flood_jacobian",
    "Verif.PackedTower.C97_flood_vertical",
    "Verif.PackedTower.C97_flood",
    "Verif.PackedTower.C97_wet",
    "Verif.PackedTower.C97_wet_dry"
   ],
   "note": "solvers are parameters: their result is assumed to be a root"
  },
  {
   "property": "C98",
   "status": "proved",
   "theorems": [
    "Verif.Mixing.C98_homogeneity",
    "Verif.Mixing.C98_fourier",
    "Verif.Mixing.C98_agitator",
    "Verif.Mixing.C98_ribbon",
    "Verif.Mixing.C98_ribbon_time",
    "Verif.Mixing.C98_tee_optimal",
    "Verif.Mixing.C98_tee_exponent",
    "Verif.Mixing.C98_tee_boundary",
    "Verif.Mixing.C98_tee",
    "Verif.Mixing.C98_tee_jets",
    "Verif.Mixing.C98_tee_finding",
    "Verif.Mixing.C98_motionless",
    "Verif.Mixing.C98_motionless_K",
    "Verif.Mixing.C98_mixers"
   ],
   "note": "finding proved as a theorem"
  },
  {
   "property": "C99",
   "status": "proved",
   "theorems": [
    "Verif.Filters.C99_angle",
    "Verif.Filters.C99_angle_jump",
    "Verif.Filters.C99_screen",
    "Verif.Filters.C99_mesh",
    "Verif.Filters.C99_mesh_unknown",
    "Verif.Filters.C99_square_screen",
    "Verif.Filters.C99_square_values",
    "Verif.Filters.C99_square_grill",
    "Verif.Filters.C99_round_grill",
    "Verif.Filters.C99_round_grill_extrapolation",
    "Verif.Filters.C99_screen_table"
   ],
   "note": "degrees are idealised to π/180; findings proved as theorems"
  },
  {
   "property": "C100",
   "status": "proved",
   "theorems": [
    "Verif.TwoPhase.C100_form",
    "Verif.TwoPhase.C100_Lockhart",
    "Verif.TwoPhase.C100_Kim",
    "Verif.TwoPhase.C100_Kim_ends",
    "Verif.TwoPhase.C100_Mishima",
    "Verif.TwoPhase.C100_Zhang",
    "Verif.TwoPhase.C100_Hwang",
    "Verif.TwoPhase.C100_Wang",
    "Verif.TwoPhase.C100_single_phase",
    "Verif.TwoPhase.C100_length"
   ],
   "note": "the friction factor is a parameter, positive at every positive Reynolds number"
  },
  {
   "property": "C101",
   "status": "proved",
   "theorems": [
    "Verif.TwoPhase.C101_formulas",
    "Verif.TwoPhase.C101_formulas_interior",
    "Verif.TwoPhase.C101_Theissing",
    "Verif.TwoPhase.C101_Chisholm_rough",
    "Verif.TwoPhase.C101_liquid_limit",
    "Verif.TwoPhase.C101_gas_limit",
    "Verif.TwoPhase.C101_no_limit",
    "Verif.TwoPhase.C101_viscous_gas",
    "Verif.TwoPhase.C101_at_least_liquid",
    "Verif.TwoPhase.C101_positive",
    "Verif.TwoPhase.C101_Theissing_bound",
    "Verif.TwoPhase.C101_negative",
    "Verif.TwoPhase.C101_identical_phases",
    "Verif.TwoPhase.C101_length"
   ],
   "note": "the friction factor is a parameter; findings proved as theorems"
  },
  {
   "property": "C102",
   "status": "proved",
   "theorems": [
    "Verif.TwoPhase.C102_dispatch",
    "Verif.TwoPhase.C102_unknown",
    "Verif.TwoPhase.C102_methods",
    "Verif.TwoPhase.C102_methods_nodup",
    "Verif.TwoPhase.C102_listed_runs",
    "Verif.TwoPhase.C102_default",
    "Verif.TwoPhase.C102_default_exists"
   ],
   "note": "all names, all presence patterns"
  },
  {
   "property": "C103",
   "status": "proved",
   "theorems": [
    "Verif.TwoPhase.C103_acceleration",
    "Verif.TwoPhase.C103_acceleration_path",
    "Verif.TwoPhase.C103_acceleration_homogeneous",
    "Verif.TwoPhase.C103_acceleration_single_phase",
    "Verif.TwoPhase.C103_dz_acceleration",
    "Verif.TwoPhase.C103_gravity",
    "Verif.TwoPhase.C103_gravity_laws"
   ],
   "note": "radians idealised to π/180"
  },
  {
   "property": "C104",
   "status": "proved",
   "theorems": [
    "Verif.TwoPhase.C104_Mandhane",
    "Verif.TwoPhase.C104_Mandhane_names",
    "Verif.TwoPhase.C104_Mandhane_order",
    "Verif.TwoPhase.C104_Mandhane_gas_only",
    "Verif.TwoPhase.C104_Taitel_Dukler",
    "Verif.TwoPhase.C104_Taitel_Dukler_names",
    "Verif.TwoPhase.C104_Taitel_Dukler_vertical"
   ],
   "note": "spline curves evaluated by the modelled py_splev"
  },
  {
   "property": "C105",
   "status": "proved",
   "theorems": [
    "Verif.TwoPhase.C105_regime",
    "Verif.TwoPhase.C105_holdup",
    "Verif.TwoPhase.C105_holdup_inclined",
    "Verif.TwoPhase.C105_transition",
    "Verif.TwoPhase.C105_negative_holdup",
    "Verif.TwoPhase.C105_overfull",
    "Verif.TwoPhase.C105_form",
    "Verif.TwoPhase.C105_S",
    "Verif.TwoPhase.C105_liquid",
    "Verif.TwoPhase.C105_length"
   ],
   "note": "findings proved as theorems; degrees idealised to π/180"
  },
  {
   "property": "C106",
   "status": "proved",
   "theorems": [
    "Verif.JetPump.C106_supply_pressure",
    "Verif.JetPump.C106_suction_flow",
    "Verif.JetPump.C106_motive_flow",
    "Verif.JetPump.C106_diameters",
    "Verif.JetPump.C106_search_range",
    "Verif.JetPump.C106_supply_count",
    "Verif.JetPump.C106_ratio_documented",
    "Verif.JetPump.C106_ratio_retracted",
    "Verif.JetPump.C106_ratio_solution",
    "Verif.JetPump.C106_conservation",
    "Verif.JetPump.C106_power",
    "Verif.JetPump.C106_count",
    "Verif.JetPump.C106_returned",
    "Verif.JetPump.C106_tolerance",
    "Verif.JetPump.C106_failure",
    "Verif.JetPump.C106_discharge"
   ],
   "note": "solver, random restarts and guesses arbitrary; retracted-nozzle denominator proved different from the documentation"
  },
  {
   "property": "C107",
   "status": "proved",
   "theorems": [
    "Verif.JetPump.C107_Ryans_Croll",
    "Verif.JetPump.C107_Ryans_Croll_mono",
    "Verif.JetPump.C107_Ryans_Croll_above",
    "Verif.JetPump.C107_Seider",
    "Verif.JetPump.C107_Seider_mono",
    "Verif.JetPump.C107_Seider_negative",
    "Verif.JetPump.C107_HEI",
    "Verif.JetPump.C107_HEI_mono",
    "Verif.JetPump.C107_Coker",
    "Verif.JetPump.C107_Coker_mono"
   ],
   "note": "findings proved as theorems"
  },
  {
   "property": "C108",
   "status": "proved",
   "theorems": [
    "Verif.Roots.C108_roots_quartic",
    "Verif.Roots.C108_quartic_error",
    "Verif.Roots.C108_quartic_pure",
    "Verif.Roots.C108_quartic_defined"
   ],
   "note": "All complex coefficients; roots are exact complex numbers. The ZeroDivisionError finding is proved for every quartic with a vanishing depressed linear and quadratic term."
  },
  {
   "property": "C109",
   "status": "proved",
   "theorems": [
    "Verif.Special.C109_factorial",
    "Verif.Special.C109_factorial_negative",
    "Verif.Special.C109_comb",
    "Verif.Special.C109_hypot",
    "Verif.Special.C109_catan",
    "Verif.Special.C109_catanh",
    "Verif.Special.C109_cacos"
   ],
   "note": "Exact real and complex arithmetic; signed zeros are taken as +0.0. The large-argument branch of py_catanh is modelled but is an approximation by design and outside the theorem."
  },
  {
   "property": "C110",
   "status": "proved",
   "theorems": [
    "Verif.ErrorMetrics.C110_max_abs_error",
    "Verif.ErrorMetrics.C110_max_abs_error_zero",
    "Verif.ErrorMetrics.C110_max_abs_rel_error_default",
    "Verif.ErrorMetrics.C110_max_abs_rel_error",
    "Verif.ErrorMetrics.C110_max_abs_rel_error_zero",
    "Verif.ErrorMetrics.C110_max_squared_error",
    "Verif.ErrorMetrics.C110_max_squared_rel_error",
    "Verif.ErrorMetrics.C110_means",
    "Verif.ErrorMetrics.C110_mean_le_max",
    "Verif.ErrorMetrics.C110_short",
    "Verif.ErrorMetrics.C110_unit",
    "Verif.Seq.C110_ratios",
    "Verif.Seq.C110_ratios_one_sided"
   ],
   "note": "Exact arithmetic over any linearly ordered field."
  },
  {
   "property": "C111",
   "status": "proved",
   "theorems": [
    "Verif.ChebExp.C111_exp_cheb",
    "Verif.ChebExp.C111_exp_cheb_der",
    "Verif.ChebExp.C111_chebval_ln_tau",
    "Verif.ChebExp.C111_exp_cheb_ln_tau",
    "Verif.ChebExp.C111_supercritical",
    "Verif.ChebExp.C111_constant_series"
   ],
   "note": "Real arithmetic without overflow (trunc_exp = exp); numpy variants of the same formulas not modelled."
  },
  {
   "property": "C112",
   "status": "proved",
   "theorems": [
    "Verif.FiniteDiff.C112_exact_weights",
    "Verif.FiniteDiff.C112_derivative",
    "Verif.FiniteDiff.C112_derivative_exact",
    "Verif.FiniteDiff.C112_limits",
    "Verif.FiniteDiff.C112_limit_shift",
    "Verif.FiniteDiff.C112_derivative_errors",
    "Verif.FiniteDiff.C112_jacobian",
    "Verif.FiniteDiff.C112_jacobian_affine",
    "Verif.FiniteDiff.C112_jacobian_vector_affine",
    "Verif.FiniteDiff.C112_hessian_rows",
    "Verif.FiniteDiff.C112_hessian_quadratic"
   ],
   "note": "weights that are not cached come from an external routine and are outside the model"
  },
  {
   "property": "C113",
   "status": "proved",
   "theorems": [
    "Verif.TankClass.C113_two_lengths",
    "Verif.TankClass.C113_attributes",
    "Verif.TankClass.C113_same",
    "Verif.TankClass.C113_depths",
    "Verif.TankClass.C113_thickness_zero",
    "Verif.TankClass.C113_thickness_add",
    "Verif.TankClass.C113_thickness_height",
    "Verif.TankClass.C113_full",
    "Verif.TankClass.C113_level",
    "Verif.TankClass.C113_volume",
    "Verif.TankClass.C113_volume_errors",
    "Verif.TankClass.C113_missing",
    "Verif.TankClass.C113_tori_depth",
    "Verif.TankClass.C113_two_specs",
    "Verif.TankClass.C113_two_specs_level",
    "Verif.TankClass.C113_cross_section"
   ],
   "note": "root finders are assumed to return roots, as stated in the hypotheses; the interpolation table and the Chebyshev approximators are parameters"
  },
  {
   "property": "C114",
   "status": "proved",
   "theorems": [
    "Verif.Exchangers.C114_shapes",
    "Verif.Exchangers.C114_enlargement",
    "Verif.Exchangers.C114_plate",
    "Verif.Exchangers.C114_fin",
    "Verif.Exchangers.C114_blockage",
    "Verif.Exchangers.C114_fin_specs",
    "Verif.Exchangers.C114_fin_errors",
    "Verif.Exchangers.C114_pitch_ratio",
    "Verif.Exchangers.C114_air"
   ],
   "note": "ellipe is assumed to be the complete elliptic integral of the second kind"
  },
  {
   "property": "C115",
   "status": "proved",
   "theorems": [
    "Verif.Fittings.C115_unimpeded",
    "Verif.Fittings.C115_unimpeded_total",
    "Verif.Fittings.C115_roughness",
    "Verif.Fittings.C115_tight",
    "Verif.Fittings.C115_bend_scale",
    "Verif.Fittings.C115_bend_limits",
    "Verif.Fittings.C115_bend_roughness",
    "Verif.Fittings.C115_contraction_round",
    "Verif.Fittings.C115_entrance_45",
    "Verif.Fittings.C115_orifice",
    "Verif.Fittings.C115_coils",
    "Verif.Fittings.C115_beveled",
    "Verif.Fittings.C115_curved",
    "Verif.Fittings.C115_reducer",
    "Verif.Fittings.C115_reynolds_limit"
   ],
   "note": "Chart splines are arbitrary functions"
  },
  {
   "property": "C116",
   "status": "proved",
   "theorems": [
    "Verif.Fittings.C116_tables",
    "Verif.Fittings.C116_ranges",
    "Verif.Fittings.C116_darby_value",
    "Verif.Fittings.C116_darby_name",
    "Verif.Fittings.C116_darby_errors",
    "Verif.Fittings.C116_darby_mono",
    "Verif.Fittings.C116_diameter",
    "Verif.Fittings.C116_small_pipe",
    "Verif.Fittings.C116_hooper",
    "Verif.Fittings.C116_hooper_errors"
   ],
   "note": ""
  },
  {
   "property": "C117",
   "status": "proved",
   "theorems": [
    "Verif.Roughness.C117_distinct",
    "Verif.Roughness.C117_farshad",
    "Verif.Roughness.C117_nearest",
    "Verif.Roughness.C117_total",
    "Verif.Roughness.C117_optimism",
    "Verif.Roughness.C117_priority",
    "Verif.Roughness.C117_odd"
   ],
   "note": "The string matcher is assumed to return one of the candidates"
  },
  {
   "property": "C118",
   "status": "proved",
   "theorems": [
    "Verif.Plates.C118_martin",
    "Verif.Plates.C118_martin_forms",
    "Verif.Plates.C118_martin_zero",
    "Verif.Plates.C118_kumar",
    "Verif.Plates.C118_muley_manglik"
   ],
   "note": "angles in degrees, deg2rad idealised to pi/180"
  },
  {
   "property": "C119",
   "status": "proved",
   "theorems": [
    "Verif.Plates.C119_wet_discharge",
    "Verif.Plates.C119_wet_loss",
    "Verif.Plates.C119_efficiency",
    "Verif.Plates.C119_efficiency_negative",
    "Verif.Plates.C119_erosional",
    "Verif.Plates.C119_isothermal"
   ],
   "note": "gravity is a parameter"
  },
  {
   "property": "C120",
   "status": "proved",
   "theorems": [
    "Verif.Systems.C120_newton_sound",
    "Verif.Systems.C120_newton_errors",
    "Verif.Systems.C120_newton_exact",
    "Verif.Systems.C120_newton_stale",
    "Verif.Systems.C120_minimize",
    "Verif.Systems.C120_homotopy_sound",
    "Verif.Systems.C120_homotopy_terminates",
    "Verif.Systems.C120_homotopy_early_exit",
    "Verif.Systems.C120_broyden",
    "Verif.Systems.C120_broyden_silent",
    "Verif.Systems.C120_armijo"
   ],
   "note": "no NaN or infinities in the model; norm2 is a parameter"
  },
  {
   "property": "C121",
   "status": "proved",
   "theorems": [
    "Verif.Accel.C121_accelerated",
    "Verif.Accel.C121_stops",
    "Verif.Accel.C121_frequency",
    "Verif.Accel.C121_aitken_bounded",
    "Verif.Accel.C121_aitken_geometric",
    "Verif.Accel.C121_gdem_stationary",
    "Verif.Accel.C121_weights",
    "Verif.Accel.C121_anderson_weights",
    "Verif.Accel.C121_anderson_limit",
    "Verif.Accel.C121_anderson_silent",
    "Verif.Accel.C121_anderson_ytol",
    "Verif.Accel.C121_anderson_residual",
    "Verif.Accel.C121_negated",
    "Verif.Accel.C121_dem_geometric",
    "Verif.Accel.C121_anderson_window"
   ],
   "note": "no NaN or infinities in the model; norm2 and the least-squares coefficients are parameters"
  },
  {
   "property": "C122",
   "status": "proved",
   "theorems": [
    "Verif.Guards.C122_oscillation",
    "Verif.Guards.C122_oscillation_never",
    "Verif.Guards.C122_wrap",
    "Verif.Guards.C122_damp_initial",
    "Verif.Guards.C122_limited",
    "Verif.Guards.C122_max_step_initial",
    "Verif.Guards.C122_limited_list",
    "Verif.Guards.C122_close",
    "Verif.Guards.C122_close_order",
    "Verif.Guards.C122_close1d",
    "Verif.Guards.C122_close2d",
    "Verif.Guards.C122_close2d_stops",
    "Verif.Guards.C122_close_shape",
    "Verif.Guards.C122_close3d4d",
    "Verif.Guards.C122_oss_sound",
    "Verif.Guards.C122_oss_side",
    "Verif.Guards.C122_oss_linear",
    "Verif.Guards.C122_oss_start",
    "Verif.Guards.C122_oss_errors",
    "Verif.Guards.C122_oss_zero_division",
    "Verif.Guards.C122_first_factor"
   ],
   "note": "NaN and infinities and object identity are not modelled"
  },
  {
   "property": "C123",
   "status": "proved",
   "theorems": [
    "Verif.Spa.C123_day_difference",
    "Verif.Spa.C123_day_difference_wrap",
    "Verif.Props.SolarAngles.C123_ranges",
    "Verif.Props.SolarAngles.C123_equatorial",
    "Verif.Props.SolarAngles.C123_horizontal",
    "Verif.Props.SolarAngles.C123_noon",
    "Verif.Props.SolarAngles.C123_azimuth",
    "Verif.Props.SolarAngles.C123_equinoxes",
    "Verif.Props.SolarAngles.C123_sidereal_day",
    "Verif.Props.SolarAngles.C123_sidereal",
    "Verif.Props.SolarAngles.C123_parallax",
    "Verif.Props.SolarAngles.C123_equation_of_time",
    "Verif.Props.SolarAngles.C123_time_scales",
    "Verif.Props.SolarAngles.C123_nutation_arguments",
    "Verif.Props.SolarPosition.C123_distance",
    "Verif.Props.SolarPosition.C123_latitude",
    "Verif.Props.SolarPosition.C123_longitude",
    "Verif.Props.SolarPosition.C123_nutation",
    "Verif.Props.SolarPosition.C123_obliquity",
    "Verif.Props.SolarPosition.C123_refraction",
    "Verif.Props.SolarPosition.C123_refraction_defects",
    "Verif.Props.SolarPosition.C123_geocentric",
    "Verif.Props.SolarPosition.C123_direction",
    "Verif.Props.SolarPosition.C123_solar_position",
    "Verif.Props.SolarPosition.C123_solar_position_SI",
    "Verif.Props.SolarPosition.C123_no_error",
    "Verif.Props.SolarPosition.C123_interpolation",
    "Verif.Props.SolarPosition.C123_transit",
    "Verif.Props.SolarPosition.C123_distance_metres",
    "Verif.Props.Spa.C123_calendar",
    "Verif.Props.Spa.C123_time_of_day",
    "Verif.Props.Spa.C123_unix",
    "Verif.Props.Spa.C123_negative_years",
    "Verif.Props.Spa.C123_deltat_boundaries",
    "Verif.Props.Spa.C123_deltat_increasing",
    "Verif.Props.Spa.C123_sunrise_day"
   ],
   "note": "Floating point is idealised; the decimal constants 0.25, 365.25, 30.6001 are exact; the numba batch variants and the datetime handling of the wrappers are not modelled except the choice of the day"
  },
  {
   "property": "C124",
   "status": "proved",
   "theorems": [
    "Verif.Props.Irradiance.C124_incidence",
    "Verif.Props.Irradiance.C124_total",
    "Verif.Props.Irradiance.C124_relative_airmass",
    "Verif.Props.Irradiance.C124_clear_sky",
    "Verif.Props.Irradiance.C124_clear_sky_errors",
    "Verif.Props.Irradiance.C124_solar_irradiation",
    "Verif.Props.Irradiance.C124_distance_ignored",
    "Verif.Props.Irradiance.C124_airmass_models",
    "Verif.Props.Irradiance.C124_spencer",
    "Verif.Props.Irradiance.C124_airmass_vertical",
    "Verif.Props.Irradiance.C124_airmass_decreasing"
   ],
   "note": "The look-up of the turbidity (pvlib, pandas) and the NRLMSISE-00 defaults of T and P are not modelled; exponentials do not underflow"
  },
  {
   "property": "C125",
   "status": "proved",
   "theorems": [
    "Verif.C125.C125_gas_order",
    "Verif.C125.C125_gas_continuity",
    "Verif.C125.C125_factors",
    "Verif.C125.C125_gas",
    "Verif.C125.C125_gas_scaling",
    "Verif.C125.C125_gas_errors",
    "Verif.C125.C125_gas_regimes",
    "Verif.C125.C125_tables",
    "Verif.C125.C125_liquid",
    "Verif.C125.C125_liquid_scaling",
    "Verif.C125.C125_liquid_wall",
    "Verif.C125.C125_liquid_errors"
   ],
   "note": "The rounded constants 10/ln 10, 20/ln 10 and ln(10)/10 are modelled by the exact ones; the tables are the decimals of the source"
  },
  {
   "property": "C126",
   "status": "proved",
   "theorems": [
    "Verif.DD.C126_sum_exact",
    "Verif.DD.C126_product_exact",
    "Verif.DD.C126_compare",
    "Verif.DD.C126_add",
    "Verif.DD.C126_mul",
    "Verif.DD.C126_square",
    "Verif.DD.C126_div",
    "Verif.DD.C126_sqrt",
    "Verif.DD.C126_intpow",
    "Verif.DD.C126_cube",
    "Verif.DD.C126_cbrt_explicit"
   ],
   "note": "Exponents are unbounded in the model: overflow, underflow, infinities and NaN are outside it"
  },
  {
   "property": "C127",
   "status": "proved",
   "theorems": [
    "Verif.DD.C127_exp",
    "Verif.DD.C127_log",
    "Verif.DD.C127_pow",
    "Verif.DD.C127_cbrt",
    "Verif.DD.C127_complex_ring",
    "Verif.DD.C127_complex_div",
    "Verif.DD.C127_complex_sqrt",
    "Verif.DD.C127_complex_cbrt"
   ],
   "note": "Statements for rd = id, i.e. without rounding of the single operations; the guesses of the cube roots are arguments of the model"
  },
  {
   "property": "C128",
   "status": "proved",
   "theorems": [
    "Verif.Climate.C128_month_average",
    "Verif.Climate.C128_month_defaults",
    "Verif.Climate.C128_month_bounds",
    "Verif.Climate.C128_extreme_months",
    "Verif.Climate.C128_degree_days",
    "Verif.Climate.C128_parse",
    "Verif.Climate.C128_parse_short",
    "Verif.Climate.C128_pressure_lost",
    "Verif.Climate.C128_closest_station",
    "Verif.Climate.C128_antimeridian",
    "Verif.Climate.C128_geocode",
    "Verif.Climate.C128_geocode_collision"
   ],
   "note": "float, int, datetime, the k-d tree, the online geocoder and SQLite's storage of keys are parameters; downloads and files are not modelled"
  },
  {
   "property": "C129",
   "status": "proved",
   "theorems": [
    "Verif.Units.C129_input",
    "Verif.Units.C129_input_errors",
    "Verif.Units.C129_dimensionless",
    "Verif.Units.C129_call",
    "Verif.Units.C129_unit_independent",
    "Verif.Units.C129_extra_ignored",
    "Verif.Units.C129_unknown_keyword",
    "Verif.Units.C129_output",
    "Verif.Units.C129_output_cut",
    "Verif.Units.C129_output_dict",
    "Verif.Units.C129_kwargs_to_args",
    "Verif.Units.C129_tables",
    "Verif.Units.C129_variable_output",
    "Verif.Units.C129_meter_without_k",
    "Verif.Units.C129_documented_unit",
    "Verif.Units.C129_documented_otherwise",
    "Verif.Units.C129_attribute"
   ],
   "note": "pint is represented by dimensions with affine maps; the path for array magnitudes, offset units of results and the section patterns of the documentation parser are not modelled"
  },
  {
   "property": "C130",
   "status": "proved",
   "theorems": [
    "Verif.Chebfun.C130_call",
    "Verif.Chebfun.C130_interpolates",
    "Verif.Chebfun.C130_from_coeff",
    "Verif.Chebfun.C130_pruned",
    "Verif.Chebfun.C130_from_function",
    "Verif.Chebfun.C130_small_collapse",
    "Verif.Chebfun.C130_roots",
    "Verif.Chebfun.C130_roots_short",
    "Verif.Chebfun.C130_differentiate",
    "Verif.Chebfun.C130_sum",
    "Verif.Chebfun.C130_add",
    "Verif.Chebfun.C130_basis",
    "Verif.Chebfun.C130_integrate",
    "Verif.Chebfun.C130_polyfit_polyval",
    "Verif.Chebfun.C130_polyval_polyfit",
    "Verif.Chebfun.C130_values",
    "Verif.Chebfun.C130_sample_exact"
   ],
   "note": "exact arithmetic; one column; adaptive sampling without N, restriction of the domain, products, and the eigenvalue solver itself are not modelled"
  },
  {
   "property": "C131",
   "status": "proved",
   "theorems": [
    "Verif.SolverInterface.C131_objective",
    "Verif.SolverInterface.C131_inner",
    "Verif.SolverInterface.C131_scalar_objective",
    "Verif.SolverInterface.C131_scalar_inner",
    "Verif.SolverInterface.C131_jacobian",
    "Verif.SolverInterface.C131_hessian",
    "Verif.SolverInterface.C131_solve",
    "Verif.SolverInterface.C131_methods",
    "Verif.SolverInterface.C131_analytical",
    "Verif.SolverInterface.C131_gradient",
    "Verif.SolverInterface.C131_gradient_numpy",
    "Verif.SolverInterface.C131_gradient_shape",
    "Verif.SolverInterface.C131_helpers"
   ],
   "note": "the difference schemes and solvers themselves are parameters; the jacobian sizes assumed consistent with numpy"
  },
  {
   "property": "C132",
   "status": "proved",
   "theorems": [
    "Verif.NumHelpers.C132_combinations",
    "Verif.NumHelpers.C132_combinations_count",
    "Verif.NumHelpers.C132_combinations_pool",
    "Verif.NumHelpers.C132_interp2d",
    "Verif.NumHelpers.C132_interp2d_table",
    "Verif.NumHelpers.C132_is_poly_positive",
    "Verif.NumHelpers.C132_is_poly_positive_everywhere",
    "Verif.NumHelpers.C132_is_poly_negative",
    "Verif.NumHelpers.C132_is_poly_positive_end",
    "Verif.NumHelpers.C132_outliers",
    "Verif.NumHelpers.C132_lambertw",
    "Verif.NumHelpers.C132_lambertw_lower",
    "Verif.NumHelpers.C132_central_diff_weights",
    "Verif.NumHelpers.C132_derivative",
    "Verif.NumHelpers.C132_nquad",
    "Verif.NumHelpers.C132_nquad_single",
    "Verif.NumHelpers.C132_dblquad"
   ],
   "note": "roots, eigen-solver, Newton and quad are parameters; the inverse of the Vandermonde matrix is that of the code's solver by its specification"
  },
  {
   "property": "C133",
   "status": "proved",
   "theorems": [
    "Verif.Psd.C133_custom_moment",
    "Verif.Psd.C133_custom_bounds",
    "Verif.Psd.C133_custom_cdf",
    "Verif.Psd.C133_custom_basis",
    "Verif.Psd.C133_custom_mean",
    "Verif.Psd.C133_mesh",
    "Verif.Psd.C133_fit_classes",
    "Verif.Psd.C133_fit_sizes",
    "Verif.Psd.C133_fit",
    "Verif.Psd.C133_through",
    "Verif.Psd.C133_cumulative",
    "Verif.Psd.C133_density",
    "Verif.Psd.C133_measured",
    "Verif.Psd.C133_no_minimum",
    "Verif.Psd.C133_history",
    "Verif.Psd.C133_whole_orders",
    "Verif.Psd.C133_fraction_spoils",
    "Verif.Psd.C133_mean_size",
    "Verif.Psd.C133_spoiled_mean"
   ],
   "note": "PchipInterpolator, minimize, brenth and the custom distribution are parameters; quad is the exact integral; plots are not modelled"
  },
  {
   "property": "C134",
   "status": "proved",
   "theorems": [
    "Verif.Geometry.C134_crown_integral",
    "Verif.Geometry.C134_crown_edge",
    "Verif.Geometry.C134_crown_high",
    "Verif.Geometry.C134_mid",
    "Verif.Geometry.C134_torispherical",
    "Verif.Geometry.C134_ellipsoidal",
    "Verif.Geometry.C134_knuckle_element",
    "Verif.Geometry.C134_knuckle_strip",
    "Verif.Geometry.C134_axis_fails",
    "Verif.Geometry.C134_low"
   ],
   "note": "Quadrature is the exact integral; the sign of a floating-point zero on a branch cut is not modelled; ellipe is the complete elliptic integral."
  },
  {
   "property": "C135",
   "status": "proved",
   "theorems": [
    "Verif.Atmosphere.C135_weight",
    "Verif.Atmosphere.C135_reference",
    "Verif.Atmosphere.C135_standard",
    "Verif.Atmosphere.C135_sign",
    "Verif.Atmosphere.C135_errors"
   ],
   "note": "Quadrature is the exact integral; the secant solver is a parameter whose answer is a root of the error function."
  },
  {
   "property": "C136",
   "status": "proved",
   "theorems": [
    "Verif.ChebPoly.C136_polynomial",
    "Verif.ChebPoly.C136_interpolant",
    "Verif.ChebPoly.C136_mapped",
    "Verif.ChebPoly.C136_range",
    "Verif.ChebPoly.C136_errors"
   ],
   "note": "numpy's cheb2poly is outside the code and taken as what it documents; numbers printed in text keep all digits."
  },
  {
   "property": "C137",
   "status": "proved",
   "theorems": [
    "Verif.LeastSquares.C137_least_squares",
    "Verif.LeastSquares.C137_refusals",
    "Verif.LeastSquares.C137_null_space",
    "Verif.LeastSquares.C137_residual_lost"
   ],
   "note": "numpy's svd is outside the code and taken as what it documents; arithmetic is exact."
  },
  {
   "property": "C138",
   "status": "proved",
   "theorems": [
    "Verif.Shapes.C138_shape",
    "Verif.Shapes.C138_shape_number",
    "Verif.Shapes.C138_shape_exact",
    "Verif.Shapes.C138_fill",
    "Verif.Shapes.C138_zeros",
    "Verif.Shapes.C138_round_trip",
    "Verif.Shapes.C138_zero_dimension"
   ],
   "note": "numpy arrays, which answer with their own shape, and the identity of row objects are outside the model."
  },
  {
   "property": "C139",
   "status": "proved",
   "theorems": [
    "Verif.Polylog.C139_domain",
    "Verif.Polylog.C139_strictMono",
    "Verif.Polylog.C139_accuracy",
    "Verif.Polylog.C139_accuracy_lost"
   ],
   "note": "The accuracy above 0.7 is not stated; arithmetic is exact."
  }
 ]
}
