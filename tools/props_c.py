from props_a import p, P, REAL
p("Dimensionless groups are dimensionless",
  "Every dimensionless group returns the same number, or raises the same error, when all of its arguments are expressed in any other consistent system of units (gravity being passed explicitly where it is an argument).",
  "all rescalings of length, mass, time and temperature, all real arguments, all present/absent patterns of optional arguments", REAL,
  ["fluids/core.py:Reynolds,Weber,Mach,Knudsen,Strouhal,Euler,Cavitation,Power_number,Drag,Stokes_number,Capillary,Suratman,relative_roughness,Prandtl,Peclet_heat,Peclet_mass,Fourier_heat,Fourier_mass,Graetz_heat,Schmidt,Lewis,Nusselt,Biot,Sherwood,Stanton,Eckert,Jakob,Bejan_L,Bejan_p,Boiling,Grashof,Morton,Archimedes,Froude,Froude_densimetric,Confinement,Ohnesorge,Dean"])
p("Engauge export parser returns the exported curves",
  "For an export of any number of curves, Engauge_2d_parser returns the z value of every curve aligned with its x and y lists; the flat form repeats each z once per point in order. (Finding: a curve without points breaks the alignment.)",
  "all lists of curves", "Unbounded number of curves and points.", ["fluids/core.py:Engauge_2d_parser"])

p("caching_decorator is transparent over every call history",
  "For a deterministic function, calling its cached version any number of times in any order returns exactly what the uncached function returns, raising the same errors, and the function runs at most once per argument it succeeds on. (Finding: the cache key is the first argument only, so functions with further arguments get stale answers.)",
  "all functions, all sequences of calls", "Quantifies over call histories.", ["fluids/numerics/__init__.py:caching_decorator"])
p("interp2d_linear is bilinear on every grid cell",
  "For strictly increasing grids and a rectangular table, interp2d_linear returns the bilinear interpolant in every cell, boundaries included.",
  "all grids, tables and query points within the grid", REAL, ["fluids/numerics/__init__.py:interp2d_linear"])
p("best_bounding_bounds returns a valid, tightened bracket",
  "From a bracket and a history of evaluated points, best_bounding_bounds returns two evaluated points whose values do not have the same sign. If the low end is the negative one these are the points closest to zero on each side, the given ends included; if it is the positive one, the positive point is the closest and the negative point is the closest of the history. (Findings: in the second case the negative point can be further from zero than the given end, and with a negative but no positive history the function raises UnboundLocalError.)",
  "all histories, all brackets", "Unbounded histories.", ["fluids/numerics/__init__.py:best_bounding_bounds"])
p("gravity depends on latitude and height as documented",
  "gravity(latitude, H) is the printed formula; it falls by 3.086e-6 m/s^2 per metre at every latitude, is the same in both hemispheres, and for every height lies between its values at the equator and at the poles.",
  "all latitudes and heights", REAL, ["fluids/core.py:gravity"])
p("A staged diffuser is the sum of its stages",
  "diffuser_conical_staged with n intermediate diameters and n+1 lengths returns the sum of the n+1 conical diffusers between consecutive diameters, for every n >= 1; with no intermediate diameter it raises IndexError.",
  "all numbers of stages, diameters and lengths", "The number of stages is unbounded.", ["fluids/fittings.py:diffuser_conical_staged"])
p("CSA_motor_efficiency returns an efficiency of its tables",
  "For every power, open or closed frame, standard or high efficiency and each pole count the tables cover, CSA_motor_efficiency returns an efficiency between the smallest and the largest tabulated value. (Finding: other pole counts, including 8 poles at high efficiency, raise UnboundLocalError.)",
  "all powers, all pole counts, both frames, both classes", REAL, ["fluids/pump.py:CSA_motor_efficiency"])
p("Weir discharge rises with the head",
  "For every full-width rectangular weir formula, the contracted Kindsvater-Carter weir (heads up to 170 crest depths) and the triangular weir at every notch angle below 180 degrees, every head has a non-negative discharge and a higher head discharges strictly more; the full-width Ackers, Rehbock and SIA discharges are proportional to the width. (Finding: the contracted SIA formula reports a discharge at zero head.)",
  "all heads, crest heights, widths and notch angles", REAL,
  ["fluids/open_flow.py:Q_weir_V_Shen,Q_weir_rectangular_Kindsvater_Carter,Q_weir_rectangular_SIA,Q_weir_rectangular_full_Ackers,Q_weir_rectangular_full_SIA,Q_weir_rectangular_full_Rehbock,Q_weir_rectangular_full_Kindsvater_Carter"])
p("Sieve tables are consistent",
  "Every ASTM E11 and ISO 3310-1 sieve is stored under its designation, its opening in metres is a thousandth of the designation in millimetres, no designation repeats, and every series names only sieves of its table; ASTM wire diameters lie within their tolerance. (Findings: the wires of all ASTM sieves finer than 1 mm are stored a thousand times too thin; some fine ISO sieves have wires outside their own tolerance.)",
  "every sieve of both tables", "Holds for a whole table; tests look at single sieves.",
  ["fluids/particle_size_distribution.py:ASTM_E11_sieves,ISO_3310_1_sieves,sieve_spacing_options"])
p("Mean particle sizes lie between the smallest and the largest size",
  "For discrete distributions of any length and for truncated lognormal and Rosin-Rammler distributions every mean size D[p, q] lies between the smallest and the largest size, and for discrete ones does not change when p and q are exchanged; the specific surface lies between those of the two extreme sizes and, for sizes rather than classes, is 6/D[3, 2]; the mean size in ISO notation is D[k + r, r]. (Findings: with size classes it is not, and D[-1, q] raises ZeroDivisionError; a Gates-Gaudin-Schuhman volume distribution without d_min has no specific surface.)",
  "all exponents, all lists of sizes and fractions, all distribution parameters", "Unbounded lists and a continuum of exponents.",
  ["fluids/particle_size_distribution.py:mean_size,vssa,ParticleSizeDistribution,ParticleSizeDistributionContinuous"])
p("Crane tee coefficients follow the published equations",
  "The four tee coefficients depend only on the ratio of the diameters and the ratio of the flows; they are the published equations in the flow fraction q of the branch and the diameter ratio, with the tabulated angle factors at 30, 45, 60 and 90 degrees and interpolated between and clamped beyond; with no branch flow the run has no loss; a larger angle never lowers the converging loss; the diverging branch never gains pressure; the diverging run gains pressure exactly when a large branch takes less than half the flow. (Finding: the coefficients jump at the boundaries of the published regions.)",
  "all diameters, flows and angles", REAL, ["fluids/fittings.py:K_branch_converging_Crane,K_run_converging_Crane,K_branch_diverging_Crane,K_run_diverging_Crane"])
p("Flare noise falls with distance and follows its graph",
  "API521_noise is, at 30 m, ten times the decimal logarithm of half the mass flow times the squared sound speed plus the graph value; the graph value never falls and has no jumps as the pressure ratio rises; ten times the distance lowers the noise by 20 dB and ten times the flow raises it by 10 dB; non-positive arguments raise. The VDI 3732 powers rise by 15 and 17 dB per decade of flow. (Finding: both VDI functions convert kg/s with 360 in place of 3.6, 30 and 34 dB too high.)",
  "all flows, pressures, sound speeds and distances", REAL, ["fluids/safety_valve.py:API521_noise,API521_noise_graph,VDI_3732_noise_ground_flare,VDI_3732_noise_elevated_flare"])
p("Sphere drag correlations are positive and approach the Stokes law",
  "Every drag correlation returns a positive coefficient on its range of Reynolds numbers; the correlations of the form 24/Re times a correction are never below the Stokes law; Re times the coefficient tends to 24 as Re tends to 0 for those correlations that reduce to the Stokes law. (Findings: Mikhailov_Freire is negative at large Re; Barati stays bounded as Re tends to 0.)",
  "all Reynolds numbers, every correlation", REAL,
  ["fluids/drag.py:Stokes,Barati,Barati_high,Rouse,Engelund_Hansen,Clift_Gauvin,Morsi_Alexander,Graf,Flemmer_Banks,Khan_Richardson,Swamee_Ojha,Yen,Haider_Levenspiel,Cheng,Terfous,Mikhailov_Freire,Clift,Ceylan,Almedeij,Morrison,Song_Xu"])
p("drag_sphere selects a correlation valid at the Reynolds number",
  "drag_sphere_methods lists, with range checking, exactly the correlations whose documented range contains Re and, without it, all of them; every listed name works in drag_sphere and gives that correlation; unknown names raise ValueError; the default is positive for every Re > 0, is the Stokes law below 0.01, Barati from 0.1 up to the switch, Barati_high above it, and is continuous across the blend.",
  "all Reynolds numbers, all method names", REAL, ["fluids/drag.py:drag_sphere,drag_sphere_methods,drag_sphere_correlations"])
p("Settling velocities and trajectories satisfy the equation of motion",
  "In the Stokes regime v_terminal is the velocity at which Stokes drag balances the net weight; otherwise any root returned by the solver balances the net weight with the drag of the selected correlation. integrate_drag_sphere in the laminar case returns velocity and distance that solve the equation of motion with the given initial velocity and zero initial distance, for all times. time_v_terminal_Stokes is the time at which that velocity is within the tolerance of the terminal velocity. (Findings: time_v_terminal_Stokes raises ValueError for rising particles and for a start at the terminal velocity; Reynolds numbers are compared with their sign, so rising particles of any size get the Stokes velocity.)",
  "all diameters, densities, viscosities, initial velocities and times", REAL, ["fluids/drag.py:v_terminal,time_v_terminal_Stokes,integrate_drag_sphere"])
p("Packed-bed pressure drops obey the laws of flow through a bed",
  "In every physical bed with flow, each packed-bed correlation but two gives a positive pressure drop that is proportional to the bed length, rises strictly with the velocity, never falls with the viscosity and falls strictly with the voidage; Fahien_Schriver has the first three of these; Guo_Sun has them without a column diameter, and with one is positive and rising when 2.8054 Dt <= 9.5374 dp. Nine correlations tend at small velocity to Darcy's law with their published factor and are their published equation in the modified Reynolds number. (Findings: Guo_Sun in every wider column gives a negative pressure drop at high velocity; most correlations raise ZeroDivisionError at zero velocity.)",
  "all particle sizes, voidages in (0, 1), velocities, densities, viscosities and lengths", REAL,
  ["fluids/packed_bed.py:Ergun,Kuo_Nydegger,Jones_Krier,Carman,Hicks,Brauer,KTA,Erdim_Akgiray_Demir,Fahien_Schriver,Tallmadge,Idelchik,Harrison_Brunner_Hecker,Montillet_Akkari_Comiti,Guo_Sun"])
p("Packed-bed method selection and voidage estimates",
  "dP_packed_bed_methods lists every correlation, leaving out exactly the three that use the column diameter when it is not given; every name gives the correlation of that name in dP_packed_bed; unknown names raise ValueError; without a name the first listed one is used; a sphericity scales the particle diameter. The three Benyahia-O'Neil voidages are their published equations, fall as the column widens and stay above their wide-column limit.",
  "all bed geometries, all names", REAL, ["fluids/packed_bed.py:dP_packed_bed,dP_packed_bed_methods,voidage_Benyahia_Oneil,voidage_Benyahia_Oneil_spherical,voidage_Benyahia_Oneil_cylindrical"])
p("Demisters, mesh measurements and random packings are physically ordered",
  "voidage_experimental is the fraction of the cylinder the mesh leaves empty, and specific_area_mesh is the surface of a wire that fills the rest; the dry demister pressure drop, with either set of constants, is positive and rises strictly with velocity whenever specific area times thickness is at least 56; the wet demister pressure drop is positive, proportional to the thickness, rises strictly with velocity and falls strictly with voidage and wire diameter; the demister separation efficiency is a fraction that never falls with velocity or droplet size and never rises with voidage or wire diameter; the Robbins pressure drop is positive, proportional to the height and rises strictly with the gas and the liquid load. (Findings: the dry demister fit raises ZeroDivisionError where specific area times thickness is 160.9/4.85, and in its documented range gives negative pressure drops, for example 1000 per metre and 15 mm at high velocity.)",
  "all velocities, densities, viscosities, voidages, areas, wire diameters and thicknesses in the stated ranges", REAL,
  ["fluids/packed_tower.py:voidage_experimental,specific_area_mesh,dP_demister_dry_Setekleiv_Svendsen,dP_demister_dry_Setekleiv_Svendsen_lit,dP_demister_wet_ElDessouky,separation_demister_ElDessouky,Robbins"])
p("Stichlmair pressure drops and flooding solve the published equations",
  "The dry pressure drop is positive and proportional to the height; a wet pressure drop returned solves the published equation with a liquid holdup below the voidage, is never below the dry one, and is the dry one without liquid; the matrix given to Newton's method at flooding is the Jacobian of the two published equations, so that at a solution the wet pressure drop curve is vertical: its derivative by the pressure drop is zero.",
  "all flows, densities, viscosities, packing data and every result a solver may return", REAL,
  ["fluids/packed_tower.py:Stichlmair_dry,Stichlmair_wet,Stichlmair_flood,_Stichlmair_flood_f_and_jac,_Stichlmair_wet_err"])
p("Mixing times and coefficients of variation are ordered",
  "The homogeneity factor is 1 at 95 %, adds up when remainders multiply, rises strictly and raises ValueError from 100 % on; the agitated tank's time does not depend on the impeller speed once the power is given, falls strictly with power across both regimes, rises strictly with homogeneity, and a missing or zero impeller diameter means half the tank; the helical ribbon constant is the same for similar mixers and monotone in each length, and a tank no wider than the ribbon is an error; the ribbon's time is a fixed number of revolutions; a tee with two to four jets depends on ratios only and mixes strictly better with distance and with a narrower nozzle, the missing nozzle diameter is D(Q2/Q1)^(2/3), and other numbers of jets raise ValueError; motionless mixers start from sqrt(Q1/Q2), multiply in series, and their losses add; every tabulated mixer improves mixing. (Finding: with one jet the exponent of size_tee drops from 1.33 to 1/33 at a momentum ratio of 0.7, so a stronger jet predicts worse mixing.)",
  "all flows, diameters, speeds, powers, viscosities, densities, homogeneities and numbers of jets", REAL,
  ["fluids/mixing.py:adjust_homogeneity,agitator_time_homogeneous,Kp_helical_ribbon_Rieger,time_helical_ribbon_Grenville,size_tee,COV_motionless_mixer,K_motionless_mixer,StatixMixers"])
p("Screens, nets and grills lose less the more open they are",
  "The loss coefficient of every screen, net and grill is non-negative in its fitted range, zero when fully open (round-edged and square-edged screens, nets, thin square-edged grills), and falls with the open fraction, strictly for all but the square-edged screen; it never rises with the Reynolds number; it is reduced by an angle factor between 0.09 and 1 that is 1 for flow straight on and for a missing angle and falls on either side of 45 degrees; tabulated points are reproduced; the friction of long grills is added exactly when all three arguments are given and the grill is longer than 50 hydraulic diameters; unknown nets raise ValueError, a closed screen ZeroDivisionError. (Findings: the angle factors rise across 45 degrees; round_edge_grill extrapolates instead of keeping its end values, so that every grill more than 80 % open gets a negative loss coefficient.)",
  "all open fractions, Reynolds numbers, angles, kinds of net, lengths, diameters and friction factors", REAL,
  ["fluids/filters.py:round_edge_screen,round_edge_open_mesh,square_edge_screen,square_edge_grill,round_edge_grill"])
p("Separated-flow two-phase pressure drops are Chisholm's form of the single-phase drops",
  "Lockhart-Martinelli, Kim-Mudawar, Mishima-Hibiki, Zhang-Hibiki-Mishima, Hwang-Kim and Wang-Chiang-Lu return P_l + C sqrt(P_l P_g) + P_g, where P_l and P_g are the Darcy-Weisbach drops of each phase flowing alone and C is the documented, positive constant (the regime tables of Lockhart-Martinelli and Kim-Mudawar, between 0 and 21 for the mini-channel correlations); hence more than the sum of the drops of the phases and at most (C/2+1) times it; Wang-Chiang-Lu from a mass flux of 200 multiplies the gas drop by a factor above 1; every drop is proportional to the length; an unknown flow type raises ValueError; an error of the friction factor for an absent phase is passed on. (Finding: Lockhart-Martinelli gives the gas drop above a quality of 1 - 1e-13, but the others raise ZeroDivisionError for a single-phase flow.)",
  "all flows, qualities strictly between 0 and 1, properties, diameters, lengths and every friction factor correlation that is positive", REAL,
  ["fluids/two_phase.py:Lockhart_Martinelli,Kim_Mudawar,Mishima_Hibiki,Zhang_Hibiki_Mishima,Hwang_Kim,Wang_Chiang_Lu"])
p("Two-phase multipliers reduce to the single-phase drops and stay positive",
  "Friedel, Chen-Friedel, Gronnerud, Chisholm (smooth and rough), Baroczy-Chisholm, Bankoff, Xu-Fang, Yu-France, Tran, Jung-Radermacher, Muller-Steinhagen-Heck, Zhang-Webb, Lombardi-Pedrocchi and Theissing equal their documented formulas in terms of the single-phase drops; at quality 0 those defined there give the liquid drop and at quality 1 Friedel, Chisholm, Baroczy-Chisholm, Muller-Steinhagen-Heck, Theissing and Xu-Fang the gas drop; they are at least the liquid drop when the gas-only drop is at least the liquid-only one; the ones proved positive are positive whatever the drops; identical phases give the single-phase drop for the correlations built to do so; every drop is proportional to the length; a pure liquid raises ZeroDivisionError where the formula divides by the quality. (Findings: Chisholm and Muller-Steinhagen-Heck give a negative pressure drop when the gas-only drop is a tenth or less of the liquid-only drop, as for 1 Pa s oil and air; a gas more viscous than the liquid makes Friedel and Chen-Friedel return a complex number.)",
  "all flows, qualities, properties, diameters, lengths and every friction factor correlation that is positive", REAL,
  ["fluids/two_phase.py:Friedel,Chen_Friedel,Gronnerud,Chisholm,Baroczy_Chisholm,Bankoff,Xu_Fang,Yu_France,Tran,Jung_Radermacher,Muller_Steinhagen_Heck,Zhang_Webb,Lombardi_Pedrocchi,Theissing"])
p("The two-phase front end runs exactly the method asked for",
  "two_phase_dP with a documented name evaluates that correlation with the caller's arguments, and raises TypeError exactly when one of the arguments the method requires is missing; any other name raises ValueError; two_phase_dP_methods lists, without repetition, exactly the names whose required arguments are all given, and every listed method runs; with no name the first available of Kim-Mudawar, Chisholm, Zhang-Webb and Lombardi-Pedrocchi is used, and ValueError is raised exactly when no method is available.",
  "every method name and every combination of given and missing arguments", "the 128 combinations of present arguments and 24 methods are only sampled, and unknown names are an infinite set",
  ["fluids/two_phase.py:two_phase_dP,two_phase_dP_methods"])
p("Two-phase acceleration and gravity terms are momentum and hydrostatic balances",
  "The acceleration drop is the squared mass flux times the change of the separated-flow momentum term between the ends, so it adds up over consecutive stretches, reverses with direction and vanishes between equal ends; with homogeneous void fractions it is the squared mass flux times the growth of the specific volume, positive for an evaporating flow with the lighter gas; the differential acceleration term is minus 1/A times the derivative along the pipe of the momentum flow m^2 v/A when pressure, quality, specific volumes and area vary; the gravitational drop is the height times g times the mean of the end densities, equal to the length times the mean of the differential terms, odd in the angle, zero for a horizontal pipe; outlet values not given are the inlet's. (Finding: an end with void fraction 0 or 1 raises ZeroDivisionError although the absent phase carries no momentum.)",
  "all flows, qualities, void fractions, densities, lengths and angles, and every smooth variation along the pipe", REAL,
  ["fluids/two_phase.py:two_phase_dP_acceleration,two_phase_dP_dz_acceleration,two_phase_dP_gravitational,two_phase_dP_dz_gravitational"])
p("Flow regime maps always answer with a documented regime",
  "The Mandhane-Gregory-Aziz map returns one of its six regimes, read from the published boundaries scaled by the fluid properties, for every flow with liquid present; each regime occurs, and raising the gas velocity never goes back from annular mist to slug or wave flow, nor from those to bubble or stratified flow. The Taitel-Dukler map returns one of its five regimes together with the documented groups X, T, F and K = F sqrt(Re_l), read from the three fitted spline curves, for every pipe short of vertical with the lighter gas; a vertical pipe and a flow without liquid raise ZeroDivisionError. (Finding: Mandhane_Gregory_Aziz_regime returns the liquid velocity first, the documentation lists the gas velocity first.)",
  "all flows, qualities, properties, diameters and angles", REAL,
  ["fluids/two_phase.py:Mandhane_Gregory_Aziz_regime,Taitel_Dukler_regime"])
p("The Beggs-Brill pressure drop combines a total regime map, a bounded correction and two terms",
  "The regime decision never fails and follows the documented map; the horizontal holdup is the published power law but never below the no-slip holdup; between horizontal and vertical the inclination raises the holdup uphill and lowers it downhill; in the transition band, which is never empty, the holdup lies between the segregated and intermittent ones and joins them at the two boundaries; the friction exponent is at most 7 and zero where the holdup squared equals the no-slip holdup; the drop is the static head at the actual holdup plus the friction of the no-slip mixture times e^S, divided by 1 - V_sg V rho_s/P with acceleration; it is proportional to the length, errors included; an all-liquid flow with a Froude number of at least 3 gets the single-phase drop. (Findings: pure liquid at a Froude number of 1 is given a holdup of 1.065; steep downhill flow can be given a negative holdup.)",
  "all flows, qualities, properties, diameters, lengths, angles and gravities", REAL,
  ["fluids/two_phase.py:Beggs_Brill,_Beggs_Brill_holdup"])
p("Jet pump results satisfy the conservation laws and keep what was given",
  "liquid_jet_pump_ancillary with exactly one value missing returns the one that balances the Bernoulli equations of the two supplies, which is the only non-negative one for a flow; NaN (suction flow) or ValueError (motive flow) is given exactly when no flow balances them, ValueError for any other number of missing values. liquid_jet_pump_pressure_ratio completes P5 - P2 = N (P1 - P5) with the documented N; with the nozzle inside the mixing tube the discharge pressure satisfies energy conservation in both supplies and the diffuser and momentum conservation in the mixing tube, so the power given to the suction stream never exceeds that taken from the motive stream. liquid_jet_pump raises ValueError unless exactly two of its seven variables are missing; a dictionary it returns keeps every given variable, has non-negative values for the missing ones, derived entries that agree with its own values, and, when the discharge pressure is given, residuals that sum to at most 1e-5 and an efficiency above -5e-6 whatever the solver and the random restarts do, every other outcome being ValueError. (Findings: with the nozzle retracted, the default, the denominator of N has 1 - Ks where the documentation has 1 + Ks, so N is never the documented one when Ks is not zero; solved pressures that come out negative are returned as their absolute values.)",
  "all densities, loss coefficients, diameters, flows, pressures, missing pairs, solvers and random restarts", "the outcome depends on a Newton solver restarted from random guesses; every pair of missing variables over continuous inputs cannot be sampled",
  ["fluids/jet_pump.py:liquid_jet_pump_ancillary,liquid_jet_pump_pressure_ratio,liquid_jet_pump"])
p("Air leakage estimates rise with vacuum and vessel volume",
  "The Ryans-Croll, Seider, HEI 2633 and Coker-Worthington leakages are their formulas in lb/hr, torr (or inches of mercury) of vacuum and cubic feet; a deeper vacuum or a larger vessel never leaks less, across all band boundaries (Seider: from 1 torr of vacuum, where the leakage is at least 5 lb/hr); HEI 2633 never fails, is positive, and counts vessels below 10 cubic feet as 10; the conservative Coker-Worthington column is above the other; Seider raises ValueError at or above atmospheric pressure. (Findings: the constant documented as 0.0298 in Seider's formula is 0.0289 in the code; Seider's leakage is negative for a large vessel within 1/3 torr of atmospheric pressure; Ryans-Croll returns a complex number above atmospheric pressure.)",
  "all volumes, pressures and atmospheric pressures", REAL,
  ["fluids/jet_pump.py:vacuum_air_leakage_Ryans_Croll,vacuum_air_leakage_Seider,vacuum_air_leakage_HEI2633,vacuum_air_leakage_Coker_Worthington"])
p("The quartic solver returns the four roots or raises ZeroDivisionError",
  "Whenever roots_quartic returns, its four numbers are the roots of a x^4 + b x^3 + c x^2 + d x + e with multiplicity: the polynomial equals a times the product of the four differences. Its only failure is ZeroDivisionError. It returns for every quartic whose depressed form has a non-zero linear term and whose two resolvent quantities are not zero. (Finding: every quartic of the form a (x - r)^4 + k, such as x^4 - 1, raises ZeroDivisionError.)",
  "all complex coefficients", REAL,
  ["fluids/numerics/polynomial_roots.py:roots_quartic"])
p("Replacements of mathematical library functions compute the functions they replace",
  "py_factorial is the factorial and raises ValueError for a negative number; py_comb is the binomial coefficient, 0 outside 0 <= k <= n; py_hypot is the Euclidean norm for every pair; the tangent of py_catan is its argument everywhere but at +-i, where ValueError is raised; the cosine of py_cacos is its argument everywhere, the real part is between 0 and pi, and the imaginary part is non-negative on the real line above 1; the hyperbolic tangent of py_catanh is its argument, with imaginary part between -pi/2 and pi/2, at every number but +-1 whose parts are at most the square root of the largest double over two.",
  "all integers, all real pairs and all complex numbers", "a branch cut or a sign error shows on lines and half planes of the complex plane that no sample of points covers",
  ["fluids/numerics/special.py:py_factorial,py_comb,py_hypot,py_cacos,py_catan,py_catanh"])
p("Error metrics are the maxima and means they are named after",
  "max_abs_error is the largest absolute difference of corresponding entries, max_squared_error its square, max_abs_rel_error the largest relative deviation capped at max_val (a zero datum that is not reproduced counts max_val) and max_squared_rel_error the largest squared relative deviation; the mean functions are the averages of the same quantities (a zero datum that is not reproduced counts 1 in mean_abs_rel_error). The maxima are 0 for no data, the means raise ZeroDivisionError; the absolute and capped metrics are 0 exactly when the data are reproduced; a mean never exceeds the maximum and the squared mean absolute error never exceeds the mean squared error; relative metrics do not depend on the unit; a zero datum raises ZeroDivisionError in the squared relative metrics only; missing calculated values raise IndexError; min_max_ratios gives two ratios that enclose 1 and every ratio of the data, each of them 1 or one of the ratios. (Finding: the lower ratio is 1 rather than the lowest if everything is too high.)",
  "all lists of data and calculated values, of any length and over any ordered field", "lists of every length and content",
  ["fluids/numerics/__init__.py:max_abs_error,max_abs_rel_error,max_squared_error,max_squared_rel_error,mean_abs_error,mean_abs_rel_error,mean_squared_error,mean_squared_rel_error"])
p("Chebyshev fits in temperature return the true derivatives of their values",
  "With derivative coefficients made by chebder(coeffs, m, scale), exp_cheb_and_der, _der2 and _der3 return the exponential of the series and its first, second and third derivatives; chebval_ln_tau and its _der, _der2 and _der3 variants return the series in ln(1 - T/Tc) and its first three derivatives with respect to temperature below the critical temperature; exp_cheb_ln_tau and its _der and _der2 variants the same for its exponential; at and above the critical temperature every value and derivative returned is zero whatever the coefficients. (Finding: for a series too short, such as a constant, chebder returns no coefficients and evaluating the derivative, which is zero, raises IndexError.)",
  "all coefficient lists, offsets, scales, temperatures and critical temperatures", REAL,
  ["fluids/numerics/__init__.py:exp_cheb,exp_cheb_and_der,exp_cheb_and_der2,exp_cheb_and_der3,exp_cheb_ln_tau,exp_cheb_ln_tau_and_der,exp_cheb_ln_tau_and_der2,chebval_ln_tau,chebval_ln_tau_and_der,chebval_ln_tau_and_der2,chebval_ln_tau_and_der3"])
p("Finite-difference derivatives are exact on the polynomials their rules promise",
  "For every cached rule (derivative order n, number of points), derivative returns the n-th derivative of every polynomial of degree below the number of points, at every point and for every non-zero step, up to the rounding of the stored weights (1.7e-16 relative on each), and exactly for the rules whose weights are exact; a limit is never overstepped when the base point respects it. A zero step raises ZeroDivisionError, an even number of points or too few ValueError. jacobian returns the forward differences, each variable moved alone, and is exact on affine functions, scalar or vector valued, of any number of variables, including at zero entries; hessian returns the mixed second differences and is exact and symmetric on quadratic functions of any number of variables, and only the lower triangle with full=False. (Finding: a limit moves the base point of derivative, so the derivative at another point is returned: x^2 at 1 with an upper limit of 1 and a step of 0.1 gives 1.8.)",
  "all polynomials, points, steps, rules, numbers of variables and quadratic forms", REAL,
  ["fluids/numerics/__init__.py:derivative,central_diff_weights,jacobian,hessian"])
p("A TANK object is the same tank however it is described",
  "Any two of D, L and L_over_D give the same tank in all its attributes (with D and L given L_over_D is not read); 'same' on one end is the other end's description on both, with equal volumes and areas, and raises ValueError on both ends; an end without head is flat, a given depth is kept, a ratio gives ratio*D (default a quarter of D), torispherical heads get their depth from f and k (default 1 and 0.06). Ratios times D are depths, the totals are the sums of the parts, the lateral parts are those of the cylinder, h_max is D or L plus the depths, and the volume at h_max is the total volume and grows with the level. A tank given by its volume and one length has both whenever the root finder returns a root; two lengths, or L with a head depth, raise ValueError. The level found for a volume has that volume; add_thickness(0) returns the same tank and adding twice adds the sum. (Findings: add_thickness adds the wall of an end to both the length and the depth of its head, flat ends included, so a vertical tank without torispherical heads grows by twice the end thicknesses; from_two_specs raises TypeError without h even for 'V' and 'SA', which are documented not to need it; a torispherical head given by its depth alone raises ValueError; A_cross_sectional is 0 at the top and bottom of flat-ended vertical tanks.)",
  "all dimensions, head types, ratios, orientations, volumes and thicknesses", REAL,
  ["fluids/geometry.py:TANK,TANK.set_misc,TANK._solve_tank_for_V,TANK._V_solver_error,TANK.add_thickness,TANK.V_from_h,TANK.SA_from_h,TANK.h_from_V,TANK.A_cross_sectional,TANK.from_two_specs,tank_from_two_specs_err"])
p("Heat exchanger geometries and shape factors",
  "A sphere has sphericity 1, a circle circularity 1 and a square pi/4, and shape factors do not depend on the unit of length. The plate enlargement factor is the arc length of the sine corrugation over its wavelength and is at least 1; a plate exchanger's hydraulic diameter times that factor is its equivalent diameter, and areas, channels and angles follow from the given dimensions or are absent. A plate-fin channel's hydraulic diameter is 4A/P and the rounded fin count is within a half of width/spacing and exact for whole multiples; height, volume and areas of the layers add up. An air cooler is the same whether its fins are given by diameter or height and by density or interval; its areas, volumes and counts per tube, row, bundle and bay add up to the totals, fins increase the bare area, and the smallest flow area is below the face area. (Findings: blockage_ratio of the rectangular fin exchanger, documented as the blocked fraction of the layer, is the open fraction, one minus the offset strip exchanger's blockage_ratio_Kim; AirCooledExchanger's pitch_ratio check is inverted: alone it raises ValueError, with pitch given it silently replaces the pitch.)",
  "all positive dimensions, angles, counts and combinations of given arguments", REAL,
  ["fluids/geometry.py:sphericity,aspect_ratio,circularity,plate_enlargement_factor,PlateExchanger,RectangularFinExchanger,RectangularOffsetStripFinExchanger,AirCooledExchanger"])
p("Miller bends and the remaining Rennels fittings",
  "Bend coefficients after Miller are the same at every scale. The outlet correction never fails, is the piecewise linear function of the bend coefficient through the five outlet curves without jumps, and is 1 from 26.3 diameters on for coefficients of 0.15 or more; the roughness correction is 1 for smooth pipes and laminar flow, and the ratio of a rough to a smooth bend's coefficient is that of the pipes' friction factors; tight-bend Reynolds corrections lie in (0, 2.2]. A given radius supersedes bend_diameters, and values beyond the chart limits give the same result as the limits. Miller contractions are non-negative; the 45 degree distant entrance is constant for walls over 0.3 diameters; a beveled orifice entrance without bevel is the sharp orifice, 0.57 at full bore; helices are proportional to their turns and spirals wound in stages add up; a contraction's bevel of zero length is the sharp contraction and the full bevel the frictionless cone; a curved diffuser is non-negative and zero between equal pipes; a pipe reducer's coefficient is positive and uses the reducer's slant length. (Findings: the outlet correction of bends with coefficients up to 0.1 never reaches 1 because the ratio is cut at 30 while the curve ends at 30.26; contraction_beveled and diffuser_pipe_reducer raise ZeroDivisionError for equal diameters.)",
  "all positive diameters, lengths, radii, angles, Reynolds numbers and roughnesses, all chart splines", REAL,
  ["fluids/fittings.py:Miller_bend_roughness_correction,Miller_bend_unimpeded_correction,bend_rounded_Miller,bend_miter_Miller,contraction_round_Miller,entrance_distance_45_Miller,entrance_beveled_orifice,exit_normal,helix,spiral,contraction_beveled,diffuser_curved,diffuser_pipe_reducer"])
p("Two- and three-constant fitting methods",
  "The names in each fitting table are distinct and each named fitting has a positive coefficient. A name takes the constants of its row whatever other constants are given; an unknown name, a missing constant without a name, a missing size or a missing Reynolds number is a ValueError and a zero Reynolds number a ZeroDivisionError. Coefficients never increase with Reynolds number or size and stay at least at the turbulent constant. In the three-constant method a diameter supersedes the nominal size; it is converted linearly between schedule 40 sizes, exactly at each of them, and along the outermost pieces beyond. (Finding: diameters below 4.46 mm extrapolate to a negative size and give a complex coefficient, and exactly 4.46 mm a ZeroDivisionError.)",
  "all table rows, sizes, diameters, Reynolds numbers and combinations of given constants", REAL,
  ["fluids/fittings.py:Darby,Darby3K,Hooper,Hooper2K"])
p("Pipe roughness database",
  "material_roughness returns a positive roughness for every name, never None and never an endless recursion: a name in one of the three tables (no name occurs twice) takes that entry, any other name the entry of its nearest handbook material, for which the diameter is not used. An optimistic request never gives more than a pessimistic one and the neutral one lies between. Farshad's roughness of a named material is its average or, with a diameter, its power law, which decreases with the diameter; coefficients given along with a name are ignored; coefficients without diameter are a ValueError. The nearest name is always in the table asked for. (Findings: one concrete surface has an average of 0.5 mm below its minimum of 6 mm, so its neutral roughness is below the optimistic one; nearest_material_roughness with clean=None, documented to search both, never finds the Farshad materials; roughness_Farshad with an unknown name raises UnboundLocalError.)",
  "all names, diameters, optimism settings, coefficients and string matchers that return one of the candidates", REAL,
  ["fluids/friction.py:material_roughness,nearest_material_roughness,roughness_Farshad,HHR_roughness,fuzzy_match"])
p("Plate exchanger friction factors",
  "For every positive Reynolds number and chevron angle below 90 degrees both forms of Martin's plate friction factor exist and are positive, the inverse square root of the factor is the average, weighted by the cosine of the angle, of those of the crossing flow and of the wavy flow, so the factor lies between those two. Without an angle they reduce to the smooth channel (64/Re in laminar flow), in laminar flow the two forms agree within 597/596 and both fall with Re; at zero Re they raise a division by zero. Kumar's factor exists and is positive for every positive Re and every angle, equals the published three-range table, ignores angles beyond 65 degrees and never rises with Re by more than 0.3 % even across its discontinuities. The Muley-Manglik factor is positive for enlargement factors from 1 to 2 at every angle and falls with Re as a power between -0.2577 and -0.1423.",
  "every positive Reynolds number (and every pair), every chevron angle, every enlargement factor in [1, 2]", REAL,
  ["fluids/friction.py:friction_plate_Martin_1999,friction_plate_Martin_VDI,friction_plate_Kumar,friction_plate_Muley_Manglik"])
p("Wet-gas Venturi tubes, pump efficiencies, erosional velocity and isothermal work",
  "For every gas flow, the discharge coefficient of a Venturi tube in wet gas is 1 for dry gas, never above 1, above 0.9537, and never larger for more liquid; the permanent loss is the measured pressure difference times 0.0896 + 0.48 beta^9 + Y with Y zero for dry gas, strictly increasing in the liquid flow and below 0.61, so for beta up to 0.75 the loss is positive and less than the measured difference. The Corripio pump and motor efficiencies never exceed 0.887 and 0.94 and raise for non-positive input. Erosional velocity is proportional to C and to the inverse square root of density. Isothermal compression work is additive over stages, changes sign when the pressures are exchanged and never exceeds the isentropic work at the same conditions, for every efficiency up to one. (Findings: the wet-gas discharge coefficient does not depend on its parameter H although H is documented and a zero H raises; the pump efficiency is negative for flows below about four gallons per minute with no warning.)",
  "every positive gas flow, density pair with gas lighter than liquid, diameter pair, liquid flow and H; every real flow and power; every density and constant; every triple of pressures, k > 1, efficiency in (0, 1]", REAL,
  ["fluids/flow_meter.py:C_Reader_Harris_Gallagher_wet_venturi_tube,dP_Reader_Harris_Gallagher_wet_venturi_tube", "fluids/pump.py:Corripio_pump_efficiency,Corripio_motor_efficiency", "fluids/piping.py:erosional_velocity", "fluids/compressible.py:isothermal_work_compression"])
p("Solvers for systems of equations",
  "A point returned by newton_system has residuals that meet every tolerance asked for (for an objective that never raises these are the residuals of the returned point), after at most maxiter iterations, with require_progress smaller in sum than at the start; when no callable raises it returns or raises UnconvergedError, nothing else; if the full step from the start solves the system (every linear system) it is returned after one step with or without line search. newton_minimize returns only points whose gradient meets the tolerances. homotopy_solver with a positive step always ends, and what it returns meets the terminal tolerances. broyden2 returns after at most maxiter steps, with residuals below the tolerance unless all steps were used. (Findings: newton_system swallows the exceptions of the objective and keeps the residuals of an earlier point, so it can return a point at which the objective raises; its early exit returns two values where homotopy_solver unpacks four, so that with a residual tolerance only a linear equation fails with UnconvergedError; broyden2 returns an unconverged point silently, and its update scales the whole inverse Jacobian instead of correcting it, so that it stays a multiple of the first one for ever; the optional Armijo test adds the squared slope where the rule subtracts it, so it never asks for the decrease it is named after.)",
  "every objective, Jacobian, linear solver and damping function (which may raise), start, tolerance, iteration limit, damping and line-search list", REAL,
  ["fluids/numerics/__init__.py:newton_system,newton_minimize,homotopy_solver,homotopy_function,broyden2,check_jacobian"])
p("Accelerated fixed-point iterations",
  "fixed_point_aitken and fixed_point_gdem return the start (only ytol given and already met) or a point one plain, damped or accelerated step away from a point whose residuals meet every tolerance, after at most max(1, maxiter) evaluations; an Aitken step changes no component by more than the allowed ratio of it, and a dominant-eigenvalue step from two equal guesses is zero; the simple one jumps exactly to the limit of errors shrinking by one positive factor; an Anderson step keeps its histories aligned and within the window. acc_frequency 0 raises ZeroDivisionError and 1 IndexError. Anderson weights sum to one, or a zero sum raises. fixed_point_anderson_residual returns the start or a point one step away from a point whose residual sum is within every tolerance given, in fewer than maxiter iterations; residual_to_fixed_point undoes fixed_point_to_residual. (Findings: on a geometric sequence Aitken's step is taken from the two oldest differences and lands at L + c q^(k-2)(q^2-1) instead of the limit L, farther away than the newest point if q^2 < 1/2; the simple dominant-eigenvalue step has the wrong sign when the error alternates and doubles it; the Anderson step of fixed_point_anderson drops the weight of the newest residual, so that at a fixed point c it gives (1-w)c; its ytol is compared with the function values at the start in every iteration, so that no result is returned if these are larger, and with require_progress none after the first check; and its final check compares the last point with itself, so that an unconverged point is returned silently.)",
  "every objective (which may raise), coefficient solver, start, tolerance, damping, frequency, window and iteration limit", REAL,
  ["fluids/numerics/__init__.py:aitken_delta_squared_accelerate,fixed_point_aitken,gdem,fixed_point_gdem,compute_accelerated_step,anderson_step,fixed_point_anderson,fixed_point_anderson_residual,fixed_point_to_residual,residual_to_fixed_point"])
p("Iteration guards, one-sided secant and closeness assertions",
  "An OscillationChecker never raises; it answers True for a point exactly when the point is no root, values of both signs were seen at least twice, the last two values of one sign (with both_sides of each sign) differ by less than minimum_progress relative to the last, and no good enough value is the last of its sign; values that shrink by 1 + minimum_progress on each side are never flagged. A function wrapped with it returns the function's value or exception unchanged, or raises OscillationError in exactly that case. make_damp_initial damps exactly the first `steps` calls and make_max_step_initial limits exactly those, keeping the direction. A point returned by one_sided_secant lies off the flat region and meets ytol; a function that is flat exactly above t is never evaluated beyond the known flat point; straight lines are solved by the first step. assert_close with one tolerance zero passes exactly when |a-b| <= max(rtol max(|a|,|b|), atol); assert_close1d/2d/3d/4d pass exactly on equal shapes with every pair close. (Findings: fast growth on both sides is never called oscillating; the secant step of one_sided_secant can divide by zero; with both tolerances positive assert_close depends on the order of its arguments, and assert_close2d stops at the first pair accepted only by the fallback and passes whatever follows; with a negative tolerance it passes everything of one shape.)",
  "every sequence of points, option, function (which may raise), start, step sequence, tolerance and table", REAL,
  ["fluids/numerics/__init__.py:OscillationChecker,oscillation_checking_wrapper,make_damp_initial,make_max_step_initial,one_sided_secant,assert_close,assert_close1d,assert_close2d,assert_close3d,assert_close4d"])
p("Solar position algorithm: calendar, angles, refraction, transit",
  "The Julian day counts the dates of the Gregorian calendar from the year 1 on without gaps, agrees with the Unix time, and adds the time of the day. calculate_deltat changes formula with jumps of at most 0.26 s and increases month by month from 2005 on. Within a thousand years of 2000 the computed distance lies between 0.982 and 1.0183 au, the heliocentric longitude within 0.04 rad of uniform motion, the nutations below 0.0055 and 0.0029 degrees, the obliquity between 23.3 and 23.6 degrees and the declination within 23.61 degrees. Right ascension, declination, parallax, elevation and azimuth are exactly the angles of the rotated direction vectors, all reduced to their ranges; solar_position returns the direction from the observer to the sun, zeniths complementary to elevations and no error while the sun is above -5 degrees. The sun is highest at the meridian, where its altitude is 90 - |latitude - declination| and its azimuth 180 or 0. Refraction is positive and decreasing between the horizon and 89.89 degrees. transit_sunrise_sunset refuses times other than midnight UTC, interpolates between three days whose differences it keeps up to 2 degrees and otherwise reduces to [0, 1) by whole degrees, returns a transit within half a day of the day, and NaN for sunrise and sunset exactly where the sun does not cross the horizon. (Findings: julian_day_dt counts a microsecond as a second and loses count before the year 1; the refraction of a sun at the zenith is negative, and at -5.11 degrees it divides by zero although switched off; sunrise_sunset adds the UTC offset instead of subtracting it, so one instant on two clocks gives different days; a daily motion of a degree or more loses its whole degrees where the right ascension passes 360.)",
  "every date from the year 1, every moment within 950 years of 1970, every latitude, longitude, elevation up to 100 000 km, pressure and temperature", REAL,
  ["fluids/optional/spa.py:julian_day_dt,julian_day,calculate_deltat,heliocentric_radius_vector,heliocentric_longitude,heliocentric_latitude,longitude_obliquity_nutation,mean_ecliptic_obliquity,geocentric_sun_right_ascension,geocentric_sun_declination,topocentric_elevation_angle_without_atmosphere,atmospheric_refraction_correction,topocentric_azimuth_angle,equation_of_time,solar_position,transit_sunrise_sunset,earthsun_distance", "fluids/atmosphere.py:solar_position,sunrise_sunset,earthsun_distance"])
p("Solar irradiation of inclined surfaces, clear sky and air mass",
  "The angle of incidence lies between 0 and 180 degrees, is never an error, and its cosine is the projection. The irradiance in the plane of a surface is direct + sky + ground, the direct part the beam times the projection (at least zero), the sky part between zero and dhi, the ground part between zero and albedo*ghi; a horizontal surface receives exactly the global horizontal irradiance. The relative air mass is positive and below 140 for zenith angles from 0 to 96.08 degrees and NaN beyond. The clear-sky irradiances satisfy ghi = dhi + dni cos z, are not negative (the diffuse one for turbidities from log 2 on), vanish for a sun at or below the horizon, scale with the extraterrestrial irradiance, and the beam does not exceed it up to 5700 m and from turbidity 1 on. solar_irradiation then always succeeds with non-negative parts. The air mass of an atmosphere is the integral of the density straight up and does not decrease towards the horizon. (Findings: solar_irradiation computes the extraterrestrial irradiance of the day and never uses it, so the day and the method leave the result unchanged; every air mass model other than kastenyoung1989 ends in ValueError, the six others it recognises included; the relative air mass at the zenith is below 1.)",
  "every orientation of the surface, position of the sun, pressure, altitude, turbidity, albedo and density profile", REAL,
  ["fluids/optional/irradiance.py:aoi,aoi_projection,poa_components,get_ground_diffuse,get_sky_diffuse,get_relative_airmass,get_absolute_airmass,get_total_irradiance,isotropic,ineichen", "fluids/atmosphere.py:solar_irradiation,airmass,to_int_airmass,_get_extra_radiation_shim"])
p("Noise of control valves for liquids and gases",
  "For every liquid that flows through a valve without flashing, control_valve_noise_l_2015 succeeds and its level is that of the sum over the 33 third-octave bands of the sound powers of the standard (stream power times the efficiencies of turbulence and, above the incipient ratio, of cavitation, times their spectral shapes, times the transmission of the pipe wall and the A-weight). k times the flow or the air impedance raises the level by 10 log10 k, k times the wall density lowers it as much, An counts ten decibels per unit, and a thicker wall is strictly quieter. For every gas that expands through a valve, control_valve_noise_g_2011 succeeds and its level is again the sum of the powers of the bands, those of the flow leaving the valve included once the Mach number in the pipe exceeds 0.3. The jet is subsonic exactly up to xc, of Mach number above 1 beyond it and above sqrt 2 beyond xB; powers, frequencies and efficiencies are positive in all five regimes, and continuous at the onset of choking. The tabulated powers of the frequencies are right to 15 digits. (Findings: liquids that flash, P2 <= Psat, end in ZeroDivisionError or ValueError; the order x_vcc < xB the gas code relies on fails for valves of high recovery, e.g. k = 2 and FL = 1/2, where regime 3 is empty; the peak frequency drops from 1.414 to 1.4 at the onset of screech; the correction for small valves jumps by 0.95 dB at 0.15 m; rho_air is never read for gases, nor is T1 when T2 is given; no pressure drop raises ValueError for liquids and ZeroDivisionError for gases.)",
  "every flow, pressures, fluid properties, valve and pipe dimensions, recovery factors up to 1 and isentropic exponents from 1 to 8", REAL,
  ["fluids/control_valve.py:control_valve_noise_l_2015,control_valve_noise_g_2011,fis_l_2015,A_weights_l_2015"])
p("Double-double arithmetic is accurate to about 2^-103",
  "A double-double number is a pair of doubles whose first is the rounding of their sum. Under rounding to nearest (any rule for ties, no overflow or underflow) the sum and the product of two doubles are represented exactly by the pair the code computes. For all double-double numbers: the comparisons eq_dd ... ge_dd decide the order of the represented numbers; mul_dd, square_dd, cube_dd, div_dd and sqrt_dd return a double-double number within 9, 7, 17, 16 and 14 units of 2^-106 (relative) of the exact result; add_dd is within 4 units of 2^-106 (relative) when the terms have one sign and within 10 units of 2^-106 of the sum of the absolute values always; intpow_dd by a natural exponent n has a relative error that grows in proportion to n; division by zero raises ZeroDivisionError, the root of a negative number ValueError; cbrt_explicit_dd returns exactly what cbrt_dd returns.",
  "every rounding to nearest with 53 binary digits, every pair of double-double numbers and every natural exponent", REAL,
  ["fluids/numerics/doubledouble.py:eq_dd,ne_dd,lt_dd,gt_dd,le_dd,ge_dd,add_dd,mul_noerrors_dd,mul_dd,div_dd,sqrt_dd,square_dd,cube_dd,intpow_dd,cbrt_dd,cbrt_explicit_dd"])
p("Elementary and complex functions of double-double numbers",
  "With exact operations (rounding is treated by C126), for all arguments: exp_dd returns the exponential of the argument shifted by at most (|n|+1) 1e-33, n the integer nearest to the first part, and never fails; log_dd of a positive number is its logarithm within (|log r|+2) 1e-33 plus a term of third order in the ratio of the parts, and raises ValueError otherwise; pow_dd with an int exponent is intpow_dd and with any other exponent the exponential of the exponent times the logarithm; cbrt_dd, from a guess of the reciprocal root with residual d, returns a number whose cube is the argument within 3 d^2 (relative); complex sums and products of doubles are exact, and those of double-doubles lack only the product of the second parts; complex quotients and inverses of doubles are exact and ZeroDivisionError is raised for a zero divisor; the complex cube root is one Newton step from the guess. (Findings: the first step of cbrt_dd lacks the factor 1/3 and doubles the residual instead of squaring it; pow_dd with a float exponent that is a whole number raises TypeError; sqrt_imag_dd ignores the sign of the imaginary part: for numbers in the lower half-plane the square of the result is the conjugate, e.g. the root of 3-4i is given as 2+i.)",
  "every pair of real parts, every exponent, every guess and all complex numbers", REAL,
  ["fluids/numerics/doubledouble.py:exp_dd,log_dd,pow_dd,cbrt_dd,mul_imag_dd,mul_imag_noerrors_dd,sqrt_imag_dd,add_imag_dd,imag_inv_dd,div_imag_dd,cbrt_imag_dd"])
p("Weather records: averages, parsing, stations and cached addresses",
  "For every set of records and range of years, month_average_temperature and month_average_windspeed return for each month the mean, over the years in range with at least minimum_days values in that month, of the mean of these values, and raise ZeroDivisionError exactly when some month has no such year; the averages lie between the smallest and the largest value and do not depend on the order of the records; coldest_month and warmest_month are the first months of least and greatest average. gsod_day_parser reads every field of a complete line from its column and converts it to SI units, codes of missing data becoming None, and raises KeyError for a line that ends early. get_closest_station returns the first station in the order of distance whose records end after the given date, whatever match_max, and ValueError if there is none. geocode, after any history of calls, answers from the cache exactly when an address with the same key has been found before, and with the online answer for that address. heating_degree_days and cooling_degree_days are max(T - T_base, 0) and max(T_base - T, 0). (Findings: the default range None of the monthly averages always fails; 999.9 is a code of missing data in every column, so that a pressure of 999.9 mbar is lost; the distance of stations is Euclid's in degrees and does not cross the antimeridian; the STRING column of the cache is numeric in SQLite, so that the postal codes 02134 and 2134 share one entry; heating and cooling degree days are exchanged with respect to the usual terms.)",
  "every table of records, every range of years and minimum of days, every line of words, every list of stations, every history of geocode calls", REAL,
  ["fluids/design_climate.py:StationDataGSOD.month_average_temperature,StationDataGSOD.month_average_windspeed,StationDataGSOD.coldest_month,StationDataGSOD.warmest_month,gsod_day_parser,get_closest_station,SimpleGeolocatorCache,geocode,heating_degree_days,cooling_degree_days"])
p("Unit-aware calls agree with plain calls",
  "Calling a function of fluids.units with quantities in any units of the documented dimensions, by position or keyword, calls the plain function with the numbers of documented units and returns its result in the documented units; two calls with the same values in different units return the same, or fail alike. A quantity of another dimension raises ValueError, a bare number where a unit is documented TypeError, an undocumented keyword KeyError. Numbers, lists, tuples and dictionaries of results get the unit documented at their place or name. The solvers whose result is whichever variable is missing return it in the documented unit of that variable, and their tables hold exactly these calls. The documented unit is the last bracketed group of the description of a variable. Attributes of unit-aware objects come in their documented unit, None as None. (Findings: a parameter documented as dimensionless takes quantities of any dimension; positional arguments beyond the documented ones and results beyond the documented units are dropped without an error; differential_pressure_meter_solver without k succeeds plainly and raises KeyError in fluids.units.)",
  "every function and documentation, all arguments, units and registries with affine units", REAL,
  ["fluids/units.py:convert_input,convert_output,wraps_numpydoc,kwargs_to_args,variable_output_wrapper,variable_output_unit_funcs,parse_numpydoc_variables_units_docstring,UnitAwareClass"])
p("Chebyshev interpolants represent the sampled polynomial",
  "The transforms of fluids.optional.pychebfun between values at the Chebyshev points and coefficients are inverse to each other for every length. Calling an interpolant gives, at every point, the value of the Chebyshev series of its coefficients in the variable mapped from its domain, and its given values at the interpolation points. A function built from coefficients without pruning is their series exactly; with pruning it differs on the domain by at most 128*2^-52 times the scale for each coefficient. Sampling with N a polynomial of degree at most N reproduces it to that accuracy. The sum is the integral over the domain, differentiate the n-th derivative, integrate the integral from the left end, addition the sum of the functions, each up to pruning. For three or more coefficients and a nonzero last one the eigenvalues searched by roots are exactly the complex zeros of the series. (Findings: roots of a straight line, two coefficients, raises IndexError; the pruning scale is 1 whatever the function, so a function whose coefficients are all below 128*2^-52 becomes a constant.)",
  "all lists of values or coefficients of every length, all domains, all points, all orders of differentiation, all complex numbers", REAL,
  ["fluids/optional/pychebfun.py:Chebfun,Polyfun,even_data,dct"])
p("The common solver interface adapts representations and counts evaluations",
  "The solver interface of fluids.numerics lets any solver use a function written for lists or for arrays. For every configuration, a system is seen by the solver as the residuals, in the representation of the point it asks at, or as their sum of squares when a scalar is minimised; the point reaches the function in the representation it was written for. A jacobian or hessian by differences is what the named scheme computes from that same function, in the representation of the point, and its evaluations are counted apart from those of the solver. The analytical method calls the given jacobian once and returns its rows; when minimising, the gradient is that of the sum of squares. A solve returns what the named solver returns, in the representation of the starting point, and the counters are the numbers of evaluations made in it. The residual norm is zero exactly at a solution. (Findings: a scalar objective written for arrays is handed a list by the default jacobian and hessian schemes; the name jacobi_backward runs forward differences; the gradient formed from lists for a system that is not square raises IndexError or is truncated; an unknown method raises UnboundLocalError.)",
  "all configurations of the interface, all functions and jacobians of either representation, all difference schemes and solvers as interaction trees of every depth, all points", REAL,
  ["fluids/numerics/__init__.py:SolverInterface,residual_to_fixed_point,newton_err,basic_damping"])
p("Numerical helpers: signs of polynomials, outliers, Lambert function, difference weights, repeated integrals, combinations, bilinear splines",
  "The numerical helpers do what their names say. A polynomial said to be positive is nonnegative on the whole interval, or everywhere when no interval is given, provided the roots handed to it contain the real ones and are further apart than the perturbation; one said not to be is negative within the perturbation of the interval. The outliers found are exactly the positions of the values further from the mean than the given number of standard deviations, and there are at most n / cutoff squared of them. The Lambert function returns, to the tolerance, the solution of w e^w = y on the branch asked for. Generated central difference weights are exact for all polynomials of degree below the number of points, and so is the derivative using them. The double integral is the iterated one. The combinations of r out of n positions are all increasing choices, each once, in dictionary order. The linear spline made of a table is its bilinear interpolant in every cell, clamped outside, and returns the table at its points. (Findings: 1 - x on the interval from 0 to 1 is answered not positive; with the default cutoff no data of ten or fewer values have an outlier; nquad over more than one range never returns a value; combinations of nothing yield nothing instead of one empty choice.)",
  "all polynomials and intervals, all data and cutoffs, all arguments and branches, all orders and odd numbers of points, all integrands, all pools and sizes, all tables with increasing abscissas and all points", REAL,
  ["fluids/numerics/__init__.py:detect_outlier_normal,central_diff_weights,is_poly_positive,is_poly_negative,py_lambertw,nquad,dblquad,tck_interp2d_linear", "fluids/numba.py:combinations"])
p("Interpolated and custom size distributions, meshes and fits",
  "A distribution interpolated from data passes through them: at every class boundary the cumulative distribution is the sum of the fractions below it, it starts from zero, never decreases, never exceeds one and is one from the largest size on; the density is nonnegative and integrates to its increase between any two sizes. The interpolated form of measured data has their volume fractions. The weighted integrals it caches do not depend on the history of queries, nor do the mean sizes, as long as all orders asked for are whole. The moments of a custom distribution are the integrals of its density weighted with the power of the size, its truncation goes from zero to one over the bounds given, and its mean sizes lie between them. A mesh without bounds begins and ends at the sizes below and above which the limit lies. The objective of a fit to classes is zero exactly if the distribution has the measured fraction in every class, and a fit minimises it over the parameters of the class named. (Findings: a query of an order that is not whole replaces the cached integral of the order truncated to a whole number, so a later mean size can exceed the largest particle; sizes starting with zero leave the smallest size unset and percentiles and means raise AttributeError; a fit to fractions at sizes compares each with the share above its size instead of below; the order given to a fit is never used.)",
  "all sizes and fractions, all interpolations with the stated properties, all histories of queries of any length, all densities, orders, bounds and limits, all minimisers", REAL,
  ["fluids/particle_size_distribution.py:PSDInterpolated,PSDCustom,ParticleSizeDistribution,ds_discrete,fit"])
p("Wetted areas of horizontal ellipsoidal and torispherical heads are surface areas",
  "For every depth of liquid, the wetted area reported for a horizontal ellipsoidal head is the surface integral of the ellipsoid over the wetted part of the end disk; for a horizontal torispherical head at most half full it is the area of the wetted part of the torus knuckle, plus the area of the wetted part of the spherical crown once the liquid reaches it. The closed forms used inside (a complete elliptic integral, an arctangent, an antiderivative evaluated through complex numbers) are the exact inner integrals. (Findings: on the axis the closed form of the knuckle divides by zero and silently answers 0, so the code must integrate twice in a band around half full; at the edge of the crown the antiderivative always divides by zero and is evaluated a part in 10^14 further on, which gives the exact value unless the crown is nearly a hemisphere.)",
  "every diameter, head depth and liquid depth of an ellipsoidal head; every diameter, dish radius f > 1/2, knuckle radius 0 < k < 1/2 and every depth up to the axis except the top of the knuckle of a torispherical head whose crown is not within 1e-13 of a hemisphere", REAL,
  ["fluids/geometry.py:SA_partial_horiz_ellipsoidal_head,_SA_partial_horiz_ellipsoidal_head_to_int,SA_partial_horiz_torispherical_head,_SA_partial_horiz_torispherical_head_int_1,_SA_partial_horiz_torispherical_head_int_2,_SA_partial_horiz_torispherical_head_int_3"])
p("The pressure difference of a column of air is the weight of the air in it",
  "The pressure difference of an elevation change, from a base given by its temperature and pressure, is the integral of gravity times density between the elevation whose standard pressure is the given one and that elevation plus the change, the density being that of an ideal gas at standard pressure and the standard temperature offset by the base's deviation. At standard conditions, within a layer of the atmosphere, it is the difference of the standard pressures of the two elevations; it is positive upwards, negative downwards and zero for no change, and a warmer column weighs less. A solver's failure and a temperature below absolute zero are reported.",
  "every base temperature and pressure, every elevation change and every answer of the solver above the centre of the earth; equality with the standard pressures and signs within a layer", REAL,
  ["fluids/atmosphere.py:ATMOSPHERE_1976.pressure_integral,to_int_dP_ATMOSPHERE_1976,H_for_P_ATMOSPHERE_1976_err"])
p("Chebyshev series convert to ordinary polynomials without changing value",
  "Converting a Chebyshev interpolant, or Chebyshev coefficients with a domain, to an ordinary polynomial gives coefficients whose Horner evaluation equals the Chebyshev series at every point, in the variable of the domain or, for the other conversion, in the mapped variable; the expression written as text evaluates to the same. There are never more coefficients than in the series, and the first is nonzero unless it is the only one. The constant and factor of the range simplifier map the limits to -1 and 1. A missing domain, no coefficients and a domain without length are errors. (Finding: the conversion to the mapped variable does not notice a domain without length unless text is asked for.)",
  "every interpolant, every coefficient list and every domain", REAL,
  ["fluids/optional/pychebfun.py:chebfun_to_poly,cheb_to_poly,cheb_range_simplifier"])
p("Least squares and null spaces",
  "Given a singular value decomposition as numpy documents it and a cutoff that discards only zero singular values, gelsd returns a vector that minimises the sum of squared residuals over all vectors and is the shortest of all minimisers; the rank it reports is the number of singular values above the cutoff, and for a tall matrix of full rank, or of rank 0, the residual it reports is the sum of squared residuals. null_space returns orthonormal columns that the matrix maps to zero and of which every vector the matrix maps to zero is a combination. A right-hand side of another length is a ValueError. (Findings: for a wide, square or rank-deficient matrix the residual is reported as 0 even if the system has no solution; the branch for a matrix without rows but with columns cannot be reached.)",
  "every matrix and right-hand side, every cutoff that separates the zero singular values, every decomposition meeting numpy's contract", REAL,
  ["fluids/numerics/arrays.py:gelsd,null_space,svd"])
p("Shapes of nested lists and arrays of one value",
  "shape returns the dimensions of a consistent nested list, up to the first zero dimension and the first eleven, so exactly the dimensions if there are at most eleven and none is zero; of a number it is a TypeError. zeros and full build an array of one to four dimensions with exactly the dimensions asked for, negative ones as zero, and the value in every place, truncated towards zero for integers; other shapes and types of number are a ValueError. Asking for the shape of an array so built gives the dimensions back if none is zero. (Finding: the shape of an array of shape (0, 3) is reported as (0,).)",
  "every consistent nesting of lists of any depth and sizes; every shape, type and value", REAL,
  ["fluids/numerics/arrays.py:shape", "fluids/numerics/__init__.py:zeros,full"])
p("The dilogarithm for entropy integrals",
  "polylog2 returns a positive value below 1.64493 for every argument from 0 to 1, no denominator vanishing there, and is a ValueError elsewhere. It increases strictly on the whole interval, across the two changes of coefficients too. From 0.00002 to 0.7 its error relative to the dilogarithm is below the documented 1e-7. (Finding: the documented bound is said to hold from 0, but up to 0.00001 the relative error is above it, and at 0 the value is positive where the dilogarithm is 0.)",
  "every real argument", REAL,
  ["fluids/numerics/__init__.py:polylog2"])
