from props_a import p, P, REAL
p("friction_factor: listed methods are all usable; regimes and Fanning scaling",
  "friction_factor is 64/Re for Re below 2040 whatever the method; every method named by friction_factor_methods(Re,eD,check_ranges) is accepted by friction_factor; the default method is always available and never fails up to eD 0.05; (Finding: listed methods can still fail - Rao_Kumar_2007 divides by zero for every smooth pipe, Serghides_1 at one smooth-pipe Re); Darcy=False is exactly a quarter; unknown turbulent methods raise ValueError.",
  "all Re, eD, methods and flags", REAL, ["fluids/friction.py:friction_factor,friction_factor_methods,fmethods,friction_laminar"])
p("Colebrook (Lambert W form) solves the Colebrook equation",
  "The closed form returned by Colebrook satisfies 1/sqrt(f) = -2 log10(eD/3.7 + 2.51/(Re sqrt f)) whenever the Lambert W routine is exact; the equation has no other positive solution; Prandtl_von_Karman_Nikuradse solves its own equation and is the eD=0 / f-form limit.",
  "all Re>0, eD>=0", REAL, ["fluids/friction.py:Colebrook,Prandtl_von_Karman_Nikuradse"])
p("Documented friction correlations are the documented formulas",
  "Blasius, Swamee_Jain_1976, Haaland, Jain, Wood, Moody, Alshul, ... return the formula printed in their documentation, although the code uses folded constants and refactored subexpressions.",
  "all Re>0, eD>=0", REAL, ["fluids/friction.py"])
p("transmission_factor is an involution between fd and F",
  "transmission_factor(fd=f) and transmission_factor(F=.) invert each other; with neither argument it raises ValueError.",
  "all positive factors", REAL, ["fluids/friction.py:transmission_factor"])
p("Pressure-drop helpers decompose consistently",
  "one_phase_dP equals dP_from_K(K_from_f(...)) with the velocity of the pipe; one_phase_dP_acceleration changes sign when the ends are exchanged and, at constant density, is additive along the pipe (Finding: with varying density it is not additive, nor the printed difference of kinetic energies, because it uses a mean density); gravitational drop is additive in L and odd in angle.",
  "all real inputs", REAL, ["fluids/friction.py:one_phase_dP,one_phase_dP_acceleration,one_phase_dP_gravitational", "fluids/core.py:K_from_f,dP_from_K"])
p("friction_factor_curved and helical dispatch",
  "friction_factor_curved uses the straight laminar or turbulent formula consistent with helical_Re_crit, all methods it lists are accepted, Darcy=False quarters the result.",
  "all Re, Di, Dc", REAL, ["fluids/friction.py:friction_factor_curved,friction_factor_curved_methods,helical_Re_crit"])
# --- fittings ---
p("change_K_basis is a group action of diameters",
  "Changing the basis from D1 to D2 and on to D3 equals changing directly from D1 to D3; D1 to D1 is the identity; the pressure drop computed with the mean velocity in the corresponding pipe is unchanged.",
  "all positive diameters", REAL, ["fluids/fittings.py:change_K_basis"])
p("Flow coefficient conversions commute and invert",
  "Kv_to_Cv/Cv_to_Kv, Kv_to_K/K_to_Kv, Cv_to_K/K_to_Cv are mutually inverse, the triangle K-Kv-Cv commutes, and convert_flow_coefficient between Kv, Cv, Av agrees with them; other scales raise NotImplementedError.",
  "all positive values and diameters", REAL, ["fluids/fittings.py:Kv_to_Cv,Cv_to_Kv,Kv_to_K,K_to_Kv,K_to_Cv,Cv_to_K", "fluids/control_valve.py:convert_flow_coefficient"])
p("Contractions and diffusers vanish at equal diameters and stay nonnegative",
  "contraction_sharp, contraction_conical_Crane, diffuser_sharp, diffuser_conical_Crane give K = 0 when both diameters agree and K >= 0 for admissible ratios; diffuser_sharp is (1-beta^2)^2; length and angle specifications of the same cone give the same K. (Finding: diffuser_conical_Crane uses Di1-Di2 in the angle, so with a length it returns a negative K.)",
  "all diameter ratios and angles", REAL, ["fluids/fittings.py:contraction_sharp,contraction_conical_Crane,diffuser_sharp,diffuser_conical_Crane,diffuser_conical_staged"])
p("Crane valve coefficients reduce to the full-bore value",
  "K_globe_valve_Crane, K_angle_valve_Crane, K_gate_valve_Crane, K_ball_valve_Crane, ... with beta = 1 equal the full-bore constant times ft, and the reduced-bore formula tends to the same value; unsupported style/angle raise ValueError. (Findings: K_gate_valve_Crane with angle 0 is a division by zero; v_lift_valve_Crane raises UnboundLocalError for styles whose bore ratio it forgot.)",
  "all diameters and styles", REAL, ["fluids/fittings.py:K_globe_valve_Crane,K_angle_valve_Crane,K_gate_valve_Crane,K_ball_valve_Crane"])
p("Fitting dispatchers accept every documented method and reject others",
  "entrance_*, bend_rounded, bend_miter, contraction_*, diffuser_conical accept exactly the documented method names with the documented required arguments and raise ValueError otherwise. (Finding: bend_rounded with method Crane and an explicit rc is rejected unless rc is five diameters or bend_diameters is also given.)",
  "all methods and argument patterns", "All combinations of optional arguments.", ["fluids/fittings.py:entrance_sharp,entrance_distance,entrance_rounded,entrance_beveled,bend_rounded,bend_miter,contraction_conical,diffuser_conical"])
# --- control valve ---
p("Choke pressure and choke predicate agree",
  "control_valve_choke_P_l / _g give the pressure at which is_choked_turbulent_l / _g flips; computing P2 from P1 and back returns P1 (FL != 1; Finding: FL = 1 raises ZeroDivisionError in that direction); giving both or neither pressure raises ValueError; the cavitation index is above one exactly when the outlet is above the vapor pressure and falls with the outlet pressure.",
  "all positive pressures and coefficients", REAL, ["fluids/control_valve.py:control_valve_choke_P_l,control_valve_choke_P_g,is_choked_turbulent_l,is_choked_turbulent_g"])
p("Turbulent control-valve sizing satisfies the IEC flow equation",
  "size_control_valve_l / _g (no piping correction) return the Kv for which the IEC sizing equation gives back Q, using the choked pressure drop exactly when choked; with diameters, the recursion on piping factors ends within its limit and returns the piping-corrected equation, and the laminar recursion ends for every input and returns a Kv sufficient for Q. (Findings: without full_output an unconverged liquid sizing raises NameError; the FP and FLP reported are those of the first iterate.)",
  "all positive inputs", REAL, ["fluids/control_valve.py:size_control_valve_l,size_control_valve_g,Reynolds_factor,loss_coefficient_piping"])
# --- safety valve ---
p("API 520 coefficients are bounded, monotone and continuous",
  "API520_C at k=1 is the limit of its formula to the printed decimals; API520_Kv is in (0,1] and non-decreasing in Re; API520_W and API520_B are non-increasing in back pressure and within their tabulated ranges, API520_W without a jump at its switch-over; API520_N is 1 up to 10339 kPa; API520_F2 is in (0,1]. (Findings: API520_B jumps at its switch-over and API520_N at 10339 kPa.)",
  "all admissible real inputs", REAL, ["fluids/safety_valve.py:API520_C,API520_Kv,API520_W,API520_B,API520_N,API520_F2"])
p("API 520 required area is linear in flow and inverts the discharge equation",
  "API520_A_g/A_steam/A_l scale linearly in mass flow, scale inversely in each capacity factor, and API520_A_g uses the critical equation exactly when is_critical_flow holds, the two gas equations agreeing to 0.06% at the critical pressure. (Findings: API520_A_l without Kv and mu raises TypeError; API520_A_g at k=1 raises ZeroDivisionError.)",
  "all positive inputs", REAL, ["fluids/safety_valve.py:API520_A_g,API520_A_steam,API520_A_l"])
# --- flow meter ---
p("Discharge coefficient and loss coefficient conversions are inverse and consistent with the pressure recovery formula",
  "K_to_discharge_coefficient inverts discharge_coefficient_to_K; K * (rho V^2/2) in the pipe equals dP_orifice for the flow that flow_meter_discharge computes; the flow coefficient is the discharge coefficient times the velocity of approach factor, which is at least one and needs a throat narrower than the pipe.",
  "all D > Do > 0, C in (0,1], pressures P1 > P2", REAL, ["fluids/flow_meter.py:discharge_coefficient_to_K,K_to_discharge_coefficient,dP_orifice,flow_meter_discharge"])
p("Expansibility factors are one at zero pressure drop and lie in (0,1]",
  "orifice_expansibility, orifice_expansibility_1989 and nozzle_expansibility equal 1 at P1 = P2 and do not exceed 1 for P2 <= P1; the k = 1 branch of nozzle_expansibility is the limit of the general formula as k tends to 1, and its zero-pressure-drop branch is the limit as P2 tends to P1. (Finding: with k = 1 and P1 = P2 nozzle_expansibility raises ZeroDivisionError, and with k = 1 it ignores an explicitly supplied diameter ratio, so the wedge meters get the value for another geometry.)",
  "all admissible inputs", REAL, ["fluids/flow_meter.py:orifice_expansibility,orifice_expansibility_1989,nozzle_expansibility"])
p("Flow meter dispatch is total on the advertised meters",
  "Every meter type in the module's list is accepted by beta computation and C/epsilon computation; other names raise ValueError; specified C or epsilon override the correlation; the solver only accepts exactly one unknown among m, P1, P2, D2 and what it returns satisfies the meter equation. (Finding: without tap arguments the Miller concentric, eccentric and segmental orifices and the generic segmental orifice raise ValueError, even if C is specified; differential_pressure_meter_dP supports every meter except the venturi nozzle and the unspecified meter.)",
  "all meter types and argument patterns", "All combinations.", ["fluids/flow_meter.py:differential_pressure_meter_beta,differential_pressure_meter_C_epsilon,differential_pressure_meter_solver,differential_pressure_meter_dP"])
p("Diameter-ratio helpers invert the area they describe",
  "diameter_ratio_cone_meter and diameter_ratio_wedge_meter return the beta whose square is the open-area fraction of the obstructed pipe. Miller's discharge coefficient of a wedge meter is linear in that fraction, with its three sets of constants by pipe size, and decreases as the gap grows.",
  "all admissible geometry", REAL, ["fluids/flow_meter.py:diameter_ratio_cone_meter,diameter_ratio_wedge_meter"])
# --- geometry ---
p("Liquid volume in heads is the integral of the wetted cross-section",
  "V_vertical_conical, _ellipsoidal, _spherical, _torispherical, their concave versions, V_partial_sphere, V_horiz_ellipsoidal etc. equal the integral of the cross-section area from the bottom to h; they are 0 at h=0, continuous and nondecreasing in h, continuous where the head joins the shell.",
  "all geometries and all fill heights", REAL, ["fluids/geometry.py:V_partial_sphere,V_vertical_conical,V_vertical_ellipsoidal,V_vertical_spherical,V_vertical_torispherical,V_horiz_ellipsoidal,V_horiz_spherical,V_vertical_conical_concave,V_vertical_spherical_concave,V_vertical_ellipsoidal_concave"])
p("Tank volume: V_from_h is 0 empty, V_tank full, monotone",
  "V_from_h(0) = 0, V_from_h(h_max) = V_tank for the same geometry, V_from_h is nondecreasing in h for every supported combination of heads and orientation, and unsupported heads raise ValueError.",
  "all tanks and fill heights", REAL, ["fluids/geometry.py:V_from_h,V_tank,TANK"])
p("Circular segments: area formula equals integral of chord",
  "A_partial_circle(D,h) equals the integral of the chord width, is 0 at 0, pi D^2/4 at D, symmetric about the centre, strictly increasing and therefore uniquely inverted by circle_segment_h_from_A.",
  "all D>0, 0<=h<=D", REAL, ["fluids/geometry.py:A_partial_circle,circle_segment_h_from_A"])
p("Partial surface areas agree with full areas",
  "SA_partial_sphere, SA_partial_vertical_*_head and SA_partial_horiz_*_head give 0 at 0 and the full head's area when full (for horizontal ellipsoidal and guppy heads, which integrate elliptic integrals, only 0 when empty and no growth above the diameter is claimed); SA_tank is the sum of its parts and SA_from_h of a full vertical tank equals it; the wetted wall of a horizontal cylinder is 0 when empty, the whole wall when full and rises with the depth by the arc elements at the liquid's edge. (Findings: a horizontal guppy head with a = D/2 takes the half-sphere shortcut; horizontal spherical heads deeper than D/2 get the smaller complementary cap; the torispherical function never returns exactly at the knuckle's end.)",
  "all geometries", REAL, ["fluids/geometry.py:SA_partial_sphere,SA_partial_vertical_conical_head,SA_partial_vertical_spherical_head,SA_partial_horiz_conical_head,SA_tank"])
p("HelicalCoil: any two of N, pitch, H_total determine the same coil",
  "Constructing a HelicalCoil from (N,pitch), (N,H) or (pitch,H) of an existing coil gives identical derived attributes; a pitch below the tube diameter worked out from (N,H) or given with H raises ValueError; under-specification raises ValueError. (Finding: (N,pitch) is not checked, so colliding turns are accepted that way.)",
  "all coils", REAL, ["fluids/geometry.py:HelicalCoil"])
p("pitch_angle_solver reconstructs a consistent triple",
  "Any two of (angle, pitch, pitch_parallel, pitch_normal) of a consistent tube layout reproduce the other two; fewer raise ValueError.",
  "all angles in (0,90) and pitches", REAL, ["fluids/geometry.py:pitch_angle_solver"])
p("Hyperbolic cooling tower profile passes through its design diameters",
  "HyperbolicCoolingTower.diameter(H) equals D_inlet, D_throat, D_outlet at the respective heights and D_base at 0; D_inlet and D_base specifications are equivalent; diameter is never below the throat diameter.",
  "all towers and heights", REAL, ["fluids/geometry.py:HyperbolicCoolingTower"])
p("Drilled cylinders: area and volume are additive over holes",
  "V_multiple_hole_cylinder and A_multiple_hole_cylinder equal the solid minus/plus the contribution of each hole, are independent of the order of holes, and with one hole agree with the hollow cylinder.",
  "all lists of holes", "Unbounded number of holes.", ["fluids/geometry.py:V_multiple_hole_cylinder,A_multiple_hole_cylinder,A_hollow_cylinder,V_hollow_cylinder,A_cylinder,V_cylinder"])
# --- atmosphere ---
p("US standard atmosphere layers join and satisfy hydrostatics",
  "The layer chosen for altitude Z is the one containing the geopotential height; temperature is continuous across every layer boundary; within each layer the pressure satisfies dP/dH = -g0 M P/(R T) and is strictly decreasing; a temperature offset leaves pressure unchanged; out-of-range altitudes are clamped to layer 0 or the top layer.",
  "all altitudes and offsets", REAL, ["fluids/atmosphere.py:ATMOSPHERE_1976"])
# --- PSD ---
p("Particle size distribution functions are genuine distributions",
  "For Gates-Gaudin-Schuhmann, Rosin-Rammler and lognormal distributions the cdf is 0 at 0, nondecreasing, continuous, bounded by 1 and tends to 1, and its derivative is the pdf; truncated distributions are 0 up to d_min and 1 from d_max on; asked in another basis they are the distribution reweighted by a power of the size; interval fractions are additive, fractions of ascending sizes are nonnegative and add up to the cdf of the largest, and a percentile has the cumulative value asked for. (Findings: Gates-Gaudin-Schuhman raises AttributeError with d_max, ZeroDivisionError in a lower basis and exceeds 1 in a higher one; truncated distributions in another basis return negative cumulative values.)",
  "all sizes and parameters", REAL, ["fluids/particle_size_distribution.py:pdf_Gates_Gaudin_Schuhman,cdf_Gates_Gaudin_Schuhman,pdf_Rosin_Rammler,cdf_Rosin_Rammler,ParticleSizeDistributionContinuous"])
p("psd_spacing returns ascending sizes within range; discrete PSD fractions sum to one",
  "Sieve spacings are, in ascending order, exactly the openings of the named series within [d_min,d_max]; logarithmic, linear and Renard spacings are ascending progressions of the points asked for; a discrete distribution's number, length and area fractions sum to one whatever it was given, its volume fractions too, and rebuilding it from its own fractions in any basis gives the same object. (Finding: from cumulative volume values at sizes instead of classes the first value is dropped and the volume fractions do not sum to one.)",
  "all ranges and lists", "Unbounded lists.", ["fluids/particle_size_distribution.py:psd_spacing,ParticleSizeDistribution"])
# --- two phase ---
p("Void fraction correlations stay in [0,1]",
  "For a gas no denser than the liquid, every void fraction correlation except four returns a number in [0,1] for qualities in (0,1), and homogeneous handles 0 and 1 exactly; the slip-ratio models return the fraction of their documented slip ratio, and all models with slip ratio or distribution parameter at least one stay below the homogeneous value. (Finding: Tandon_Varma_Gupta and Harms exceed 1 at small Reynolds numbers, Domanski_Didion is negative for Lockhart-Martinelli parameters above 189, Kopte_Newell_Chato is negative at large Froude rates, and Sun_Duffey_Peng exceeds 1 above the critical pressure.)",
  "all qualities and densities", REAL, ["fluids/two_phase_voidage.py"])
p("Void fraction dispatch is total on listed methods",
  "Every method reported usable by liquid_gas_voidage_methods for a set of supplied arguments is dispatched by liquid_gas_voidage with all its required arguments present; unknown names raise ValueError; missing arguments raise.",
  "all 29 methods and all argument presence patterns", "2^n presence patterns.", ["fluids/two_phase_voidage.py:liquid_gas_voidage,liquid_gas_voidage_methods,gas_liquid_viscosity,gas_liquid_viscosity_methods"])
p("Two-phase density/void fraction inversion and viscosity bounds",
  "density_two_phase and two_phase_voidage_experimental invert each other; each mixture viscosity model returns the liquid value at x=0 and the gas value at x=1; McAdams, Cicchitti, Lin_Kwok and Duckler lie between the phase viscosities. (Finding: Beattie_Whalley and Fourar_Bories do not: for two phases with identical properties they return up to 1.625 and 2 times the common viscosity, and these factors are the sharp bounds.)",
  "all qualities and positive properties", REAL, ["fluids/two_phase_voidage.py:density_two_phase,two_phase_voidage_experimental,McAdams_mu,Cicchitti,Dukler,Lin_Kwok,Beattie_Whalley,Fourar_Bories,Duckler"])
# --- open flow, mixing, etc ---
p("Manning and Chezy are interchangeable",
  "n_Manning_to_C_Chezy and C_Chezy_to_n_Manning invert each other and V_Chezy with the converted coefficient equals V_Manning.",
  "all positive inputs", REAL, ["fluids/open_flow.py:V_Manning,V_Chezy,n_Manning_to_C_Chezy,C_Chezy_to_n_Manning"])
p("Demister and Watkins separator K correlations are bounded",
  "K_separator_demister_York is the documented correlation at the pressure limited to 1..5500 psia, for every pressure lies between 0.185 and 0.351 ft/s, rises to 15 psia, is constant to 40 psia and then falls; K_separator_Watkins is positive for every method and depends only on the flow parameter; v_Souders_Brown inverts to K. (Finding: the York correlation jumps at 15 and 40 psia.)",
  "all pressures", REAL, ["fluids/separator.py:K_separator_demister_York,v_Souders_Brown"])
p("Saltation velocities satisfy their defining correlation",
  "Rizk, Matsumoto_1974/1975/1977, Schade, Weber_saltation and Geldart_Ling return the velocity for which the documented loading-Froude relation holds.",
  "all positive inputs", REAL, ["fluids/saltation.py"])
p("Unit constants are exact compositions",
  "The module's derived unit constants (foot, yard, mile, psi, hp, gallon, ...) equal their definitions in terms of the base constants.",
  "the whole constants table", "Tests compare to a few literals; consumers rely on relations among all of them.", ["fluids/constants/__init__.py"])
p("VFD/motor helper functions decision logic",
  "current_ideal accepts only one- and three-phase supplies; VFD_efficiency clamps at its table ends; speed_synchronous and specific_speed follow their definitions; motor_efficiency_underloaded is capped at 1 relative load.",
  "all inputs", REAL, ["fluids/pump.py"])
