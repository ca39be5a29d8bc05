{"id": "C01", "title": "Operation mode is always a legal single mode", "statement": "Starting from the initial conditions, at every step of every run each room's operation mode is one of HEATING, COOLING, STOP_OPEN, STOP_CLOSE; the mode update never raises and never yields HEATING_AND_COOLING; and a room without air-conditioning demand in a step is STOP_CLOSE in that step.", "quantifier": "every number of steps, every sequence of demands and PMV triples, every room", "why_tests_cant": "The claim is an invariant over unbounded runs; tests only visit a few transitions.", "anchors": ["heat_load_calc/core/ot_target_pmv.py:get_operation_mode_i_n", "heat_load_calc/core/conditions.py:initialize_conditions"]}
{"id": "C02", "title": "Operation mode follows the published hysteresis rule", "statement": "With demand, the next mode equals the specification table: heating continues while PMV(heavy)<=0.7, cooling continues while PMV(light)>=-0.7, a stopped room starts cooling at PMV(light)>=0.7, heating at PMV(heavy)<=-0.7 (cooling has priority), and windows open at PMV(middle)>=0 / close at PMV(middle)<=0.", "quantifier": "every previous mode and all real PMV values, including boundary values", "why_tests_cant": "Real-valued thresholds with ties; tests sample them.", "anchors": ["heat_load_calc/core/ot_target_pmv.py:get_operation_mode_i_n"]}
{"id": "C03", "title": "Heating only when cold, cooling only when warm", "statement": "Whenever a step ends in HEATING the room's PMV in heavy clothing is at most 0.7, whenever it ends in COOLING its PMV in light clothing is at least -0.7; a room that was stopped only starts heating at PMV(heavy)<=-0.7 and cooling at PMV(light)>=0.7; and a room cooler than 34.07 degC operative temperature never satisfies a cooling start and a heating start at the same time.", "quantifier": "every reachable mode, all real PMVs / temperatures / humidities", "why_tests_cant": "Needs the monotonicity of PMV in clothing over all temperatures.", "anchors": ["heat_load_calc/core/ot_target_pmv.py:get_operation_mode_i_n", "heat_load_calc/core/ot_target_pmv.py:get_pmv_is_n"]}
{"id": "C04", "title": "Target operative temperature realises the target PMV", "statement": "For every room that is heated (cooled), the PMV computed by the program at room air temperature = operative temperature = the target operative temperature returned for that room is exactly -0.5 (+0.5); rooms that are neither have target 0.", "quantifier": "all humidities, all positive heat-transfer coefficients, every clothing value used", "why_tests_cant": "Identity over the reals between two separately coded formulas.", "anchors": ["heat_load_calc/core/ot_target_pmv.py:get_theta_ot_target", "heat_load_calc/core/ot_target_pmv.py:get_pmv_is_n"]}
{"id": "C05", "title": "PMV is strictly monotone", "statement": "With the constant heat-transfer coefficients used by the program PMV strictly increases with room air temperature, with mean radiant temperature and with vapour pressure.", "quantifier": "all reals", "why_tests_cant": "Universally quantified inequality.", "anchors": ["heat_load_calc/core/ot_target_pmv.py:_get_h_hum_and_pmv", "heat_load_calc/core/ot_target_pmv.py:get_pmv_is_n"]}
{"id": "C06", "title": "Heating set point lies below cooling set point", "statement": "For the same indoor humidity the heating target operative temperature (heavy clothing, PMV -0.5) is strictly below the cooling target (light clothing, PMV +0.5).", "quantifier": "all vapour pressures in the physical range", "why_tests_cant": "Inequality between two rational functions of a real parameter.", "anchors": ["heat_load_calc/core/ot_target_pmv.py:get_theta_ot_target", "heat_load_calc/core/ot_target_pmv.py:get_clo_is_n", "heat_load_calc/core/ot_target_pmv.py:get_pmv_target_is_n"]}
{"id": "C07", "title": "Computed loads and operative temperatures solve the room equations", "statement": "Whenever the load calculation returns (theta, Lc, Lr), the simultaneous equations BRM_ot theta = Lc + BRL_ot Lr + BRC_ot hold in every room, whatever the modes, targets, demands and radiative capacities.", "quantifier": "any number of rooms, all real coefficient matrices and vectors, all modes", "why_tests_cant": "Linear-algebra identity for all sizes; includes the second pass after capacity limitation.", "anchors": ["heat_load_calc/core/next_condition.py:calc_next_temp_and_load", "heat_load_calc/core/next_condition.py:get_load_and_temp"]}
{"id": "C08", "title": "No load where nothing runs", "statement": "A room that is neither actually heated nor actually cooled (mode not HEATING with natural temperature below the lower target, nor COOLING with natural temperature above the upper target) gets exactly zero convective and zero radiative load; with nobody conditioned the operative temperatures are the natural ones.", "quantifier": "any number of rooms, all inputs with non-negative capacities", "why_tests_cant": "Depends on both passes and on other rooms' limitation.", "anchors": ["heat_load_calc/core/next_condition.py:calc_next_temp_and_load"]}
{"id": "C09", "title": "Set point is reached with demand blending", "statement": "A room that is actually heated (cooled) ends the step at demand*target + (1-demand)*natural operative temperature, even when radiative heating/cooling saturates; with full demand that is the target itself.", "quantifier": "any number of rooms, all demands, targets, capacities", "why_tests_cant": "Must survive the recalculation for every combination of saturated rooms.", "anchors": ["heat_load_calc/core/next_condition.py:calc_next_temp_and_load"]}
{"id": "C10", "title": "Only one system is the unknown per room", "statement": "In each room the equipment is used consistently: a non-radiative room gets zero radiative load, a radiative room gets convective load only if its radiative load was pinned to plus/minus its maximum capacity.", "quantifier": "any number of rooms, all inputs with non-negative capacities", "why_tests_cant": "Combination of masks over two passes.", "anchors": ["heat_load_calc/core/next_condition.py:calc_next_temp_and_load"]}
{"id": "C11", "title": "Radiative capacity is respected", "statement": "The radiative load returned never exceeds the heating capacity and never goes below minus the cooling capacity.", "quantifier": "any number of rooms, all coefficient values", "why_tests_cant": "In a multi-room house the second solve changes the uncapped rooms too.", "anchors": ["heat_load_calc/core/next_condition.py:calc_next_temp_and_load"]}
{"id": "C12", "title": "Heating load is non-negative and cooling load non-positive", "statement": "A heated room receives a non-negative sensible load, a cooled room a non-positive one.", "quantifier": "all inputs whose room matrix is physically admissible", "why_tests_cant": "Sign claim over all rooms and couplings.", "anchors": ["heat_load_calc/core/next_condition.py:calc_next_temp_and_load"]}
{"id": "C13", "title": "Operative temperature is the weighted mean of air and mean radiant temperature", "statement": "After each step, the operative temperature of each room equals (hc*theta_r + hr*MRT)/(hc+hr) with the room temperature and mean radiant temperature of the same step, although the program eliminates MRT from the equations.", "quantifier": "every step that completes, all rooms, boundaries, inputs", "why_tests_cant": "Identity through two matrix inversions.", "anchors": ["heat_load_calc/core/sequence.py:run_tick"]}
{"id": "C14", "title": "Room air heat balance closes at every step", "statement": "For every room and every completed step: heat stored in the air per second equals convection from all its surfaces + furniture exchange + ventilation with outside air + inter-room ventilation term + internal and human gains + convective load + convective part of the radiative load.", "quantifier": "every step, any number of rooms and boundaries, all inputs", "why_tests_cant": "Energy conservation for all inputs; unit tests check single numbers.", "anchors": ["heat_load_calc/core/sequence.py:run_tick", "heat_load_calc/core/pre_calc_parameters.py:make_pre_calc_parameters"]}
{"id": "C15", "title": "Furniture heat and moisture balances close", "statement": "For every room and step the furniture's stored heat changes by dt*(conductance*(room-furniture)+absorbed solar) and its stored moisture by dt*conductance*(room-furniture humidity); furniture temperature lies between its old value and the room value without solar.", "quantifier": "every step, all non-negative capacities and conductances (not both zero)", "why_tests_cant": "Implicit scheme identity.", "anchors": ["heat_load_calc/core/sequence.py:run_tick"]}
{"id": "C16", "title": "Surface heat flux decomposes into convection, radiation, solar and floor-heating parts", "statement": "For every boundary and step the stored surface flux equals hc*(air-surface)+hr*(room MRT-surface)+absorbed solar+absorbed radiant heating.", "quantifier": "every step, boundary and input with hc+hr>0", "why_tests_cant": "Algebra over all sizes.", "anchors": ["heat_load_calc/core/sequence.py:run_tick", "heat_load_calc/core/log.py:Logger.post_logging"]}
{"id": "C17", "title": "Surface temperatures satisfy the response-factor wall equation", "statement": "For every boundary, surface temperature = phi_a0*q + phi_t0*(rear temperature implied by this step's equivalent temperatures) + the sum of the convolution terms, for the surface flux and rear temperature of the same step.", "quantifier": "every step and house", "why_tests_cant": "The program pre-multiplies the equation by an inverse matrix and mixes front and rear coefficients.", "anchors": ["heat_load_calc/core/pre_calc_parameters.py:make_pre_calc_parameters", "heat_load_calc/core/sequence.py:run_tick"]}
{"id": "C18", "title": "Room moisture balance closes at every step", "statement": "For every room and step: stored vapour change = outside-air ventilation + inter-room term + furniture exchange + internal and human moisture - dehumidification, and the reported latent load is minus the dehumidification times the evaporation heat.", "quantifier": "every step and house", "why_tests_cant": "Mass conservation for all inputs.", "anchors": ["heat_load_calc/core/sequence.py:run_tick", "heat_load_calc/core/heat_exchanger.py:get_dehumid_coeff"]}
{"id": "C19", "title": "Humidity never becomes negative", "statement": "If outdoor humidity, initial humidities and moisture gains are non-negative and inter-room inflow does not exceed the storage + ventilation terms, every room's and furniture's absolute humidity stays non-negative for ever.", "quantifier": "every number of steps, all histories", "why_tests_cant": "Invariant over unbounded histories (M-matrix argument).", "anchors": ["heat_load_calc/core/sequence.py:run_tick", "heat_load_calc/core/occupants.py:get_x_hum_psn_is_n"]}
{"id": "C20", "title": "Air conditioner only removes moisture", "statement": "The latent load is never positive: the cooling coil removes moisture or does nothing, and it does nothing unless the room is convectively cooled.", "quantifier": "every step, room and input", "why_tests_cant": "Depends on two solves of the moisture system.", "anchors": ["heat_load_calc/core/heat_exchanger.py:get_dehumid_coeff", "heat_load_calc/core/sequence.py:run_tick"]}
{"id": "C21", "title": "A step never fails on a well-formed house", "statement": "For a house with positive volumes/areas/coefficients and admissible inter-room ventilation, every matrix inverted in a step is non-singular, so the step returns a next state.", "quantifier": "any number of rooms and boundaries, all states", "why_tests_cant": "LinAlgError freedom for all sizes.", "anchors": ["heat_load_calc/core/sequence.py:run_tick", "heat_load_calc/core/pre_calc_parameters.py:make_pre_calc_parameters", "heat_load_calc/core/next_condition.py:calc_next_temp_and_load"]}
{"id": "C22", "title": "Thermal equilibrium is preserved", "statement": "If outside, rooms, furniture, surfaces and walls are all at one temperature and there are no gains and no air-conditioning, then after the step (hence for ever) everything is still at that temperature.", "quantifier": "every temperature, any number of rooms/boundaries, all histories", "why_tests_cant": "Fixed point for all inputs; would expose sign errors in the coupling matrices.", "anchors": ["heat_load_calc/core/sequence.py:run_tick", "heat_load_calc/core/pre_calc_parameters.py:make_pre_calc_parameters"]}
{"id": "C23", "title": "Natural ventilation only with open windows; outside-air flow is never negative", "statement": "Natural ventilation is added exactly in rooms whose mode is STOP_OPEN, so never while heating or cooling, and the outside-air flow is the sum of infiltration, mechanical and natural flow, hence at least the mechanical flow.", "quantifier": "every step and room", "why_tests_cant": "Mode/flow interplay over all states.", "anchors": ["heat_load_calc/core/sequence.py:run_tick"]}
{"id": "C24", "title": "Wall response recursion equals the full convolution", "statement": "After any number of steps, each stored absorption/transmission component equals the geometric convolution sum of the entire flux/rear temperature history with its common ratio, plus the decayed initial value.", "quantifier": "every history length and input sequence", "why_tests_cant": "Unbounded history.", "anchors": ["heat_load_calc/core/sequence.py:run_tick", "heat_load_calc/core/sequence_ground.py:run_tick"]}
{"id": "C25", "title": "Ground run-up is consistent and convergent", "statement": "Each ground step satisfies the wall equation with deep-ground temperature = annual mean outdoor temperature; under constant outdoor temperature equal to the mean, a ground at rest stays exactly at rest with zero flux.", "quantifier": "every number of steps, boundary and coefficient set", "why_tests_cant": "Unbounded iteration.", "anchors": ["heat_load_calc/core/sequence_ground.py:run_tick", "heat_load_calc/core/conditions.py:initialize_ground_conditions"]}
{"id": "C26", "title": "Ground results are handed to exactly the ground boundaries", "statement": "After run-up, the k-th ground result lands on the k-th ground boundary in boundary order, all other boundaries keep their initial values, and no other state is changed; a wrong number of ground results is an error.", "quantifier": "every boundary list and ground mask", "why_tests_cant": "Masked assignment over all masks.", "anchors": ["heat_load_calc/core/conditions.py:update_conditions_by_ground_conditions", "heat_load_calc/core/pre_calc_parameters.py:make_pre_calc_parameters"]}
{"id": "C27", "title": "Time stepping covers each step exactly once", "statement": "The program executes (run_up-run_up_build) ground steps, run_up_build building run-up steps and main steps, in strictly increasing contiguous order from -run_up to main-1, with days*24*steps_per_hour steps each; fewer run-up days than building run-up days is a ValueError.", "quantifier": "all day counts and step divisions", "why_tests_cant": "All naturals.", "anchors": ["heat_load_calc/core/period.py:get_n_step", "heat_load_calc/core/core.py:calc"]}
{"id": "C28", "title": "Run-up wraps to the end of the year and never leaves the data", "statement": "Run-up step -k reads the weather/schedule record k before the end of the data; a run-up longer than the data is an IndexError; every main step n<N reads record n.", "quantifier": "all data lengths and steps", "why_tests_cant": "Negative-index semantics for all n.", "anchors": ["heat_load_calc/core/core.py:calc", "heat_load_calc/core/sequence.py:run_tick"]}
{"id": "C29", "title": "Results are logged once, in order, and only in the main period", "statement": "Run-up steps leave the logger untouched; after the main period column n of every log holds exactly the values produced by step n.", "quantifier": "every run length", "why_tests_cant": "Invariant over the loop.", "anchors": ["heat_load_calc/core/core.py:calc", "heat_load_calc/core/sequence.py:run_tick", "heat_load_calc/core/log.py:Logger"]}
{"id": "C30", "title": "Simulation is causal", "statement": "Two runs whose weather and schedule records agree on the run-up records and on main records 0..n produce identical logs for main steps 0..n.", "quantifier": "every pair of input sequences and every n", "why_tests_cant": "Two-run (hyper)property over all inputs.", "anchors": ["heat_load_calc/core/core.py:calc", "heat_load_calc/core/sequence.py:run_tick"]}
{"id": "C31", "title": "Mean radiant temperature is a weighted mean of the room's own surfaces", "statement": "Per room the MRT weights are non-negative, vanish on other rooms' surfaces and sum to one, so the MRT lies between the minimum and maximum of its surface temperatures.", "quantifier": "any room/boundary assignment, positive areas", "why_tests_cant": "All sizes.", "anchors": ["heat_load_calc/core/shape_factor.py:get_f_mrt_is_js"]}
{"id": "C32", "title": "Radiative exchange inside a room conserves energy", "statement": "The radiative surface flows written to the result file sum to zero over the surfaces of each room at each step.", "quantifier": "all houses and states", "why_tests_cant": "All sizes; cancellation through the MRT weights.", "anchors": ["heat_load_calc/core/log.py:Logger.post_logging", "heat_load_calc/core/shape_factor.py:get_f_mrt_is_js"]}
{"id": "C33", "title": "Shape factor equation is well posed", "statement": "For every list of positive areas with at least two surfaces the nonlinear shape factor equation has a root; any root gives factors in [0,1] summing to one, and every radiative coefficient is positive and finite.", "quantifier": "all area lists", "why_tests_cant": "Existence over a continuum (intermediate value).", "anchors": ["heat_load_calc/core/shape_factor.py:_get_f_ver", "heat_load_calc/core/shape_factor.py:_get_f_j", "heat_load_calc/core/shape_factor.py:get_h_r_js"]}
{"id": "C34", "title": "Radiative coefficients belong to their boundary", "statement": "The radiative coefficient returned for a boundary is the one computed from that boundary's own share of its own room's area, whatever the order of the boundary list.", "quantifier": "all boundary orders", "why_tests_cant": "Permutation claim.", "anchors": ["heat_load_calc/core/shape_factor.py:get_h_r_js"]}
{"id": "C35", "title": "Transmitted solar heat is fully distributed", "statement": "In each room the solar heat absorbed by furniture plus that absorbed by all surfaces (flux times area) equals the transmitted solar gain.", "quantifier": "all rooms with at least one absorbing surface of positive area", "why_tests_cant": "All sizes.", "anchors": ["heat_load_calc/core/pre_calc_parameters.py:make_pre_calc_parameters"]}
{"id": "C36", "title": "Infiltration is physical", "statement": "Infiltration is never negative, proportional to room volume, non-decreasing in C-value and in the indoor-outdoor temperature difference, zero without temperature difference, and unknown story counts / pressure settings raise KeyError.", "quantifier": "all reals, all room lists", "why_tests_cant": "Inequalities over reals.", "anchors": ["heat_load_calc/core/infiltration.py:_get_infiltration_residential", "heat_load_calc/core/infiltration.py:make_get_infiltration_function"]}
{"id": "C37", "title": "Occupant heat is conserved", "statement": "Sensible heat + latent heat (moisture times evaporation heat) of a person is 119 W at every room temperature; moisture is never negative.", "quantifier": "all room temperatures", "why_tests_cant": "All reals.", "anchors": ["heat_load_calc/core/occupants.py:get_q_hum_psn_is_n", "heat_load_calc/core/occupants.py:get_x_hum_psn_is_n"]}
{"id": "C38", "title": "Room air-conditioner specification is ordered and gives a positive air flow", "statement": "For every positive floor area, the derived specification has q_min<q_max, 0<v_min<v_max and rated<=max capacities, so the coil air flow is positive for every positive cooling load.", "quantifier": "all floor areas", "why_tests_cant": "Inequalities over reals.", "anchors": ["heat_load_calc/external/rac.py", "heat_load_calc/core/heat_exchanger.py:get_vac_is_n"]}
{"id": "C39", "title": "Response factors reproduce the steady state of the wall", "statement": "For every layered wall, whatever least-squares coefficients are found, constant unit surface flux raises the surface by the total resistance and constant rear temperature is transmitted with factor one (initial term + sum of geometric tails).", "quantifier": "all walls, all fitted coefficients", "why_tests_cant": "All real parameters; infinite sums.", "anchors": ["heat_load_calc/initializer/response_factor.py:get_RFTRI", "heat_load_calc/initializer/response_factor.py:calc_response_factor"]}
{"id": "C40", "title": "Four-terminal wall matrices are reciprocal", "statement": "The transfer matrix of any layered wall at any Laplace parameter has determinant one; its absorption response vanishes and transmission tends to the steady value in the limit, layer order matters only through multiplication.", "quantifier": "all layer lists and Laplace parameters", "why_tests_cant": "Induction over layers.", "anchors": ["heat_load_calc/initializer/response_factor.py:get_step_reps_of_wall"]}
{"id": "C41", "title": "Response factor export has fixed width and is repeatable", "statement": "Every factory returns 12 terms regardless of how many roots a spec needs, zero-padded; calling it twice gives the same answer.", "quantifier": "all specs", "why_tests_cant": "All inputs; state mutation.", "anchors": ["heat_load_calc/initializer/response_factor.py:ResponseFactorFactory"]}
{"id": "C42", "title": "Residents number and schedule interpolation are total and bounded", "statement": "The number of residents from total floor area is between 1 and 4 and monotone; schedule interpolation between integer household sizes never fails and lies between the two neighbouring schedules, equals the table at integers.", "quantifier": "all positive floor areas, all schedules", "why_tests_cant": "Reals.", "anchors": ["heat_load_calc/initializer/residents_number.py", "heat_load_calc/initializer/schedule_loader.py"]}
{"id": "C43", "title": "Weather interpolation preserves hourly data", "statement": "Interpolating 8760 hourly values to 15/30/60 minutes gives 4/2/1 times as many values, keeps the hourly values at the hour marks, stays between neighbouring hourly values (cyclically) and preserves the annual mean.", "quantifier": "all hourly series", "why_tests_cant": "All sequences.", "anchors": ["heat_load_calc/weather/weather_data.py:_interpolate", "heat_load_calc/weather/weather_data.py:load"]}
{"id": "C44", "title": "Solar position is always defined", "statement": "For every date, time and latitude/longitude the solar altitude is within [-90,90] degrees, azimuth sine/cosine formulas are consistent (sum of squares one) and at Japanese latitudes the sun is never at the zenith so azimuth is never divided by zero.", "quantifier": "all times and positions", "why_tests_cant": "Trigonometric identity over reals.", "anchors": ["heat_load_calc/weather/solar_position.py"]}
{"id": "C45", "title": "Inclined-surface irradiance is non-negative and splits sky and ground", "statement": "Cosine of incidence is in [0,1] and zero when the sun is down or behind the surface; direct, sky and reflected irradiance are non-negative; sky and ground view factors add to one.", "quantifier": "all orientations, sun positions, non-negative weather", "why_tests_cant": "Trigonometry over reals.", "anchors": ["heat_load_calc/initializer/inclined_surface_solar_radiation.py", "heat_load_calc/initializer/external_boundaries_direction.py"]}
{"id": "C46", "title": "Equivalent outdoor temperature", "statement": "The sol-air temperature equals the outdoor temperature without solar gain and night radiation, increases with irradiance and absorptance, and boundary types get the documented formula.", "quantifier": "all weather series", "why_tests_cant": "Reals.", "anchors": ["heat_load_calc/initializer/outside_eqv_temp.py"]}
{"id": "C47", "title": "Window transmission and shading ratios are physical", "statement": "Shaded-area ratios lie in [0,1]; transmitted solar is non-negative and bounded by incident; an unshaded window transmits all direct sun.", "quantifier": "all geometries and sun positions", "why_tests_cant": "Geometry over reals.", "anchors": ["heat_load_calc/initializer/solar_shading.py", "heat_load_calc/initializer/transmission_solar_radiation.py", "heat_load_calc/initializer/oblique_incidence_charac.py"]}
{"id": "C48", "title": "Glazing incident-angle characteristics are normalised", "statement": "Normalised transmittance/reflectance curves are 1/0 at normal incidence and 0/1 at grazing incidence and stay in [0,1].", "quantifier": "all incidence cosines in [0,1]", "why_tests_cant": "Polynomial inequality over an interval.", "anchors": ["heat_load_calc/initializer/oblique_incidence_charac.py"]}
{"id": "C49", "title": "Merging equal building parts conserves area", "statement": "Group indices assign each boundary exactly one group, groups contain only mergeable parts, and totals of area are unchanged.", "quantifier": "all boundary lists", "why_tests_cant": "Induction over lists.", "anchors": ["heat_load_calc/initializer/building_part_summarize.py"]}
{"id": "C50", "title": "Rear-side temperature weights form a convex combination", "statement": "For every external part the weights given to outdoor equivalent temperature and to the room's own equivalent temperature are non-negative and sum to one; internal parts put weight one on their partner.", "quantifier": "all h_td values and parts", "why_tests_cant": "Rounding.", "anchors": ["heat_load_calc/initializer/initializer.py:_make_boundaries"]}
{"id": "C51", "title": "Input validation rejects inconsistent rooms", "statement": "Room ids must be the sequence 0..n-1 and room types known, otherwise an error is raised; next-room ventilation refers only to existing rooms.", "quantifier": "all inputs", "why_tests_cant": "All lists.", "anchors": ["heat_load_calc/initializer/initializer.py"]}
{"id": "C52", "title": "Inter-room ventilation matrix", "statement": "The inter-room ventilation matrix entry (i,k) is the total flow specified from room k to room i.", "quantifier": "all next-ventilation lists", "why_tests_cant": "All lists incl. duplicates.", "anchors": ["heat_load_calc/initializer/initializer.py:_get_v_int_vent_is"]}
{"id": "C53", "title": "Indoor radiative-heating and occupant view factors are normalised", "statement": "Absorption shares of radiant heating and occupant view factors are non-negative and sum to one over each room's boundaries.", "quantifier": "all boundary lists", "why_tests_cant": "All sizes; division by zero cases.", "anchors": ["heat_load_calc/initializer/a12_indoor_radiative_heat_transfer.py", "heat_load_calc/initializer/occupants_form_factor.py"]}
{"id": "C54", "title": "Psychrometric formulas are consistent", "statement": "Saturation pressure is positive and increasing; converting vapour pressure to humidity ratio and back is near-identity with a known constant-factor error; humidity conversion is monotone below atmospheric pressure.", "quantifier": "all temperatures/pressures in range", "why_tests_cant": "Transcendental monotonicity over a continuum.", "anchors": ["heat_load_calc/external/psychrometrics.py", "heat_load_calc/external/iso7730.py:saturated_vapor_pressure_SONNTAG"]}
{"id": "C55", "title": "PPD range", "statement": "PPD lies in [5,100), is minimal exactly at PMV 0, symmetric, and strictly increasing in |PMV|.", "quantifier": "all reals", "why_tests_cant": "Reals.", "anchors": ["heat_load_calc/external/iso7730.py:get_ppd"]}
{"id": "C56", "title": "Temperature difference coefficient and direction tables are total where documented", "statement": "The coefficient is in [0,1] for regions 1..8 and every adjacent space type, a KeyError otherwise; the direction table rejects region 8 heating and non-compass directions.", "quantifier": "all regions (integers), all spaces/directions", "why_tests_cant": "All integers.", "anchors": ["heat_load_calc/external/factor_h.py:NextSpace.get_h", "heat_load_calc/external/factor_nu.py:Direction.get_nu"]}
{"id": "C57", "title": "Decimal rounding is half-away-from-zero", "statement": "round_num returns a multiple of 10^-d at distance at most half a unit, is odd-symmetric, monotone and idempotent.", "quantifier": "all reals and digits", "why_tests_cant": "Reals.", "anchors": ["heat_load_calc/convert/general_functions.py:round_num"]}
{"id": "C58", "title": "U-value scaling reaches the required average exactly when attainable", "statement": "The common scaling factors computed from a target heat loss give total loss = min(target, maximum attainable), never exceed each part's maximum and never change the relative scaling of unsaturated parts.", "quantifier": "all part lists, standard values and targets", "why_tests_cant": "Recursive water-filling over unbounded part lists; termination.", "anchors": ["heat_load_calc/convert/get_u_psi_eta_from_u_a_and_eta_a.py:get_f_u_psi"]}
{"id": "C59", "title": "Indices to envelope and back", "statement": "Distributing U_A over the standard parts and re-evaluating U_A by the checker gives the requested U_A whenever attainable.", "quantifier": "all detached-house part lists and targets", "why_tests_cant": "Round trip over lists.", "anchors": ["heat_load_calc/convert/get_u_psi_eta_from_u_a_and_eta_a.py:calc_parts_spec", "heat_load_calc/convert/check_ua_a_eta_a.py"]}
{"id": "C60", "title": "Splitting parts over rooms conserves area and heat loss", "statement": "Level 2 to level 3 conversion splits each part into the room types so areas/lengths sum to the original and U_A, eta_A are unchanged.", "quantifier": "all part lists, positive floor areas", "why_tests_cant": "Induction over lists.", "anchors": ["heat_load_calc/convert/convert_lv2_to_lv3.py"]}
{"id": "C61", "title": "Inner floors and walls have non-negative, mutually consistent areas", "statement": "Inner floors and walls derived in level 4 all have a positive area. When the house has at least two kinds of rooms and no room's underfloor surface exceeds its inner floor, the inner floors of each room add up to the room's inner floor area. With three kinds of rooms whose wall totals satisfy the triangle inequality, the inner walls touching each room add up to the room's inner wall area; with two kinds of rooms, the one wall between them is the mean of both totals.", "quantifier": "all floor areas and envelopes", "why_tests_cant": "Case analysis over reals.", "anchors": ["heat_load_calc/convert/convert_lv3_to_lv4.py"]}
{"id": "C62", "title": "Part specification export preserves the U value", "statement": "The layered specification exported for a general part has exactly the U value (plus bridge allowance) of its input, area-weighted over sub-parts.", "quantifier": "all part specifications", "why_tests_cant": "Reals, lists.", "anchors": ["heat_load_calc/convert/ees_house.py"]}
{"id": "C63", "title": "Dictionary export and import round-trip", "statement": "Reading back an exported building part yields the same part.", "quantifier": "all parts of each kind", "why_tests_cant": "Round trip over all values.", "anchors": ["heat_load_calc/convert/ees_house.py", "heat_load_calc/convert/factor_f.py"]}
{"id": "C64", "title": "Model house geometry meets the requested envelope", "statement": "The generated model house has the requested total envelope and floor area, its parts sum to the total, and its plan dimensions multiply to the floor area.", "quantifier": "all admissible areas", "why_tests_cant": "Reals with square roots.", "anchors": ["heat_load_calc/convert/model_house.py"]}
{"id": "C65", "title": "Sunshade correction factors are bounded", "statement": "Shading correction coefficients lie in their documented ranges and are monotone in overhang depth.", "quantifier": "all geometries, regions, directions", "why_tests_cant": "Reals.", "anchors": ["heat_load_calc/convert/factor_f.py"]}
{"id": "C66", "title": "Ventilation volumes are conserved between rooms", "statement": "House ventilation rate is split over habitable rooms in proportion to floor area, total supply equals total exhaust.", "quantifier": "all floor areas and rates", "why_tests_cant": "Reals.", "anchors": ["heat_load_calc/convert/convert_lv4_to_h_hlc.py"]}
{"id": "C67", "title": "Response factors are the sampled response to triangular pulses", "statement": "For every wall the returned series (first term, exponential terms, ratios) equals, at every multiple of 900 s, the response to a triangular temperature or flux pulse of the sum of exponentials that was fitted to the wall.", "quantifier": "all walls, all sample times", "why_tests_cant": "Infinitely many sample times and walls; integrals.", "anchors": ["heat_load_calc/initializer/response_factor.py:get_RFTRI", "heat_load_calc/initializer/response_factor.py:calc_response_factor"]}
{"id": "C68", "title": "The response factor fit is optimal and never fails", "statement": "For every non-empty list of layers the calculation succeeds, and the fitted coefficients are the unique least squares approximation of the wall's transfer functions at the chosen Laplace parameters.", "quantifier": "all non-empty layer lists", "why_tests_cant": "Invertibility of the normal equations for all inputs; optimality against all other coefficient vectors.", "anchors": ["heat_load_calc/initializer/response_factor.py:get_step_reps_of_wall", "heat_load_calc/initializer/response_factor.py:calc_response_factor"]}
{"id": "C69", "title": "ISO 7730 PMV is well defined and monotone", "statement": "In every physically possible situation there is exactly one clothing surface temperature; PMV computed from it rises with air temperature, radiant temperature and humidity.", "quantifier": "all possible climates and persons, all root finders that return a physical root", "why_tests_cant": "Real parameters; implicit equation.", "anchors": ["heat_load_calc/external/iso7730.py:get_pmv_ppd"]}
{"id": "C70", "title": "The weather table is complete and aligned", "statement": "For every region and interval the produced weather table has one row per time step of the year, every column on the same rows, radiation columns equal to the interpolated data, temperature, humidity and sun angles equal to the computed values up to the documented rounding.", "quantifier": "all weather files, regions, intervals and rounding tie rules", "why_tests_cant": "All rows of all tables; rounding of arbitrary reals.", "anchors": ["heat_load_calc/weather/weather.py:make_weather", "heat_load_calc/weather/solar_position.py:calc_solar_position"]}
{"id": "C71", "title": "Compiled schedules contain each quantity in its place", "statement": "For every household size and room the compiled schedules contain, at every quarter hour, people, demand, local ventilation, internal heat (appliances, lighting, cooking heat) and moisture (cooking vapour) interpolated from the lists of that quantity, in SI units.", "quantifier": "all schedule files, household sizes, rooms and time steps", "why_tests_cant": "All table contents and all real household sizes.", "anchors": ["heat_load_calc/initializer/schedule_loader.py:get_compiled_schedules"]}
{"id": "C72", "title": "The calculation works on the house of the input file", "statement": "For every input with complete data that the initializer accepts, the calculation reads the files written by the initializer without error and works on exactly that house: same rooms and parts in the same order, each with its own volume, furniture, ventilation, equipment, area, response, rear side and shares.", "quantifier": "all input files, schedules, weather data and rounding tie rules", "why_tests_cant": "Two programs and a file format between them; all houses.", "anchors": ["heat_load_calc/initializer/initializer.py:make_house", "heat_load_calc/core/pre_calc_parameters.py:make_pre_calc_parameters"]}
{"id": "C73", "title": "Parts in contact with the ground see the ground temperature", "statement": "Behind every part in contact with the ground the calculation uses the annual mean outdoor temperature, in the run-up and in the main calculation.", "quantifier": "all input files, weather data and time steps", "why_tests_cant": "All houses and all steps of two coupled programs.", "anchors": ["heat_load_calc/initializer/outside_eqv_temp.py:OutsideEqvTempGround", "heat_load_calc/initializer/initializer.py:make_house", "heat_load_calc/core/pre_calc_parameters.py:make_pre_calc_parameters"]}
{"id": "C74", "title": "Time series reach the room and part they belong to", "statement": "For every accepted input and every quarter hour, the record used by the calculation contains for each room the schedules compiled for that room and the sum of the solar gains of its windows, for each part the outdoor temperature of that part; the gains of all rooms add up to the gains of all windows.", "quantifier": "all accepted input files and all time steps", "why_tests_cant": "All houses, all room assignments of parts, all steps.", "anchors": ["heat_load_calc/initializer/initializer.py:make_house", "heat_load_calc/core/pre_calc_parameters.py:make_pre_calc_parameters"]}
{"id": "C75", "title": "Physical inputs give physical houses", "statement": "Every complete, physically possible input that the initializer accepts is turned into a house that satisfies the physical conditions under which the calculation is known to be solvable, including the radiative coefficients the calculation derives itself.", "quantifier": "all physically possible input files, all solutions of the shape factor equation", "why_tests_cant": "Quantifies over all houses.", "anchors": ["heat_load_calc/initializer/initializer.py:make_house", "heat_load_calc/core/pre_calc_parameters.py:make_pre_calc_parameters", "heat_load_calc/core/shape_factor.py:get_h_r_js"]}
{"id": "C76", "title": "An accepted physical input can be calculated to the end", "statement": "For every complete, physically possible input that the initializer accepts, every weather and every schedule file that contains the rooms, the calculation from the written files runs to its end for every admissible number of main and run-up days.", "quantifier": "all physically possible input files, weather data, schedules and run lengths", "why_tests_cant": "Any of thousands of matrix inversions in any step could fail for some house.", "anchors": ["heat_load_calc/initializer/initializer.py:make_house", "heat_load_calc/core/core.py:calc"]}
{"id": "C77", "title": "Air paths exported by the converter name rooms that exist", "statement": "Every inflow from another room that the level-4 converter writes names a room of the exported room list.", "quantifier": "all floor areas, envelopes and regions", "why_tests_cant": "The mismatch is between two names written by one function and read by another program; no test of either side shows it for every house.", "anchors": ["heat_load_calc/convert/convert_lv4_to_h_hlc.py:make_initial_rooms"]}
{"id": "C78", "title": "The level-4 export completes", "statement": "Converting a level-4 description of a house to an input file of the initializer returns normally for every house.", "quantifier": "all level-4 descriptions", "why_tests_cant": "Quantifies over all houses; a test shows one.", "anchors": ["heat_load_calc/convert/convert_lv4_to_h_hlc.py:convert_lv4_to_initializer", "heat_load_calc/convert/convert_lv4_to_h_hlc.py:make_rooms"]}
{"id": "C79", "title": "The detailed result table holds what the steps computed", "statement": "A calculation returns its tables exactly if all its steps complete, it has a room and a step to report, and no room reaches absolute zero. Then the detailed table has one row per time step of the main period, column names without repetition and no missing entry. Row k of the columns of a room holds what step k computed for that room and the inputs of step k; row k of the columns of a part, in the room the part belongs to, holds what step k computed for that part. There are no other columns, and they stand in a fixed order: outdoors, then room by room those of the room and of its parts.", "quantifier": "all houses with any number of rooms and parts in any order, all completed calculations, all rows and columns", "why_tests_cant": "A swapped index shows only for particular orders of parts and rooms; all houses and all steps are meant.", "anchors": ["heat_load_calc/core/log.py:record", "heat_load_calc/core/log.py:Logger.pre_logging", "heat_load_calc/core/log.py:Logger.post_logging"]}
{"id": "C80", "title": "Columns in watts are in watts", "statement": "In every row of the detailed table the documented total heat of a part [W] is the sum of its convective, radiant and solar heat [W] and its share of the radiant heating; the documented sensible and latent heat of people [W] add up to 119 W per person.", "quantifier": "all houses, all completed calculations, all rows", "why_tests_cant": "An identity between columns for every house, weather and step.", "anchors": ["heat_load_calc/core/log.py:record", "notebook/data_spec/spec_core_output_detail.csv"]}
{"id": "C81", "title": "The digest is the hourly mean of the detailed table", "statement": "Every hourly entry of the digest is the mean of the values of that hour in the detailed table, rounded as documented: temperatures and humidities, and the loads in watts; operation modes are those at the full hour.", "quantifier": "all houses, all completed calculations, all hours, all numbers of steps per hour", "why_tests_cant": "All runs and hours; units are invisible to a comparison with recorded output.", "anchors": ["heat_load_calc/core/log.py:record", "notebook/data_spec/spec_core_output_simple.csv"]}
{"id": "C82", "title": "Columns of parts carry the id of the part", "statement": "The number in the name of the columns of a part is the number of that part in the input.", "quantifier": "all houses", "why_tests_cant": "Depends on the order of all parts of all rooms.", "anchors": ["heat_load_calc/core/log.py:record", "notebook/data_spec/spec_core_output_detail.csv"]}
{"id": "C83", "title": "The order of rooms and parts in the input does not matter", "statement": "Listing the rooms and the parts of a house in another order (with references and schedules moved along) gives the same results: if the calculation completes for one order it completes for the other, and every row of the detailed results holds the same values for every room and every part.", "quantifier": "all houses with any number of rooms and parts, all reorderings, all weather and schedules, all numbers of steps", "why_tests_cant": "Quantifies over all permutations of all houses; a bug in an index shows only for particular orders.", "anchors": ["heat_load_calc/core/core.py:calc", "heat_load_calc/core/pre_calc_parameters.py:make_pre_calc_parameters", "heat_load_calc/core/sequence.py:run_tick", "heat_load_calc/core/shape_factor.py:get_h_r_js"]}
{"id": "C84", "title": "An exported part is read by the initializer as the same part", "statement": "Every part (wall, roof, floor, window, door) that the conversion exports for the initializer is accepted by the initializer and read as the same part: number and room, area, exposure, U value, glass and sunshade.", "quantifier": "all parts of all houses, all regions", "why_tests_cant": "Two programs agree on names and meanings of entries only if this holds for every part; a test covers one.", "anchors": ["heat_load_calc/convert/ees_house.py:GeneralPart.make_initializer_dict", "heat_load_calc/convert/ees_house.py:Window.make_initializer_dict", "heat_load_calc/convert/ees_house.py:Door.make_initializer_dict", "heat_load_calc/convert/factor_f.py", "heat_load_calc/initializer/boundary_simple.py:get_boundary_simple", "heat_load_calc/initializer/solar_shading.py:SolarShading.create"]}
{"id": "C85", "title": "Heat and moisture are accounted for over every period of the results", "statement": "For every room and every two rows of the detailed results: the heat held by the air and furniture of the room changes by the sum over the steps in between of gains, occupants, convective and radiative load, transmitted sun, outdoor air and air from other rooms, minus the heat that flows into its parts; likewise the vapour held by air and furniture.", "quantifier": "all well-formed houses, all weather and schedules, all completed calculations, all pairs of rows", "why_tests_cant": "A sum over arbitrarily long histories of a coupled implicit system; a leak in one term shows only for particular rooms.", "anchors": ["heat_load_calc/core/sequence.py:run_tick", "heat_load_calc/core/core.py:calc", "heat_load_calc/core/log.py:record"]}
{"id": "C86", "title": "No temperature leaves the range of what drives it", "statement": "If nothing but the outdoor air acts on a house (no gains, people, sun or demand), every temperature of the detailed results lies between the lowest and the highest of the outdoor temperatures and the initial temperature. If nothing cools the house, no temperature falls below the lowest of them.", "quantifier": "all well-formed houses, all weather and schedules, all completed calculations, all rows and rooms, parts and furniture", "why_tests_cant": "A maximum principle for a coupled implicit system over arbitrarily long histories; a sign error shows only for particular houses.", "anchors": ["heat_load_calc/core/sequence.py:run_tick", "heat_load_calc/core/core.py:calc", "heat_load_calc/core/conditions.py:initialize_conditions"]}
{"id": "C87", "title": "A part answers to its whole history", "statement": "In every row of the detailed results the surface temperature of a part is the superposition of its responses to the heat flux at its surface and to the temperature behind it, now and in all earlier rows, each past excitation weighted with the response factors for its age; what happened before the first row enters as decaying rest.", "quantifier": "all well-formed houses, all parts, all weather and schedules, all completed calculations, all rows", "why_tests_cant": "A convolution over arbitrarily long histories; an index shifted by one step changes results only slightly.", "anchors": ["heat_load_calc/core/sequence.py:run_tick", "heat_load_calc/core/core.py:calc", "heat_load_calc/initializer/response_factor.py"]}
{"id": "C88", "title": "With a computed clothing temperature the comfort index of a room is that of ISO 7730", "statement": "get_ot_target_and_h_hum_with_pmv with method 'convergence' (its default) finds the one clothing temperature at which the clothing conducts what it loses; the PMV of the room is the PMV of ISO 7730, the same that get_pmv_ppd returns; it rises with air temperature, radiant temperature and vapour pressure; heavier clothing is never cooler in a room below skin temperature; the returned mode follows the rule for these PMVs and the returned target realises the target PMV. Method 'constant' is what the calculation uses, any other is rejected.", "quantifier": "all temperatures above absolute zero, humidities, clothings, velocities, previous modes, kinds of equipment, all root finders that find roots", "why_tests_cant": "Uniqueness of the root of a transcendental equation and agreement of two implementations for all real inputs.", "anchors": ["heat_load_calc/core/ot_target_pmv.py:get_ot_target_and_h_hum_with_pmv", "heat_load_calc/core/ot_target_pmv.py:get_h_hum_c_is_n", "heat_load_calc/core/ot_target_pmv.py:get_h_hum_r_is_n", "heat_load_calc/external/iso7730.py:get_pmv_ppd"]}
{"id": "C89", "title": "A part can be entered in pieces", "statement": "Entering a part of a room as several pieces (same layers, same exposure, areas and the shares of radiation and panel heat adding up) gives the same results as entering it as one part: if the calculation completes for one it completes for the other, every row of the detailed results is the same for every room, every piece has the temperatures and fluxes per area of its part, and the heat flows of the pieces add up to that of the part.", "quantifier": "all houses with any number of rooms and parts, all ways of cutting parts, all weather and schedules, all numbers of steps", "why_tests_cant": "Quantifies over all partitions of the parts of all houses; a sum over the wrong set shows only for particular cuts.", "anchors": ["heat_load_calc/core/core.py:calc", "heat_load_calc/core/pre_calc_parameters.py:make_pre_calc_parameters", "heat_load_calc/core/sequence.py:run_tick", "heat_load_calc/core/shape_factor.py:get_h_r_js", "heat_load_calc/core/log.py:record"]}
{"id": "C90", "title": "Parts are attached to the room they belong to, once", "statement": "integrate_doors_to_rooms, integrate_innerwalls_to_rooms, integrate_earthfloors_to_rooms and integrate_earthfloorperimeters_to_rooms keep all rooms and their other entries and append to each room exactly one entry per part that names the room's type, in the order of the parts, with the area (length), heat transmission, solar gain, boundary, layers and shade of that part; the added names are numbered without gaps and differ from each other; no area is lost or counted twice. integrate_equipments_to_rooms gives the main and the other rooms their equipment and changes nothing else.", "quantifier": "all lists of parts and rooms", "why_tests_cant": "Nested loops with a running number over arbitrary lists that are changed in place; tests use one room per type and one part per room.", "anchors": ["heat_load_calc/convert/convert_lv4_to_h_hlc.py:integrate_doors_to_rooms", "heat_load_calc/convert/convert_lv4_to_h_hlc.py:integrate_innerwalls_to_rooms", "heat_load_calc/convert/convert_lv4_to_h_hlc.py:integrate_earthfloors_to_rooms", "heat_load_calc/convert/convert_lv4_to_h_hlc.py:integrate_earthfloorperimeters_to_rooms", "heat_load_calc/convert/convert_lv4_to_h_hlc.py:integrate_equipments_to_rooms"]}
{"id": "C91", "title": "A window behind another window lets in less than either", "statement": "get_eta returns, for every described window, a solar gain coefficient between 0 and 1; that of a double window is below that of each of its two windows; a shade lets in less than none, an outside blind less than a paper screen; other kinds of windows are rejected with a message.", "quantifier": "all combinations of frames, glasses and shades, and all entered values", "why_tests_cant": "51 x 2 single and more than 10000 double windows; entered values are real numbers.", "anchors": ["heat_load_calc/convert/convert_lv4_to_h_hlc.py:get_eta", "heat_load_calc/convert/convert_lv4_to_h_hlc.py:get_eta_from_specification"]}
{"id": "C92", "title": "A part has the same boundary data in every stage of the converter", "statement": "For every kind of part and every space behind it the surface resistances of get_r_surf are those used for parts given by a heat transmission coefficient (ees_house); the boundary made at level 4 has the angles of its direction used for solar radiation, or the temperature difference factor of its space and region; every adjacent space of the other stages can be named at level 4.", "quantifier": "all kinds of parts, adjacent spaces, directions and regions", "why_tests_cant": "Several tables in different modules with different names have to agree entry by entry.", "anchors": ["heat_load_calc/convert/a_06_common_items.py:get_r_surf", "heat_load_calc/convert/convert_lv4_to_h_hlc.py:get_boundary_for_outer_skin", "heat_load_calc/convert/convert_lv4_to_h_hlc.py:get_tempdifferentfactor_from_direction", "heat_load_calc/convert/ees_house.py:GeneralPartSpecUValue", "heat_load_calc/external/factor_h.py:NextSpace"]}
{"id": "C93", "title": "Over a closed period every part loses heat by its U value", "statement": "Over every period of the results after which rooms, furniture and parts hold the same heat as before, the heat that a part takes from its room is its U value (film and layers in series) times the sum of the temperature differences between its two sides, and the heat put into a room (gains, occupants, heating, sun) is what it loses by the textbook: transmission through its parts and ventilation with outdoor air.", "quantifier": "all well-formed houses, all weather and schedules, all lengths of the period, all completed steps", "why_tests_cant": "Storage cancels only over the whole period; a test compares with recorded output, not with the U value.", "anchors": ["heat_load_calc/core/sequence.py:run_tick", "heat_load_calc/core/pre_calc_parameters.py:make_pre_calc_parameters", "heat_load_calc/initializer/response_factor.py"]}
{"id": "C94", "title": "Heat that leaves a room through a partition arrives in the next room", "statement": "Over every period after which the house holds the same heat as before, the heat that one side of a partition takes from its room is the heat that the other side gives to the room behind it.", "quantifier": "all well-formed houses and partitions, all weather and schedules, all lengths of the period", "why_tests_cant": "A conservation law between two separately described parts, for all histories; loads of single rooms look plausible without it.", "anchors": ["heat_load_calc/core/sequence.py:run_tick", "heat_load_calc/core/pre_calc_parameters.py:make_pre_calc_parameters", "heat_load_calc/initializer/initializer.py"]}
{"id": "C95", "title": "The calculation stands still exactly where all heat flows balance", "statement": "A step leaves a house as it was only at temperatures at which every part takes U value times temperature difference, every room loses what is put into it and the furniture gives off what it receives; and a house that has been at such temperatures stays there under constant weather.", "quantifier": "all well-formed houses, all weather records, all states", "why_tests_cant": "Characterises all fixed points of an implicit coupled system.", "anchors": ["heat_load_calc/core/sequence.py:run_tick", "heat_load_calc/core/pre_calc_parameters.py:make_pre_calc_parameters"]}
{"id": "C96", "title": "A part entered by its U value loses heat by that U value", "statement": "For every accepted input, the heat that a part given by its U value takes from its room, over every period after which the house holds the same heat as before, is that U value times the sum of the differences between the temperature it is exposed to and that behind it. Parts given by layers use the sum of the layers, the outer film entered and the inner film.", "quantifier": "all complete inputs, all parts given by a U value, all weather and schedules, all closed periods", "why_tests_cant": "Relates an entry of the first program to the heat flows of the second for all room shapes.", "anchors": ["heat_load_calc/initializer/response_factor.py", "heat_load_calc/initializer/initializer.py", "heat_load_calc/core/shape_factor.py:get_h_r_js", "heat_load_calc/core/sequence.py:run_tick"]}
{"id": "C97", "title": "The number of steps per hour does not change what is calculated", "statement": "calc with any n_step_hourly: every step works with the weather and schedules of its time, and what a part remembers decays with the time constants of the part, whatever the number of steps per hour.", "quantifier": "all houses, all positive numbers of steps per hour, all completed calculations, all rows", "why_tests_cant": "The tests only use the default of four; the claim is about all step lengths and all rows.", "anchors": ["heat_load_calc/core/core.py:calc", "heat_load_calc/core/sequence.py:run_tick", "heat_load_calc/initializer/response_factor.py"]}
{"id": "C98", "title": "A house s times as large has s times the loads", "statement": "If all areas, volumes, air flows, furniture, equipment and gains of a house are multiplied by the same positive number s, the temperatures, humidities and operation modes of every room and part in every row stay the same, and loads, heat and moisture of occupants and air flows are multiplied by s.", "quantifier": "all houses, all s > 0, all weather and schedules, all completed calculations, all rows", "why_tests_cant": "Compares two calculations for every house, scale and history; a hidden absolute constant anywhere in the step breaks it.", "anchors": ["heat_load_calc/core/core.py:calc", "heat_load_calc/core/sequence.py:run_tick", "heat_load_calc/core/next_condition.py:calc_next_temp_and_load", "heat_load_calc/core/heat_exchanger.py:get_dehumid_coeff", "heat_load_calc/core/shape_factor.py:get_h_r_js"]}
{"id": "C99", "title": "A flat that is separate from the rest of the building has its own results", "statement": "If some rooms of a building with all their parts have no partition to, and get no air from, the other rooms, then calculating the whole building gives them the same temperatures, humidities and loads as calculating them alone, and nothing that is said about the other rooms changes them.", "quantifier": "all buildings and groups of rooms without inflow from outside the group, all weather and schedules, all numbers of steps", "why_tests_cant": "Noninterference is a statement about pairs of runs: every room goes through the same matrix inversions.", "anchors": ["heat_load_calc/core/sequence.py:run_tick", "heat_load_calc/core/infiltration.py:_get_infiltration_residential", "heat_load_calc/core/pre_calc_parameters.py:make_pre_calc_parameters", "heat_load_calc/core/core.py:calc"]}
{"id": "C100", "title": "A shorter calculation gives the first rows of a longer one", "statement": "If a calculation completes, the calculation of the same house with the same files and run-up over fewer days completes, and its rows are the first rows of the longer one; two completed calculations of any lengths agree in the rows they both have.", "quantifier": "all houses, all weather and schedules, all numbers of days and of run-up days, all completed calculations", "why_tests_cant": "Says that no later record and no length of the calculation influences an earlier row, for all lengths and histories.", "anchors": ["heat_load_calc/core/core.py:calc", "heat_load_calc/core/period.py", "heat_load_calc/core/log.py:pre_logging", "heat_load_calc/core/log.py:record"]}
{"id": "C101", "title": "Rooms and parts entered alike have the same results", "statement": "If exchanging some rooms and some parts leaves the input and the schedules as they are, then these rooms have the same temperatures, humidities, modes and loads and these parts the same temperatures and heat fluxes in every row; in particular two equal parts of one room.", "quantifier": "all houses and all symmetries of rooms and parts, all weather and schedules, all completed calculations, all rows", "why_tests_cant": "Symmetry of a coupled system for all houses; a result that depends on the position in a list shows only for some lists.", "anchors": ["heat_load_calc/core/core.py:calc", "heat_load_calc/core/sequence.py:run_tick", "heat_load_calc/core/shape_factor.py:get_h_r_js"]}
{"id": "C102", "title": "Light on a stack of panes is followed to the end", "statement": "For every number of panes that transmit and reflect at most what they receive, the total transmittance and reflectance and the absorption of every pane are those of the one distribution of light in which what leaves a pane arrives at its neighbour, which is the limit of following the light to and fro; all shares are non-negative and add up to one; turning the stack around exchanges front and back; another pane lets less through.", "quantifier": "all stacks of panes of any number with any transmittances and reflectances", "why_tests_cant": "Infinitely many reflections between arbitrarily many panes, summed by a recursion over the panes.", "anchors": ["notebook/initializer/shgc_window/multiple_reflection.py:Glass"]}
{"id": "C103", "title": "Heat through glazing is balanced on every surface", "statement": "get_temp_and_r, when its root finder has converged: every glass surface passes on the heat it receives (half of what its pane absorbs, and through the resistances next to it); the room receives the temperature difference divided by the sum of the returned resistances and the returned part r_qin of the absorbed radiation, outdoors the rest; r_qin lies between nothing and all; no surface is colder than both sides, without sun none warmer; there is such a solution, and with fixed gap temperatures only one.", "quantifier": "all glazings of any number of panes with any coatings and gas mixtures, all temperatures above -100 degC, all absorbed radiation", "why_tests_cant": "A nonlinear system of any size solved by an external root finder; r_qin is calculated from a formula that has to agree with its solution.", "anchors": ["notebook/initializer/shgc_window/glass_thermal_balance.py:Glass.get_temp_and_r", "notebook/initializer/shgc_window/glass_thermal_balance.py:Glass.get_r_qin"]}
{"id": "C104", "title": "The solar heat gain coefficient is between the transmittance and one minus the reflectance", "statement": "The window calculation gives a solar heat gain coefficient not below the transmittance and not above one minus the reflectance, and the heat that comes into the room is this share of the radiation besides the heat that flows without sun.", "quantifier": "all stacks of panes with any optical and thermal data", "why_tests_cant": "Combines the optics of arbitrary stacks with the solution of a nonlinear heat balance.", "anchors": ["notebook/initializer/shgc_window/window.py:calc"]}
{"id": "C105", "title": "The U value of glazing is that of its parts in series", "statement": "get_heat_transmittance is one over the sum of both films, all sheets and all gaps, whatever the root finder does; it is the heat per degree found by get_temp_and_r; thicker sheets and further panes lower it.", "quantifier": "all glazings of any number of panes", "why_tests_cant": "The value is read from the result of a root finder; monotonicity is about pairs of glazings.", "anchors": ["notebook/initializer/shgc_window/glass_thermal_balance.py:Glass.get_heat_transmittance", "notebook/initializer/shgc_window/glass_thermal_balance.py:Glass.r"]}
{"id": "C106", "title": "Films and gaps of glazing follow the emissivity of the surfaces next to them", "statement": "Corrected emissivities are defined for the range of the table, increase with the normal emissivity and are below that of uncoated glass; the film on each side of the glazing depends on the surface on that side only; radiation follows the law of Stefan and Boltzmann; gaps conduct alike in both directions and not less than still gas.", "quantifier": "all emissivities, glazings, temperatures and gas mixtures", "why_tests_cant": "A piecewise formula over the reals, and noninterference between pairs of glazings.", "anchors": ["notebook/initializer/shgc_window/glass_thermal_balance.py:LowESurface.eps", "notebook/initializer/shgc_window/glass_thermal_balance.py:Glass.get_h_e", "notebook/initializer/shgc_window/glass_thermal_balance.py:Glass.get_h_i", "notebook/initializer/shgc_window/glass_thermal_balance.py:AirLayer.get_h_s_with_surfaces_temp"]}
{"id": "C107", "title": "Without demand, equipment and moisture do not influence temperatures", "statement": "As long as no room has demanded conditioning since the start of the run-up, all columns of the results except the humidities of room air and furniture are the same whatever heating, cooling and air-conditioning equipment, capacities, radiant panels, window opening, furniture moisture, outdoor humidity and moisture release the input gives.", "quantifier": "all pairs of inputs that agree on the building, heat gains and outdoor temperatures, all completed calculations, all rows before the first demand", "why_tests_cant": "Noninterference between pairs of whole calculations over any number of steps.", "anchors": ["heat_load_calc/core/core.py:calc", "heat_load_calc/core/sequence.py:run_tick", "heat_load_calc/core/next_condition.py:calc_next_temp_and_load", "heat_load_calc/core/ot_target_pmv.py:get_operation_mode_i_n"]}
{"id": "C108", "title": "Free-running temperatures and humidities superpose", "statement": "In a tight, unoccupied building with given ventilation, as long as no room has demanded conditioning since the start of the run-up, every number in the results for a weighted mean of two inputs (weather, solar and internal heat gains, moisture) is the weighted mean of the numbers in the results for the two inputs, with any weight: twice the additional gain gives twice the rise.", "quantifier": "all pairs of inputs, all real weights, all completed calculations, all rows before the first demand", "why_tests_cant": "Superposition is a relation between three whole calculations, for every weight and any number of steps.", "anchors": ["heat_load_calc/core/core.py:calc", "heat_load_calc/core/sequence.py:run_tick", "heat_load_calc/core/sequence_ground.py:run_tick", "heat_load_calc/core/pre_calc_parameters.py:make_pre_calc_parameters"]}
{"id": "C109", "title": "More heat never makes anything colder", "statement": "As long as no room has demanded conditioning, warmer outdoor air, more sun and more heat released indoors do not lower any room, furniture, surface, mean radiant or operative temperature of any row of the results.", "quantifier": "all pairs of inputs one of which is nowhere colder, all completed calculations, all rows before the first demand", "why_tests_cant": "A monotonicity statement about pairs of whole calculations of any length.", "anchors": ["heat_load_calc/core/core.py:calc", "heat_load_calc/core/sequence.py:run_tick", "heat_load_calc/core/occupants.py:get_q_hum_psn_is_n"]}
{"id": "C110", "title": "The past fades away", "statement": "Two calculations of the same free-running house under the same data from different states, or with run-ups of different lengths, approach each other: the differences of all temperatures shrink at least by a given factor below one in every step, so that a long enough run-up makes the results independent of the arbitrary start.", "quantifier": "all pairs of start states and of run-up lengths, all houses with ventilated rooms, all data, any number of steps", "why_tests_cant": "A contraction estimate for pairs of histories, uniform in the number of steps.", "anchors": ["heat_load_calc/core/core.py:calc", "heat_load_calc/core/sequence.py:run_tick", "heat_load_calc/core/conditions.py:initialize_conditions"]}
{"id": "C111", "title": "Repeated days settle into one daily cycle", "statement": "If every day brings the same weather, sun, gains and schedules, the results of a free-running house approach a daily cycle that does not depend on the state at the start: a row and the row one day later, and a row and the cycle, differ by less and less, by a given factor per step. A day that ends in the state it began with is repeated for ever, with or without equipment.", "quantifier": "all start states, all periods of the data, any number of days, all houses with ventilated rooms", "why_tests_cant": "Convergence over infinitely many days, uniform in start and data; a test runs one or a few days from one start.", "anchors": ["heat_load_calc/core/core.py:calc", "heat_load_calc/core/sequence.py:run_tick", "heat_load_calc/core/conditions.py:initialize_conditions"]}
{"id": "C112", "title": "No humidity leaves the range of what drives it", "statement": "Without moisture sources in the house, no humidity of a room or its furniture is ever above the highest of the outdoor humidities and the humidity from which the calculation starts, whatever the temperatures and the equipment; while no room is cooled, none is ever below the lowest of them.", "quantifier": "all houses, weather, schedules, run-ups and lengths of the calculation", "why_tests_cant": "A maximum principle for histories of any length, for arbitrary air flows and temperatures.", "anchors": ["heat_load_calc/core/sequence.py:run_tick", "heat_load_calc/core/heat_exchanger.py:get_dehumid_coeff", "heat_load_calc/core/core.py:calc"]}
{"id": "C113", "title": "The moisture of the past fades away", "statement": "Two calculations of the same free-running house under the same data from different states, or with run-ups of different lengths, approach each other in their humidities too: the differences of all humidities of rooms and furniture shrink geometrically, and if every day brings the same data they settle into a daily cycle that does not depend on the start. This needs outdoor air: a room that exchanges no air keeps every difference for ever.", "quantifier": "all pairs of start states and of run-up lengths, all houses whose rooms take in more outdoor air than air of other rooms, all data, any number of steps", "why_tests_cant": "A contraction estimate for pairs of histories with the temperatures as a disturbance, uniform in the number of steps.", "anchors": ["heat_load_calc/core/core.py:calc", "heat_load_calc/core/sequence.py:run_tick", "heat_load_calc/core/occupants.py:get_x_hum_psn_is_n"]}
{"id": "C114", "title": "Words of the input mean what they say", "statement": "Room types, kinds of parts, directions, kinds of equipment, numbers of regions, and in the converter what parts face, frames, glass and shades are each given by one of a fixed list of words. Every word of the list is read with its meaning, alike in every place where it is read, and any other word stops the program with an error instead of falling back to a default.", "quantifier": "all strings, in every place where a word is read", "why_tests_cant": "The refused words are all other strings; the meaning must agree between several tables.", "anchors": ["heat_load_calc/initializer/boundary_type.py:BoundaryType", "heat_load_calc/initializer/external_boundaries_direction.py:get_w_alpha_j_w_beta_j", "heat_load_calc/initializer/boundary_simple.py:get_boundary_simple", "heat_load_calc/initializer/initializer.py:RoomType", "heat_load_calc/convert/convert_lv4_to_h_hlc.py:get_eta_from_specification", "heat_load_calc/weather/region_location.py:get_phi_loc_and_lambda_loc"]}
{"id": "C115", "title": "Results are numbers", "statement": "The temperatures of a calculation are numbers, never 'not a number' or infinite. This needs a surface that absorbs the sun in every room: one room without such a surface makes the temperatures of all surfaces and the mean radiant temperatures of all rooms of the house 'not a number' in every step, without an error. A layer of a wall that stores heat but is entered without resistance does the same to the response of its wall.", "quantifier": "all houses, weather, schedules, states and steps; all lists of layers", "why_tests_cant": "The condition concerns all rooms of all houses, and its failure spreads without an exception to rooms that meet it.", "anchors": ["heat_load_calc/core/pre_calc_parameters.py:make_pre_calc_parameters", "heat_load_calc/core/sequence.py:run_tick", "heat_load_calc/initializer/response_factor.py:get_step_reps_of_wall"]}
{"id": "C116", "title": "With equipment, too, a long enough run-up makes the results independent of the start", "statement": "In a house with heating and cooling the results of a calculation do not depend on how many days of run-up precede it, once there are enough of them: loads, modes and temperatures of two calculations that differ only in a long run-up agree, or nearly so.", "quantifier": "all houses with equipment, weather, schedules and pairs of run-up lengths", "why_tests_cant": "The mode of the equipment depends on the mode before, so a difference at the start may be kept for ever; no finite number of compared run-ups shows that it is not.", "anchors": ["heat_load_calc/core/core.py:calc", "heat_load_calc/core/ot_target_pmv.py:get_operation_mode_is_n", "heat_load_calc/core/sequence.py:run_tick"]}
{"id": "C117", "title": "Better insulation never raises the heating", "statement": "Of two houses that differ in the thermal resistance of their parts only, in the same or warmer weather and with the same or more sun and heat released, the better insulated one is supplied with no more heat by its heating.", "quantifier": "all pairs of houses, weather, schedules and lengths of the calculation", "why_tests_cant": "A comparison of two histories of any length; in single steps the better insulated house may be supplied with more.", "anchors": ["heat_load_calc/core/core.py:calc", "heat_load_calc/core/sequence.py:run_tick", "heat_load_calc/core/ot_target_pmv.py:get_operation_mode_is_n"]}
{"id": "C118", "title": "Milder weather and more gains do not raise the heating", "statement": "Where the outdoor air is warmer, the sun stronger and more heat is released indoors at all times, with the same schedules, the heat supplied to a house over the calculated period is no larger.", "quantifier": "all pairs of inputs one of which is nowhere colder, all completed calculations of any length", "why_tests_cant": "Compares two whole calculations with feedback through modes, windows and storage, for all weather data; a test compares two years.", "anchors": ["heat_load_calc/core/core.py:calc", "heat_load_calc/core/sequence.py:run_tick", "heat_load_calc/core/ot_target_pmv.py:get_operation_mode_i_n", "heat_load_calc/core/next_condition.py:calc_next_temp_and_load"]}
{"id": "C119", "title": "A layer can be entered in pieces", "statement": "If a layer of a wall, floor or partition is entered as several layers of the same material one behind the other, with the same total thickness, the results of the whole calculation do not change.", "quantifier": "all inputs, weather and schedules, all parts entered by layers, all ways to cut the layers", "why_tests_cant": "The pieces may be any number of any thickness; the response factors of the wall are found by a fit, so equality for some walls says nothing about others.", "anchors": ["heat_load_calc/initializer/response_factor.py:get_step_reps_of_wall", "heat_load_calc/initializer/response_factor.py:calc_response_factor", "heat_load_calc/initializer/initializer.py:make_house", "heat_load_calc/core/core.py:calc", "example/example1.py:run"]}
{"id": "C120", "title": "A room is heated only by the heating equipment entered for it", "statement": "The results show a heating load for a room only if heating equipment is entered for it, and no more than its capacity; different heating equipment gives different limits.", "quantifier": "all inputs, weather, schedules and lengths of the calculation", "why_tests_cant": "Ranges over all pairs of inputs that differ in equipment; that an entry is never read anywhere in the chain of two programs cannot be seen from runs.", "anchors": ["heat_load_calc/core/pre_calc_parameters.py:make_pre_calc_parameters", "heat_load_calc/initializer/initializer.py:make_house", "heat_load_calc/core/next_condition.py:calc_next_temp_and_load", "heat_load_calc/core/core.py:calc"]}
{"id": "C121", "title": "Descriptive entries do not influence the results", "statement": "The names of parts and the kind of room said to be behind a partition do not influence the tables; neither do values that duplicate others (the U value of a part whose layers are given).", "quantifier": "all inputs, weather and schedules, all changes of these entries", "why_tests_cant": "That an entry is irrelevant is a statement about all pairs of inputs; tests compare a few.", "anchors": ["heat_load_calc/initializer/boundary_simple.py:get_boundary_simple", "heat_load_calc/initializer/initializer.py:make_house", "heat_load_calc/core/pre_calc_parameters.py:make_pre_calc_parameters", "heat_load_calc/core/core.py:calc"]}
{"id": "C122", "title": "The given columns of the result are those of the files at that time", "statement": "In a calculation from the weather file of a region to the detailed table, row k belongs to quarter k of the year throughout: it shows the outdoor temperature and humidity of the file at that time (linear between hours, rounded), for every room the demand and the internal heat of the room's own schedule for the kind of that day, and the solar gains of the room's own parts in the radiation of that quarter with the sun where it stands on that day at that time. The table has 96 rows per day of the main period, and never more than a year.", "quantifier": "all regions, weather files, inputs, schedule files, lengths of the calculation, and all rows and rooms", "why_tests_cant": "An alignment of four data sources over a year through three programs; an offset by one step or one room is invisible in single results.", "anchors": ["example/example1.py:run", "heat_load_calc/weather/weather.py:make_weather", "heat_load_calc/initializer/initializer.py:make_house", "heat_load_calc/core/pre_calc_parameters.py:make_pre_calc_parameters", "heat_load_calc/core/core.py:calc", "heat_load_calc/core/log.py:record"]}
{"id": "C123", "title": "A number means the same however it is written", "statement": "It makes no difference to make_house whether a whole number of the input file, such as the volume of a room, is written 60 or 60.0: the same inputs are accepted and the same files are written.", "quantifier": "all inputs that make_house accepts, all ways of writing the volumes of their rooms, all weather and schedules", "why_tests_cant": "Test inputs are written in one way; the type of an array depends on how all numbers of a list are written together.", "anchors": ["heat_load_calc/initializer/initializer.py:make_house", "heat_load_calc/initializer/initializer.py:_make_spaces_dict"]}
{"id": "C124", "title": "make_house replaces the files in the directory as a whole", "statement": "After make_house has completed, the calculation reads exactly what was compiled from the given input, whatever was in the directory before; an input that is refused leaves the files as they were; and a run that is stopped at any point leaves the directory of one input, the old or the new, or one the calculation refuses, but never a mixture that is calculated without complaint.", "quantifier": "all inputs, all previous contents of the directory, all points at which the run is stopped", "why_tests_cant": "Ranges over crash points and over histories of runs in one directory; unit tests run in a fresh directory to the end.", "anchors": ["heat_load_calc/initializer/initializer.py:make_house", "heat_load_calc/core/pre_calc_parameters.py:make_pre_calc_parameters", "heat_load_calc/core/core.py:calc"]}
{"id": "C125", "title": "The remarks describe the mode of their row", "statement": "In every row of the detailed table the remark on a room reports the target PMV, the air speed around the people and the clothing that belong to the operation mode in the same row and to the room's equipment, and these are the values the row was calculated with.", "quantifier": "all houses, data, lengths of the calculation and rows for which a calculation completes", "why_tests_cant": "A statement about all rows of all runs; the remarks are recorded in one place and derived in another, and their use depends on a method chosen elsewhere.", "anchors": ["heat_load_calc/core/ot_target_pmv.py:get_ot_target_and_h_hum_with_pmv", "heat_load_calc/core/ot_target_pmv.py:get_v_hum_is_n", "heat_load_calc/core/ot_target.py:get_ot_target_and_h_hum", "heat_load_calc/core/sequence.py:run_tick", "heat_load_calc/core/log.py:record"]}
{"id": "C126", "title": "Rooms get the schedule of their kind", "statement": "With the schedule file of the project, every room has the schedule of its room type, whatever the room is called: a main occupant room that of main occupant rooms, and an underfloor space none at all.", "quantifier": "all inputs, weather, names and kinds of rooms, all quarter hours of the year", "why_tests_cant": "Ranges over all names of rooms; the test inputs all use the names of the kinds as names of the rooms.", "anchors": ["heat_load_calc/initializer/initializer.py:make_house", "heat_load_calc/initializer/schedule_loader.py:_get_each_schedules", "heat_load_calc/initializer/schedules.json"]}
{"id": "C127", "title": "Comfort is asked for just when people are there", "statement": "With the schedule file of the project, in every room of every accepted house and every quarter hour of the year, air conditioning is asked for if and only if there are people in the room; the demand lies between 0 and 1, and the number of people, the local ventilation, the vapour and the heat generated are never negative.", "quantifier": "all inputs that make_house accepts, all floor areas and so all household sizes (also fractional ones), all rooms and all 35040 quarter hours", "why_tests_cant": "The demand and the people are interpolated separately between two households, for a continuum of floor areas, from tables of ten thousand entries.", "anchors": ["heat_load_calc/initializer/initializer.py:make_house", "heat_load_calc/initializer/schedule_loader.py:get_compiled_schedules", "heat_load_calc/initializer/schedule_loader.py:_get_each_schedules", "heat_load_calc/initializer/residents_number.py:get_total_number_of_residents", "heat_load_calc/initializer/schedules.json"]}
{"id": "C128", "title": "There are never more people in the house than live there", "statement": "With the schedule file of the project, the numbers of people in all rooms of a house never add up to more than the number of residents that follows from its floor area; at midnight all residents are at home.", "quantifier": "all inputs that make_house accepts, and all 35040 quarter hours", "why_tests_cant": "A sum over the rooms of every house at every time for all floor areas; tests compare the series of single rooms.", "anchors": ["heat_load_calc/initializer/initializer.py:make_house", "heat_load_calc/initializer/schedule_loader.py:get_compiled_schedules", "heat_load_calc/initializer/residents_number.py:get_total_number_of_residents", "heat_load_calc/initializer/schedules.json"]}
{"id": "C129", "title": "An air conditioner removes no more heat than its maximum capacity", "statement": "In every row of the tables the sensible cooling load of a room with an air conditioner is at most the maximum capacity that the input gives for it; a smaller air conditioner leaves the room warmer.", "quantifier": "all houses, data, lengths of the calculation and rows for which a calculation completes", "why_tests_cant": "A statement about all rows of all runs and all capacities; test inputs give capacities that are never reached.", "anchors": ["heat_load_calc/core/heat_exchanger.py:get_dehumid_coeff", "heat_load_calc/core/heat_exchanger.py:get_vac_is_n", "heat_load_calc/core/pre_calc_parameters.py:make_pre_calc_parameters", "heat_load_calc/core/sequence.py:run_tick"]}
{"id": "C130", "title": "A larger house is used by more people", "statement": "With the schedule file of the project, if of two houses one has the larger floor area, then in rooms of the same name there are at any time at least as many people in the larger one, and at least as much vapour and local ventilation.", "quantifier": "all pairs of inputs that make_house accepts, all floor areas and so all household sizes (also fractional ones), all rooms and all 35040 quarter hours", "why_tests_cant": "Monotonicity over a continuum of floor areas and all quarter hours, from tables for four household sizes that were made independently.", "anchors": ["heat_load_calc/initializer/initializer.py:make_house", "heat_load_calc/initializer/schedule_loader.py:get_compiled_schedules", "heat_load_calc/initializer/residents_number.py:get_total_number_of_residents", "heat_load_calc/initializer/schedules.json"]}
{"id": "C131", "title": "A larger household is air conditioned for no shorter time", "statement": "With the schedule file of the project, if of two houses one has the larger floor area, then on every day air conditioning is asked for in its rooms for at least as long as in the rooms of the same name of the other.", "quantifier": "all pairs of inputs that make_house accepts, all floor areas, all rooms and all days of the year", "why_tests_cant": "The demand is interpolated between household sizes, but whether a room is conditioned depends only on its sign; ranges over a continuum of floor areas and all days.", "anchors": ["heat_load_calc/initializer/initializer.py:make_house", "heat_load_calc/initializer/schedule_loader.py:get_compiled_schedules", "heat_load_calc/initializer/residents_number.py:get_total_number_of_residents", "heat_load_calc/core/next_condition.py:calc_next_temp_and_load", "heat_load_calc/initializer/schedules.json"]}
{"id": "C132", "title": "Shading never lets in more sun", "statement": "If of two inputs that are otherwise the same one has deeper overhangs or glass that transmits less, and make_house accepts the other, then it accepts it too, nothing else in the files changes, and no room gets more sun in any quarter hour; without heating and cooling no room is ever warmer. A window with an overhang gets no more sun than the same window without.", "quantifier": "all inputs, overhangs, glass and weather, all rooms and all quarter hours; all rows of the calculations", "why_tests_cant": "Monotonicity over all geometries, positions of the sun and weather, through four files of the program; tests compare single numbers.", "anchors": ["heat_load_calc/initializer/solar_shading.py:SolarShading.create", "heat_load_calc/initializer/solar_shading.py:SolarShadingSimple.get_f_ss_d_j_ns", "heat_load_calc/initializer/transmission_solar_radiation.py:TransmissionSolarRadiationTransparentSunStrike.get_qgt", "heat_load_calc/initializer/initializer.py:make_house", "heat_load_calc/core/core.py:calc"]}
{"id": "C133", "title": "Tables that are too short are refused", "statement": "A calculation that completes has found, in the weather and in each of the seven tables, the row of every step that it calculates, and the rows of the run-up are those of the days before the first calculated day, the same days in all tables. A table of which rows are missing is refused.", "quantifier": "all houses, all tables of any numbers of rows, all lengths of the calculation and of the run-up; all directories", "why_tests_cant": "Ranges over all lengths of eight files and all lengths of the calculation; negative step numbers count from the end of whatever is there.", "anchors": ["heat_load_calc/core/core.py:calc", "heat_load_calc/core/sequence.py:run_tick", "heat_load_calc/core/pre_calc_parameters.py:make_pre_calc_parameters"]}
{"id": "C134", "title": "Errors of rounding do not pile up", "statement": "The numbers of the program have finite length, so every step is a little off, and each step starts from the inexact result of the one before. For every house there is a constant such that a calculation that is off by at most e in every step gives temperatures that are off by at most that constant times e, however many steps it has.", "quantifier": "all houses, all data, all numbers of steps and days, all errors of every step up to e", "why_tests_cant": "Errors of up to a hundred thousand steps are fed back into the state; a test compares one run with stored numbers from an equally inexact run.", "anchors": ["heat_load_calc/core/sequence.py:run_tick", "heat_load_calc/core/core.py:calc", "heat_load_calc/core/conditions.py:Conditions"]}
{"id": "C135", "title": "Errors in the weather and in the gains are not amplified", "statement": "Weather and gains are measured or estimated. For every house there is a constant such that two calculations whose outdoor temperatures, temperatures behind the parts, heat gains and solar gains differ by at most e in every step give temperatures and heat flows that differ by at most that constant times e, however many steps they have, and humidities that differ by at most that constant times e plus the largest difference of the humidities of the outdoor air and of the vapour gains.", "quantifier": "all houses, all pairs of tables, all numbers of steps and days, all differences up to e in every step", "why_tests_cant": "Ranges over all pairs of weather files and schedules and all lengths of the calculation; the constant must not depend on any of them, so no collection of runs can settle it.", "anchors": ["heat_load_calc/core/core.py:calc", "heat_load_calc/core/sequence.py:run_tick", "heat_load_calc/core/pre_calc_parameters.py:make_pre_calc_parameters", "heat_load_calc/core/conditions.py:update_conditions_by_ground_conditions"]}
{"id": "C136", "title": "A stricter average U value never makes a part worse", "statement": "When a house given by its indices is converted to parts, asking for a smaller average U value (everything else unchanged) gives no wall, window, door or earth floor edge a larger U value or psi value than before, and no window a smaller solar transmittance; asking for more sun in a season gives no window a smaller transmittance in that season.", "quantifier": "all pairs of requirements on the same house, all regions, all floor and envelope areas, all lists of parts", "why_tests_cant": "The factors come from a recursion that fills the parts up to their maxima one after the other; whether a factor can jump when the requirement crosses one of the maxima is a question about all requirements and all areas.", "anchors": ["heat_load_calc/convert/get_u_psi_eta_from_u_a_and_eta_a.py:get_f_u_psi", "heat_load_calc/convert/get_u_psi_eta_from_u_a_and_eta_a.py:calc_parts_spec", "heat_load_calc/convert/convert_indices_to_lv2_info.py:convert_spec"]}
{"id": "C137", "title": "Airing a house brings it nearer to outdoors", "statement": "In a house without heating or cooling, taking in more outdoor air (by fans that run all the time or by the schedule of local ventilation) makes no room warmer as long as the rooms are warmer than outdoors, and makes no room colder as long as they are colder than outdoors; nor any surface, and nor the rooms that are not aired.", "quantifier": "all houses, all pairs of ventilation schedules and fans, all weather, all steps of a calculation", "why_tests_cant": "A comparison of two whole runs in which the warmed parts feed back over every earlier step; it must hold for all houses and all histories.", "anchors": ["heat_load_calc/core/sequence.py:run_tick", "heat_load_calc/core/core.py:calc", "heat_load_calc/core/pre_calc_parameters.py:make_pre_calc_parameters"]}
{"id": "C138", "title": "Heating makes no room colder, cooling makes no room warmer", "statement": "A house that is only heated is at no time and nowhere colder than the same house with the equipment switched off; one that is only cooled is nowhere warmer. More generally, of two calculations of a house the one whose equipment gives every room at least as much heat in every step is nowhere colder.", "quantifier": "all houses, all data, all demand schedules, all steps", "why_tests_cant": "A comparison of two whole runs with different operation in every step; loads, modes and windows depend on the state, so single runs do not show it.", "anchors": ["heat_load_calc/core/sequence.py:run_tick", "heat_load_calc/core/next_condition.py:calc_next_temp_and_load", "heat_load_calc/core/ot_target_pmv.py:get_operation_mode_is_n", "heat_load_calc/core/core.py:calc"]}
{"id": "C139", "title": "More moisture makes no room drier", "statement": "Of two calculations of a house that differ in moisture only, the one with at least as humid outdoor air and at least as much vapour released in every room at all times has, as long as no room has demanded conditioning, no lower humidity in any room or furniture in any row; all other columns of the results are the same, and a room in which more vapour is released in a row is more humid in that row.", "quantifier": "all houses (with leakage and with air exchange between rooms), all pairs of such data, all run-ups, all steps", "why_tests_cant": "A comparison of two whole runs; the humidities of all rooms are solved for together in every step and carry over to the next.", "anchors": ["heat_load_calc/core/sequence.py:run_tick", "heat_load_calc/core/heat_exchanger.py:get_dehumid_coeff", "heat_load_calc/core/core.py:calc"]}
{"id": "C140", "title": "Runs in one directory at the same time do not disturb each other", "statement": "Any number of runs of make_house may work in the same directory at the same time. When all are over, the directory is that of a single run and the calculation gives the results of the input; a calculation that is started when one run is over sees the files of a complete run.", "quantifier": "all inputs, all numbers of runs, all orders in which their calls reach the file system, all pieces in which the texts are written, all earlier contents of the directory", "why_tests_cant": "It depends on how the calls of the processes interleave; tests see one order, and rarely an unfavourable one.", "anchors": ["heat_load_calc/initializer/initializer.py:make_house", "heat_load_calc/core/core.py:calc"]}
