"""Regenerates /verif/properties.jsonl (one JSON object per line)."""
import json, os

P = []


def p(title, statement, quantifier, why, *anchors):
    P.append(dict(id="C%02d" % (len(P) + 1), title=title, statement=statement, quantifier=quantifier,
                  why_tests_cant=why, anchors=list(anchors)))


CORE = "heat_load_calc/core/"
INI = "heat_load_calc/initializer/"
EXT = "heat_load_calc/external/"
WEA = "heat_load_calc/weather/"
CON = "heat_load_calc/convert/"

# ---------------------------------------------------------------- core: operation mode and comfort
p("Operation mode is always a legal single mode",
  "Starting from the initial conditions, at every step of every run each room's operation mode is one of HEATING, COOLING, "
  "STOP_OPEN, STOP_CLOSE; the mode update never raises and never yields HEATING_AND_COOLING; and a room without air-conditioning "
  "demand in a step is STOP_CLOSE in that step.",
  "every number of steps, every sequence of demands and PMV triples, every room",
  "The claim is an invariant over unbounded runs; tests only visit a few transitions.",
  CORE + "ot_target_pmv.py:get_operation_mode_i_n", CORE + "conditions.py:initialize_conditions")
p("Operation mode follows the published hysteresis rule",
  "With demand, the next mode equals the specification table: heating continues while PMV(heavy)<=0.7, cooling continues while "
  "PMV(light)>=-0.7, a stopped room starts cooling at PMV(light)>=0.7, heating at PMV(heavy)<=-0.7 (cooling has priority), and "
  "windows open at PMV(middle)>=0 / close at PMV(middle)<=0.",
  "every previous mode and all real PMV values, including boundary values",
  "Real-valued thresholds with ties; tests sample them.",
  CORE + "ot_target_pmv.py:get_operation_mode_i_n")
p("Heating only when cold, cooling only when warm",
  "Whenever a step ends in HEATING the room's PMV in heavy clothing is at most 0.7, whenever it ends in COOLING its PMV in light "
  "clothing is at least -0.7; a room that was stopped only starts heating at PMV(heavy)<=-0.7 and cooling at PMV(light)>=0.7; and a room "
  "cooler than 34.07 degC operative temperature never satisfies a cooling start and a heating start at the same time.",
  "every reachable mode, all real PMVs / temperatures / humidities",
  "Needs the monotonicity of PMV in clothing over all temperatures.",
  CORE + "ot_target_pmv.py:get_operation_mode_i_n", CORE + "ot_target_pmv.py:get_pmv_is_n")
p("Target operative temperature realises the target PMV",
  "For every room that is heated (cooled), the PMV computed by the program at room air temperature = operative temperature = the target "
  "operative temperature returned for that room is exactly -0.5 (+0.5); rooms that are neither have target 0.",
  "all humidities, all positive heat-transfer coefficients, every clothing value used",
  "Identity over the reals between two separately coded formulas.",
  CORE + "ot_target_pmv.py:get_theta_ot_target", CORE + "ot_target_pmv.py:get_pmv_is_n")
p("PMV is strictly monotone",
  "With the constant heat-transfer coefficients used by the program PMV strictly increases with room air temperature, with mean radiant "
  "temperature and with vapour pressure.",
  "all reals",
  "Universally quantified inequality.",
  CORE + "ot_target_pmv.py:_get_h_hum_and_pmv", CORE + "ot_target_pmv.py:get_pmv_is_n")
p("Heating set point lies below cooling set point",
  "For the same indoor humidity the heating target operative temperature (heavy clothing, PMV -0.5) is strictly below the cooling target "
  "(light clothing, PMV +0.5).",
  "all vapour pressures in the physical range",
  "Inequality between two rational functions of a real parameter.",
  CORE + "ot_target_pmv.py:get_theta_ot_target", CORE + "ot_target_pmv.py:get_clo_is_n", CORE + "ot_target_pmv.py:get_pmv_target_is_n")

# ---------------------------------------------------------------- core: load calculation
p("Computed loads and operative temperatures solve the room equations",
  "Whenever the load calculation returns (theta, Lc, Lr), the simultaneous equations BRM_ot theta = Lc + BRL_ot Lr + BRC_ot hold in every "
  "room, whatever the modes, targets, demands and radiative capacities.",
  "any number of rooms, all real coefficient matrices and vectors, all modes",
  "Linear-algebra identity for all sizes; includes the second pass after capacity limitation.",
  CORE + "next_condition.py:calc_next_temp_and_load", CORE + "next_condition.py:get_load_and_temp")
p("No load where nothing runs",
  "A room that is neither actually heated nor actually cooled (mode not HEATING with natural temperature below the lower target, nor COOLING "
  "with natural temperature above the upper target) gets exactly zero convective and zero radiative load; with nobody conditioned the "
  "operative temperatures are the natural ones.",
  "any number of rooms, all inputs with non-negative capacities",
  "Depends on both passes and on other rooms' limitation.",
  CORE + "next_condition.py:calc_next_temp_and_load")
p("Set point is reached with demand blending",
  "A room that is actually heated (cooled) ends the step at demand*target + (1-demand)*natural operative temperature, even when radiative "
  "heating/cooling saturates; with full demand that is the target itself.",
  "any number of rooms, all demands, targets, capacities",
  "Must survive the recalculation for every combination of saturated rooms.",
  CORE + "next_condition.py:calc_next_temp_and_load")
p("Only one system is the unknown per room",
  "In each room the equipment is used consistently: a non-radiative room gets zero radiative load, a radiative room gets convective load only if "
  "its radiative load was pinned to plus/minus its maximum capacity.",
  "any number of rooms, all inputs with non-negative capacities",
  "Combination of masks over two passes.",
  CORE + "next_condition.py:calc_next_temp_and_load")
p("Radiative capacity is respected",
  "The radiative load returned never exceeds the heating capacity and never goes below minus the cooling capacity.",
  "any number of rooms, all coefficient values",
  "In a multi-room house the second solve changes the uncapped rooms too.",
  CORE + "next_condition.py:calc_next_temp_and_load")
p("Heating load is non-negative and cooling load non-positive",
  "A heated room receives a non-negative sensible load, a cooled room a non-positive one.",
  "all inputs whose room matrix is physically admissible",
  "Sign claim over all rooms and couplings.",
  CORE + "next_condition.py:calc_next_temp_and_load")

# ---------------------------------------------------------------- core: a tick
p("Operative temperature is the weighted mean of air and mean radiant temperature",
  "After each step, the operative temperature of each room equals (hc*theta_r + hr*MRT)/(hc+hr) with the room temperature and mean radiant "
  "temperature of the same step, although the program eliminates MRT from the equations.",
  "every step that completes, all rooms, boundaries, inputs",
  "Identity through two matrix inversions.",
  CORE + "sequence.py:run_tick")
p("Room air heat balance closes at every step",
  "For every room and every completed step: heat stored in the air per second equals convection from all its surfaces + furniture exchange + "
  "ventilation with outside air + inter-room ventilation term + internal and human gains + convective load + convective part of the radiative load.",
  "every step, any number of rooms and boundaries, all inputs",
  "Energy conservation for all inputs; unit tests check single numbers.",
  CORE + "sequence.py:run_tick", CORE + "pre_calc_parameters.py:make_pre_calc_parameters")
p("Furniture heat and moisture balances close",
  "For every room and step the furniture's stored heat changes by dt*(conductance*(room-furniture)+absorbed solar) and its stored moisture by "
  "dt*conductance*(room-furniture humidity); furniture temperature lies between its old value and the room value without solar.",
  "every step, all non-negative capacities and conductances (not both zero)",
  "Implicit scheme identity.",
  CORE + "sequence.py:run_tick")
p("Surface heat flux decomposes into convection, radiation, solar and floor-heating parts",
  "For every boundary and step the stored surface flux equals hc*(air-surface)+hr*(room MRT-surface)+absorbed solar+absorbed radiant heating.",
  "every step, boundary and input with hc+hr>0",
  "Algebra over all sizes.",
  CORE + "sequence.py:run_tick", CORE + "log.py:Logger.post_logging")
p("Surface temperatures satisfy the response-factor wall equation",
  "For every boundary, surface temperature = phi_a0*q + phi_t0*(rear temperature implied by this step's equivalent temperatures) + the sum of "
  "the convolution terms, for the surface flux and rear temperature of the same step.",
  "every step and house",
  "The program pre-multiplies the equation by an inverse matrix and mixes front and rear coefficients.",
  CORE + "pre_calc_parameters.py:make_pre_calc_parameters", CORE + "sequence.py:run_tick")
p("Room moisture balance closes at every step",
  "For every room and step: stored vapour change = outside-air ventilation + inter-room term + furniture exchange + internal and human moisture - "
  "dehumidification, and the reported latent load is minus the dehumidification times the evaporation heat.",
  "every step and house",
  "Mass conservation for all inputs.",
  CORE + "sequence.py:run_tick", CORE + "heat_exchanger.py:get_dehumid_coeff")
p("Humidity never becomes negative",
  "If outdoor humidity, initial humidities and moisture gains are non-negative and inter-room inflow does not exceed the storage + ventilation "
  "terms, every room's and furniture's absolute humidity stays non-negative for ever.",
  "every number of steps, all histories",
  "Invariant over unbounded histories (M-matrix argument).",
  CORE + "sequence.py:run_tick", CORE + "occupants.py:get_x_hum_psn_is_n")
p("Air conditioner only removes moisture",
  "The latent load is never positive: the cooling coil removes moisture or does nothing, and it does nothing unless the room is convectively cooled.",
  "every step, room and input",
  "Depends on two solves of the moisture system.",
  CORE + "heat_exchanger.py:get_dehumid_coeff", CORE + "sequence.py:run_tick")
p("A step never fails on a well-formed house",
  "For a house with positive volumes/areas/coefficients and admissible inter-room ventilation, every matrix inverted in a step is non-singular, so "
  "the step returns a next state.",
  "any number of rooms and boundaries, all states",
  "LinAlgError freedom for all sizes.",
  CORE + "sequence.py:run_tick", CORE + "pre_calc_parameters.py:make_pre_calc_parameters", CORE + "next_condition.py:calc_next_temp_and_load")
p("Thermal equilibrium is preserved",
  "If outside, rooms, furniture, surfaces and walls are all at one temperature and there are no gains and no air-conditioning, then after the step "
  "(hence for ever) everything is still at that temperature.",
  "every temperature, any number of rooms/boundaries, all histories",
  "Fixed point for all inputs; would expose sign errors in the coupling matrices.",
  CORE + "sequence.py:run_tick", CORE + "pre_calc_parameters.py:make_pre_calc_parameters")
p("Natural ventilation only with open windows; outside-air flow is never negative",
  "Natural ventilation is added exactly in rooms whose mode is STOP_OPEN, so never while heating or cooling, and the outside-air flow is the sum of "
  "infiltration, mechanical and natural flow, hence at least the mechanical flow.",
  "every step and room",
  "Mode/flow interplay over all states.",
  CORE + "sequence.py:run_tick")
p("Wall response recursion equals the full convolution",
  "After any number of steps, each stored absorption/transmission component equals the geometric convolution sum of the entire flux/rear "
  "temperature history with its common ratio, plus the decayed initial value.",
  "every history length and input sequence",
  "Unbounded history.",
  CORE + "sequence.py:run_tick", CORE + "sequence_ground.py:run_tick")

# ---------------------------------------------------------------- core: ground, period, log
p("Ground run-up is consistent and convergent",
  "Each ground step satisfies the wall equation with deep-ground temperature = annual mean outdoor temperature; under constant outdoor temperature "
  "equal to the mean, a ground at rest stays exactly at rest with zero flux.",
  "every number of steps, boundary and coefficient set",
  "Unbounded iteration.",
  CORE + "sequence_ground.py:run_tick", CORE + "conditions.py:initialize_ground_conditions")
p("Ground results are handed to exactly the ground boundaries",
  "After run-up, the k-th ground result lands on the k-th ground boundary in boundary order, all other boundaries keep their initial values, and no other "
  "state is changed; a wrong number of ground results is an error.",
  "every boundary list and ground mask",
  "Masked assignment over all masks.",
  CORE + "conditions.py:update_conditions_by_ground_conditions", CORE + "pre_calc_parameters.py:make_pre_calc_parameters")
p("Time stepping covers each step exactly once",
  "The program executes (run_up-run_up_build) ground steps, run_up_build building run-up steps and main steps, in strictly increasing contiguous "
  "order from -run_up to main-1, with days*24*steps_per_hour steps each; fewer run-up days than building run-up days is a ValueError.",
  "all day counts and step divisions",
  "All naturals.",
  CORE + "period.py:get_n_step", CORE + "core.py:calc")
p("Run-up wraps to the end of the year and never leaves the data",
  "Run-up step -k reads the weather/schedule record k before the end of the data; a run-up longer than the data is an IndexError; every main step n<N "
  "reads record n.",
  "all data lengths and steps",
  "Negative-index semantics for all n.",
  CORE + "core.py:calc", CORE + "sequence.py:run_tick")
p("Results are logged once, in order, and only in the main period",
  "Run-up steps leave the logger untouched; after the main period column n of every log holds exactly the values produced by step n.",
  "every run length",
  "Invariant over the loop.",
  CORE + "core.py:calc", CORE + "sequence.py:run_tick", CORE + "log.py:Logger")
p("Simulation is causal",
  "Two runs whose weather and schedule records agree on the run-up records and on main records 0..n produce identical logs for main steps 0..n.",
  "every pair of input sequences and every n",
  "Two-run (hyper)property over all inputs.",
  CORE + "core.py:calc", CORE + "sequence.py:run_tick")

# ---------------------------------------------------------------- core: radiation, solar, infiltration, occupants, AC
p("Mean radiant temperature is a weighted mean of the room's own surfaces",
  "Per room the MRT weights are non-negative, vanish on other rooms' surfaces and sum to one, so the MRT lies between the minimum and maximum of its "
  "surface temperatures.",
  "any room/boundary assignment, positive areas",
  "All sizes.",
  CORE + "shape_factor.py:get_f_mrt_is_js")
p("Radiative exchange inside a room conserves energy",
  "The radiative surface flows written to the result file sum to zero over the surfaces of each room at each step.",
  "all houses and states",
  "All sizes; cancellation through the MRT weights.",
  CORE + "log.py:Logger.post_logging", CORE + "shape_factor.py:get_f_mrt_is_js")
p("Shape factor equation is well posed",
  "For every list of positive areas with at least two surfaces the nonlinear shape factor equation has a root; any root gives factors in [0,1] summing to "
  "one, and every radiative coefficient is positive and finite.",
  "all area lists",
  "Existence over a continuum (intermediate value).",
  CORE + "shape_factor.py:_get_f_ver", CORE + "shape_factor.py:_get_f_j", CORE + "shape_factor.py:get_h_r_js")
p("Radiative coefficients belong to their boundary",
  "The radiative coefficient returned for a boundary is the one computed from that boundary's own share of its own room's area, whatever the order of the "
  "boundary list.",
  "all boundary orders",
  "Permutation claim.",
  CORE + "shape_factor.py:get_h_r_js")
p("Transmitted solar heat is fully distributed",
  "In each room the solar heat absorbed by furniture plus that absorbed by all surfaces (flux times area) equals the transmitted solar gain.",
  "all rooms with at least one absorbing surface of positive area",
  "All sizes.",
  CORE + "pre_calc_parameters.py:make_pre_calc_parameters")
p("Infiltration is physical",
  "Infiltration is never negative, proportional to room volume, non-decreasing in C-value and in the indoor-outdoor temperature difference, zero without "
  "temperature difference, and unknown story counts / pressure settings raise KeyError.",
  "all reals, all room lists",
  "Inequalities over reals.",
  CORE + "infiltration.py:_get_infiltration_residential", CORE + "infiltration.py:make_get_infiltration_function")
p("Occupant heat is conserved",
  "Sensible heat + latent heat (moisture times evaporation heat) of a person is 119 W at every room temperature; moisture is never negative.",
  "all room temperatures",
  "All reals.",
  CORE + "occupants.py:get_q_hum_psn_is_n", CORE + "occupants.py:get_x_hum_psn_is_n")
p("Room air-conditioner specification is ordered and gives a positive air flow",
  "For every positive floor area, the derived specification has q_min<q_max, 0<v_min<v_max and rated<=max capacities, so the coil air flow is positive for every "
  "positive cooling load.",
  "all floor areas",
  "Inequalities over reals.",
  EXT + "rac.py", CORE + "heat_exchanger.py:get_vac_is_n")

# ---------------------------------------------------------------- wall response factors
p("Response factors reproduce the steady state of the wall",
  "For every layered wall, whatever least-squares coefficients are found, constant unit surface flux raises the surface by the total resistance and constant "
  "rear temperature is transmitted with factor one (initial term + sum of geometric tails).",
  "all walls, all fitted coefficients",
  "All real parameters; infinite sums.",
  INI + "response_factor.py:get_RFTRI", INI + "response_factor.py:calc_response_factor")
p("Four-terminal wall matrices are reciprocal",
  "The transfer matrix of any layered wall at any Laplace parameter has determinant one; its absorption response vanishes and transmission tends to the steady "
  "value in the limit, layer order matters only through multiplication.",
  "all layer lists and Laplace parameters",
  "Induction over layers.",
  INI + "response_factor.py:get_step_reps_of_wall")
p("Response factor export has fixed width and is repeatable",
  "Every factory returns 12 terms regardless of how many roots a spec needs, zero-padded; calling it twice gives the same answer.",
  "all specs",
  "All inputs; state mutation.",
  INI + "response_factor.py:ResponseFactorFactory")

# ---------------------------------------------------------------- initializer
p("Residents number and schedule interpolation are total and bounded",
  "The number of residents from total floor area is between 1 and 4 and monotone; schedule interpolation between integer household sizes never fails and lies "
  "between the two neighbouring schedules, equals the table at integers.",
  "all positive floor areas, all schedules",
  "Reals.",
  INI + "residents_number.py", INI + "schedule_loader.py")
p("Weather interpolation preserves hourly data",
  "Interpolating 8760 hourly values to 15/30/60 minutes gives 4/2/1 times as many values, keeps the hourly values at the hour marks, stays between neighbouring "
  "hourly values (cyclically) and preserves the annual mean.",
  "all hourly series",
  "All sequences.",
  WEA + "weather_data.py:_interpolate", WEA + "weather_data.py:load")
p("Solar position is always defined",
  "For every date, time and latitude/longitude the solar altitude is within [-90,90] degrees, azimuth sine/cosine formulas are consistent (sum of squares one) "
  "and at Japanese latitudes the sun is never at the zenith so azimuth is never divided by zero.",
  "all times and positions",
  "Trigonometric identity over reals.",
  WEA + "solar_position.py")
p("Inclined-surface irradiance is non-negative and splits sky and ground",
  "Cosine of incidence is in [0,1] and zero when the sun is down or behind the surface; direct, sky and reflected irradiance are non-negative; sky and ground view "
  "factors add to one.",
  "all orientations, sun positions, non-negative weather",
  "Trigonometry over reals.",
  INI + "inclined_surface_solar_radiation.py", INI + "external_boundaries_direction.py")
p("Equivalent outdoor temperature",
  "The sol-air temperature equals the outdoor temperature without solar gain and night radiation, increases with irradiance and absorptance, and boundary types get the "
  "documented formula.",
  "all weather series",
  "Reals.",
  INI + "outside_eqv_temp.py")
p("Window transmission and shading ratios are physical",
  "Shaded-area ratios lie in [0,1]; transmitted solar is non-negative and bounded by incident; an unshaded window transmits all direct sun.",
  "all geometries and sun positions",
  "Geometry over reals.",
  INI + "solar_shading.py", INI + "transmission_solar_radiation.py", INI + "oblique_incidence_charac.py")
p("Glazing incident-angle characteristics are normalised",
  "Normalised transmittance/reflectance curves are 1/0 at normal incidence and 0/1 at grazing incidence and stay in [0,1].",
  "all incidence cosines in [0,1]",
  "Polynomial inequality over an interval.",
  INI + "oblique_incidence_charac.py")
p("Merging equal building parts conserves area",
  "Group indices assign each boundary exactly one group, groups contain only mergeable parts, and totals of area are unchanged.",
  "all boundary lists",
  "Induction over lists.",
  INI + "building_part_summarize.py")
p("Rear-side temperature weights form a convex combination",
  "For every external part the weights given to outdoor equivalent temperature and to the room's own equivalent temperature are non-negative and sum to one; internal "
  "parts put weight one on their partner.",
  "all h_td values and parts",
  "Rounding.",
  INI + "initializer.py:_make_boundaries")
p("Input validation rejects inconsistent rooms",
  "Room ids must be the sequence 0..n-1 and room types known, otherwise an error is raised; next-room ventilation refers only to existing rooms.",
  "all inputs",
  "All lists.",
  INI + "initializer.py")
p("Inter-room ventilation matrix",
  "The inter-room ventilation matrix entry (i,k) is the total flow specified from room k to room i.",
  "all next-ventilation lists",
  "All lists incl. duplicates.",
  INI + "initializer.py:_get_v_int_vent_is")
p("Indoor radiative-heating and occupant view factors are normalised",
  "Absorption shares of radiant heating and occupant view factors are non-negative and sum to one over each room's boundaries.",
  "all boundary lists",
  "All sizes; division by zero cases.",
  INI + "a12_indoor_radiative_heat_transfer.py", INI + "occupants_form_factor.py")

# ---------------------------------------------------------------- external
p("Psychrometric formulas are consistent",
  "Saturation pressure is positive and increasing; converting vapour pressure to humidity ratio and back is near-identity with a known constant-factor error; humidity "
  "conversion is monotone below atmospheric pressure.",
  "all temperatures/pressures in range",
  "Transcendental monotonicity over a continuum.",
  EXT + "psychrometrics.py", EXT + "iso7730.py:saturated_vapor_pressure_SONNTAG")
p("PPD range",
  "PPD lies in [5,100), is minimal exactly at PMV 0, symmetric, and strictly increasing in |PMV|.",
  "all reals",
  "Reals.",
  EXT + "iso7730.py:get_ppd")
p("Temperature difference coefficient and direction tables are total where documented",
  "The coefficient is in [0,1] for regions 1..8 and every adjacent space type, a KeyError otherwise; the direction table rejects region 8 heating and non-compass directions.",
  "all regions (integers), all spaces/directions",
  "All integers.",
  EXT + "factor_h.py:NextSpace.get_h", EXT + "factor_nu.py:Direction.get_nu")

# ---------------------------------------------------------------- convert
p("Decimal rounding is half-away-from-zero",
  "round_num returns a multiple of 10^-d at distance at most half a unit, is odd-symmetric, monotone and idempotent.",
  "all reals and digits",
  "Reals.",
  CON + "general_functions.py:round_num")
p("U-value scaling reaches the required average exactly when attainable",
  "The common scaling factors computed from a target heat loss give total loss = min(target, maximum attainable), never exceed each part's maximum and never change the relative "
  "scaling of unsaturated parts.",
  "all part lists, standard values and targets",
  "Recursive water-filling over unbounded part lists; termination.",
  CON + "get_u_psi_eta_from_u_a_and_eta_a.py:get_f_u_psi")
p("Indices to envelope and back",
  "Distributing U_A over the standard parts and re-evaluating U_A by the checker gives the requested U_A whenever attainable.",
  "all detached-house part lists and targets",
  "Round trip over lists.",
  CON + "get_u_psi_eta_from_u_a_and_eta_a.py:calc_parts_spec", CON + "check_ua_a_eta_a.py")
p("Splitting parts over rooms conserves area and heat loss",
  "Level 2 to level 3 conversion splits each part into the room types so areas/lengths sum to the original and U_A, eta_A are unchanged.",
  "all part lists, positive floor areas",
  "Induction over lists.",
  CON + "convert_lv2_to_lv3.py")
p("Inner floors and walls have non-negative, mutually consistent areas",
  "Inner floors and walls derived in level 4 all have a positive area. When the house has at least two kinds of rooms and no room's underfloor surface exceeds its inner floor, the inner floors of each room add up to the room's inner floor area. With three kinds of rooms whose wall totals satisfy the triangle inequality, the inner walls touching each room add up to the room's inner wall area; with two kinds of rooms, the one wall between them is the mean of both totals.",
  "all floor areas and envelopes",
  "Case analysis over reals.",
  CON + "convert_lv3_to_lv4.py")
p("Part specification export preserves the U value",
  "The layered specification exported for a general part has exactly the U value (plus bridge allowance) of its input, area-weighted over sub-parts.",
  "all part specifications",
  "Reals, lists.",
  CON + "ees_house.py")
p("Dictionary export and import round-trip",
  "Reading back an exported building part yields the same part.",
  "all parts of each kind",
  "Round trip over all values.",
  CON + "ees_house.py", CON + "factor_f.py")
p("Model house geometry meets the requested envelope",
  "The generated model house has the requested total envelope and floor area, its parts sum to the total, and its plan dimensions multiply to the floor area.",
  "all admissible areas",
  "Reals with square roots.",
  CON + "model_house.py")
p("Sunshade correction factors are bounded",
  "Shading correction coefficients lie in their documented ranges and are monotone in overhang depth.",
  "all geometries, regions, directions",
  "Reals.",
  CON + "factor_f.py")
p("Ventilation volumes are conserved between rooms",
  "House ventilation rate is split over habitable rooms in proportion to floor area, total supply equals total exhaust.",
  "all floor areas and rates",
  "Reals.",
  CON + "convert_lv4_to_h_hlc.py")

exec(open(os.path.join(os.path.dirname(__file__), "more_properties.py")).read()) if os.path.exists(
    os.path.join(os.path.dirname(__file__), "more_properties.py")) else None

out = os.path.join(os.path.dirname(__file__), "..", "properties.jsonl")
with open(out, "w") as f:
    for q in P:
        f.write(json.dumps(q, ensure_ascii=False) + "\n")
print(len(P))
