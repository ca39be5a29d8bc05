c("C01", "proved", "C01_mode_run C01_program")
c("C02", "proved", "C02_mode_rule C02_exclusive C02_program")
c("C03", "proved", "C03_heats_only_when_cold C03_clothing_order C03_no_heating_and_cooling")
c("C04", "proved", "C04_target_realises_pmv")
c("C05", "proved", "C05_pmv_strict_mono")
c("C06", "proved", "C06_heating_below_cooling")
c("C07", "proved", "C07_room_equations")
c("C08", "proved", "C08_no_load C08_free_running C08_program")
c("C09", "proved", "C09_set_point C09_full_demand C09_program_single C09_program")
c("C10", "proved", "C10_one_system C10_program")
c("C11", "partial", "C11_capacity_partial C11_program_partial C11_capacity_violated", "True with at most one radiative room in charge; false in general, a two-room witness is proved.")
c("C12", "partial", "C12_single_room_partial C12_program_partial C12_total_heating_partial C12_sign_violated", "True for one room and for the total of a convectively heated house; false for single rooms of a multi-room house, witness proved.")
c("C13", "proved", "C13_operative_temperature C13_program")
c("C14", "partial", "C14_room_balance_partial C14_balance_as_coded C14_residual C14_violated C14_program_partial", "The physical balance is proved for rooms without inter-room inflow. With inflow the program uses the opposite sign and forgets the displaced air: the exact equation closed by the program and the exact condition under which the physical balance holds are proved, and that it fails on every well-formed house with inflow at rest.")
c("C15", "proved", "C15_furniture_heat C15_furniture_moisture C15_furniture_between C15_program")
c("C16", "proved", "C16_surface_flux C16_program")
c("C17", "partial", "C17_wall_equation_partial C17_equation_as_coded C17_residual C17_plain_iff C17_sun_violated C17_violated", "Proved for boundaries without partner or whose partner has the same coefficients and area. Otherwise the program evaluates the partner with the boundary's own coefficients: the equation as coded and the exact residual condition are proved, and a well-formed house on which the wall equation fails in every step from every state (C17_violated).")
c("C18", "partial", "C18_moisture_balance_partial C18_balance_as_coded C18_residual C18_violated C18_program_partial", "Proved for rooms without inter-room inflow; with inflow the displaced vapour is forgotten, exact condition proved.")
c("C21", "partial", "C21_step_completes_partial C21_single_room_partial C21_own_panels_partial C21_one_in_charge_partial C21_program_partial C21_program_single_partial C21_program_own_partial C21_program_one_in_charge_partial C21_violated C21_one_radiant_violated", "Any number of rooms without radiative systems; one room with radiative systems; any number of rooms with radiative systems whose heat reaches no surface of another room within the step; any house without air between rooms where one room has a demand. In general it is false: C21_violated is a well-formed house with panels on both sides of one partition whose calculation stops in the first step, C21_one_radiant_violated one with a floor-heated room next to an air-conditioned room behind light partitions.")
c("C22", "partial", "C22_equilibrium_partial C22_forever_partial C22_violated", "Proved without inter-room air flow; with inter-room air flow it is proved to fail on every well-formed house.")
c("C23", "proved", "C23_natural_ventilation C23_program")
c("C19", "proved", "C19_humidity_nonneg C19_humidity_pos C19_step C19_program")
c("C20", "partial", "C20_only_removes_partial C20_only_when_cooled C20_violated C20_program_partial", "Proved unless the room receives air from another convectively cooled room; in that case a concrete step that humidifies is proved.")
c("C54", "proved", "C54_saturation_positive C54_saturation_increasing C54_humidity_ratio C54_round_trip C54_vapour_pressure C54_relative_humidity C54_derivative")
c("C24", "proved", "C24_convolution C24_rear_temperature C24_rear_from_previous_step")
c("C25", "proved", "C25_parameters C25_ground_wall C25_rest")
c("C26", "proved", "C26_hand_over C26_wrong_number")
c("C27", "proved", "C27_steps C27_value_error")
c("C28", "proved", "C28_reads_one_record C28_records C28_run_up_too_long")
c("C29", "proved", "C29_logged C29_main_step C29_run_up_untouched")
c("C30", "partial", "C30_causal_partial C30_violated", "Causality is proved given the ground hand-over; the ground run-up starts from the mean outdoor temperature of the whole year, so with a ground boundary an earlier result depends on later weather: a concrete witness is proved.")
c("C31", "proved", "C31_weights C31_between C31_logged_between")
c("C32", "proved", "C32_radiant_exchange C32_direction")
c("C33", "proved", "C33_root C33_factors C33_coefficients", "The root finder (scipy fsolve) is a parameter: a unique root is proved to exist, and the coefficients are proved for any solver that returns it.")
c("C34", "partial", "C34_own_coefficient_partial C34_violated", "Proved when the boundaries are listed room by room; proved to fail on a house whose boundaries of two rooms alternate, for every correct root finder.")
c("C35", "proved", "C35_solar_distributed C35_same_flux")
c("C36", "proved", "C36_formula C36_keyError C36_physical C36_monotone C36_estimated C36_logged_nonneg")
c("C37", "proved", "C37_occupant C37_logged C37_program C37_sensible_negative")
c("C38", "proved", "C38_values C38_spec_ordered C38_heating C38_monotone C38_fan_positive C38_admissible")
c("C39", "proved", "C39_steady_state C39_gain C39_steady_factory")
c("C40", "proved", "C40_reciprocal C40_composition C40_bounds C40_limit")
c("C41", "partial", "C41_width C41_width_violated C41_repeat_partial C41_repeat_violated C41_create", "Width proved for every computed response factor, repeatability for given and steady ones; proved to fail for given factors of another length and for every second call on a layered part.")
c("C67", "proved", "C67_sampled_response C67_long_series")
c("C68", "proved", "C68_total C68_points C67_sampled_response")
c("C55", "proved", "C55_ppd")
c("C56", "proved", "C56_spaces C56_names C56_cooling C56_heating C56_rejected C56_numbers")
c("C69", "proved", "C69_clothing_unique C69_monotone C69_returned C69_program")
c("C43", "proved", "C43_interpolation C43_rejected C43_marks_and_bounds C43_mean C43_load")
c("C44", "proved", "C44_altitude C44_declination C44_azimuth C44_hour_angle C44_seasons C44_year C44_noon")
c("C45", "partial", "C45_incidence C45_directions C45_irradiance C45_no_direct C45_violated", "Everything except 'zero when the sun is below the horizon': proved for surfaces facing away and for horizontal surfaces, proved to fail for a vertical wall facing a sun below the horizon.")
c("C46", "proved", "C46_opaque C46_no_radiation C46_monotone C46_kinds C46_selection")
c("C47", "partial", "C47_overhang C47_fractions C47_transmitted C47_formula C47_selection C47_window C47_no_gain C47_violated", "Shaded fractions equal the geometric shadow; transmitted radiation bounded. Proved to fail: a window declared without shading lets no direct radiation in.")
c("C48", "partial", "C48_range_partial C48_end_points C48_selection C48_violated", "The curves are within [0,1.002] and [0,1.007]; proved that the single-pane curve exceeds 1 and is 0.999 at normal incidence.")
c("C70", "proved", "C70_table")
c("C42", "proved", "C42_residents C42_interpolation C42_rejected C42_total")
c("C49", "partial", "C49_groups_partial C49_input C49_totals C49_violated C49_integrate_violated", "Members of one group agree exactly in the discrete data and to 2e-5 in the real coefficients; proved that two members need not be mergeable with each other because closeness is not transitive, and that `integrate` itself returns for no non-empty list (it reads an attribute that parts do not have; its calls are commented out).")
c("C50", "partial", "C50_weights_partial C50_violated", "The weights sum to one up to 0.05 and exactly for coefficients that are multiples of 0.1; proved to fail for 0.05 and 0.15 and for ground parts.")
c("C51", "partial", "C51_accepted_iff_partial C51_violated", "Acceptance is characterised exactly; proved that a negative room number is accepted for inter-room ventilation.")
c("C52", "proved", "C52_matrix C52_spaces")
c("C53", "partial", "C53_view_factors_partial C53_heating_shares_partial C53_violated", "Proved for every room with a floor and another part; proved to fail for rooms without a floor.")
c("C71", "partial", "C71_compiled_partial C71_violated C71_shipped_violated", "All quantities except the cooking terms; proved that cooking heat and cooking vapour are exchanged. With the schedule file of the project less than 0.3 of the cooking heat is counted and at least 3.4 times the vapour, at all times and for all household sizes (C71_shipped_violated).")
c("C72", "partial", "C72_read_back_partial C72_written C72_test_house C72_violated C72_violated_example", "Proved for inputs with an air conditioner in every room; proved that a house with a room that is not cooled, or cooled by a radiant system, is accepted by the initializer and cannot be read by the calculation.")
c("C73", "partial", "C73_file_partial C73_violated", "The file contains the annual mean; proved that the calculation multiplies it by zero, so that 0 degC is used behind every ground part.")
c("C74", "proved", "C74_records")
c("C75", "proved", "C75_wellformed", "For layered parts the sign and range of the first terms of the response factors are hypotheses, because the fitted factors are arbitrary; parts given by a U value need no hypothesis.")
c("C76", "partial", "C76_chain_completes_partial C76_one_room_partial C76_own_panels_partial C76_one_in_charge_partial C76_shipped_partial", "Any number of rooms without radiant heating (C76_shipped_partial: with the schedule file of the project the hypotheses on the schedules are met); one room with any heating equipment; radiant heating in any number of rooms without partitions that respond on the far side within a step; any equipment and partitions where only one room asks for heating or cooling and no air flows between rooms. Several radiant or conditioned rooms behind light partitions are open (the calculation itself can stop there, C21_violated and C21_one_radiant_violated).")
c("C57", "proved", "C57_odd C57_rounds C57_unique C57_half_unit C57_monotone C57_exact C57_idempotent")
c("C58", "proved", "C58_scales C58_unique C58_maxima C58_standard C58_region8 C58_bare C58_zones")
c("C61", "proved", "C61_floors_positive C61_walls_positive C61_floors_sum C61_walls_sum C61_walls_two C61_defined C61_program")
c("C62", "partial", "C62_layers C62_uvalue C62_uvalue_partial C62_defined C62_violated", "Layered parts are exported with exactly their U value. A part given by a U value keeps it when it is at most that of the default construction without insulation; above that the export silently has a smaller U value (C62_violated: the region 8 standard wall).")
c("C63", "partial", "C63_general_part_partial C63_door_partial C63_window C63_earthfloor_perimeter C63_earthfloor_center C63_heat_bridge C63_inner_floor C63_inner_wall C63_violated", "General parts and doors with a detailed sunshade cannot be read back (C63_violated); all other parts can.")
c("C65", "proved", "C65_defined C65_range C65_default C65_monotone", "Simple sunshades; the program raises NotImplementedError for detailed ones.")
c("C66", "proved", "C66_balance C66_rooms")
c("C77", "partial", "C77_violated", "The property fails for every house: the inflows name the rooms 'main' and 'other', which are not in the exported list.")
c("C78", "partial", "C78_violated C78_name_error C78_underfloor", "The property fails for every house: the function reads an undefined name.")
c("C60", "partial", "C60_indices_partial C60_parts_partial C60_defined C60_nonneg C60_violated C60_bridges C60_bridge_gains", "Proved for every envelope without detailed sunshades on opaque parts; such a sunshade makes the converted envelope unreadable (C60_violated, see C63). The checker does not evaluate heat bridges.")
c("C64", "proved", "C64_house C64_attached_exact C64_detached_exact C64_faces C64_report", "A required envelope smaller than that of a square house is not met; the program then silently produces a larger house (stated in C64_house).")
c("C59", "partial", "C59_parts_partial C59_detached_partial C59_attached_violated C59_region8_violated C59_values C59_both_seasons C59_form", "Regions 1 to 7; the whole conversion for detached houses of 20 to 4000 m2 (smaller ones get windows of negative area, larger ones walls of negative area). Proved that no detached house is converted in region 8 and no attached house anywhere.")
c("C79", "proved", "C79_table C79_columns C79_returns C79_no_day_violated C79_order", "C79_returns: calc returns exactly if all steps complete, there is a room and a step to report, and no room reaches absolute zero. A main period of zero days raises an exception after all steps have been computed (C79_no_day_violated).")
c("C80", "partial", "C80_units_partial C80_violated", "The columns satisfy these balances when the total heat is read in W/m2 and the latent heat of people in kg/s (C80_units_partial); as documented, in W, they do not (C80_violated).")
c("C81", "partial", "C81_digest_partial C81_loads_violated C81_steps_violated", "Holds for temperatures, humidities and modes with four steps per hour. Loads are sums of the four powers, not means (C81_loads_violated). With fewer than four steps per hour the later hours are empty (C81_steps_violated).")
c("C82", "partial", "C82_number_partial C82_violated", "The number counts the parts of the room; it is the number in the input exactly when all earlier parts are in the same room.")
c("C83", "partial", "C83_program_partial C83_order_partial C83_violated", "Holds whenever the parts of every room stand together in both lists (C83_program_partial), and for any order once the radiative coefficients move along with the parts (C83_order_partial). With alternating parts the order changes the results (C83_violated), because of C34.")
c("C84", "partial", "C84_general_partial C84_door_partial C84_window_partial C84_violated C84_lengths C84_length_missing C84_glass_violated C84_layers", "No exported part can be read, since entries are missing (C84_violated). Once they are added, walls, roofs, floors and doors without detailed sunshade and windows with an overhang, with none, or out of the sun are read as they are; sunlit windows that are not single-glazed, and unspecified or detailed sunshades are rejected (C84_glass_violated, last clauses of the partial theorems).")
c("C85", "partial", "C85_heat_partial C85_heat_exact C85_heat_iff C85_moisture_partial C85_moisture_exact C85_moisture_violated", "Holds for rooms without inflow from other rooms. With inflow the exact amount that is missing is proved, when the heat balance closes nevertheless, and that the moisture balance fails over every period.")
c("C86", "partial", "C86_floor_partial C86_range_partial C86_storing_partial C86_storing_floor_partial C86_storing_example C86_inflow_violated C86_cold_start_violated C86_air_violated", "Holds in houses of parts without storage (windows, doors, parts given by U values), off the ground and without air flow between rooms. Air between rooms breaks it (sign error, see C22), to the point that 1 W makes two rooms that exchange air differ by 10^26 degrees after a day (C86_air_violated), and so do parts with storage, since they start at 0 degC while the rooms start at 15 degC. With this 0 degC counted among the temperatures of the start, the range is kept by tight houses with outer parts that store heat, take it up evenly and let warmth through (C86_storing_partial, C86_storing_floor_partial; C86_storing_example is a day of a house with a storing floor slab). Missing: storing partitions, light layers, leakage and the ground for houses that store heat.")
c("C87", "partial", "C87_superposition_partial C87_as_coded C87_violated", "Holds for parts not exposed to outdoors or with constant outdoor temperature behind them, if the partner has the same coefficients (see C17). For parts exposed to changing outdoor temperatures it fails: past outdoor temperatures are taken one step too early (the TODO in run_tick), by the amount stated in C87_as_coded.")
c("C88", "proved", "C88_coefficients C88_pmv C88_agree C88_warmer C88_clothing C88_no_conflict C88_target C88_constant C88_other", "The root finder is a parameter; what is assumed of it is FindsRoots (Spec/Comfort.lean). The order of clothings is proved for rooms above -100 degC.")
c("C89", "partial", "C89_put_together_partial C89_cut_partial C89_flows_partial C89_coefficients_violated C89_violated", "Holds if the pieces are given the radiative coefficient of their part. The program never does: a cut part changes some coefficient of its room (C89_coefficients_violated) and with it the results (C89_violated).")
c("C90", "partial", "C90_doors C90_perimeters C90_earthfloors C90_inner_walls C90_names C90_inner_names C90_totals_partial C90_equipments C90_lost_violated C90_doubled_violated C90_keys_violated", "Totals are kept when there is one room of each type and each part names one of them; otherwise parts are lost or doubled without a message. The functions expect other keys than the earlier stages of the converter write, so the converter's own parts end in a KeyError.")
c("C91", "partial", "C91_single C91_double C91_shades C91_entered_violated C91_kind_violated", "Holds for windows described by frame, glass and shade. Two windows with entered coefficients can get more than 1; another kind of window ends in an UnboundLocalError.")
c("C92", "partial", "C92_inside C92_accepted C92_outside_partial C92_outside_violated C92_boundary C92_boundary_total C92_open_space_violated", "The resistances on the room side, the angles and the temperature difference factors agree. The far-side resistances differ for roofs and walls not outdoors and for floors outdoors; spaces open to the outside air cannot be named at level 4.")
c("C93", "partial", "C93_part_exact C93_part_partial C93_room_partial", "Holds for rooms without air from other rooms (C14) and parts whose other side has the same coefficients and area (C17). For other parts the exact deviation is proved (C93_part_exact).")
c("C94", "partial", "C94_partition_exact C94_partition_partial C94_partition_iff C94_violated", "Holds for partitions whose two sides are entered with the same resistance. Nothing checks that: with different resistances 80 W leave one room and 40 W arrive in the next (C94_violated).")
c("C95", "partial", "C95_standstill_partial C95_stays_partial C95_kept_partial C95_found_partial", "Without air between rooms and with equal sides of partitions. The second half is proved without demand (C95_stays_partial), with given radiant loads (C95_kept_partial) and with convective and radiant loads that the step has to find (C95_found_partial), as long as no radiant load is cut at its capacity.")
c("C96", "partial", "C96_exact C96_iff C96_heat_partial C96_bounds C96_layers C96_areas_violated C96_violated", "Holds exactly if the inner surface resistance entered is that of the film the calculation derives from the shape of the room (C96_iff). Two parts of different size in a room cannot both have theirs if entered with the same resistance (C96_areas_violated); the exact deviation and its bounds are proved. C96_heat_partial gives the heat over a closed period for every part entered by its U value whose inner resistance is that of the film, also for parts behind which the temperature is mixed from outdoors and room (there the share of the room is rounded to 0.1).")
c("C97", "partial", "C97_records_partial C97_records_violated C97_more_violated C97_memory_iff", "Holds exactly for the default of four steps per hour. With any other number every row but the first uses the data of another time (with more steps the year does not complete) and the parts forget too fast or too slowly, since files and response factors are made for 15 minutes and the argument is not checked.")
c("C98", "partial", "C98_scale_partial C98_program_partial C98_violated C98_program_violated", "Holds for non-negative capacities as long as no room is cooled with a load between 0.001 W and 0.001 W / s: the air conditioner dehumidifies above 0.001 W whatever its size. C98_program_violated is a whole calculation that is not to scale for this reason, C98_violated a single step with two rooms.")
c("C99", "partial", "C99_flat_partial C99_program_partial C99_neighbours_partial C99_violated", "Holds for a building without leakage (C value 0), for the program with parts listed room by room: if the building completes, the flat alone completes and has the same rows. With leakage it is false: infiltration of every room follows the mean temperature of all rooms (C99_violated).")
c("C100", "proved", "C100_prefix C100_common")
c("C101", "partial", "C101_alike_partial C101_program_partial C101_parts_partial C101_violated", "Holds if the parts are listed room by room. If the parts of two equal rooms are listed alternately, the rooms get different results, because the radiative coefficients are given to the wrong parts (C101_violated, see C34).")
c("C102", "proved", "Glass.C102_light Glass.C102_accounted Glass.C102_passages Glass.C102_turned Glass.C102_reciprocal Glass.C102_more_panes Glass.C102_mirrors", "For panes that are no perfect mirrors; two perfect mirrors end in a division by zero (C102_mirrors).")
c("C103", "proved", "Glass.C103_flow Glass.C103_share Glass.C103_unique Glass.C103_range Glass.C103_exists Glass.C103_laws Glass.C103_stack", "Temperatures above -100 degC (the gas tables are extrapolated linearly and reach negative conductivities far below). C103_exists: any number of panes, both methods for the films. The program does not look whether the root finder converged.")
c("C104", "proved", "Glass.C104_shgc Glass.C104_windows Glass.C104_report", "If the root finder has converged to surface temperatures above -100 degC; C104_windows shows that this can be met for all windows.")
c("C105", "proved", "Glass.C105_u Glass.C105_heat Glass.C105_thicker Glass.C105_more_panes")
c("C106", "partial", "Glass.C106_emissivity Glass.C106_outer Glass.C106_inner_partial Glass.C106_inner_violated Glass.C106_radiation Glass.C106_gap Glass.C106_mixture Glass.C106_gases Glass.C106_convection", "With the method JIS_A2103 the film indoors is calculated from the emissivity of the surface outdoors (C106_inner_violated).")
c("C107", "proved", "C107_rows C107_program", "Capacities are not negative; both calculations complete.")
c("C108", "proved", "C108_rows C108_program", "Capacities are not negative; the three calculations complete. Leakage (C value above zero) and occupants react to the room temperature in a non-linear way and are left out.")
c("C109", "partial", "C109_rows_partial C109_program_partial C109_storing_rows_partial C109_storing_example C109_behind_rows_partial C109_behind_example C109_violated C109_leak_violated C109_air_violated", "False in general: sun on a light wall for a quarter of an hour makes its inner surface colder in the next (C109_violated). Proved for tight houses (C value 0) of parts that store no heat, off the ground and without air exchange between rooms, with at most one person in about 3 m3; with leakage or air between rooms it is false: a lamp in one room makes the next one colder (C109_leak_violated, C109_air_violated). C109_storing_rows_partial: outer parts may store heat, if their answer to a pulse of heat, the film included, is positive and log-convex (so for layers not too light for the time step) and the temperatures behind them are the same in both calculations; C109_storing_example is a day of a house with such a floor slab on the ground. Houses on the ground are compared under the same outdoor air. C109_behind_rows_partial: the surroundings of the parts that store heat may be warmer too, if these parts let warmth through (a pulse of warmth behind them, with the same temperature in front of the film, makes them give the room a heat flow that is never negative; C109_behind_example meets this). Missing: storing partitions, other outdoor air over the ground.")
c("C110", "partial", "C110_runs_partial C110_rows_partial C110_program_partial C110_storing_runs_partial C110_storing_rows_partial RF.C110_frequency_parts RF.C110_sign_parts RF.C110_layered_parts RF.C110_steady_parts C110_leak_violated C110_air_violated C110_demand_violated", "Proved for tight free-running houses (C value 0): with explicit factors where no part stores heat and every room is ventilated from outdoors, and with some constant and rate (depending on the house only) where the outer parts store heat and the partitions do not, the outer parts being passive behind their film (criteria: at every frequency, by signs of the factors, by the fitted step response, for U values) and the rooms exchanging at most twice the air they get from outdoors; with leakage no constant bounds what a step makes of a small difference (C110_leak_violated), and rooms that exchange much air drive each other apart (C110_air_violated). Rooms with demand are outside the statement; for them it is false: under constant data a room with closed windows stays cool and the same room with open windows stays warm, for any number of steps (C110_demand_violated). Missing: partitions that store heat.")
c("C111", "partial", "C111_settles_partial C111_storing_partial C111_rows_partial C111_cycle_stays C110_demand_violated", "For the free-running houses of C110 (tight, light partitions, no demand; with explicit factors where no part stores heat); the last sentence for all houses. Missing: what is missing for C110 (with leakage or much air between rooms the estimate is false there). With demand there can be two cycles under the same data (C110_demand_violated).")
c("C112", "partial", "C112_ceiling_partial C112_floor C112_inflow_violated C112_unbounded_violated", "The lower bound is proved for all houses, the upper one for houses without air flow between rooms. With it the upper bound fails in every house: air that flows into a room brings its moisture but takes none away (see C18), so a room supplied by other rooms only becomes ever more humid.")
c("C113", "partial", "C113_runs_partial C113_rows_partial C113_repeats_partial C113_settles_partial C113_sealed", "Proved for free-running houses without leakage whose outer parts may store heat (as C110), where every room takes in more outdoor air than air of other rooms and its furniture exchanges moisture with the air: one constant and one rate for the house, for all pairs of starts, all run-ups and all data; a daily cycle for repeated days. Proved to fail in a room without any air exchange. Missing: leakage, rooms with more air from other rooms than from outdoors (there the humidity itself grows without bound, C112), partitions that store heat. With demand it is false (C110_demand_violated).")
c("C114", "partial", "C114_rooms C114_room_names C114_parts C114_directions C114_equipment C114_regions C114_outer C114_surface C114_inner C114_glass C114_blind_violated C114_flag_violated", "Proved, with the exact list of words and the error for every other word, for room types, parts, directions, equipment, regions, and the tables of the converter. Proved to fail in two places: the outside blind is only known under a misspelt word, and one table of the converter returns True or False instead of a direction for all words but one.")
c("C115", "partial", "C115_area C115_numbers C115_radiation_violated C115_temperatures_violated C115_denominators RF.C115_wall_numbers RF.C115_wall_violated", "Proved with infinities and not-a-number as values, for the solar radiation absorbed by the surfaces, the surface and mean radiant temperatures, and the chain from the layers to the first response factor. Where every room has an absorbing surface (every layer a resistance) the values are the numbers of the real-number model; otherwise all are proved to be not-a-number. Missing: overflow, and the other functions of the code (for them only the denominators are shown to be non-zero).")
c("C116", "partial", "C116_violated C116_rows_partial", "False, for every length of the run-up up to a year: the mode latches. A room that starts at 15 degC is heated at once and then kept at the target of heating for ever; the same room, if one more day of run-up begins with a day without demand, settles at a temperature at which heating does not start, and is never heated, although all rows ask for it (C116_violated). Proved: rows without demand are off in both, and rows in which both heat or both cool with a load from the same humidity have the same operative temperature. Without equipment see C110.")
c("C117", "partial", "C117_total_partial C117_rows_partial C117_compare C117_leakage C117_program_partial C117_violated", "False in general: the program opens the windows of a comfortable house whatever the outdoor temperature, so a house that insulation makes comfortable is aired in the frost and then heated, while without insulation it is never heated (C117_violated). Proved for one-room houses without heat storage in their parts and without radiant systems, for any length: the sum of the loads is no larger if in all rows the windows are closed, the better insulated house is kept no warmer, the better insulated parts lose heat in the other house, and (unless the house is tight) the other house is no colder than outdoors and leaks at least as much (C117_total_partial; C117_leakage shows that it does if it was no colder in the row before); with a run-up, up to the heat that air and furniture lack at the first row (C117_rows_partial). C117_compare shows that rows in which both are heated with full demand and the same humidity, or the better insulated one is not heated, meet the condition on the temperatures. Missing: several rooms, parts that store heat.")
c("C118", "partial", "C118_total_partial C118_rows_partial C118_compare C118_program_partial C118_violated", "False in general: a lamp can make a house comfortable, the program then opens the windows in the frost, and the house is heated that would not have been heated without the lamp (C118_violated). Proved, for any length, for one-room houses without heat storage in their parts and without radiant systems, if in all rows the windows are closed, the room is kept no warmer in the milder records or needs no more heat anyway, and (unless the house is tight) the other room is no colder than outdoors and leaks at least as much; C118_compare shows that rows heated with full demand from the same humidity meet the first, C117_leakage (with the same resistances) that rooms no colder in the row before meet the second. Missing: several rooms, parts that store heat.")
c("C119", "partial", "C119_pieces_partial C119_violated", "Proved for whole calculations (both programs, tables or exception) as long as no piece of a layer with heat capacity falls below 0.001 J/(m2 K), the threshold below which the program takes a layer to be massless. Below it the property is false: every part that stores heat can be cut so finely that it stores none (C119_violated).")
c("C120", "partial", "C120_ignored C120_violated C120_violated_example", "False: only radiant panels have an effect. Whether no heating or an air conditioner of any capacity is entered makes no difference to the tables (C120_ignored), and a house without heating equipment is heated in cold weather as if it had one of unlimited power (C120_violated, for all plain one-room houses; C120_violated_example shows that the hypotheses are met for all weather). For radiant panels see C10 and C11.")
c("C121", "proved", "C121_words C121_layered", "C121_layered also covers an entry one would expect to matter: the inner surface resistance of a part entered by its layers is not used (C96).")
c("C122", "proved", "C122_lines C122_given", "The theorem is end to end over the three programs (`runAll`). The internal heat is stated as coded: the heat of cooking is read from the table of vapour (C71). The gain of a part is that which the initializer computes for a weather consisting of the one line of that quarter. Residents are between 1 and 4 in the last part (as they always are, C42).")
c("C123", "partial", "C123_spelling C123_violated", "False when the volumes of all rooms are written as whole numbers: they become an array of np.int64, which json.dump refuses with a TypeError after it has emptied mid_data_house.json; the calculation cannot be run on what is left (C123_violated, for every accepted input). Proved as soon as one volume is written with a decimal point. The volumes are the only numbers written to the file whose type depends on the notation.")
c("C124", "partial", "C124_complete C124_refused C124_torn C124_missing C124_first C124_stopped C124_mixed_violated C124_mixed_example C124_widths C124_widths_missing C124_rooms_refused C124_parts_refused C124_last_violated C124_between_violated C124_between_example C133_directory_refused C133_directory_violated C133_directory_example", "Proved: complete runs (on any previous directory), refused inputs, and runs stopped while the house file is written, which the calculation refuses; so does it every directory in which a file is missing (C124_missing, C124_widths_missing), which is what a run stopped in a new directory leaves (C124_first). False for runs stopped between two files: the directory is the first files of the new input and the rest of the old one (C124_stopped); if the numbers of rooms and parts agree, the calculation completes on the mixture (C124_mixed_violated, C124_mixed_example). Runs stopped in the middle of a csv file: the year's calculation refuses a table with fewer rows than the year has (C133_directory_refused), but a table of all rows with any numbers in them, for example a last number cut off, and for shorter calculations also a shorter table, is calculated (C133_directory_violated, C133_directory_example). Houses of other sizes (numpy's broadcasting of tables): with another number of rooms the calculation refuses the directory until the table of the sun is written (C124_rooms_refused), with another number of parts until the last file is written, if the old house had more than one part (C124_parts_refused); it calculates with the old outdoor temperatures if the last file is old and has as many columns or one (C124_last_violated). With equally many rooms and an old house of one part, the mixture is calculated wherever the run was stopped, the temperature behind the one old part being used for all parts (C124_between_violated, C124_between_example). All runs stopped between two files are covered.")
c("C125", "partial", "C125_remarks C125_speed_violated C125_example", "Proved: every row has exactly the remark that belongs to its mode and equipment. The target PMV and the clothing are those of the target temperature (C04). The air speed is not: the coefficients are constants, so a row that reports 0.2 m/s shows 4 W/(m2 K), while the program's formula for that speed gives more than 5.4 (C125_speed_violated).")
c("C126", "partial", "C126_names C126_names_violated C126_type_violated C126_example", "False: the schedule is looked up by the name of the room. Proved: exactly the rooms with one of three names are found, every house with a room of another name is refused, and every room of every accepted house, also an underfloor space, has people in it on New Year's Day. The schedule file is part of the model (`Model/ShippedSchedule.lean`, generated from schedules.json).")
c("C127", "proved", "C127_demand C126_example", "For the schedule file of the project; C126_example shows accepted houses. The facts about the tables of the file are checked by the kernel over all their entries, the interpolation is proved for all household sizes. The heat is not negative for rooms of non-negative area.")
c("C128", "partial", "C128_people_partial C128_midnight C128_violated C128_example", "Proved for houses whose rooms have different names. Two rooms may have the same name, and then the people of that name are counted twice: at midnight the house holds the residents once for every room called other_occupant_room, and nobody if there is none (C128_midnight, C128_violated).")
c("C129", "partial", "C129_same C129_violated C129_program_violated", "False: the capacities are used only for the air flow over the coil, that is for what the air conditioner takes out of the moisture. Proved: two complete calculations of houses that differ only in their air conditioners agree in everything but the moisture up to and including the first row in which a room is cooled (C129_same); so with any smaller maximum capacity the load of that row exceeds it (C129_violated). C129_program_violated is a whole calculation in which the load is twice the maximum capacity. Not stated: what happens in the rows after it, where the humidity differs.")
c("C130", "partial", "C130_day_partial C130_violated C131_example", "Proved for the local ventilation at every time, and for person-hours and vapour over every day. At single times it is false: on 8 January at 9:00 houses of 120 m2 and more are empty, while every smaller house of more than 30 m2 has people in its main room (C130_violated). Heat from lamps is not covered (it is per floor area and the tables are not monotone).")
c("C131", "partial", "C131_times C131_violated C131_example", "False: between 60 and 120 m2 comfort is asked for at all times of two people and at all times of four people (C131_times), so every room of a house of 120 m2 or more is conditioned for a strictly shorter time on every day of the year (C131_violated, for all pairs of houses and rooms of the same name).")
c("C132", "partial", "C132_sun C132_temperatures_partial C132_violated C132_example C132_year", "Proved: deeper overhangs and darker glass, for all accepted houses and all weather with non-negative radiation (C132_sun), and the temperatures of houses whose parts store no heat, without air exchange between rooms and without demand (C132_temperatures_partial; C132_year is a year of such a house). False for adding an overhang: the shaded fraction of a window without overhang is set to 1, so it gets no direct sun at all (C47), and an overhang of 0.3 m lets in more (C132_violated).")
c("C133", "partial", "C133_rows C133_equal C133_refused C133_cut C133_violated C133_directory_refused C133_directory_violated C133_directory_example", "Proved: completed calculations had enough rows in every table for the calculated period and for the run-up, and enough weather for the run-up of the ground (C133_refused; C133_directory_refused for directories). False: the run-up is counted from the end of each table on its own, so a calculation from cut tables is the calculation from the complete ones with other days in the run-up, different for each table (C133_cut), and it completes without complaint (C133_violated, C133_directory_violated). C133_equal: with tables of one length the model with separate lengths is the one of the other claims.")
c("C134", "partial", "C134_runs_partial C134_rows_partial C134_humidity_partial C134_rows_humidity_partial C134_air_violated C134_demand_violated", "Errors of any kind up to e in every step: in the temperatures, heat flows, humidities and holdings of parts that are handed on, and in the row that is written. A difference of two states has an energy that contracts in every step (C110) and is a square form of the state, so errors add up like a geometric series. Proved for tight houses without demand whose partitions store no heat; for the humidity if every room gets more air from outdoors than from other rooms. False where rooms exchange much air: an error at the start grows by more than 10^28 in a day (C134_air_violated). False with demand: however small the error, it can decide at the comfort threshold whether the windows are opened, after which the second row is off by 7 K (C134_demand_violated). Missing: leakage, partitions that store heat.")
c("C135", "partial", "C135_runs_partial C135_rows_partial C135_humidity_runs_partial C135_rows_humidity_partial C135_weather_partial C135_weather_means_partial C135_weather_example C135_air_violated C135_demand_violated", "One constant for each house, for all pairs of tables, including the run-up of the ground and of the building. The difference of two calculations is a calculation with sources; subtracting a particular solution of the system of the surfaces leaves a difference without sources whose energy contracts (C110), and the sources add to it like a geometric series. Proved for tight houses without demand and without radiant heating or cooling, whose partitions store no heat, and in which rooms get more air from outdoors than they exchange; the humidity too. False where rooms exchange much air: an error in the heat gains grows by 10^26 in a day (C135_air_violated). False with demand: gains that differ by any e > 0 can decide at the comfort threshold whether the windows are opened, after which a row differs by 7 K (C135_demand_violated). For errors in the weather alone the constant is one, also where outer parts store heat: no room, furniture, surface, mean radiant or operative temperature of any row differs by more than the weather does (C135_weather_partial, C135_weather_means_partial: no people, no air between rooms, the same outdoor air if a part lies on the ground; every storing part lets warmth through). Missing: leakage, partitions that store heat, radiant parts.")
c("C136", "partial", "C136_factors C136_parts C136_detached_partial", "C136_factors: the distribution over any parts. C136_parts: the parts the converter hands on, for any list of parts whose losses can be distributed, in the regions 1 to 7. C136_detached_partial: the whole conversion, from the input to the parts read back from its output, for detached houses of 20 to 4000 m2; attached houses and region 8 are never converted (C59). The statement about the sun needs that no wall has a negative area, which the standard house gets for extreme envelope areas.")
c("C137", "partial", "C137_rows_partial C137_storing_rows_partial C137_storing_example C137_program_partial C137_example C137_leak_violated", "Comparison of two complete calculations row by row, in both directions (more air while not colder than outdoors, less air while not warmer). Proved for tight houses whose parts store no heat, off the ground, without air exchange between rooms, without demand and not too crowded, with the same ventilation during the run-up (of which no rows are written). C137_example is a day of such a house at 0 degC. With leakage it is false: airing one room makes the room next to it warmer, since all rooms leak by the mean temperature of the house (C137_leak_violated). C137_storing_rows_partial: the same with outer parts that store heat and take it up evenly (log-convex answer to a pulse of heat; storageless parts are a special case, storageless_relaxing), on the ground too; C137_storing_example is a day of a house with a storing floor slab. Missing: partitions that store heat, layers too light for the time step. (Rooms with demand are outside the statement.)")
c("C138", "partial", "C138_rows_partial C138_storing_rows_partial C138_behind_rows_partial C138_heated_partial C138_cooled_partial C138_storing_heated_partial C138_storing_cooled_partial C138_one_room_partial C138_storing_one_room_partial C138_storing_one_room_example C138_example C138_violated", "False where windows open: with demand, a comfortable room is aired in the frost, and a house with heating falls below 8 degC while the same house with the equipment switched off stays above 15 degC (C138_violated). Proved for houses of parts that store no heat, off the ground and without air exchange between rooms: more heat from the equipment in every row, and leaks and windows that do not favour the other, give no lower temperature anywhere (C138_rows_partial); tight houses with closed windows and loads of one sign, compared with the equipment switched off (C138_heated_partial, C138_cooled_partial); in one room the loads have the right sign by themselves (C138_one_room_partial). The same with outer parts that store heat and take it up evenly and houses on the ground (C138_storing_rows_partial, C138_storing_heated_partial, C138_storing_cooled_partial, C138_storing_one_room_partial; light layers excluded; C138_behind_rows_partial with warmer surroundings as well). Missing: partitions that store heat; light layers; a run-up with demand; several rooms with loads of the wrong sign (C12).")
c("C139", "proved", "C139_program C139_free C139_rows C139_example", "C139_free and C139_program: complete calculations without demand up to the row, for every well-formed house. C139_rows goes further: rows with demand too, also cooled ones, as long as the other columns agree and there is no demand in the run-up; with a running coil the house must have no air exchange between rooms.")
c("C140", "partial", "C140_same C140_reader_violated C140_mixed_violated C140_mixed_example C140_overlap_violated", "Proved for runs for the same input, when all are over (C140_same): any number of runs, any interleaving, any pieces of the texts, down to the bytes. False while another run is at work, even one for the same input: opening a file empties it (C140_reader_violated). False for different inputs: both runs complete and leave the house of the one with the schedules of the other (C140_mixed_violated, C140_mixed_example), and a file that two runs write at the same time can hold the text of one followed by the end of the other (C140_overlap_violated). That the texts are read back as what was written is a hypothesis.")
