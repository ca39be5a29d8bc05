INI = "heat_load_calc/initializer/"
p("Response factors are the sampled response to triangular pulses",
  "For every wall the returned series (first term, exponential terms, ratios) equals, at every multiple of 900 s, the response to a triangular temperature or flux pulse of the sum of exponentials that was fitted to the wall.",
  "all walls, all sample times",
  "Infinitely many sample times and walls; integrals.",
  INI + "response_factor.py:get_RFTRI", INI + "response_factor.py:calc_response_factor")
p("The response factor fit is optimal and never fails",
  "For every non-empty list of layers the calculation succeeds, and the fitted coefficients are the unique least squares approximation of the wall's transfer functions at the chosen Laplace parameters.",
  "all non-empty layer lists",
  "Invertibility of the normal equations for all inputs; optimality against all other coefficient vectors.",
  INI + "response_factor.py:get_step_reps_of_wall", INI + "response_factor.py:calc_response_factor")
p("ISO 7730 PMV is well defined and monotone",
  "In every physically possible situation there is exactly one clothing surface temperature; PMV computed from it rises with air temperature, radiant temperature and humidity.",
  "all possible climates and persons, all root finders that return a physical root",
  "Real parameters; implicit equation.",
  "heat_load_calc/external/iso7730.py:get_pmv_ppd")
p("The weather table is complete and aligned",
  "For every region and interval the produced weather table has one row per time step of the year, every column on the same rows, radiation columns equal to the interpolated data, temperature, humidity and sun angles equal to the computed values up to the documented rounding.",
  "all weather files, regions, intervals and rounding tie rules",
  "All rows of all tables; rounding of arbitrary reals.",
  "heat_load_calc/weather/weather.py:make_weather", "heat_load_calc/weather/solar_position.py:calc_solar_position")
p("Compiled schedules contain each quantity in its place",
  "For every household size and room the compiled schedules contain, at every quarter hour, people, demand, local ventilation, internal heat (appliances, lighting, cooking heat) and moisture (cooking vapour) interpolated from the lists of that quantity, in SI units.",
  "all schedule files, household sizes, rooms and time steps",
  "All table contents and all real household sizes.",
  INI + "schedule_loader.py:get_compiled_schedules")
p("The calculation works on the house of the input file",
  "For every input with complete data that the initializer accepts, the calculation reads the files written by the initializer without error and works on exactly that house: same rooms and parts in the same order, each with its own volume, furniture, ventilation, equipment, area, response, rear side and shares.",
  "all input files, schedules, weather data and rounding tie rules",
  "Two programs and a file format between them; all houses.",
  INI + "initializer.py:make_house", "heat_load_calc/core/pre_calc_parameters.py:make_pre_calc_parameters")
p("Parts in contact with the ground see the ground temperature",
  "Behind every part in contact with the ground the calculation uses the annual mean outdoor temperature, in the run-up and in the main calculation.",
  "all input files, weather data and time steps",
  "All houses and all steps of two coupled programs.",
  INI + "outside_eqv_temp.py:OutsideEqvTempGround", INI + "initializer.py:make_house", "heat_load_calc/core/pre_calc_parameters.py:make_pre_calc_parameters")
p("Time series reach the room and part they belong to",
  "For every accepted input and every quarter hour, the record used by the calculation contains for each room the schedules compiled for that room and the sum of the solar gains of its windows, for each part the outdoor temperature of that part; the gains of all rooms add up to the gains of all windows.",
  "all accepted input files and all time steps",
  "All houses, all room assignments of parts, all steps.",
  INI + "initializer.py:make_house", "heat_load_calc/core/pre_calc_parameters.py:make_pre_calc_parameters")
p("Physical inputs give physical houses",
  "Every complete, physically possible input that the initializer accepts is turned into a house that satisfies the physical conditions under which the calculation is known to be solvable, including the radiative coefficients the calculation derives itself.",
  "all physically possible input files, all solutions of the shape factor equation",
  "Quantifies over all houses.",
  INI + "initializer.py:make_house", "heat_load_calc/core/pre_calc_parameters.py:make_pre_calc_parameters", "heat_load_calc/core/shape_factor.py:get_h_r_js")
p("An accepted physical input can be calculated to the end",
  "For every complete, physically possible input that the initializer accepts, every weather and every schedule file that contains the rooms, the calculation from the written files runs to its end for every admissible number of main and run-up days.",
  "all physically possible input files, weather data, schedules and run lengths",
  "Any of thousands of matrix inversions in any step could fail for some house.",
  INI + "initializer.py:make_house", "heat_load_calc/core/core.py:calc")

CNV = "heat_load_calc/convert/"
p("Air paths exported by the converter name rooms that exist",
  "Every inflow from another room that the level-4 converter writes names a room of the exported room list.",
  "all floor areas, envelopes and regions",
  "The mismatch is between two names written by one function and read by another program; no test of either side shows it for every house.",
  CNV + "convert_lv4_to_h_hlc.py:make_initial_rooms")
p("The level-4 export completes",
  "Converting a level-4 description of a house to an input file of the initializer returns normally for every house.",
  "all level-4 descriptions",
  "Quantifies over all houses; a test shows one.",
  CNV + "convert_lv4_to_h_hlc.py:convert_lv4_to_initializer", CNV + "convert_lv4_to_h_hlc.py:make_rooms")

LOG = "heat_load_calc/core/log.py:"
p("The detailed result table holds what the steps computed",
  "A calculation returns its tables exactly if all its steps complete, it has a room and a step to report, and no room reaches absolute zero. Then the detailed table has one row per time step of the main period, column names without repetition and no missing entry. Row k of the columns of a room holds what step k computed for that room and the inputs of step k; row k of the columns of a part, in the room the part belongs to, holds what step k computed for that part. There are no other columns, and they stand in a fixed order: outdoors, then room by room those of the room and of its parts.",
  "all houses with any number of rooms and parts in any order, all completed calculations, all rows and columns",
  "A swapped index shows only for particular orders of parts and rooms; all houses and all steps are meant.",
  LOG + "record", LOG + "Logger.pre_logging", LOG + "Logger.post_logging")
p("Columns in watts are in watts",
  "In every row of the detailed table the documented total heat of a part [W] is the sum of its convective, radiant and solar heat [W] and its share of the radiant heating; the documented sensible and latent heat of people [W] add up to 119 W per person.",
  "all houses, all completed calculations, all rows",
  "An identity between columns for every house, weather and step.",
  LOG + "record", "notebook/data_spec/spec_core_output_detail.csv")
p("The digest is the hourly mean of the detailed table",
  "Every hourly entry of the digest is the mean of the values of that hour in the detailed table, rounded as documented: temperatures and humidities, and the loads in watts; operation modes are those at the full hour.",
  "all houses, all completed calculations, all hours, all numbers of steps per hour",
  "All runs and hours; units are invisible to a comparison with recorded output.",
  LOG + "record", "notebook/data_spec/spec_core_output_simple.csv")
p("Columns of parts carry the id of the part",
  "The number in the name of the columns of a part is the number of that part in the input.",
  "all houses",
  "Depends on the order of all parts of all rooms.",
  LOG + "record", "notebook/data_spec/spec_core_output_detail.csv")
p("The order of rooms and parts in the input does not matter",
  "Listing the rooms and the parts of a house in another order (with references and schedules moved along) gives the same results: if the calculation completes for one order it completes for the other, and every row of the detailed results holds the same values for every room and every part.",
  "all houses with any number of rooms and parts, all reorderings, all weather and schedules, all numbers of steps",
  "Quantifies over all permutations of all houses; a bug in an index shows only for particular orders.",
  "heat_load_calc/core/core.py:calc", "heat_load_calc/core/pre_calc_parameters.py:make_pre_calc_parameters", "heat_load_calc/core/sequence.py:run_tick", "heat_load_calc/core/shape_factor.py:get_h_r_js")
p("An exported part is read by the initializer as the same part",
  "Every part (wall, roof, floor, window, door) that the conversion exports for the initializer is accepted by the initializer and read as the same part: number and room, area, exposure, U value, glass and sunshade.",
  "all parts of all houses, all regions",
  "Two programs agree on names and meanings of entries only if this holds for every part; a test covers one.",
  CNV + "ees_house.py:GeneralPart.make_initializer_dict", CNV + "ees_house.py:Window.make_initializer_dict", CNV + "ees_house.py:Door.make_initializer_dict", CNV + "factor_f.py", "heat_load_calc/initializer/boundary_simple.py:get_boundary_simple", "heat_load_calc/initializer/solar_shading.py:SolarShading.create")
p("Heat and moisture are accounted for over every period of the results",
  "For every room and every two rows of the detailed results: the heat held by the air and furniture of the room changes by the sum over the steps in between of gains, occupants, convective and radiative load, transmitted sun, outdoor air and air from other rooms, minus the heat that flows into its parts; likewise the vapour held by air and furniture.",
  "all well-formed houses, all weather and schedules, all completed calculations, all pairs of rows",
  "A sum over arbitrarily long histories of a coupled implicit system; a leak in one term shows only for particular rooms.",
  "heat_load_calc/core/sequence.py:run_tick", "heat_load_calc/core/core.py:calc", LOG + "record")
p("No temperature leaves the range of what drives it",
  "If nothing but the outdoor air acts on a house (no gains, people, sun or demand), every temperature of the detailed results lies between the lowest and the highest of the outdoor temperatures and the initial temperature. If nothing cools the house, no temperature falls below the lowest of them.",
  "all well-formed houses, all weather and schedules, all completed calculations, all rows and rooms, parts and furniture",
  "A maximum principle for a coupled implicit system over arbitrarily long histories; a sign error shows only for particular houses.",
  "heat_load_calc/core/sequence.py:run_tick", "heat_load_calc/core/core.py:calc", "heat_load_calc/core/conditions.py:initialize_conditions")
p("A part answers to its whole history",
  "In every row of the detailed results the surface temperature of a part is the superposition of its responses to the heat flux at its surface and to the temperature behind it, now and in all earlier rows, each past excitation weighted with the response factors for its age; what happened before the first row enters as decaying rest.",
  "all well-formed houses, all parts, all weather and schedules, all completed calculations, all rows",
  "A convolution over arbitrarily long histories; an index shifted by one step changes results only slightly.",
  "heat_load_calc/core/sequence.py:run_tick", "heat_load_calc/core/core.py:calc", "heat_load_calc/initializer/response_factor.py")
p("With a computed clothing temperature the comfort index of a room is that of ISO 7730",
  "get_ot_target_and_h_hum_with_pmv with method 'convergence' (its default) finds the one clothing temperature at which the clothing conducts what it loses; the PMV of the room is the PMV of ISO 7730, the same that get_pmv_ppd returns; it rises with air temperature, radiant temperature and vapour pressure; heavier clothing is never cooler in a room below skin temperature; the returned mode follows the rule for these PMVs and the returned target realises the target PMV. Method 'constant' is what the calculation uses, any other is rejected.",
  "all temperatures above absolute zero, humidities, clothings, velocities, previous modes, kinds of equipment, all root finders that find roots",
  "Uniqueness of the root of a transcendental equation and agreement of two implementations for all real inputs.",
  "heat_load_calc/core/ot_target_pmv.py:get_ot_target_and_h_hum_with_pmv", "heat_load_calc/core/ot_target_pmv.py:get_h_hum_c_is_n", "heat_load_calc/core/ot_target_pmv.py:get_h_hum_r_is_n", "heat_load_calc/external/iso7730.py:get_pmv_ppd")
p("A part can be entered in pieces",
  "Entering a part of a room as several pieces (same layers, same exposure, areas and the shares of radiation and panel heat adding up) gives the same results as entering it as one part: if the calculation completes for one it completes for the other, every row of the detailed results is the same for every room, every piece has the temperatures and fluxes per area of its part, and the heat flows of the pieces add up to that of the part.",
  "all houses with any number of rooms and parts, all ways of cutting parts, all weather and schedules, all numbers of steps",
  "Quantifies over all partitions of the parts of all houses; a sum over the wrong set shows only for particular cuts.",
  "heat_load_calc/core/core.py:calc", "heat_load_calc/core/pre_calc_parameters.py:make_pre_calc_parameters", "heat_load_calc/core/sequence.py:run_tick", "heat_load_calc/core/shape_factor.py:get_h_r_js", LOG + "record")
LV4 = "heat_load_calc/convert/convert_lv4_to_h_hlc.py:"
p("Parts are attached to the room they belong to, once",
  "integrate_doors_to_rooms, integrate_innerwalls_to_rooms, integrate_earthfloors_to_rooms and integrate_earthfloorperimeters_to_rooms keep all rooms and their other entries and append to each room exactly one entry per part that names the room's type, in the order of the parts, with the area (length), heat transmission, solar gain, boundary, layers and shade of that part; the added names are numbered without gaps and differ from each other; no area is lost or counted twice. integrate_equipments_to_rooms gives the main and the other rooms their equipment and changes nothing else.",
  "all lists of parts and rooms",
  "Nested loops with a running number over arbitrary lists that are changed in place; tests use one room per type and one part per room.",
  LV4 + "integrate_doors_to_rooms", LV4 + "integrate_innerwalls_to_rooms", LV4 + "integrate_earthfloors_to_rooms", LV4 + "integrate_earthfloorperimeters_to_rooms", LV4 + "integrate_equipments_to_rooms")
p("A window behind another window lets in less than either",
  "get_eta returns, for every described window, a solar gain coefficient between 0 and 1; that of a double window is below that of each of its two windows; a shade lets in less than none, an outside blind less than a paper screen; other kinds of windows are rejected with a message.",
  "all combinations of frames, glasses and shades, and all entered values",
  "51 x 2 single and more than 10000 double windows; entered values are real numbers.",
  LV4 + "get_eta", LV4 + "get_eta_from_specification")
p("A part has the same boundary data in every stage of the converter",
  "For every kind of part and every space behind it the surface resistances of get_r_surf are those used for parts given by a heat transmission coefficient (ees_house); the boundary made at level 4 has the angles of its direction used for solar radiation, or the temperature difference factor of its space and region; every adjacent space of the other stages can be named at level 4.",
  "all kinds of parts, adjacent spaces, directions and regions",
  "Several tables in different modules with different names have to agree entry by entry.",
  "heat_load_calc/convert/a_06_common_items.py:get_r_surf", LV4 + "get_boundary_for_outer_skin", LV4 + "get_tempdifferentfactor_from_direction", "heat_load_calc/convert/ees_house.py:GeneralPartSpecUValue", "heat_load_calc/external/factor_h.py:NextSpace")
p("Over a closed period every part loses heat by its U value",
  "Over every period of the results after which rooms, furniture and parts hold the same heat as before, the heat that a part takes from its room is its U value (film and layers in series) times the sum of the temperature differences between its two sides, and the heat put into a room (gains, occupants, heating, sun) is what it loses by the textbook: transmission through its parts and ventilation with outdoor air.",
  "all well-formed houses, all weather and schedules, all lengths of the period, all completed steps",
  "Storage cancels only over the whole period; a test compares with recorded output, not with the U value.",
  "heat_load_calc/core/sequence.py:run_tick", "heat_load_calc/core/pre_calc_parameters.py:make_pre_calc_parameters", "heat_load_calc/initializer/response_factor.py")
p("Heat that leaves a room through a partition arrives in the next room",
  "Over every period after which the house holds the same heat as before, the heat that one side of a partition takes from its room is the heat that the other side gives to the room behind it.",
  "all well-formed houses and partitions, all weather and schedules, all lengths of the period",
  "A conservation law between two separately described parts, for all histories; loads of single rooms look plausible without it.",
  "heat_load_calc/core/sequence.py:run_tick", "heat_load_calc/core/pre_calc_parameters.py:make_pre_calc_parameters", "heat_load_calc/initializer/initializer.py")
p("The calculation stands still exactly where all heat flows balance",
  "A step leaves a house as it was only at temperatures at which every part takes U value times temperature difference, every room loses what is put into it and the furniture gives off what it receives; and a house that has been at such temperatures stays there under constant weather.",
  "all well-formed houses, all weather records, all states",
  "Characterises all fixed points of an implicit coupled system.",
  "heat_load_calc/core/sequence.py:run_tick", "heat_load_calc/core/pre_calc_parameters.py:make_pre_calc_parameters")
p("A part entered by its U value loses heat by that U value",
  "For every accepted input, the heat that a part given by its U value takes from its room, over every period after which the house holds the same heat as before, is that U value times the sum of the differences between the temperature it is exposed to and that behind it. Parts given by layers use the sum of the layers, the outer film entered and the inner film.",
  "all complete inputs, all parts given by a U value, all weather and schedules, all closed periods",
  "Relates an entry of the first program to the heat flows of the second for all room shapes.",
  "heat_load_calc/initializer/response_factor.py", "heat_load_calc/initializer/initializer.py", "heat_load_calc/core/shape_factor.py:get_h_r_js", "heat_load_calc/core/sequence.py:run_tick")
p("The number of steps per hour does not change what is calculated",
  "calc with any n_step_hourly: every step works with the weather and schedules of its time, and what a part remembers decays with the time constants of the part, whatever the number of steps per hour.",
  "all houses, all positive numbers of steps per hour, all completed calculations, all rows",
  "The tests only use the default of four; the claim is about all step lengths and all rows.",
  "heat_load_calc/core/core.py:calc", "heat_load_calc/core/sequence.py:run_tick", "heat_load_calc/initializer/response_factor.py")
p("A house s times as large has s times the loads",
  "If all areas, volumes, air flows, furniture, equipment and gains of a house are multiplied by the same positive number s, the temperatures, humidities and operation modes of every room and part in every row stay the same, and loads, heat and moisture of occupants and air flows are multiplied by s.",
  "all houses, all s > 0, all weather and schedules, all completed calculations, all rows",
  "Compares two calculations for every house, scale and history; a hidden absolute constant anywhere in the step breaks it.",
  "heat_load_calc/core/core.py:calc", "heat_load_calc/core/sequence.py:run_tick", "heat_load_calc/core/next_condition.py:calc_next_temp_and_load", "heat_load_calc/core/heat_exchanger.py:get_dehumid_coeff", "heat_load_calc/core/shape_factor.py:get_h_r_js")
p("A flat that is separate from the rest of the building has its own results",
  "If some rooms of a building with all their parts have no partition to, and get no air from, the other rooms, then calculating the whole building gives them the same temperatures, humidities and loads as calculating them alone, and nothing that is said about the other rooms changes them.",
  "all buildings and groups of rooms without inflow from outside the group, all weather and schedules, all numbers of steps",
  "Noninterference is a statement about pairs of runs: every room goes through the same matrix inversions.",
  "heat_load_calc/core/sequence.py:run_tick", "heat_load_calc/core/infiltration.py:_get_infiltration_residential", "heat_load_calc/core/pre_calc_parameters.py:make_pre_calc_parameters", "heat_load_calc/core/core.py:calc")
p("A shorter calculation gives the first rows of a longer one",
  "If a calculation completes, the calculation of the same house with the same files and run-up over fewer days completes, and its rows are the first rows of the longer one; two completed calculations of any lengths agree in the rows they both have.",
  "all houses, all weather and schedules, all numbers of days and of run-up days, all completed calculations",
  "Says that no later record and no length of the calculation influences an earlier row, for all lengths and histories.",
  "heat_load_calc/core/core.py:calc", "heat_load_calc/core/period.py", LOG + "pre_logging", LOG + "record")
p("Rooms and parts entered alike have the same results",
  "If exchanging some rooms and some parts leaves the input and the schedules as they are, then these rooms have the same temperatures, humidities, modes and loads and these parts the same temperatures and heat fluxes in every row; in particular two equal parts of one room.",
  "all houses and all symmetries of rooms and parts, all weather and schedules, all completed calculations, all rows",
  "Symmetry of a coupled system for all houses; a result that depends on the position in a list shows only for some lists.",
  "heat_load_calc/core/core.py:calc", "heat_load_calc/core/sequence.py:run_tick", "heat_load_calc/core/shape_factor.py:get_h_r_js")
p("Light on a stack of panes is followed to the end",
  "For every number of panes that transmit and reflect at most what they receive, the total transmittance and reflectance and the absorption of every pane are those of the one distribution of light in which what leaves a pane arrives at its neighbour, which is the limit of following the light to and fro; all shares are non-negative and add up to one; turning the stack around exchanges front and back; another pane lets less through.",
  "all stacks of panes of any number with any transmittances and reflectances",
  "Infinitely many reflections between arbitrarily many panes, summed by a recursion over the panes.",
  "notebook/initializer/shgc_window/multiple_reflection.py:Glass")
GTB = "notebook/initializer/shgc_window/glass_thermal_balance.py:"
p("Heat through glazing is balanced on every surface",
  "get_temp_and_r, when its root finder has converged: every glass surface passes on the heat it receives (half of what its pane absorbs, and through the resistances next to it); the room receives the temperature difference divided by the sum of the returned resistances and the returned part r_qin of the absorbed radiation, outdoors the rest; r_qin lies between nothing and all; no surface is colder than both sides, without sun none warmer; there is such a solution, and with fixed gap temperatures only one.",
  "all glazings of any number of panes with any coatings and gas mixtures, all temperatures above -100 degC, all absorbed radiation",
  "A nonlinear system of any size solved by an external root finder; r_qin is calculated from a formula that has to agree with its solution.",
  GTB + "Glass.get_temp_and_r", GTB + "Glass.get_r_qin")
p("The solar heat gain coefficient is between the transmittance and one minus the reflectance",
  "The window calculation gives a solar heat gain coefficient not below the transmittance and not above one minus the reflectance, and the heat that comes into the room is this share of the radiation besides the heat that flows without sun.",
  "all stacks of panes with any optical and thermal data",
  "Combines the optics of arbitrary stacks with the solution of a nonlinear heat balance.",
  "notebook/initializer/shgc_window/window.py:calc")
p("The U value of glazing is that of its parts in series",
  "get_heat_transmittance is one over the sum of both films, all sheets and all gaps, whatever the root finder does; it is the heat per degree found by get_temp_and_r; thicker sheets and further panes lower it.",
  "all glazings of any number of panes",
  "The value is read from the result of a root finder; monotonicity is about pairs of glazings.",
  GTB + "Glass.get_heat_transmittance", GTB + "Glass.r")
p("Films and gaps of glazing follow the emissivity of the surfaces next to them",
  "Corrected emissivities are defined for the range of the table, increase with the normal emissivity and are below that of uncoated glass; the film on each side of the glazing depends on the surface on that side only; radiation follows the law of Stefan and Boltzmann; gaps conduct alike in both directions and not less than still gas.",
  "all emissivities, glazings, temperatures and gas mixtures",
  "A piecewise formula over the reals, and noninterference between pairs of glazings.",
  GTB + "LowESurface.eps", GTB + "Glass.get_h_e", GTB + "Glass.get_h_i", GTB + "AirLayer.get_h_s_with_surfaces_temp")
p("Without demand, equipment and moisture do not influence temperatures",
  "As long as no room has demanded conditioning since the start of the run-up, all columns of the results except the humidities of room air and furniture are the same whatever heating, cooling and air-conditioning equipment, capacities, radiant panels, window opening, furniture moisture, outdoor humidity and moisture release the input gives.",
  "all pairs of inputs that agree on the building, heat gains and outdoor temperatures, all completed calculations, all rows before the first demand",
  "Noninterference between pairs of whole calculations over any number of steps.",
  "heat_load_calc/core/core.py:calc", "heat_load_calc/core/sequence.py:run_tick", "heat_load_calc/core/next_condition.py:calc_next_temp_and_load", "heat_load_calc/core/ot_target_pmv.py:get_operation_mode_i_n")
p("Free-running temperatures and humidities superpose",
  "In a tight, unoccupied building with given ventilation, as long as no room has demanded conditioning since the start of the run-up, every number in the results for a weighted mean of two inputs (weather, solar and internal heat gains, moisture) is the weighted mean of the numbers in the results for the two inputs, with any weight: twice the additional gain gives twice the rise.",
  "all pairs of inputs, all real weights, all completed calculations, all rows before the first demand",
  "Superposition is a relation between three whole calculations, for every weight and any number of steps.",
  "heat_load_calc/core/core.py:calc", "heat_load_calc/core/sequence.py:run_tick", "heat_load_calc/core/sequence_ground.py:run_tick", "heat_load_calc/core/pre_calc_parameters.py:make_pre_calc_parameters")
p("More heat never makes anything colder",
  "As long as no room has demanded conditioning, warmer outdoor air, more sun and more heat released indoors do not lower any room, furniture, surface, mean radiant or operative temperature of any row of the results.",
  "all pairs of inputs one of which is nowhere colder, all completed calculations, all rows before the first demand",
  "A monotonicity statement about pairs of whole calculations of any length.",
  "heat_load_calc/core/core.py:calc", "heat_load_calc/core/sequence.py:run_tick", "heat_load_calc/core/occupants.py:get_q_hum_psn_is_n")
p("The past fades away",
  "Two calculations of the same free-running house under the same data from different states, or with run-ups of different lengths, approach each other: the differences of all temperatures shrink at least by a given factor below one in every step, so that a long enough run-up makes the results independent of the arbitrary start.",
  "all pairs of start states and of run-up lengths, all houses with ventilated rooms, all data, any number of steps",
  "A contraction estimate for pairs of histories, uniform in the number of steps.",
  "heat_load_calc/core/core.py:calc", "heat_load_calc/core/sequence.py:run_tick", "heat_load_calc/core/conditions.py:initialize_conditions")
p("Repeated days settle into one daily cycle",
  "If every day brings the same weather, sun, gains and schedules, the results of a free-running house approach a daily cycle that does not depend on the state at the start: a row and the row one day later, and a row and the cycle, differ by less and less, by a given factor per step. A day that ends in the state it began with is repeated for ever, with or without equipment.",
  "all start states, all periods of the data, any number of days, all houses with ventilated rooms",
  "Convergence over infinitely many days, uniform in start and data; a test runs one or a few days from one start.",
  "heat_load_calc/core/core.py:calc", "heat_load_calc/core/sequence.py:run_tick", "heat_load_calc/core/conditions.py:initialize_conditions")
p("No humidity leaves the range of what drives it",
  "Without moisture sources in the house, no humidity of a room or its furniture is ever above the highest of the outdoor humidities and the humidity from which the calculation starts, whatever the temperatures and the equipment; while no room is cooled, none is ever below the lowest of them.",
  "all houses, weather, schedules, run-ups and lengths of the calculation",
  "A maximum principle for histories of any length, for arbitrary air flows and temperatures.",
  "heat_load_calc/core/sequence.py:run_tick", "heat_load_calc/core/heat_exchanger.py:get_dehumid_coeff", "heat_load_calc/core/core.py:calc")
p("The moisture of the past fades away",
  "Two calculations of the same free-running house under the same data from different states, or with run-ups of different lengths, approach each other in their humidities too: the differences of all humidities of rooms and furniture shrink geometrically, and if every day brings the same data they settle into a daily cycle that does not depend on the start. This needs outdoor air: a room that exchanges no air keeps every difference for ever.",
  "all pairs of start states and of run-up lengths, all houses whose rooms take in more outdoor air than air of other rooms, all data, any number of steps",
  "A contraction estimate for pairs of histories with the temperatures as a disturbance, uniform in the number of steps.",
  "heat_load_calc/core/core.py:calc", "heat_load_calc/core/sequence.py:run_tick", "heat_load_calc/core/occupants.py:get_x_hum_psn_is_n")
p("Words of the input mean what they say",
  "Room types, kinds of parts, directions, kinds of equipment, numbers of regions, and in the converter what parts face, frames, glass and shades are each given by one of a fixed list of words. Every word of the list is read with its meaning, alike in every place where it is read, and any other word stops the program with an error instead of falling back to a default.",
  "all strings, in every place where a word is read",
  "The refused words are all other strings; the meaning must agree between several tables.",
  "heat_load_calc/initializer/boundary_type.py:BoundaryType", "heat_load_calc/initializer/external_boundaries_direction.py:get_w_alpha_j_w_beta_j", "heat_load_calc/initializer/boundary_simple.py:get_boundary_simple", "heat_load_calc/initializer/initializer.py:RoomType", "heat_load_calc/convert/convert_lv4_to_h_hlc.py:get_eta_from_specification", "heat_load_calc/weather/region_location.py:get_phi_loc_and_lambda_loc")
p("Results are numbers",
  "The temperatures of a calculation are numbers, never 'not a number' or infinite. This needs a surface that absorbs the sun in every room: one room without such a surface makes the temperatures of all surfaces and the mean radiant temperatures of all rooms of the house 'not a number' in every step, without an error. A layer of a wall that stores heat but is entered without resistance does the same to the response of its wall.",
  "all houses, weather, schedules, states and steps; all lists of layers",
  "The condition concerns all rooms of all houses, and its failure spreads without an exception to rooms that meet it.",
  "heat_load_calc/core/pre_calc_parameters.py:make_pre_calc_parameters", "heat_load_calc/core/sequence.py:run_tick", "heat_load_calc/initializer/response_factor.py:get_step_reps_of_wall")
p("With equipment, too, a long enough run-up makes the results independent of the start",
  "In a house with heating and cooling the results of a calculation do not depend on how many days of run-up precede it, once there are enough of them: loads, modes and temperatures of two calculations that differ only in a long run-up agree, or nearly so.",
  "all houses with equipment, weather, schedules and pairs of run-up lengths",
  "The mode of the equipment depends on the mode before, so a difference at the start may be kept for ever; no finite number of compared run-ups shows that it is not.",
  "heat_load_calc/core/core.py:calc", "heat_load_calc/core/ot_target_pmv.py:get_operation_mode_is_n", "heat_load_calc/core/sequence.py:run_tick")
p("Better insulation never raises the heating",
  "Of two houses that differ in the thermal resistance of their parts only, in the same or warmer weather and with the same or more sun and heat released, the better insulated one is supplied with no more heat by its heating.",
  "all pairs of houses, weather, schedules and lengths of the calculation",
  "A comparison of two histories of any length; in single steps the better insulated house may be supplied with more.",
  "heat_load_calc/core/core.py:calc", "heat_load_calc/core/sequence.py:run_tick", "heat_load_calc/core/ot_target_pmv.py:get_operation_mode_is_n")
p("Milder weather and more gains do not raise the heating",
  "Where the outdoor air is warmer, the sun stronger and more heat is released indoors at all times, with the same schedules, the heat supplied to a house over the calculated period is no larger.",
  "all pairs of inputs one of which is nowhere colder, all completed calculations of any length",
  "Compares two whole calculations with feedback through modes, windows and storage, for all weather data; a test compares two years.",
  "heat_load_calc/core/core.py:calc", "heat_load_calc/core/sequence.py:run_tick", "heat_load_calc/core/ot_target_pmv.py:get_operation_mode_i_n", "heat_load_calc/core/next_condition.py:calc_next_temp_and_load")
p("A layer can be entered in pieces",
  "If a layer of a wall, floor or partition is entered as several layers of the same material one behind the other, with the same total thickness, the results of the whole calculation do not change.",
  "all inputs, weather and schedules, all parts entered by layers, all ways to cut the layers",
  "The pieces may be any number of any thickness; the response factors of the wall are found by a fit, so equality for some walls says nothing about others.",
  "heat_load_calc/initializer/response_factor.py:get_step_reps_of_wall", "heat_load_calc/initializer/response_factor.py:calc_response_factor", "heat_load_calc/initializer/initializer.py:make_house", "heat_load_calc/core/core.py:calc", "example/example1.py:run")
p("A room is heated only by the heating equipment entered for it",
  "The results show a heating load for a room only if heating equipment is entered for it, and no more than its capacity; different heating equipment gives different limits.",
  "all inputs, weather, schedules and lengths of the calculation",
  "Ranges over all pairs of inputs that differ in equipment; that an entry is never read anywhere in the chain of two programs cannot be seen from runs.",
  "heat_load_calc/core/pre_calc_parameters.py:make_pre_calc_parameters", "heat_load_calc/initializer/initializer.py:make_house", "heat_load_calc/core/next_condition.py:calc_next_temp_and_load", "heat_load_calc/core/core.py:calc")
p("Descriptive entries do not influence the results",
  "The names of parts and the kind of room said to be behind a partition do not influence the tables; neither do values that duplicate others (the U value of a part whose layers are given).",
  "all inputs, weather and schedules, all changes of these entries",
  "That an entry is irrelevant is a statement about all pairs of inputs; tests compare a few.",
  "heat_load_calc/initializer/boundary_simple.py:get_boundary_simple", "heat_load_calc/initializer/initializer.py:make_house", "heat_load_calc/core/pre_calc_parameters.py:make_pre_calc_parameters", "heat_load_calc/core/core.py:calc")
p("The given columns of the result are those of the files at that time",
  "In a calculation from the weather file of a region to the detailed table, row k belongs to quarter k of the year throughout: it shows the outdoor temperature and humidity of the file at that time (linear between hours, rounded), for every room the demand and the internal heat of the room's own schedule for the kind of that day, and the solar gains of the room's own parts in the radiation of that quarter with the sun where it stands on that day at that time. The table has 96 rows per day of the main period, and never more than a year.",
  "all regions, weather files, inputs, schedule files, lengths of the calculation, and all rows and rooms",
  "An alignment of four data sources over a year through three programs; an offset by one step or one room is invisible in single results.",
  "example/example1.py:run", "heat_load_calc/weather/weather.py:make_weather", "heat_load_calc/initializer/initializer.py:make_house", "heat_load_calc/core/pre_calc_parameters.py:make_pre_calc_parameters", "heat_load_calc/core/core.py:calc", "heat_load_calc/core/log.py:record")
p("A number means the same however it is written",
  "It makes no difference to make_house whether a whole number of the input file, such as the volume of a room, is written 60 or 60.0: the same inputs are accepted and the same files are written.",
  "all inputs that make_house accepts, all ways of writing the volumes of their rooms, all weather and schedules",
  "Test inputs are written in one way; the type of an array depends on how all numbers of a list are written together.",
  "heat_load_calc/initializer/initializer.py:make_house", "heat_load_calc/initializer/initializer.py:_make_spaces_dict")
p("make_house replaces the files in the directory as a whole",
  "After make_house has completed, the calculation reads exactly what was compiled from the given input, whatever was in the directory before; an input that is refused leaves the files as they were; and a run that is stopped at any point leaves the directory of one input, the old or the new, or one the calculation refuses, but never a mixture that is calculated without complaint.",
  "all inputs, all previous contents of the directory, all points at which the run is stopped",
  "Ranges over crash points and over histories of runs in one directory; unit tests run in a fresh directory to the end.",
  "heat_load_calc/initializer/initializer.py:make_house", "heat_load_calc/core/pre_calc_parameters.py:make_pre_calc_parameters", "heat_load_calc/core/core.py:calc")
p("The remarks describe the mode of their row",
  "In every row of the detailed table the remark on a room reports the target PMV, the air speed around the people and the clothing that belong to the operation mode in the same row and to the room's equipment, and these are the values the row was calculated with.",
  "all houses, data, lengths of the calculation and rows for which a calculation completes",
  "A statement about all rows of all runs; the remarks are recorded in one place and derived in another, and their use depends on a method chosen elsewhere.",
  "heat_load_calc/core/ot_target_pmv.py:get_ot_target_and_h_hum_with_pmv", "heat_load_calc/core/ot_target_pmv.py:get_v_hum_is_n", "heat_load_calc/core/ot_target.py:get_ot_target_and_h_hum", "heat_load_calc/core/sequence.py:run_tick", "heat_load_calc/core/log.py:record")
p("Rooms get the schedule of their kind",
  "With the schedule file of the project, every room has the schedule of its room type, whatever the room is called: a main occupant room that of main occupant rooms, and an underfloor space none at all.",
  "all inputs, weather, names and kinds of rooms, all quarter hours of the year",
  "Ranges over all names of rooms; the test inputs all use the names of the kinds as names of the rooms.",
  "heat_load_calc/initializer/initializer.py:make_house", "heat_load_calc/initializer/schedule_loader.py:_get_each_schedules", "heat_load_calc/initializer/schedules.json")
p("Comfort is asked for just when people are there",
  "With the schedule file of the project, in every room of every accepted house and every quarter hour of the year, air conditioning is asked for if and only if there are people in the room; the demand lies between 0 and 1, and the number of people, the local ventilation, the vapour and the heat generated are never negative.",
  "all inputs that make_house accepts, all floor areas and so all household sizes (also fractional ones), all rooms and all 35040 quarter hours",
  "The demand and the people are interpolated separately between two households, for a continuum of floor areas, from tables of ten thousand entries.",
  "heat_load_calc/initializer/initializer.py:make_house", "heat_load_calc/initializer/schedule_loader.py:get_compiled_schedules", "heat_load_calc/initializer/schedule_loader.py:_get_each_schedules", "heat_load_calc/initializer/residents_number.py:get_total_number_of_residents", "heat_load_calc/initializer/schedules.json")
p("There are never more people in the house than live there",
  "With the schedule file of the project, the numbers of people in all rooms of a house never add up to more than the number of residents that follows from its floor area; at midnight all residents are at home.",
  "all inputs that make_house accepts, and all 35040 quarter hours",
  "A sum over the rooms of every house at every time for all floor areas; tests compare the series of single rooms.",
  "heat_load_calc/initializer/initializer.py:make_house", "heat_load_calc/initializer/schedule_loader.py:get_compiled_schedules", "heat_load_calc/initializer/residents_number.py:get_total_number_of_residents", "heat_load_calc/initializer/schedules.json")
p("An air conditioner removes no more heat than its maximum capacity",
  "In every row of the tables the sensible cooling load of a room with an air conditioner is at most the maximum capacity that the input gives for it; a smaller air conditioner leaves the room warmer.",
  "all houses, data, lengths of the calculation and rows for which a calculation completes",
  "A statement about all rows of all runs and all capacities; test inputs give capacities that are never reached.",
  "heat_load_calc/core/heat_exchanger.py:get_dehumid_coeff", "heat_load_calc/core/heat_exchanger.py:get_vac_is_n", "heat_load_calc/core/pre_calc_parameters.py:make_pre_calc_parameters", "heat_load_calc/core/sequence.py:run_tick")
p("A larger house is used by more people",
  "With the schedule file of the project, if of two houses one has the larger floor area, then in rooms of the same name there are at any time at least as many people in the larger one, and at least as much vapour and local ventilation.",
  "all pairs of inputs that make_house accepts, all floor areas and so all household sizes (also fractional ones), all rooms and all 35040 quarter hours",
  "Monotonicity over a continuum of floor areas and all quarter hours, from tables for four household sizes that were made independently.",
  "heat_load_calc/initializer/initializer.py:make_house", "heat_load_calc/initializer/schedule_loader.py:get_compiled_schedules", "heat_load_calc/initializer/residents_number.py:get_total_number_of_residents", "heat_load_calc/initializer/schedules.json")
p("A larger household is air conditioned for no shorter time",
  "With the schedule file of the project, if of two houses one has the larger floor area, then on every day air conditioning is asked for in its rooms for at least as long as in the rooms of the same name of the other.",
  "all pairs of inputs that make_house accepts, all floor areas, all rooms and all days of the year",
  "The demand is interpolated between household sizes, but whether a room is conditioned depends only on its sign; ranges over a continuum of floor areas and all days.",
  "heat_load_calc/initializer/initializer.py:make_house", "heat_load_calc/initializer/schedule_loader.py:get_compiled_schedules", "heat_load_calc/initializer/residents_number.py:get_total_number_of_residents", "heat_load_calc/core/next_condition.py:calc_next_temp_and_load", "heat_load_calc/initializer/schedules.json")
p("Shading never lets in more sun",
  "If of two inputs that are otherwise the same one has deeper overhangs or glass that transmits less, and make_house accepts the other, then it accepts it too, nothing else in the files changes, and no room gets more sun in any quarter hour; without heating and cooling no room is ever warmer. A window with an overhang gets no more sun than the same window without.",
  "all inputs, overhangs, glass and weather, all rooms and all quarter hours; all rows of the calculations",
  "Monotonicity over all geometries, positions of the sun and weather, through four files of the program; tests compare single numbers.",
  "heat_load_calc/initializer/solar_shading.py:SolarShading.create", "heat_load_calc/initializer/solar_shading.py:SolarShadingSimple.get_f_ss_d_j_ns", "heat_load_calc/initializer/transmission_solar_radiation.py:TransmissionSolarRadiationTransparentSunStrike.get_qgt", "heat_load_calc/initializer/initializer.py:make_house", "heat_load_calc/core/core.py:calc")
p("Tables that are too short are refused",
  "A calculation that completes has found, in the weather and in each of the seven tables, the row of every step that it calculates, and the rows of the run-up are those of the days before the first calculated day, the same days in all tables. A table of which rows are missing is refused.",
  "all houses, all tables of any numbers of rows, all lengths of the calculation and of the run-up; all directories",
  "Ranges over all lengths of eight files and all lengths of the calculation; negative step numbers count from the end of whatever is there.",
  "heat_load_calc/core/core.py:calc", "heat_load_calc/core/sequence.py:run_tick", "heat_load_calc/core/pre_calc_parameters.py:make_pre_calc_parameters")
p("Errors of rounding do not pile up",
  "The numbers of the program have finite length, so every step is a little off, and each step starts from the inexact result of the one before. For every house there is a constant such that a calculation that is off by at most e in every step gives temperatures that are off by at most that constant times e, however many steps it has.",
  "all houses, all data, all numbers of steps and days, all errors of every step up to e",
  "Errors of up to a hundred thousand steps are fed back into the state; a test compares one run with stored numbers from an equally inexact run.",
  "heat_load_calc/core/sequence.py:run_tick", "heat_load_calc/core/core.py:calc", "heat_load_calc/core/conditions.py:Conditions")
p("Errors in the weather and in the gains are not amplified",
  "Weather and gains are measured or estimated. For every house there is a constant such that two calculations whose outdoor temperatures, temperatures behind the parts, heat gains and solar gains differ by at most e in every step give temperatures and heat flows that differ by at most that constant times e, however many steps they have, and humidities that differ by at most that constant times e plus the largest difference of the humidities of the outdoor air and of the vapour gains.",
  "all houses, all pairs of tables, all numbers of steps and days, all differences up to e in every step",
  "Ranges over all pairs of weather files and schedules and all lengths of the calculation; the constant must not depend on any of them, so no collection of runs can settle it.",
  "heat_load_calc/core/core.py:calc", "heat_load_calc/core/sequence.py:run_tick", "heat_load_calc/core/pre_calc_parameters.py:make_pre_calc_parameters", "heat_load_calc/core/conditions.py:update_conditions_by_ground_conditions")
p("A stricter average U value never makes a part worse",
  "When a house given by its indices is converted to parts, asking for a smaller average U value (everything else unchanged) gives no wall, window, door or earth floor edge a larger U value or psi value than before, and no window a smaller solar transmittance; asking for more sun in a season gives no window a smaller transmittance in that season.",
  "all pairs of requirements on the same house, all regions, all floor and envelope areas, all lists of parts",
  "The factors come from a recursion that fills the parts up to their maxima one after the other; whether a factor can jump when the requirement crosses one of the maxima is a question about all requirements and all areas.",
  "heat_load_calc/convert/get_u_psi_eta_from_u_a_and_eta_a.py:get_f_u_psi", "heat_load_calc/convert/get_u_psi_eta_from_u_a_and_eta_a.py:calc_parts_spec", "heat_load_calc/convert/convert_indices_to_lv2_info.py:convert_spec")
p("Airing a house brings it nearer to outdoors",
  "In a house without heating or cooling, taking in more outdoor air (by fans that run all the time or by the schedule of local ventilation) makes no room warmer as long as the rooms are warmer than outdoors, and makes no room colder as long as they are colder than outdoors; nor any surface, and nor the rooms that are not aired.",
  "all houses, all pairs of ventilation schedules and fans, all weather, all steps of a calculation",
  "A comparison of two whole runs in which the warmed parts feed back over every earlier step; it must hold for all houses and all histories.",
  "heat_load_calc/core/sequence.py:run_tick", "heat_load_calc/core/core.py:calc", "heat_load_calc/core/pre_calc_parameters.py:make_pre_calc_parameters")
p("Heating makes no room colder, cooling makes no room warmer",
  "A house that is only heated is at no time and nowhere colder than the same house with the equipment switched off; one that is only cooled is nowhere warmer. More generally, of two calculations of a house the one whose equipment gives every room at least as much heat in every step is nowhere colder.",
  "all houses, all data, all demand schedules, all steps",
  "A comparison of two whole runs with different operation in every step; loads, modes and windows depend on the state, so single runs do not show it.",
  "heat_load_calc/core/sequence.py:run_tick", "heat_load_calc/core/next_condition.py:calc_next_temp_and_load", "heat_load_calc/core/ot_target_pmv.py:get_operation_mode_is_n", "heat_load_calc/core/core.py:calc")
p("More moisture makes no room drier",
  "Of two calculations of a house that differ in moisture only, the one with at least as humid outdoor air and at least as much vapour released in every room at all times has, as long as no room has demanded conditioning, no lower humidity in any room or furniture in any row; all other columns of the results are the same, and a room in which more vapour is released in a row is more humid in that row.",
  "all houses (with leakage and with air exchange between rooms), all pairs of such data, all run-ups, all steps",
  "A comparison of two whole runs; the humidities of all rooms are solved for together in every step and carry over to the next.",
  "heat_load_calc/core/sequence.py:run_tick", "heat_load_calc/core/heat_exchanger.py:get_dehumid_coeff", "heat_load_calc/core/core.py:calc")
p("Runs in one directory at the same time do not disturb each other",
  "Any number of runs of make_house may work in the same directory at the same time. When all are over, the directory is that of a single run and the calculation gives the results of the input; a calculation that is started when one run is over sees the files of a complete run.",
  "all inputs, all numbers of runs, all orders in which their calls reach the file system, all pieces in which the texts are written, all earlier contents of the directory",
  "It depends on how the calls of the processes interleave; tests see one order, and rarely an unfavourable one.",
  "heat_load_calc/initializer/initializer.py:make_house", "heat_load_calc/core/core.py:calc")
