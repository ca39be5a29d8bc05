{
 "claims": [
  {
   "property": "C01",
   "status": "proved",
   "theorems": [
    "HLC.C01_mode_run",
    "HLC.C01_program"
   ],
   "note": ""
  },
  {
   "property": "C02",
   "status": "proved",
   "theorems": [
    "HLC.C02_mode_rule",
    "HLC.C02_exclusive",
    "HLC.C02_program"
   ],
   "note": ""
  },
  {
   "property": "C03",
   "status": "proved",
   "theorems": [
    "HLC.C03_heats_only_when_cold",
    "HLC.C03_clothing_order",
    "HLC.C03_no_heating_and_cooling"
   ],
   "note": ""
  },
  {
   "property": "C04",
   "status": "proved",
   "theorems": [
    "HLC.C04_target_realises_pmv"
   ],
   "note": ""
  },
  {
   "property": "C05",
   "status": "proved",
   "theorems": [
    "HLC.C05_pmv_strict_mono"
   ],
   "note": ""
  },
  {
   "property": "C06",
   "status": "proved",
   "theorems": [
    "HLC.C06_heating_below_cooling"
   ],
   "note": ""
  },
  {
   "property": "C07",
   "status": "proved",
   "theorems": [
    "HLC.C07_room_equations"
   ],
   "note": ""
  },
  {
   "property": "C08",
   "status": "proved",
   "theorems": [
    "HLC.C08_no_load",
    "HLC.C08_free_running",
    "HLC.C08_program"
   ],
   "note": ""
  },
  {
   "property": "C09",
   "status": "proved",
   "theorems": [
    "HLC.C09_set_point",
    "HLC.C09_full_demand",
    "HLC.C09_program_single",
    "HLC.C09_program"
   ],
   "note": ""
  },
  {
   "property": "C10",
   "status": "proved",
   "theorems": [
    "HLC.C10_one_system",
    "HLC.C10_program"
   ],
   "note": ""
  },
  {
   "property": "C100",
   "status": "proved",
   "theorems": [
    "HLC.C100_prefix",
    "HLC.C100_common"
   ],
   "note": ""
  },
  {
   "property": "C101",
   "status": "partial",
   "theorems": [
    "HLC.C101_alike_partial",
    "HLC.C101_program_partial",
    "HLC.C101_parts_partial",
    "HLC.C101_violated"
   ],
   "note": "Holds if the parts are listed room by room. If the parts of two equal rooms are listed alternately, the rooms get different results, because the radiative coefficients are given to the wrong parts (C101_violated, see C34)."
  },
  {
   "property": "C102",
   "status": "proved",
   "theorems": [
    "HLC.Glass.C102_light",
    "HLC.Glass.C102_accounted",
    "HLC.Glass.C102_passages",
    "HLC.Glass.C102_turned",
    "HLC.Glass.C102_reciprocal",
    "HLC.Glass.C102_more_panes",
    "HLC.Glass.C102_mirrors"
   ],
   "note": "For panes that are no perfect mirrors; two perfect mirrors end in a division by zero (C102_mirrors)."
  },
  {
   "property": "C103",
   "status": "proved",
   "theorems": [
    "HLC.Glass.C103_flow",
    "HLC.Glass.C103_share",
    "HLC.Glass.C103_unique",
    "HLC.Glass.C103_range",
    "HLC.Glass.C103_exists",
    "HLC.Glass.C103_laws",
    "HLC.Glass.C103_stack"
   ],
   "note": "Temperatures above -100 degC (the gas tables are extrapolated linearly and reach negative conductivities far below). C103_exists: any number of panes, both methods for the films. The program does not look whether the root finder converged."
  },
  {
   "property": "C104",
   "status": "proved",
   "theorems": [
    "HLC.Glass.C104_shgc",
    "HLC.Glass.C104_windows",
    "HLC.Glass.C104_report"
   ],
   "note": "If the root finder has converged to surface temperatures above -100 degC; C104_windows shows that this can be met for all windows."
  },
  {
   "property": "C105",
   "status": "proved",
   "theorems": [
    "HLC.Glass.C105_u",
    "HLC.Glass.C105_heat",
    "HLC.Glass.C105_thicker",
    "HLC.Glass.C105_more_panes"
   ],
   "note": ""
  },
  {
   "property": "C106",
   "status": "partial",
   "theorems": [
    "HLC.Glass.C106_emissivity",
    "HLC.Glass.C106_outer",
    "HLC.Glass.C106_inner_partial",
    "HLC.Glass.C106_inner_violated",
    "HLC.Glass.C106_radiation",
    "HLC.Glass.C106_gap",
    "HLC.Glass.C106_mixture",
    "HLC.Glass.C106_gases",
    "HLC.Glass.C106_convection"
   ],
   "note": "With the method JIS_A2103 the film indoors is calculated from the emissivity of the surface outdoors (C106_inner_violated)."
  },
  {
   "property": "C107",
   "status": "proved",
   "theorems": [
    "HLC.C107_rows",
    "HLC.C107_program"
   ],
   "note": "Capacities are not negative; both calculations complete."
  },
  {
   "property": "C108",
   "status": "proved",
   "theorems": [
    "HLC.C108_rows",
    "HLC.C108_program"
   ],
   "note": "Capacities are not negative; the three calculations complete. Leakage (C value above zero) and occupants react to the room temperature in a non-linear way and are left out."
  },
  {
   "property": "C109",
   "status": "partial",
   "theorems": [
    "HLC.C109_rows_partial",
    "HLC.C109_program_partial",
    "HLC.C109_storing_rows_partial",
    "HLC.C109_storing_example",
    "HLC.C109_behind_rows_partial",
    "HLC.C109_behind_example",
    "HLC.C109_violated",
    "HLC.C109_leak_violated",
    "HLC.C109_air_violated"
   ],
   "note": "False in general: sun on a light wall for a quarter of an hour makes its inner surface colder in the next (C109_violated). Proved for tight houses (C value 0) of parts that store no heat, off the ground and without air exchange between rooms, with at most one person in about 3 m3; with leakage or air between rooms it is false: a lamp in one room makes the next one colder (C109_leak_violated, C109_air_violated). C109_storing_rows_partial: outer parts may store heat, if their answer to a pulse of heat, the film included, is positive and log-convex (so for layers not too light for the time step) and the temperatures behind them are the same in both calculations; C109_storing_example is a day of a house with such a floor slab on the ground. Houses on the ground are compared under the same outdoor air. C109_behind_rows_partial: the surroundings of the parts that store heat may be warmer too, if these parts let warmth through (a pulse of warmth behind them, with the same temperature in front of the film, makes them give the room a heat flow that is never negative; C109_behind_example meets this). Missing: storing partitions, other outdoor air over the ground."
  },
  {
   "property": "C11",
   "status": "partial",
   "theorems": [
    "HLC.C11_capacity_partial",
    "HLC.C11_program_partial",
    "HLC.C11_capacity_violated"
   ],
   "note": "True with at most one radiative room in charge; false in general, a two-room witness is proved."
  },
  {
   "property": "C110",
   "status": "partial",
   "theorems": [
    "HLC.C110_runs_partial",
    "HLC.C110_rows_partial",
    "HLC.C110_program_partial",
    "HLC.C110_storing_runs_partial",
    "HLC.C110_storing_rows_partial",
    "HLC.RF.C110_frequency_parts",
    "HLC.RF.C110_sign_parts",
    "HLC.RF.C110_layered_parts",
    "HLC.RF.C110_steady_parts",
    "HLC.C110_leak_violated",
    "HLC.C110_air_violated",
    "HLC.C110_demand_violated"
   ],
   "note": "Proved for tight free-running houses (C value 0): with explicit factors where no part stores heat and every room is ventilated from outdoors, and with some constant and rate (depending on the house only) where the outer parts store heat and the partitions do not, the outer parts being passive behind their film (criteria: at every frequency, by signs of the factors, by the fitted step response, for U values) and the rooms exchanging at most twice the air they get from outdoors; with leakage no constant bounds what a step makes of a small difference (C110_leak_violated), and rooms that exchange much air drive each other apart (C110_air_violated). Rooms with demand are outside the statement; for them it is false: under constant data a room with closed windows stays cool and the same room with open windows stays warm, for any number of steps (C110_demand_violated). Missing: partitions that store heat."
  },
  {
   "property": "C111",
   "status": "partial",
   "theorems": [
    "HLC.C111_settles_partial",
    "HLC.C111_storing_partial",
    "HLC.C111_rows_partial",
    "HLC.C111_cycle_stays",
    "HLC.C110_demand_violated"
   ],
   "note": "For the free-running houses of C110 (tight, light partitions, no demand; with explicit factors where no part stores heat); the last sentence for all houses. Missing: what is missing for C110 (with leakage or much air between rooms the estimate is false there). With demand there can be two cycles under the same data (C110_demand_violated)."
  },
  {
   "property": "C112",
   "status": "partial",
   "theorems": [
    "HLC.C112_ceiling_partial",
    "HLC.C112_floor",
    "HLC.C112_inflow_violated",
    "HLC.C112_unbounded_violated"
   ],
   "note": "The lower bound is proved for all houses, the upper one for houses without air flow between rooms. With it the upper bound fails in every house: air that flows into a room brings its moisture but takes none away (see C18), so a room supplied by other rooms only becomes ever more humid."
  },
  {
   "property": "C113",
   "status": "partial",
   "theorems": [
    "HLC.C113_runs_partial",
    "HLC.C113_rows_partial",
    "HLC.C113_repeats_partial",
    "HLC.C113_settles_partial",
    "HLC.C113_sealed"
   ],
   "note": "Proved for free-running houses without leakage whose outer parts may store heat (as C110), where every room takes in more outdoor air than air of other rooms and its furniture exchanges moisture with the air: one constant and one rate for the house, for all pairs of starts, all run-ups and all data; a daily cycle for repeated days. Proved to fail in a room without any air exchange. Missing: leakage, rooms with more air from other rooms than from outdoors (there the humidity itself grows without bound, C112), partitions that store heat. With demand it is false (C110_demand_violated)."
  },
  {
   "property": "C114",
   "status": "partial",
   "theorems": [
    "HLC.C114_rooms",
    "HLC.C114_room_names",
    "HLC.C114_parts",
    "HLC.C114_directions",
    "HLC.C114_equipment",
    "HLC.C114_regions",
    "HLC.C114_outer",
    "HLC.C114_surface",
    "HLC.C114_inner",
    "HLC.C114_glass",
    "HLC.C114_blind_violated",
    "HLC.C114_flag_violated"
   ],
   "note": "Proved, with the exact list of words and the error for every other word, for room types, parts, directions, equipment, regions, and the tables of the converter. Proved to fail in two places: the outside blind is only known under a misspelt word, and one table of the converter returns True or False instead of a direction for all words but one."
  },
  {
   "property": "C115",
   "status": "partial",
   "theorems": [
    "HLC.C115_area",
    "HLC.C115_numbers",
    "HLC.C115_radiation_violated",
    "HLC.C115_temperatures_violated",
    "HLC.C115_denominators",
    "HLC.RF.C115_wall_numbers",
    "HLC.RF.C115_wall_violated"
   ],
   "note": "Proved with infinities and not-a-number as values, for the solar radiation absorbed by the surfaces, the surface and mean radiant temperatures, and the chain from the layers to the first response factor. Where every room has an absorbing surface (every layer a resistance) the values are the numbers of the real-number model; otherwise all are proved to be not-a-number. Missing: overflow, and the other functions of the code (for them only the denominators are shown to be non-zero)."
  },
  {
   "property": "C116",
   "status": "partial",
   "theorems": [
    "HLC.C116_violated",
    "HLC.C116_rows_partial"
   ],
   "note": "False, for every length of the run-up up to a year: the mode latches. A room that starts at 15 degC is heated at once and then kept at the target of heating for ever; the same room, if one more day of run-up begins with a day without demand, settles at a temperature at which heating does not start, and is never heated, although all rows ask for it (C116_violated). Proved: rows without demand are off in both, and rows in which both heat or both cool with a load from the same humidity have the same operative temperature. Without equipment see C110."
  },
  {
   "property": "C117",
   "status": "partial",
   "theorems": [
    "HLC.C117_total_partial",
    "HLC.C117_rows_partial",
    "HLC.C117_compare",
    "HLC.C117_leakage",
    "HLC.C117_program_partial",
    "HLC.C117_violated"
   ],
   "note": "False in general: the program opens the windows of a comfortable house whatever the outdoor temperature, so a house that insulation makes comfortable is aired in the frost and then heated, while without insulation it is never heated (C117_violated). Proved for one-room houses without heat storage in their parts and without radiant systems, for any length: the sum of the loads is no larger if in all rows the windows are closed, the better insulated house is kept no warmer, the better insulated parts lose heat in the other house, and (unless the house is tight) the other house is no colder than outdoors and leaks at least as much (C117_total_partial; C117_leakage shows that it does if it was no colder in the row before); with a run-up, up to the heat that air and furniture lack at the first row (C117_rows_partial). C117_compare shows that rows in which both are heated with full demand and the same humidity, or the better insulated one is not heated, meet the condition on the temperatures. Missing: several rooms, parts that store heat."
  },
  {
   "property": "C118",
   "status": "partial",
   "theorems": [
    "HLC.C118_total_partial",
    "HLC.C118_rows_partial",
    "HLC.C118_compare",
    "HLC.C118_program_partial",
    "HLC.C118_violated"
   ],
   "note": "False in general: a lamp can make a house comfortable, the program then opens the windows in the frost, and the house is heated that would not have been heated without the lamp (C118_violated). Proved, for any length, for one-room houses without heat storage in their parts and without radiant systems, if in all rows the windows are closed, the room is kept no warmer in the milder records or needs no more heat anyway, and (unless the house is tight) the other room is no colder than outdoors and leaks at least as much; C118_compare shows that rows heated with full demand from the same humidity meet the first, C117_leakage (with the same resistances) that rooms no colder in the row before meet the second. Missing: several rooms, parts that store heat."
  },
  {
   "property": "C119",
   "status": "partial",
   "theorems": [
    "HLC.Init.C119_pieces_partial",
    "HLC.Init.C119_violated"
   ],
   "note": "Proved for whole calculations (both programs, tables or exception) as long as no piece of a layer with heat capacity falls below 0.001 J/(m2 K), the threshold below which the program takes a layer to be massless. Below it the property is false: every part that stores heat can be cut so finely that it stores none (C119_violated)."
  },
  {
   "property": "C12",
   "status": "partial",
   "theorems": [
    "HLC.C12_single_room_partial",
    "HLC.C12_program_partial",
    "HLC.C12_total_heating_partial",
    "HLC.C12_sign_violated"
   ],
   "note": "True for one room and for the total of a convectively heated house; false for single rooms of a multi-room house, witness proved."
  },
  {
   "property": "C120",
   "status": "partial",
   "theorems": [
    "HLC.Init.C120_ignored",
    "HLC.Init.C120_violated",
    "HLC.Init.C120_violated_example"
   ],
   "note": "False: only radiant panels have an effect. Whether no heating or an air conditioner of any capacity is entered makes no difference to the tables (C120_ignored), and a house without heating equipment is heated in cold weather as if it had one of unlimited power (C120_violated, for all plain one-room houses; C120_violated_example shows that the hypotheses are met for all weather). For radiant panels see C10 and C11."
  },
  {
   "property": "C121",
   "status": "proved",
   "theorems": [
    "HLC.Init.C121_words",
    "HLC.Init.C121_layered"
   ],
   "note": "C121_layered also covers an entry one would expect to matter: the inner surface resistance of a part entered by its layers is not used (C96)."
  },
  {
   "property": "C122",
   "status": "proved",
   "theorems": [
    "HLC.Init.C122_lines",
    "HLC.Init.C122_given"
   ],
   "note": "The theorem is end to end over the three programs (`runAll`). The internal heat is stated as coded: the heat of cooking is read from the table of vapour (C71). The gain of a part is that which the initializer computes for a weather consisting of the one line of that quarter. Residents are between 1 and 4 in the last part (as they always are, C42)."
  },
  {
   "property": "C123",
   "status": "partial",
   "theorems": [
    "HLC.Init.C123_spelling",
    "HLC.Init.C123_violated"
   ],
   "note": "False when the volumes of all rooms are written as whole numbers: they become an array of np.int64, which json.dump refuses with a TypeError after it has emptied mid_data_house.json; the calculation cannot be run on what is left (C123_violated, for every accepted input). Proved as soon as one volume is written with a decimal point. The volumes are the only numbers written to the file whose type depends on the notation."
  },
  {
   "property": "C124",
   "status": "partial",
   "theorems": [
    "HLC.Init.C124_complete",
    "HLC.Init.C124_refused",
    "HLC.Init.C124_torn",
    "HLC.Init.C124_missing",
    "HLC.Init.C124_first",
    "HLC.Init.C124_stopped",
    "HLC.Init.C124_mixed_violated",
    "HLC.Init.C124_mixed_example",
    "HLC.Init.C124_widths",
    "HLC.Init.C124_widths_missing",
    "HLC.Init.C124_rooms_refused",
    "HLC.Init.C124_parts_refused",
    "HLC.Init.C124_last_violated",
    "HLC.Init.C124_between_violated",
    "HLC.Init.C124_between_example",
    "HLC.Init.C133_directory_refused",
    "HLC.Init.C133_directory_violated",
    "HLC.Init.C133_directory_example"
   ],
   "note": "Proved: complete runs (on any previous directory), refused inputs, and runs stopped while the house file is written, which the calculation refuses; so does it every directory in which a file is missing (C124_missing, C124_widths_missing), which is what a run stopped in a new directory leaves (C124_first). False for runs stopped between two files: the directory is the first files of the new input and the rest of the old one (C124_stopped); if the numbers of rooms and parts agree, the calculation completes on the mixture (C124_mixed_violated, C124_mixed_example). Runs stopped in the middle of a csv file: the year's calculation refuses a table with fewer rows than the year has (C133_directory_refused), but a table of all rows with any numbers in them, for example a last number cut off, and for shorter calculations also a shorter table, is calculated (C133_directory_violated, C133_directory_example). Houses of other sizes (numpy's broadcasting of tables): with another number of rooms the calculation refuses the directory until the table of the sun is written (C124_rooms_refused), with another number of parts until the last file is written, if the old house had more than one part (C124_parts_refused); it calculates with the old outdoor temperatures if the last file is old and has as many columns or one (C124_last_violated). With equally many rooms and an old house of one part, the mixture is calculated wherever the run was stopped, the temperature behind the one old part being used for all parts (C124_between_violated, C124_between_example). All runs stopped between two files are covered."
  },
  {
   "property": "C125",
   "status": "partial",
   "theorems": [
    "HLC.C125_remarks",
    "HLC.C125_speed_violated",
    "HLC.C125_example"
   ],
   "note": "Proved: every row has exactly the remark that belongs to its mode and equipment. The target PMV and the clothing are those of the target temperature (C04). The air speed is not: the coefficients are constants, so a row that reports 0.2 m/s shows 4 W/(m2 K), while the program's formula for that speed gives more than 5.4 (C125_speed_violated)."
  },
  {
   "property": "C126",
   "status": "partial",
   "theorems": [
    "HLC.Init.C126_names",
    "HLC.Init.C126_names_violated",
    "HLC.Init.C126_type_violated",
    "HLC.Init.C126_example"
   ],
   "note": "False: the schedule is looked up by the name of the room. Proved: exactly the rooms with one of three names are found, every house with a room of another name is refused, and every room of every accepted house, also an underfloor space, has people in it on New Year's Day. The schedule file is part of the model (`Model/ShippedSchedule.lean`, generated from schedules.json)."
  },
  {
   "property": "C127",
   "status": "proved",
   "theorems": [
    "HLC.Init.C127_demand",
    "HLC.Init.C126_example"
   ],
   "note": "For the schedule file of the project; C126_example shows accepted houses. The facts about the tables of the file are checked by the kernel over all their entries, the interpolation is proved for all household sizes. The heat is not negative for rooms of non-negative area."
  },
  {
   "property": "C128",
   "status": "partial",
   "theorems": [
    "HLC.Init.C128_people_partial",
    "HLC.Init.C128_midnight",
    "HLC.Init.C128_violated",
    "HLC.Init.C128_example"
   ],
   "note": "Proved for houses whose rooms have different names. Two rooms may have the same name, and then the people of that name are counted twice: at midnight the house holds the residents once for every room called other_occupant_room, and nobody if there is none (C128_midnight, C128_violated)."
  },
  {
   "property": "C129",
   "status": "partial",
   "theorems": [
    "HLC.C129_same",
    "HLC.C129_violated",
    "HLC.C129_program_violated"
   ],
   "note": "False: the capacities are used only for the air flow over the coil, that is for what the air conditioner takes out of the moisture. Proved: two complete calculations of houses that differ only in their air conditioners agree in everything but the moisture up to and including the first row in which a room is cooled (C129_same); so with any smaller maximum capacity the load of that row exceeds it (C129_violated). C129_program_violated is a whole calculation in which the load is twice the maximum capacity. Not stated: what happens in the rows after it, where the humidity differs."
  },
  {
   "property": "C13",
   "status": "proved",
   "theorems": [
    "HLC.C13_operative_temperature",
    "HLC.C13_program"
   ],
   "note": ""
  },
  {
   "property": "C130",
   "status": "partial",
   "theorems": [
    "HLC.Init.C130_day_partial",
    "HLC.Init.C130_violated",
    "HLC.Init.C131_example"
   ],
   "note": "Proved for the local ventilation at every time, and for person-hours and vapour over every day. At single times it is false: on 8 January at 9:00 houses of 120 m2 and more are empty, while every smaller house of more than 30 m2 has people in its main room (C130_violated). Heat from lamps is not covered (it is per floor area and the tables are not monotone)."
  },
  {
   "property": "C131",
   "status": "partial",
   "theorems": [
    "HLC.Init.C131_times",
    "HLC.Init.C131_violated",
    "HLC.Init.C131_example"
   ],
   "note": "False: between 60 and 120 m2 comfort is asked for at all times of two people and at all times of four people (C131_times), so every room of a house of 120 m2 or more is conditioned for a strictly shorter time on every day of the year (C131_violated, for all pairs of houses and rooms of the same name)."
  },
  {
   "property": "C132",
   "status": "partial",
   "theorems": [
    "HLC.Init.C132_sun",
    "HLC.Init.C132_temperatures_partial",
    "HLC.Init.C132_violated",
    "HLC.Init.C132_example",
    "HLC.Init.C132_year"
   ],
   "note": "Proved: deeper overhangs and darker glass, for all accepted houses and all weather with non-negative radiation (C132_sun), and the temperatures of houses whose parts store no heat, without air exchange between rooms and without demand (C132_temperatures_partial; C132_year is a year of such a house). False for adding an overhang: the shaded fraction of a window without overhang is set to 1, so it gets no direct sun at all (C47), and an overhang of 0.3 m lets in more (C132_violated)."
  },
  {
   "property": "C133",
   "status": "partial",
   "theorems": [
    "HLC.C133_rows",
    "HLC.C133_equal",
    "HLC.C133_refused",
    "HLC.C133_cut",
    "HLC.C133_violated",
    "HLC.Init.C133_directory_refused",
    "HLC.Init.C133_directory_violated",
    "HLC.Init.C133_directory_example"
   ],
   "note": "Proved: completed calculations had enough rows in every table for the calculated period and for the run-up, and enough weather for the run-up of the ground (C133_refused; C133_directory_refused for directories). False: the run-up is counted from the end of each table on its own, so a calculation from cut tables is the calculation from the complete ones with other days in the run-up, different for each table (C133_cut), and it completes without complaint (C133_violated, C133_directory_violated). C133_equal: with tables of one length the model with separate lengths is the one of the other claims."
  },
  {
   "property": "C134",
   "status": "partial",
   "theorems": [
    "HLC.C134_runs_partial",
    "HLC.C134_rows_partial",
    "HLC.C134_humidity_partial",
    "HLC.C134_rows_humidity_partial",
    "HLC.C134_air_violated",
    "HLC.C134_demand_violated"
   ],
   "note": "Errors of any kind up to e in every step: in the temperatures, heat flows, humidities and holdings of parts that are handed on, and in the row that is written. A difference of two states has an energy that contracts in every step (C110) and is a square form of the state, so errors add up like a geometric series. Proved for tight houses without demand whose partitions store no heat; for the humidity if every room gets more air from outdoors than from other rooms. False where rooms exchange much air: an error at the start grows by more than 10^28 in a day (C134_air_violated). False with demand: however small the error, it can decide at the comfort threshold whether the windows are opened, after which the second row is off by 7 K (C134_demand_violated). Missing: leakage, partitions that store heat."
  },
  {
   "property": "C135",
   "status": "partial",
   "theorems": [
    "HLC.C135_runs_partial",
    "HLC.C135_rows_partial",
    "HLC.C135_humidity_runs_partial",
    "HLC.C135_rows_humidity_partial",
    "HLC.C135_weather_partial",
    "HLC.C135_weather_means_partial",
    "HLC.C135_weather_example",
    "HLC.C135_air_violated",
    "HLC.C135_demand_violated"
   ],
   "note": "One constant for each house, for all pairs of tables, including the run-up of the ground and of the building. The difference of two calculations is a calculation with sources; subtracting a particular solution of the system of the surfaces leaves a difference without sources whose energy contracts (C110), and the sources add to it like a geometric series. Proved for tight houses without demand and without radiant heating or cooling, whose partitions store no heat, and in which rooms get more air from outdoors than they exchange; the humidity too. False where rooms exchange much air: an error in the heat gains grows by 10^26 in a day (C135_air_violated). False with demand: gains that differ by any e > 0 can decide at the comfort threshold whether the windows are opened, after which a row differs by 7 K (C135_demand_violated). For errors in the weather alone the constant is one, also where outer parts store heat: no room, furniture, surface, mean radiant or operative temperature of any row differs by more than the weather does (C135_weather_partial, C135_weather_means_partial: no people, no air between rooms, the same outdoor air if a part lies on the ground; every storing part lets warmth through). Missing: leakage, partitions that store heat, radiant parts."
  },
  {
   "property": "C136",
   "status": "partial",
   "theorems": [
    "HLC.C136_factors",
    "HLC.C136_parts",
    "HLC.C136_detached_partial"
   ],
   "note": "C136_factors: the distribution over any parts. C136_parts: the parts the converter hands on, for any list of parts whose losses can be distributed, in the regions 1 to 7. C136_detached_partial: the whole conversion, from the input to the parts read back from its output, for detached houses of 20 to 4000 m2; attached houses and region 8 are never converted (C59). The statement about the sun needs that no wall has a negative area, which the standard house gets for extreme envelope areas."
  },
  {
   "property": "C137",
   "status": "partial",
   "theorems": [
    "HLC.C137_rows_partial",
    "HLC.C137_storing_rows_partial",
    "HLC.C137_storing_example",
    "HLC.C137_program_partial",
    "HLC.C137_example",
    "HLC.C137_leak_violated"
   ],
   "note": "Comparison of two complete calculations row by row, in both directions (more air while not colder than outdoors, less air while not warmer). Proved for tight houses whose parts store no heat, off the ground, without air exchange between rooms, without demand and not too crowded, with the same ventilation during the run-up (of which no rows are written). C137_example is a day of such a house at 0 degC. With leakage it is false: airing one room makes the room next to it warmer, since all rooms leak by the mean temperature of the house (C137_leak_violated). C137_storing_rows_partial: the same with outer parts that store heat and take it up evenly (log-convex answer to a pulse of heat; storageless parts are a special case, storageless_relaxing), on the ground too; C137_storing_example is a day of a house with a storing floor slab. Missing: partitions that store heat, layers too light for the time step. (Rooms with demand are outside the statement.)"
  },
  {
   "property": "C138",
   "status": "partial",
   "theorems": [
    "HLC.C138_rows_partial",
    "HLC.C138_storing_rows_partial",
    "HLC.C138_behind_rows_partial",
    "HLC.C138_heated_partial",
    "HLC.C138_cooled_partial",
    "HLC.C138_storing_heated_partial",
    "HLC.C138_storing_cooled_partial",
    "HLC.C138_one_room_partial",
    "HLC.C138_storing_one_room_partial",
    "HLC.C138_storing_one_room_example",
    "HLC.C138_example",
    "HLC.C138_violated"
   ],
   "note": "False where windows open: with demand, a comfortable room is aired in the frost, and a house with heating falls below 8 degC while the same house with the equipment switched off stays above 15 degC (C138_violated). Proved for houses of parts that store no heat, off the ground and without air exchange between rooms: more heat from the equipment in every row, and leaks and windows that do not favour the other, give no lower temperature anywhere (C138_rows_partial); tight houses with closed windows and loads of one sign, compared with the equipment switched off (C138_heated_partial, C138_cooled_partial); in one room the loads have the right sign by themselves (C138_one_room_partial). The same with outer parts that store heat and take it up evenly and houses on the ground (C138_storing_rows_partial, C138_storing_heated_partial, C138_storing_cooled_partial, C138_storing_one_room_partial; light layers excluded; C138_behind_rows_partial with warmer surroundings as well). Missing: partitions that store heat; light layers; a run-up with demand; several rooms with loads of the wrong sign (C12)."
  },
  {
   "property": "C139",
   "status": "proved",
   "theorems": [
    "HLC.C139_program",
    "HLC.C139_free",
    "HLC.C139_rows",
    "HLC.C139_example"
   ],
   "note": "C139_free and C139_program: complete calculations without demand up to the row, for every well-formed house. C139_rows goes further: rows with demand too, also cooled ones, as long as the other columns agree and there is no demand in the run-up; with a running coil the house must have no air exchange between rooms."
  },
  {
   "property": "C14",
   "status": "partial",
   "theorems": [
    "HLC.C14_room_balance_partial",
    "HLC.C14_balance_as_coded",
    "HLC.C14_residual",
    "HLC.C14_violated",
    "HLC.C14_program_partial"
   ],
   "note": "The physical balance is proved for rooms without inter-room inflow. With inflow the program uses the opposite sign and forgets the displaced air: the exact equation closed by the program and the exact condition under which the physical balance holds are proved, and that it fails on every well-formed house with inflow at rest."
  },
  {
   "property": "C140",
   "status": "partial",
   "theorems": [
    "HLC.Init.C140_same",
    "HLC.Init.C140_reader_violated",
    "HLC.Init.C140_mixed_violated",
    "HLC.Init.C140_mixed_example",
    "HLC.Init.C140_overlap_violated"
   ],
   "note": "Proved for runs for the same input, when all are over (C140_same): any number of runs, any interleaving, any pieces of the texts, down to the bytes. False while another run is at work, even one for the same input: opening a file empties it (C140_reader_violated). False for different inputs: both runs complete and leave the house of the one with the schedules of the other (C140_mixed_violated, C140_mixed_example), and a file that two runs write at the same time can hold the text of one followed by the end of the other (C140_overlap_violated). That the texts are read back as what was written is a hypothesis."
  },
  {
   "property": "C15",
   "status": "proved",
   "theorems": [
    "HLC.C15_furniture_heat",
    "HLC.C15_furniture_moisture",
    "HLC.C15_furniture_between",
    "HLC.C15_program"
   ],
   "note": ""
  },
  {
   "property": "C16",
   "status": "proved",
   "theorems": [
    "HLC.C16_surface_flux",
    "HLC.C16_program"
   ],
   "note": ""
  },
  {
   "property": "C17",
   "status": "partial",
   "theorems": [
    "HLC.C17_wall_equation_partial",
    "HLC.C17_equation_as_coded",
    "HLC.C17_residual",
    "HLC.C17_plain_iff",
    "HLC.C17_sun_violated",
    "HLC.C17_violated"
   ],
   "note": "Proved for boundaries without partner or whose partner has the same coefficients and area. Otherwise the program evaluates the partner with the boundary's own coefficients: the equation as coded and the exact residual condition are proved, and a well-formed house on which the wall equation fails in every step from every state (C17_violated)."
  },
  {
   "property": "C18",
   "status": "partial",
   "theorems": [
    "HLC.C18_moisture_balance_partial",
    "HLC.C18_balance_as_coded",
    "HLC.C18_residual",
    "HLC.C18_violated",
    "HLC.C18_program_partial"
   ],
   "note": "Proved for rooms without inter-room inflow; with inflow the displaced vapour is forgotten, exact condition proved."
  },
  {
   "property": "C19",
   "status": "proved",
   "theorems": [
    "HLC.C19_humidity_nonneg",
    "HLC.C19_humidity_pos",
    "HLC.C19_step",
    "HLC.C19_program"
   ],
   "note": ""
  },
  {
   "property": "C20",
   "status": "partial",
   "theorems": [
    "HLC.C20_only_removes_partial",
    "HLC.C20_only_when_cooled",
    "HLC.C20_violated",
    "HLC.C20_program_partial"
   ],
   "note": "Proved unless the room receives air from another convectively cooled room; in that case a concrete step that humidifies is proved."
  },
  {
   "property": "C21",
   "status": "partial",
   "theorems": [
    "HLC.C21_step_completes_partial",
    "HLC.C21_single_room_partial",
    "HLC.C21_own_panels_partial",
    "HLC.C21_one_in_charge_partial",
    "HLC.C21_program_partial",
    "HLC.C21_program_single_partial",
    "HLC.C21_program_own_partial",
    "HLC.C21_program_one_in_charge_partial",
    "HLC.C21_violated",
    "HLC.C21_one_radiant_violated"
   ],
   "note": "Any number of rooms without radiative systems; one room with radiative systems; any number of rooms with radiative systems whose heat reaches no surface of another room within the step; any house without air between rooms where one room has a demand. In general it is false: C21_violated is a well-formed house with panels on both sides of one partition whose calculation stops in the first step, C21_one_radiant_violated one with a floor-heated room next to an air-conditioned room behind light partitions."
  },
  {
   "property": "C22",
   "status": "partial",
   "theorems": [
    "HLC.C22_equilibrium_partial",
    "HLC.C22_forever_partial",
    "HLC.C22_violated"
   ],
   "note": "Proved without inter-room air flow; with inter-room air flow it is proved to fail on every well-formed house."
  },
  {
   "property": "C23",
   "status": "proved",
   "theorems": [
    "HLC.C23_natural_ventilation",
    "HLC.C23_program"
   ],
   "note": ""
  },
  {
   "property": "C24",
   "status": "proved",
   "theorems": [
    "HLC.C24_convolution",
    "HLC.C24_rear_temperature",
    "HLC.C24_rear_from_previous_step"
   ],
   "note": ""
  },
  {
   "property": "C25",
   "status": "proved",
   "theorems": [
    "HLC.C25_parameters",
    "HLC.C25_ground_wall",
    "HLC.C25_rest"
   ],
   "note": ""
  },
  {
   "property": "C26",
   "status": "proved",
   "theorems": [
    "HLC.C26_hand_over",
    "HLC.C26_wrong_number"
   ],
   "note": ""
  },
  {
   "property": "C27",
   "status": "proved",
   "theorems": [
    "HLC.C27_steps",
    "HLC.C27_value_error"
   ],
   "note": ""
  },
  {
   "property": "C28",
   "status": "proved",
   "theorems": [
    "HLC.C28_reads_one_record",
    "HLC.C28_records",
    "HLC.C28_run_up_too_long"
   ],
   "note": ""
  },
  {
   "property": "C29",
   "status": "proved",
   "theorems": [
    "HLC.C29_logged",
    "HLC.C29_main_step",
    "HLC.C29_run_up_untouched"
   ],
   "note": ""
  },
  {
   "property": "C30",
   "status": "partial",
   "theorems": [
    "HLC.C30_causal_partial",
    "HLC.C30_violated"
   ],
   "note": "Causality is proved given the ground hand-over; the ground run-up starts from the mean outdoor temperature of the whole year, so with a ground boundary an earlier result depends on later weather: a concrete witness is proved."
  },
  {
   "property": "C31",
   "status": "proved",
   "theorems": [
    "HLC.C31_weights",
    "HLC.C31_between",
    "HLC.C31_logged_between"
   ],
   "note": ""
  },
  {
   "property": "C32",
   "status": "proved",
   "theorems": [
    "HLC.C32_radiant_exchange",
    "HLC.C32_direction"
   ],
   "note": ""
  },
  {
   "property": "C33",
   "status": "proved",
   "theorems": [
    "HLC.C33_root",
    "HLC.C33_factors",
    "HLC.C33_coefficients"
   ],
   "note": "The root finder (scipy fsolve) is a parameter: a unique root is proved to exist, and the coefficients are proved for any solver that returns it."
  },
  {
   "property": "C34",
   "status": "partial",
   "theorems": [
    "HLC.C34_own_coefficient_partial",
    "HLC.C34_violated"
   ],
   "note": "Proved when the boundaries are listed room by room; proved to fail on a house whose boundaries of two rooms alternate, for every correct root finder."
  },
  {
   "property": "C35",
   "status": "proved",
   "theorems": [
    "HLC.C35_solar_distributed",
    "HLC.C35_same_flux"
   ],
   "note": ""
  },
  {
   "property": "C36",
   "status": "proved",
   "theorems": [
    "HLC.C36_formula",
    "HLC.C36_keyError",
    "HLC.C36_physical",
    "HLC.C36_monotone",
    "HLC.C36_estimated",
    "HLC.C36_logged_nonneg"
   ],
   "note": ""
  },
  {
   "property": "C37",
   "status": "proved",
   "theorems": [
    "HLC.C37_occupant",
    "HLC.C37_logged",
    "HLC.C37_program",
    "HLC.C37_sensible_negative"
   ],
   "note": ""
  },
  {
   "property": "C38",
   "status": "proved",
   "theorems": [
    "HLC.C38_values",
    "HLC.C38_spec_ordered",
    "HLC.C38_heating",
    "HLC.C38_monotone",
    "HLC.C38_fan_positive",
    "HLC.C38_admissible"
   ],
   "note": ""
  },
  {
   "property": "C39",
   "status": "proved",
   "theorems": [
    "HLC.C39_steady_state",
    "HLC.C39_gain",
    "HLC.C39_steady_factory"
   ],
   "note": ""
  },
  {
   "property": "C40",
   "status": "proved",
   "theorems": [
    "HLC.C40_reciprocal",
    "HLC.C40_composition",
    "HLC.C40_bounds",
    "HLC.C40_limit"
   ],
   "note": ""
  },
  {
   "property": "C41",
   "status": "partial",
   "theorems": [
    "HLC.C41_width",
    "HLC.C41_width_violated",
    "HLC.C41_repeat_partial",
    "HLC.C41_repeat_violated",
    "HLC.C41_create"
   ],
   "note": "Width proved for every computed response factor, repeatability for given and steady ones; proved to fail for given factors of another length and for every second call on a layered part."
  },
  {
   "property": "C42",
   "status": "proved",
   "theorems": [
    "HLC.Init.C42_residents",
    "HLC.Init.C42_interpolation",
    "HLC.Init.C42_rejected",
    "HLC.Init.C42_total"
   ],
   "note": ""
  },
  {
   "property": "C43",
   "status": "proved",
   "theorems": [
    "HLC.Weather.C43_interpolation",
    "HLC.Weather.C43_rejected",
    "HLC.Weather.C43_marks_and_bounds",
    "HLC.Weather.C43_mean",
    "HLC.Weather.C43_load"
   ],
   "note": ""
  },
  {
   "property": "C44",
   "status": "proved",
   "theorems": [
    "HLC.Weather.C44_altitude",
    "HLC.Weather.C44_declination",
    "HLC.Weather.C44_azimuth",
    "HLC.Weather.C44_hour_angle",
    "HLC.Weather.C44_seasons",
    "HLC.Weather.C44_year",
    "HLC.Weather.C44_noon"
   ],
   "note": ""
  },
  {
   "property": "C45",
   "status": "partial",
   "theorems": [
    "HLC.Init.C45_incidence",
    "HLC.Init.C45_directions",
    "HLC.Init.C45_irradiance",
    "HLC.Init.C45_no_direct",
    "HLC.Init.C45_violated"
   ],
   "note": "Everything except 'zero when the sun is below the horizon': proved for surfaces facing away and for horizontal surfaces, proved to fail for a vertical wall facing a sun below the horizon."
  },
  {
   "property": "C46",
   "status": "proved",
   "theorems": [
    "HLC.Init.C46_opaque",
    "HLC.Init.C46_no_radiation",
    "HLC.Init.C46_monotone",
    "HLC.Init.C46_kinds",
    "HLC.Init.C46_selection"
   ],
   "note": ""
  },
  {
   "property": "C47",
   "status": "partial",
   "theorems": [
    "HLC.Init.C47_overhang",
    "HLC.Init.C47_fractions",
    "HLC.Init.C47_transmitted",
    "HLC.Init.C47_formula",
    "HLC.Init.C47_selection",
    "HLC.Init.C47_window",
    "HLC.Init.C47_no_gain",
    "HLC.Init.C47_violated"
   ],
   "note": "Shaded fractions equal the geometric shadow; transmitted radiation bounded. Proved to fail: a window declared without shading lets no direct radiation in."
  },
  {
   "property": "C48",
   "status": "partial",
   "theorems": [
    "HLC.Init.C48_range_partial",
    "HLC.Init.C48_end_points",
    "HLC.Init.C48_selection",
    "HLC.Init.C48_violated"
   ],
   "note": "The curves are within [0,1.002] and [0,1.007]; proved that the single-pane curve exceeds 1 and is 0.999 at normal incidence."
  },
  {
   "property": "C49",
   "status": "partial",
   "theorems": [
    "HLC.Init.C49_groups_partial",
    "HLC.Init.C49_input",
    "HLC.Init.C49_totals",
    "HLC.Init.C49_violated",
    "HLC.Init.C49_integrate_violated"
   ],
   "note": "Members of one group agree exactly in the discrete data and to 2e-5 in the real coefficients; proved that two members need not be mergeable with each other because closeness is not transitive, and that `integrate` itself returns for no non-empty list (it reads an attribute that parts do not have; its calls are commented out)."
  },
  {
   "property": "C50",
   "status": "partial",
   "theorems": [
    "HLC.Init.C50_weights_partial",
    "HLC.Init.C50_violated"
   ],
   "note": "The weights sum to one up to 0.05 and exactly for coefficients that are multiples of 0.1; proved to fail for 0.05 and 0.15 and for ground parts."
  },
  {
   "property": "C51",
   "status": "partial",
   "theorems": [
    "HLC.Init.C51_accepted_iff_partial",
    "HLC.Init.C51_violated"
   ],
   "note": "Acceptance is characterised exactly; proved that a negative room number is accepted for inter-room ventilation."
  },
  {
   "property": "C52",
   "status": "proved",
   "theorems": [
    "HLC.Init.C52_matrix",
    "HLC.Init.C52_spaces"
   ],
   "note": ""
  },
  {
   "property": "C53",
   "status": "partial",
   "theorems": [
    "HLC.Init.C53_view_factors_partial",
    "HLC.Init.C53_heating_shares_partial",
    "HLC.Init.C53_violated"
   ],
   "note": "Proved for every room with a floor and another part; proved to fail for rooms without a floor."
  },
  {
   "property": "C54",
   "status": "proved",
   "theorems": [
    "HLC.C54_saturation_positive",
    "HLC.C54_saturation_increasing",
    "HLC.C54_humidity_ratio",
    "HLC.C54_round_trip",
    "HLC.C54_vapour_pressure",
    "HLC.C54_relative_humidity",
    "HLC.C54_derivative"
   ],
   "note": ""
  },
  {
   "property": "C55",
   "status": "proved",
   "theorems": [
    "HLC.C55_ppd"
   ],
   "note": ""
  },
  {
   "property": "C56",
   "status": "proved",
   "theorems": [
    "HLC.C56_spaces",
    "HLC.C56_names",
    "HLC.C56_cooling",
    "HLC.C56_heating",
    "HLC.C56_rejected",
    "HLC.C56_numbers"
   ],
   "note": ""
  },
  {
   "property": "C57",
   "status": "proved",
   "theorems": [
    "HLC.C57_odd",
    "HLC.C57_rounds",
    "HLC.C57_unique",
    "HLC.C57_half_unit",
    "HLC.C57_monotone",
    "HLC.C57_exact",
    "HLC.C57_idempotent"
   ],
   "note": ""
  },
  {
   "property": "C58",
   "status": "proved",
   "theorems": [
    "HLC.C58_scales",
    "HLC.C58_unique",
    "HLC.C58_maxima",
    "HLC.C58_standard",
    "HLC.C58_region8",
    "HLC.C58_bare",
    "HLC.C58_zones"
   ],
   "note": ""
  },
  {
   "property": "C59",
   "status": "partial",
   "theorems": [
    "HLC.C59_parts_partial",
    "HLC.C59_detached_partial",
    "HLC.C59_attached_violated",
    "HLC.C59_region8_violated",
    "HLC.C59_values",
    "HLC.C59_both_seasons",
    "HLC.C59_form"
   ],
   "note": "Regions 1 to 7; the whole conversion for detached houses of 20 to 4000 m2 (smaller ones get windows of negative area, larger ones walls of negative area). Proved that no detached house is converted in region 8 and no attached house anywhere."
  },
  {
   "property": "C60",
   "status": "partial",
   "theorems": [
    "HLC.C60_indices_partial",
    "HLC.C60_parts_partial",
    "HLC.C60_defined",
    "HLC.C60_nonneg",
    "HLC.C60_violated",
    "HLC.C60_bridges",
    "HLC.C60_bridge_gains"
   ],
   "note": "Proved for every envelope without detailed sunshades on opaque parts; such a sunshade makes the converted envelope unreadable (C60_violated, see C63). The checker does not evaluate heat bridges."
  },
  {
   "property": "C61",
   "status": "proved",
   "theorems": [
    "HLC.C61_floors_positive",
    "HLC.C61_walls_positive",
    "HLC.C61_floors_sum",
    "HLC.C61_walls_sum",
    "HLC.C61_walls_two",
    "HLC.C61_defined",
    "HLC.C61_program"
   ],
   "note": ""
  },
  {
   "property": "C62",
   "status": "partial",
   "theorems": [
    "HLC.C62_layers",
    "HLC.C62_uvalue",
    "HLC.C62_uvalue_partial",
    "HLC.C62_defined",
    "HLC.C62_violated"
   ],
   "note": "Layered parts are exported with exactly their U value. A part given by a U value keeps it when it is at most that of the default construction without insulation; above that the export silently has a smaller U value (C62_violated: the region 8 standard wall)."
  },
  {
   "property": "C63",
   "status": "partial",
   "theorems": [
    "HLC.C63_general_part_partial",
    "HLC.C63_door_partial",
    "HLC.C63_window",
    "HLC.C63_earthfloor_perimeter",
    "HLC.C63_earthfloor_center",
    "HLC.C63_heat_bridge",
    "HLC.C63_inner_floor",
    "HLC.C63_inner_wall",
    "HLC.C63_violated"
   ],
   "note": "General parts and doors with a detailed sunshade cannot be read back (C63_violated); all other parts can."
  },
  {
   "property": "C64",
   "status": "proved",
   "theorems": [
    "HLC.C64_house",
    "HLC.C64_attached_exact",
    "HLC.C64_detached_exact",
    "HLC.C64_faces",
    "HLC.C64_report"
   ],
   "note": "A required envelope smaller than that of a square house is not met; the program then silently produces a larger house (stated in C64_house)."
  },
  {
   "property": "C65",
   "status": "proved",
   "theorems": [
    "HLC.C65_defined",
    "HLC.C65_range",
    "HLC.C65_default",
    "HLC.C65_monotone"
   ],
   "note": "Simple sunshades; the program raises NotImplementedError for detailed ones."
  },
  {
   "property": "C66",
   "status": "proved",
   "theorems": [
    "HLC.C66_balance",
    "HLC.C66_rooms"
   ],
   "note": ""
  },
  {
   "property": "C67",
   "status": "proved",
   "theorems": [
    "HLC.C67_sampled_response",
    "HLC.C67_long_series"
   ],
   "note": ""
  },
  {
   "property": "C68",
   "status": "proved",
   "theorems": [
    "HLC.C68_total",
    "HLC.C68_points",
    "HLC.C67_sampled_response"
   ],
   "note": ""
  },
  {
   "property": "C69",
   "status": "proved",
   "theorems": [
    "HLC.C69_clothing_unique",
    "HLC.C69_monotone",
    "HLC.C69_returned",
    "HLC.C69_program"
   ],
   "note": ""
  },
  {
   "property": "C70",
   "status": "proved",
   "theorems": [
    "HLC.Weather.C70_table"
   ],
   "note": ""
  },
  {
   "property": "C71",
   "status": "partial",
   "theorems": [
    "HLC.Init.C71_compiled_partial",
    "HLC.Init.C71_violated",
    "HLC.Init.C71_shipped_violated"
   ],
   "note": "All quantities except the cooking terms; proved that cooking heat and cooking vapour are exchanged. With the schedule file of the project less than 0.3 of the cooking heat is counted and at least 3.4 times the vapour, at all times and for all household sizes (C71_shipped_violated)."
  },
  {
   "property": "C72",
   "status": "partial",
   "theorems": [
    "HLC.Init.C72_read_back_partial",
    "HLC.Init.C72_written",
    "HLC.Init.C72_test_house",
    "HLC.Init.C72_violated",
    "HLC.Init.C72_violated_example"
   ],
   "note": "Proved for inputs with an air conditioner in every room; proved that a house with a room that is not cooled, or cooled by a radiant system, is accepted by the initializer and cannot be read by the calculation."
  },
  {
   "property": "C73",
   "status": "partial",
   "theorems": [
    "HLC.Init.C73_file_partial",
    "HLC.Init.C73_violated"
   ],
   "note": "The file contains the annual mean; proved that the calculation multiplies it by zero, so that 0 degC is used behind every ground part."
  },
  {
   "property": "C74",
   "status": "proved",
   "theorems": [
    "HLC.Init.C74_records"
   ],
   "note": ""
  },
  {
   "property": "C75",
   "status": "proved",
   "theorems": [
    "HLC.Init.C75_wellformed"
   ],
   "note": "For layered parts the sign and range of the first terms of the response factors are hypotheses, because the fitted factors are arbitrary; parts given by a U value need no hypothesis."
  },
  {
   "property": "C76",
   "status": "partial",
   "theorems": [
    "HLC.Init.C76_chain_completes_partial",
    "HLC.Init.C76_one_room_partial",
    "HLC.Init.C76_own_panels_partial",
    "HLC.Init.C76_one_in_charge_partial",
    "HLC.Init.C76_shipped_partial"
   ],
   "note": "Any number of rooms without radiant heating (C76_shipped_partial: with the schedule file of the project the hypotheses on the schedules are met); one room with any heating equipment; radiant heating in any number of rooms without partitions that respond on the far side within a step; any equipment and partitions where only one room asks for heating or cooling and no air flows between rooms. Several radiant or conditioned rooms behind light partitions are open (the calculation itself can stop there, C21_violated and C21_one_radiant_violated)."
  },
  {
   "property": "C77",
   "status": "partial",
   "theorems": [
    "HLC.C77_violated"
   ],
   "note": "The property fails for every house: the inflows name the rooms 'main' and 'other', which are not in the exported list."
  },
  {
   "property": "C78",
   "status": "partial",
   "theorems": [
    "HLC.C78_violated",
    "HLC.C78_name_error",
    "HLC.C78_underfloor"
   ],
   "note": "The property fails for every house: the function reads an undefined name."
  },
  {
   "property": "C79",
   "status": "proved",
   "theorems": [
    "HLC.C79_table",
    "HLC.C79_columns",
    "HLC.C79_returns",
    "HLC.C79_no_day_violated",
    "HLC.C79_order"
   ],
   "note": "C79_returns: calc returns exactly if all steps complete, there is a room and a step to report, and no room reaches absolute zero. A main period of zero days raises an exception after all steps have been computed (C79_no_day_violated)."
  },
  {
   "property": "C80",
   "status": "partial",
   "theorems": [
    "HLC.C80_units_partial",
    "HLC.C80_violated"
   ],
   "note": "The columns satisfy these balances when the total heat is read in W/m2 and the latent heat of people in kg/s (C80_units_partial); as documented, in W, they do not (C80_violated)."
  },
  {
   "property": "C81",
   "status": "partial",
   "theorems": [
    "HLC.C81_digest_partial",
    "HLC.C81_loads_violated",
    "HLC.C81_steps_violated"
   ],
   "note": "Holds for temperatures, humidities and modes with four steps per hour. Loads are sums of the four powers, not means (C81_loads_violated). With fewer than four steps per hour the later hours are empty (C81_steps_violated)."
  },
  {
   "property": "C82",
   "status": "partial",
   "theorems": [
    "HLC.C82_number_partial",
    "HLC.C82_violated"
   ],
   "note": "The number counts the parts of the room; it is the number in the input exactly when all earlier parts are in the same room."
  },
  {
   "property": "C83",
   "status": "partial",
   "theorems": [
    "HLC.C83_program_partial",
    "HLC.C83_order_partial",
    "HLC.C83_violated"
   ],
   "note": "Holds whenever the parts of every room stand together in both lists (C83_program_partial), and for any order once the radiative coefficients move along with the parts (C83_order_partial). With alternating parts the order changes the results (C83_violated), because of C34."
  },
  {
   "property": "C84",
   "status": "partial",
   "theorems": [
    "HLC.C84_general_partial",
    "HLC.C84_door_partial",
    "HLC.C84_window_partial",
    "HLC.C84_violated",
    "HLC.C84_lengths",
    "HLC.C84_length_missing",
    "HLC.C84_glass_violated",
    "HLC.C84_layers"
   ],
   "note": "No exported part can be read, since entries are missing (C84_violated). Once they are added, walls, roofs, floors and doors without detailed sunshade and windows with an overhang, with none, or out of the sun are read as they are; sunlit windows that are not single-glazed, and unspecified or detailed sunshades are rejected (C84_glass_violated, last clauses of the partial theorems)."
  },
  {
   "property": "C85",
   "status": "partial",
   "theorems": [
    "HLC.C85_heat_partial",
    "HLC.C85_heat_exact",
    "HLC.C85_heat_iff",
    "HLC.C85_moisture_partial",
    "HLC.C85_moisture_exact",
    "HLC.C85_moisture_violated"
   ],
   "note": "Holds for rooms without inflow from other rooms. With inflow the exact amount that is missing is proved, when the heat balance closes nevertheless, and that the moisture balance fails over every period."
  },
  {
   "property": "C86",
   "status": "partial",
   "theorems": [
    "HLC.C86_floor_partial",
    "HLC.C86_range_partial",
    "HLC.C86_storing_partial",
    "HLC.C86_storing_floor_partial",
    "HLC.C86_storing_example",
    "HLC.C86_inflow_violated",
    "HLC.C86_cold_start_violated",
    "HLC.C86_air_violated"
   ],
   "note": "Holds in houses of parts without storage (windows, doors, parts given by U values), off the ground and without air flow between rooms. Air between rooms breaks it (sign error, see C22), to the point that 1 W makes two rooms that exchange air differ by 10^26 degrees after a day (C86_air_violated), and so do parts with storage, since they start at 0 degC while the rooms start at 15 degC. With this 0 degC counted among the temperatures of the start, the range is kept by tight houses with outer parts that store heat, take it up evenly and let warmth through (C86_storing_partial, C86_storing_floor_partial; C86_storing_example is a day of a house with a storing floor slab). Missing: storing partitions, light layers, leakage and the ground for houses that store heat."
  },
  {
   "property": "C87",
   "status": "partial",
   "theorems": [
    "HLC.C87_superposition_partial",
    "HLC.C87_as_coded",
    "HLC.C87_violated"
   ],
   "note": "Holds for parts not exposed to outdoors or with constant outdoor temperature behind them, if the partner has the same coefficients (see C17). For parts exposed to changing outdoor temperatures it fails: past outdoor temperatures are taken one step too early (the TODO in run_tick), by the amount stated in C87_as_coded."
  },
  {
   "property": "C88",
   "status": "proved",
   "theorems": [
    "HLC.C88_coefficients",
    "HLC.C88_pmv",
    "HLC.C88_agree",
    "HLC.C88_warmer",
    "HLC.C88_clothing",
    "HLC.C88_no_conflict",
    "HLC.C88_target",
    "HLC.C88_constant",
    "HLC.C88_other"
   ],
   "note": "The root finder is a parameter; what is assumed of it is FindsRoots (Spec/Comfort.lean). The order of clothings is proved for rooms above -100 degC."
  },
  {
   "property": "C89",
   "status": "partial",
   "theorems": [
    "HLC.C89_put_together_partial",
    "HLC.C89_cut_partial",
    "HLC.C89_flows_partial",
    "HLC.C89_coefficients_violated",
    "HLC.C89_violated"
   ],
   "note": "Holds if the pieces are given the radiative coefficient of their part. The program never does: a cut part changes some coefficient of its room (C89_coefficients_violated) and with it the results (C89_violated)."
  },
  {
   "property": "C90",
   "status": "partial",
   "theorems": [
    "HLC.C90_doors",
    "HLC.C90_perimeters",
    "HLC.C90_earthfloors",
    "HLC.C90_inner_walls",
    "HLC.C90_names",
    "HLC.C90_inner_names",
    "HLC.C90_totals_partial",
    "HLC.C90_equipments",
    "HLC.C90_lost_violated",
    "HLC.C90_doubled_violated",
    "HLC.C90_keys_violated"
   ],
   "note": "Totals are kept when there is one room of each type and each part names one of them; otherwise parts are lost or doubled without a message. The functions expect other keys than the earlier stages of the converter write, so the converter's own parts end in a KeyError."
  },
  {
   "property": "C91",
   "status": "partial",
   "theorems": [
    "HLC.C91_single",
    "HLC.C91_double",
    "HLC.C91_shades",
    "HLC.C91_entered_violated",
    "HLC.C91_kind_violated"
   ],
   "note": "Holds for windows described by frame, glass and shade. Two windows with entered coefficients can get more than 1; another kind of window ends in an UnboundLocalError."
  },
  {
   "property": "C92",
   "status": "partial",
   "theorems": [
    "HLC.C92_inside",
    "HLC.C92_accepted",
    "HLC.C92_outside_partial",
    "HLC.C92_outside_violated",
    "HLC.C92_boundary",
    "HLC.C92_boundary_total",
    "HLC.C92_open_space_violated"
   ],
   "note": "The resistances on the room side, the angles and the temperature difference factors agree. The far-side resistances differ for roofs and walls not outdoors and for floors outdoors; spaces open to the outside air cannot be named at level 4."
  },
  {
   "property": "C93",
   "status": "partial",
   "theorems": [
    "HLC.C93_part_exact",
    "HLC.C93_part_partial",
    "HLC.C93_room_partial"
   ],
   "note": "Holds for rooms without air from other rooms (C14) and parts whose other side has the same coefficients and area (C17). For other parts the exact deviation is proved (C93_part_exact)."
  },
  {
   "property": "C94",
   "status": "partial",
   "theorems": [
    "HLC.C94_partition_exact",
    "HLC.C94_partition_partial",
    "HLC.C94_partition_iff",
    "HLC.C94_violated"
   ],
   "note": "Holds for partitions whose two sides are entered with the same resistance. Nothing checks that: with different resistances 80 W leave one room and 40 W arrive in the next (C94_violated)."
  },
  {
   "property": "C95",
   "status": "partial",
   "theorems": [
    "HLC.C95_standstill_partial",
    "HLC.C95_stays_partial",
    "HLC.C95_kept_partial",
    "HLC.C95_found_partial"
   ],
   "note": "Without air between rooms and with equal sides of partitions. The second half is proved without demand (C95_stays_partial), with given radiant loads (C95_kept_partial) and with convective and radiant loads that the step has to find (C95_found_partial), as long as no radiant load is cut at its capacity."
  },
  {
   "property": "C96",
   "status": "partial",
   "theorems": [
    "HLC.C96_exact",
    "HLC.C96_iff",
    "HLC.C96_heat_partial",
    "HLC.C96_bounds",
    "HLC.C96_layers",
    "HLC.C96_areas_violated",
    "HLC.C96_violated"
   ],
   "note": "Holds exactly if the inner surface resistance entered is that of the film the calculation derives from the shape of the room (C96_iff). Two parts of different size in a room cannot both have theirs if entered with the same resistance (C96_areas_violated); the exact deviation and its bounds are proved. C96_heat_partial gives the heat over a closed period for every part entered by its U value whose inner resistance is that of the film, also for parts behind which the temperature is mixed from outdoors and room (there the share of the room is rounded to 0.1)."
  },
  {
   "property": "C97",
   "status": "partial",
   "theorems": [
    "HLC.C97_records_partial",
    "HLC.C97_records_violated",
    "HLC.C97_more_violated",
    "HLC.C97_memory_iff"
   ],
   "note": "Holds exactly for the default of four steps per hour. With any other number every row but the first uses the data of another time (with more steps the year does not complete) and the parts forget too fast or too slowly, since files and response factors are made for 15 minutes and the argument is not checked."
  },
  {
   "property": "C98",
   "status": "partial",
   "theorems": [
    "HLC.C98_scale_partial",
    "HLC.C98_program_partial",
    "HLC.C98_violated",
    "HLC.C98_program_violated"
   ],
   "note": "Holds for non-negative capacities as long as no room is cooled with a load between 0.001 W and 0.001 W / s: the air conditioner dehumidifies above 0.001 W whatever its size. C98_program_violated is a whole calculation that is not to scale for this reason, C98_violated a single step with two rooms."
  },
  {
   "property": "C99",
   "status": "partial",
   "theorems": [
    "HLC.C99_flat_partial",
    "HLC.C99_program_partial",
    "HLC.C99_neighbours_partial",
    "HLC.C99_violated"
   ],
   "note": "Holds for a building without leakage (C value 0), for the program with parts listed room by room: if the building completes, the flat alone completes and has the same rows. With leakage it is false: infiltration of every room follows the mean temperature of all rooms (C99_violated)."
  }
 ]
}
